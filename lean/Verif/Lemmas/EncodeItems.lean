import Verif.Lemmas.EncodeReads
/-! # The entries of a successful encode -/

namespace Iso8583

/-! ## Numeric keys -/

theorem numericKeys_ok {env : PyEnv} {all : List Key} : ∀ {ks : List Key} {ns : List Int},
    numericKeys env all ks = .ok ns →
      (∀ k ∈ ks, ∃ t, k = .str t) ∧
      (∀ t, .str t ∈ ks → isNumeric env t = true → ∃ x ∈ ns, pyInt env t = some x) ∧
      (∀ x ∈ ns, ∃ t, .str t ∈ ks ∧ isNumeric env t = true ∧ pyInt env t = some x)
  | [], ns, h => by simp only [numericKeys, Except.ok.injEq] at h; subst h; simp
  | .obj _ :: _, ns, h => by simp [numericKeys] at h
  | .str k :: ks, ns, h => by
    rw [numericKeys] at h
    by_cases hn : isNumeric env k = true
    · rw [if_pos hn] at h
      cases hp : pyInt env k with
      | none => simp [hp] at h
      | some n =>
        rw [hp] at h
        dsimp only at h
        cases hr : numericKeys env all ks with
        | error e => simp [hr] at h
        | ok ns' =>
          simp only [hr, Except.ok.injEq] at h
          subst h
          obtain ⟨h1, h2, h3⟩ := numericKeys_ok hr
          refine ⟨?_, ?_, ?_⟩
          · intro x hx
            rcases List.mem_cons.1 hx with rfl | hx
            · exact ⟨k, rfl⟩
            · exact h1 x hx
          · intro t ht hnt
            rcases List.mem_cons.1 ht with ht | ht
            · cases ht; exact ⟨n, by simp, hp⟩
            · obtain ⟨x, hx, hpx⟩ := h2 t ht hnt
              exact ⟨x, by simp [hx], hpx⟩
          · intro x hx
            rcases List.mem_cons.1 hx with rfl | hx
            · exact ⟨k, by simp, hn, hp⟩
            · obtain ⟨t, ht, hnt⟩ := h3 x hx
              exact ⟨t, by simp [ht], hnt⟩
    · rw [if_neg hn] at h
      obtain ⟨h1, h2, h3⟩ := numericKeys_ok h
      refine ⟨?_, ?_, ?_⟩
      · intro x hx
        rcases List.mem_cons.1 hx with rfl | hx
        · exact ⟨k, rfl⟩
        · exact h1 x hx
      · intro t ht hnt
        rcases List.mem_cons.1 ht with ht | ht
        · cases ht; exact absurd hnt hn
        · exact h2 t ht hnt
      · intro x hx
        obtain ⟨t, ht, hnt⟩ := h3 x hx
        exact ⟨t, by simp [ht], hnt⟩

/-! ## Items -/

theorem HeaderWrites.keys {env : PyEnv} {spec : Spec} {g : Str → Option Val} {hdr : List Item}
    (h : HeaderWrites env spec g hdr) :
    (hasHeader spec ∧ keysOf hdr = [py"h"]) ∨ (¬ hasHeader spec ∧ keysOf hdr = []) := by
  obtain ⟨fs, hs, h⟩ := h
  split at h
  · next hm =>
    right
    subst h
    refine ⟨?_, rfl⟩
    rintro ⟨fs', hs', hp⟩
    rw [hs] at hs'; cases hs'; omega
  · next hm =>
    left
    obtain ⟨v, n, it, rfl, hk, _⟩ := h
    exact ⟨⟨fs, hs, by omega⟩, by simp [hk]⟩

theorem BitmapsWrite.keys {env : PyEnv} {spec : Spec} {F : List Nat} {bms : List Item} (h : BitmapsWrite env spec F bms) :
    (1 ∉ f2Of F ∧ keysOf bms = [py"p"]) ∨ (1 ∈ f2Of F ∧ keysOf bms = [py"p", py"1"]) := by
  cases h with
  | primary _ _ h1 => exact .inl ⟨h1, rfl⟩
  | secondary _ _ h1 => exact .inr ⟨h1, rfl⟩
  | tertiary _ _ h1 => exact .inr ⟨h1, rfl⟩

theorem FieldsWrite.keys {env : PyEnv} {spec : Spec} {g : Str → Option Val} {is : List Nat} {flds : List Item}
    (h : FieldsWrite env spec g is flds) : keysOf flds = is.map natStr := by
  induction h with
  | nil => rfl
  | cons _ _ hk _ _ _ ih => simp [hk, ih]

theorem MsgWrites.keys {env : PyEnv} {spec : Spec} {g : Str → Option Val} {F : List Nat} {items bms : List Item}
    (h : MsgWrites env spec g F items bms) :
    ∃ H B, ((hasHeader spec ∧ H = [py"h"]) ∨ (¬ hasHeader spec ∧ H = [])) ∧
      ((1 ∉ f2Of F ∧ B = [py"p"]) ∨ (1 ∈ f2Of F ∧ B = [py"p", py"1"])) ∧ keysOf bms = B ∧
      keysOf items = H ++ [py"t"] ++ B ++ (sortedNat (restOf F)).map natStr := by
  obtain ⟨hdr, ty, flds, rfl, hh, ht, hb, hf⟩ := h.parts
  obtain ⟨fs, v, hs, _, hk, _⟩ := ht
  exact ⟨keysOf hdr, keysOf bms, hh.keys, hb.keys, rfl, by simp [hf.keys, hk]⟩

theorem MsgWrites.nodup {env : PyEnv} {spec : Spec} {g : Str → Option Val} {F : List Nat} {items bms : List Item}
    (h : MsgWrites env spec g F items bms) (hF : F.Nodup) : (keysOf items).Nodup := by
  obtain ⟨H, B, hH, hB, _, hk⟩ := h.keys
  rw [hk]
  have := nodup_msg_keys (K := H) (B := B) (F := sortedNat (restOf F)) (by rcases hH with ⟨_, h⟩ | ⟨_, h⟩ <;> simp [h])
    (by rcases hB with ⟨_, h⟩ | ⟨_, h⟩ <;> simp [h]) (sortedNat_nodup (restOf_nodup hF)) (by simp [mem_restOf])
  simpa using this

/-- Every item of a message is one of these. -/
inductive ItemWrites (env : PyEnv) (spec : Spec) (g : Str → Option Val) (bms : List Item) : Item → Prop
  | field {it : Item} {fs : FieldSpec} {v : Val} {n : Nat} : spec.get? it.key = some fs → it.key ≠ py"t" → it.key ≠ py"p" →
      it.key ≠ py"1" → it.key ≠ py"65" → g it.key = some v → FieldWrites env fs v n it.len it.data → it.val = readBack fs v →
      ItemWrites env spec g bms it
  | type {it : Item} : TypeWrites env spec g it → ItemWrites env spec g bms it
  | bitmap {it : Item} : it ∈ bms → ItemWrites env spec g bms it

theorem FieldsWrite.items {env : PyEnv} {spec : Spec} {g : Str → Option Val} {is : List Nat} {flds bms : List Item}
    (h : FieldsWrite env spec g is flds) (h1 : 1 ∉ is) (h65 : 65 ∉ is) : ∀ it ∈ flds, ItemWrites env spec g bms it := by
  induction h with
  | nil => simp
  | cons hs hg hk hw hv _ ih =>
    simp only [List.mem_cons, not_or] at h1 h65
    intro x hx
    rcases List.mem_cons.1 hx with rfl | hx
    · exact .field (by rw [hk]; exact hs) (by rw [hk]; exact natStr_ne_letter (by decide))
        (by rw [hk]; exact natStr_ne_letter (by decide)) (by rw [hk]; exact natStr_ne_one (Ne.symm h1.1))
        (by rw [hk]; intro e; exact h65.1 (natStr_inj.1 (e.trans (show py"65" = natStr 65 from rfl))).symm)
        (by rw [hk]; exact hg) hw hv
    · exact ih h1.2 h65.2 x hx

theorem MsgWrites.items {env : PyEnv} {spec : Spec} {g : Str → Option Val} {F : List Nat} {items bms : List Item}
    (h : MsgWrites env spec g F items bms) : ∀ it ∈ items, ItemWrites env spec g bms it := by
  obtain ⟨hdr, ty, flds, rfl, hh, ht, hb, hf⟩ := h.parts
  intro x hx
  simp only [List.append_assoc, List.cons_append, List.mem_append, List.mem_cons] at hx
  rcases hx with hx | rfl | hx | hx
  · obtain ⟨fs, hs, hh⟩ := hh
    split at hh
    · subst hh; simp at hx
    · obtain ⟨v, n, it, rfl, hk, hg, hw, hv⟩ := hh
      simp only [List.mem_singleton] at hx
      subst hx
      exact .field (by rw [hk]; exact hs) (by rw [hk]; decide) (by rw [hk]; decide) (by rw [hk]; decide)
        (by rw [hk]; decide) (by rw [hk]; exact hg) hw hv
  · exact .type ht
  · exact .bitmap hx
  · exact hf.items (by simp [mem_restOf]) (by simp [mem_restOf]) x hx

/-! ## The caller's dict -/

theorem mem_keys_cleaned {doc : Doc} (nd : doc.NoDup) {k : Key} :
    k ∈ (cleaned doc).keys ↔ k ∈ doc.keys ∧ k ≠ .str py"1" ∧ k ≠ .str py"65" := by
  unfold cleaned
  rw [Dict.mem_keys_pop (nd.pop _), Dict.mem_keys_pop nd]
  constructor
  · rintro ⟨h1, h2, h3⟩; exact ⟨h3, h2, h1⟩
  · rintro ⟨h1, h2, h3⟩; exact ⟨h3, h2, h1⟩

theorem applySets_get?_mem {sets : List (Str × Str)} (nd : (sets.map Prod.fst).Nodup) {k t : Str} (h : (k, t) ∈ sets) :
    ∀ doc : Doc, (applySets doc sets).get? (.str k) = some (.str t) := by
  induction sets with
  | nil => simp at h
  | cons kv rest ih =>
    intro doc
    simp only [List.map_cons, List.nodup_cons] at nd
    have hcons : applySets doc (kv :: rest) = applySets (doc.set (.str kv.1) (.str kv.2)) rest := rfl
    rw [hcons]
    rcases List.mem_cons.1 h with rfl | h
    · rw [applySets_get? (by
        intro kv' hkv' e
        exact nd.1 (List.mem_map.2 ⟨kv', hkv', e⟩))]
      simp
    · exact ih nd.2 h _

theorem mem_keys_applySets {sets : List (Str × Str)} {k : Key} : ∀ {doc : Doc},
    k ∈ (applySets doc sets).keys ↔ k ∈ doc.keys ∨ ∃ kv ∈ sets, k = .str kv.1 := by
  induction sets with
  | nil => intro doc; simp [applySets]
  | cons kv rest ih =>
    intro doc
    have hcons : applySets doc (kv :: rest) = applySets (doc.set (.str kv.1) (.str kv.2)) rest := rfl
    rw [hcons, ih, Dict.mem_keys_set]
    simp only [List.mem_cons, exists_eq_or_imp]
    constructor
    · rintro ((h | h) | h)
      · exact .inr (.inl h)
      · exact .inl h
      · exact .inr (.inr h)
    · rintro (h | h | h)
      · exact .inl (.inr h)
      · exact .inl (.inl h)
      · exact .inr h

theorem applySets_get?_obj {sets : List (Str × Str)} {r : Str} : ∀ {doc : Doc},
    (applySets doc sets).get? (.obj r) = doc.get? (.obj r) := by
  induction sets with
  | nil => intro doc; rfl
  | cons kv rest ih =>
    intro doc
    have hcons : applySets doc (kv :: rest) = applySets (doc.set (.str kv.1) (.str kv.2)) rest := rfl
    rw [hcons, ih, Dict.get?_set_ne _ _ (by simp)]

theorem applySets_nodup {sets : List (Str × Str)} : ∀ {doc : Doc}, doc.NoDup → (applySets doc sets).NoDup := by
  induction sets with
  | nil => intro doc h; exact h
  | cons kv rest ih => intro doc h; exact ih (h.set _ _)

theorem cleaned_nodup {doc : Doc} (nd : doc.NoDup) : (cleaned doc).NoDup := (nd.pop _).pop _

theorem textsOf_keys (bms : List Item) : (textsOf bms).map Prod.fst = keysOf bms := by
  simp [textsOf, keysOf]

theorem get?_encOf_of_mem {items : List Item} (nd : (keysOf items).Nodup) {it : Item} (h : it ∈ items) :
    (encOf items).get? it.key = some it.entry :=
  Dict.get?_of_mem (by rw [Dict.NoDup, keys_encOf]; exact nd) (List.mem_map.2 ⟨it, h, rfl⟩)

theorem get?_decOf_of_mem {items : List Item} (nd : (keysOf items).Nodup) {it : Item} (h : it ∈ items) :
    (decOf items).get? it.key = some it.val :=
  Dict.get?_of_mem (by rw [Dict.NoDup, keys_decOf]; exact nd) (List.mem_map.2 ⟨it, h, rfl⟩)

theorem get?_encOf_mem {items : List Item} {k : Str} {e : EncEntry} (h : (encOf items).get? k = some e) :
    ∃ it ∈ items, it.key = k ∧ it.entry = e := by
  obtain ⟨it, hit, he⟩ := List.mem_map.1 (Dict.mem_of_get? h)
  cases he
  exact ⟨it, hit, rfl, rfl⟩

end Iso8583
