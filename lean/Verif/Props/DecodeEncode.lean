import Verif.Lemmas.DecodeWrites
import Verif.Props.EncodeDict
/-!
# Decode then encode (C02)
-/

namespace Iso8583

theorem asDoc_get? (dec : DecDoc) (k : Str) : (asDoc dec).get? (.str k) = (dec.get? k).map Val.str := by
  induction dec with
  | nil => rfl
  | cons kv t ih =>
    obtain ⟨a, b⟩ := kv
    simp only [asDoc, List.map_cons] at ih ⊢
    simp only [Dict.get?]
    by_cases h : a = k
    · subst h; simp
    · rw [if_neg (by simpa using h), if_neg h]; exact ih

theorem asDoc_get?_obj (dec : DecDoc) (r : Str) : (asDoc dec).get? (.obj r) = none := by
  induction dec with
  | nil => rfl
  | cons kv t ih =>
    simp only [asDoc, List.map_cons] at ih ⊢
    simp only [Dict.get?]
    rw [if_neg (by simp)]; exact ih

theorem asDoc_keys (dec : DecDoc) : (asDoc dec).keys = dec.keys.map Key.str := by
  simp [asDoc, Dict.keys, List.map_map]

theorem asDoc_nodup {dec : DecDoc} (h : dec.keys.Nodup) : (asDoc dec).NoDup := by
  unfold Dict.NoDup
  rw [asDoc_keys, List.nodup_iff_pairwise_ne, List.pairwise_map]
  exact List.Pairwise.imp (fun {a b} h e => h (Key.str.inj e)) (List.nodup_iff_pairwise_ne.1 h)

theorem HeaderReads.writes {env : PyEnv} {spec : Spec} {g : Str → Option Val} {hdr : List Item}
    (h : HeaderReads env spec hdr) (hg : ∀ it ∈ hdr, g it.key = some (.str it.val))
    (hc : ∀ it ∈ hdr, ∀ fs, spec.get? it.key = some fs → CanonicalField env fs it.entry it.val) :
    HeaderWrites env spec g hdr := by
  obtain ⟨fs, hs, h⟩ := h
  refine ⟨fs, hs, ?_⟩
  split
  · next hm => rw [if_pos hm] at h; exact h
  · next hm =>
    rw [if_neg hm] at h
    obtain ⟨n, it, rfl, hk, hr⟩ := h
    obtain ⟨m, hw, hv⟩ := hr.writes (hc it (by simp) fs (by rw [hk]; exact hs))
    exact ⟨.str it.val, m, it, rfl, hk, by rw [← hk]; exact hg it (by simp), hw, hv⟩

theorem TypeItem.writes {env : PyEnv} {spec : Spec} {g : Str → Option Val} {ty : Item}
    (h : TypeItem env spec ty) (hg : g ty.key = some (.str ty.val))
    (hc : ∀ fs, spec.get? py"t" = some fs → ¬ fs.isBinary →
      ∃ c, env.codec fs.dataEnc = some c ∧ c.encode ty.val = some ty.data) : TypeWrites env spec g ty := by
  obtain ⟨fs, hs, hk, hlen, hr⟩ := h
  have hw := hr.width
  have hD : ty.data ≠ [] := by
    intro e
    rw [e] at hw
    unfold typeWidth at hw
    split at hw <;> simp at hw
  have hp := (plainValue_ok_iff hD).1 hr.data
  have hnn : ¬ (asType fs).inNibbles := by simp [FieldSpec.inNibbles, asType]
  refine ⟨fs, .str ty.val, hs, by rw [← hk]; exact hg, hk, hlen, ?_, fun _ => .inl ⟨_, rfl⟩, ?_⟩
  · unfold DataWrites
    by_cases hb : fs.isBinary
    · rw [if_pos (show (asType fs).isBinary from hb), if_neg hnn]
      rw [PlainSays, if_pos hb] at hp
      exact ⟨by rw [Val.text, hp, hexText_upper], hw.symm⟩
    · rw [if_neg (show ¬ (asType fs).isBinary from hb)]
      obtain ⟨c, hcd, he⟩ := hc fs hs hb
      exact ⟨_, c, rfl, hcd, he, by rw [if_neg hnn]; exact hw.symm⟩
  · unfold readBack
    split
    · next hb =>
      rw [PlainSays, if_pos hb] at hp
      rw [Val.text, hp, hexText_upper]
    · rfl

theorem FieldsRead.writes {env : PyEnv} {spec : Spec} {g : Str → Option Val} {is : List Nat} {flds : List Item}
    (h : FieldsRead env spec is flds) (hg : ∀ it ∈ flds, g it.key = some (.str it.val))
    (hc : ∀ it ∈ flds, ∀ fs, spec.get? it.key = some fs → CanonicalField env fs it.entry it.val) :
    FieldsWrite env spec g is flds := by
  induction h with
  | nil => exact .nil
  | @cons i is it items fs n hs hk hr _ ih =>
    obtain ⟨m, hw, hv⟩ := hr.writes (hc it (by simp) fs (by rw [hk]; exact hs))
    refine .cons hs ?_ hk hw hv (ih (fun x hx => hg x (by simp [hx])) (fun x hx => hc x (by simp [hx])))
    rw [← hk]; exact hg it (by simp)

/-- The keys of a decoded dict: letters and field numbers. -/
theorem MsgReads.keys_shape {env : PyEnv} {spec : Spec} {hdr bms flds : List Item} {ty : Item} {F : List Nat}
    (hh : HeaderReads env spec hdr) (ht : TypeItem env spec ty) (hb : BitmapsRead env spec bms F)
    (hf : FieldsRead env spec (sortedNat F) flds) :
    (keysOf (hdr ++ ty :: bms ++ flds)).Nodup ∧
    (∀ k ∈ keysOf (hdr ++ ty :: bms ++ flds), k = py"h" ∨ k = py"t" ∨ k = py"p" ∨ k = py"1" ∨ ∃ i ∈ F, k = natStr i) ∧
    (∀ i ∈ F, natStr i ∈ keysOf (hdr ++ ty :: bms ++ flds)) := by
  obtain ⟨_, _, hk, _⟩ := ht
  have hbk : keysOf bms = [py"p"] ∨ keysOf bms = [py"p", py"1"] := by cases hb <;> simp
  obtain ⟨hnd, h1, _, _⟩ := hb.fields
  have e : keysOf (hdr ++ ty :: bms ++ flds) = keysOf hdr ++ py"t" :: keysOf bms ++ (sortedNat F).map natStr := by
    simp [hk, hf.keys]
  rw [e]
  refine ⟨nodup_msg_keys hh.keys hbk (sortedNat_nodup hnd) (by simpa using h1), ?_, ?_⟩
  · intro k hkm
    simp only [List.append_assoc, List.cons_append, List.mem_append, List.mem_cons, List.mem_map, mem_sortedNat] at hkm
    rcases hkm with hkm | rfl | hkm | ⟨i, hi, rfl⟩
    · rcases hh.keys with h | h <;> rw [h] at hkm
      · simp at hkm
      · exact .inl (by simpa using hkm)
    · exact .inr (.inl rfl)
    · rcases hbk with h | h <;> rw [h] at hkm
      · exact .inr (.inr (.inl (by simpa using hkm)))
      · rcases List.mem_cons.1 hkm with h | h
        · exact .inr (.inr (.inl h))
        · exact .inr (.inr (.inr (.inl (by simpa using h))))
    · exact .inr (.inr (.inr (.inr ⟨i, hi, rfl⟩)))
  · intro i hi
    simp only [List.mem_append, List.mem_map, mem_sortedNat]
    exact .inr ⟨i, hi, rfl⟩

/-- **C02**: a message that `decode` reads and that is in canonical form is what `encode` writes for
the decoded dict: the same bytes and the same encoded dict.  The decoded dict keeps its contents. -/
theorem decode_encode {env : PyEnv} {spec : Spec} {s : Bytes} {dec : DecDoc} {enc : EncDoc}
    (hn : AsciiNumeric env) (hdg : env.maxStrDigits = 0 ∨ 3 ≤ env.maxStrDigits)
    (h : decode env spec s = .ok (dec, enc)) (hc : CanonicalMessage env spec dec enc) :
    ∃ doc', encode env spec (asDoc dec) = (.ok (s, enc), doc') ∧ ∀ k, doc'.get? k = (asDoc dec).get? k := by
  obtain ⟨items, hr, rfl, rfl, rfl⟩ := decode_ok_iff.1 h
  obtain ⟨hdr, ty, bms, flds, F, rfl, hh, ht, hb, hf⟩ := hr.parts
  obtain ⟨hnd, hks, hkF⟩ := MsgReads.keys_shape hh ht hb hf
  obtain ⟨hFnd, hF1, hF65, hF0⟩ := hb.fields
  generalize hit : hdr ++ ty :: bms ++ flds = items at *
  have hbk : keysOf bms = [py"p"] ∨ keysOf bms = [py"p", py"1"] := by cases hb <;> simp
  have hdn : DigitsNumeric env := by
    intro c h1 h2
    rw [hn c (by omega)]
    simp [h1, h2]
  -- what the dict holds for each item
  have hdec : ∀ it ∈ items, (decOf items).get? it.key = some it.val := fun it hm =>
    Dict.get?_of_mem (by rw [Dict.NoDup, keys_decOf]; exact hnd) (List.mem_map.2 ⟨it, hm, rfl⟩)
  have henc : ∀ it ∈ items, (encOf items).get? it.key = some it.entry := fun it hm => get?_encOf_of_mem hnd hm
  have hg : ∀ it ∈ items, lookup (asDoc (decOf items)) it.key = some (.str it.val) := by
    intro it hm
    unfold lookup
    rw [asDoc_get?, hdec it hm]; rfl
  have mh : ∀ x ∈ hdr, x ∈ items := fun x hx => by rw [← hit]; simp [hx]
  have mt : ty ∈ items := by rw [← hit]; simp
  have mb : ∀ x ∈ bms, x ∈ items := fun x hx => by rw [← hit]; simp [hx]
  have mf : ∀ x ∈ flds, x ∈ items := fun x hx => by rw [← hit]; simp [hx]
  have hce : ∀ it ∈ items, ∀ fs, spec.get? it.key = some fs → CanonicalEntry env fs it.key it.entry it.val :=
    fun it hm fs hs => hc.entries _ _ _ _ hs (henc it hm) (hdec it hm)
  have field_canon : ∀ it ∈ items, it.key ≠ py"t" → it.key ≠ py"p" → it.key ≠ py"1" → ∀ fs, spec.get? it.key = some fs →
      CanonicalField env fs it.entry it.val := by
    intro it hm h1 h2 h3 fs hs
    have := hce it hm fs hs
    rw [CanonicalEntry, if_neg h1, if_neg (fun h => h.elim h2 h3)] at this
    exact this
  -- the fields in the dict
  have hhas : ∀ i, hasField (asDoc (decOf items)) i ∧ i ≠ 1 ∧ i ≠ 65 ↔ i ∈ F := by
    intro i
    unfold hasField
    rw [asDoc_keys, keys_decOf]
    constructor
    · rintro ⟨hm, h1, h65⟩
      obtain ⟨k, hk, e⟩ := List.mem_map.1 hm
      obtain rfl := Key.str.inj e
      rcases hks _ hk with h | h | h | h | ⟨j, hj, h⟩
      · exact absurd h (natStr_ne_letter (by decide))
      · exact absurd h (natStr_ne_letter (by decide))
      · exact absurd h (natStr_ne_letter (by decide))
      · exact absurd h (natStr_ne_one h1)
      · rw [natStr_inj] at h; subst h; exact hj
    · intro hi
      refine ⟨List.mem_map.2 ⟨_, hkF i hi, rfl⟩, ?_, ?_⟩
      · rintro rfl; exact hF1 hi
      · rintro rfl; exact hF65 hi
  have hbig : ∀ j, 1 < j → natStr j ∈ (decOf items).keys → j ∈ F := by
    intro j hj hm
    rw [keys_decOf] at hm
    rcases hks _ hm with h | h | h | h | ⟨i, hi, h⟩
    · exact absurd h (natStr_ne_letter (by decide))
    · exact absurd h (natStr_ne_letter (by decide))
    · exact absurd h (natStr_ne_letter (by decide))
    · exact absurd h (natStr_ne_one (by omega))
    · rw [natStr_inj] at h; subst h; exact hi
  -- bitmaps
  have hcb : CanonicalBitmaps env spec bms F := by
    refine ⟨?_, ?_, ?_⟩
    · intro it hm fs hs
      have hk : it.key = py"p" ∨ it.key = py"1" := by
        have : it.key ∈ keysOf bms := List.mem_map.2 ⟨it, hm, rfl⟩
        rcases hbk with h | h <;> rw [h] at this <;> simp at this
        · exact .inl this
        · exact this
      have := hce it (mb it hm) fs hs
      rw [CanonicalEntry, if_neg (by rcases hk with h | h <;> rw [h] <;> decide), if_pos hk] at this
      exact this
    · intro hm
      obtain ⟨i, hi, hk⟩ := hc.minimal.secondary (by
        rw [keys_decOf]
        obtain ⟨it, hit, e⟩ := List.mem_map.1 hm
        exact List.mem_map.2 ⟨it, mb it hit, e⟩)
      exact ⟨i, hbig i (by omega) hk, hi⟩
    · intro it hm hk fs hs hl
      obtain ⟨i, hi, hk⟩ := hc.minimal.tertiary fs it.entry hs (by rw [← hk]; exact henc it (mb it hm)) hl
      exact ⟨i, hbig i (by omega) hk, hi⟩
  have hF192 : ∀ x ∈ F, x ≤ 192 := (hb.writes (F' := F) hcb (fun _ => Iff.rfl)).2
  -- the numbers of the keys
  have hnum : ∀ k, Key.str k ∈ (cleaned (asDoc (decOf items))).keys → isNumeric env k = true → ∃ i ∈ F, k = natStr i := by
    intro k hk hkn
    obtain ⟨hk, hk1, hk65⟩ := (mem_keys_cleaned (asDoc_nodup (by rw [keys_decOf]; exact hnd))).1 hk
    rw [asDoc_keys, keys_decOf] at hk
    obtain ⟨k', hk', e⟩ := List.mem_map.1 hk
    obtain rfl := Key.str.inj e
    have hlet : ∀ c, c < 128 → ¬ (48 ≤ c ∧ c ≤ 57) → isNumeric env [c] = false := by
      intro c h1 h2
      simp only [isNumeric, List.all_cons, List.all_nil, hn c h1]
      simp
      omega
    rcases hks _ hk' with rfl | rfl | rfl | rfl | h
    · rw [hlet 104 (by omega) (by omega)] at hkn; simp at hkn
    · rw [hlet 116 (by omega) (by omega)] at hkn; simp at hkn
    · rw [hlet 112 (by omega) (by omega)] at hkn; simp at hkn
    · exact absurd rfl hk1
    · exact h
  have hparse : ∀ i ∈ F, pyInt env (natStr i) = some (i : Int) := by
    intro i hi
    refine pyInt_natStr env i ?_
    have : (natStr i).length ≤ 3 := (natStr_length_le (by omega)).2 (by have := hF192 i hi; omega)
    omega
  obtain ⟨ns, hns⟩ : ∃ ns, numsOf env (asDoc (decOf items)) = .ok ns := by
    refine numericKeys_of_parse ?_
    intro k hk
    obtain ⟨hk', _, _⟩ := (mem_keys_cleaned (asDoc_nodup (by rw [keys_decOf]; exact hnd))).1 hk
    rw [asDoc_keys] at hk'
    obtain ⟨t, _, rfl⟩ := List.mem_map.1 hk'
    refine ⟨t, rfl, fun hkn => ?_⟩
    obtain ⟨i, hi, rfl⟩ := hnum t hk hkn
    exact ⟨_, hparse i hi⟩
  have hmem : ∀ x : Int, x ∈ ns ↔ ∃ i ∈ F, x = (i : Int) := by
    obtain ⟨_, h2, h3⟩ := numericKeys_ok hns
    intro x
    constructor
    · intro hx
      obtain ⟨t, ht, htn, htp⟩ := h3 x hx
      obtain ⟨i, hi, rfl⟩ := hnum t ht htn
      rw [hparse i hi] at htp
      exact ⟨i, hi, (Option.some.inj htp).symm⟩
    · rintro ⟨i, hi, rfl⟩
      obtain ⟨x, hx, hp⟩ := h2 (natStr i) (by
        refine (mem_keys_cleaned (asDoc_nodup (by rw [keys_decOf]; exact hnd))).2 ?_
        have := (hhas i).2 hi
        refine ⟨this.1, ?_, ?_⟩
        · intro e; exact natStr_ne_one this.2.1 (Key.str.inj e)
        · intro e; exact this.2.2 (natStr_inj.1 (Key.str.inj e))) (isNumeric_natStr hdn i)
      rw [hparse i hi] at hp
      rw [Option.some.inj hp]; exact hx
  have hall : (setUpdate [] ns).all inRange = true := by
    rw [List.all_eq_true]
    intro x hx
    obtain ⟨i, hi, rfl⟩ := (hmem x).1 (by simpa [mem_setUpdate] using hx)
    have := hF192 i hi
    have : i ≠ 0 := by rintro rfl; exact hF0 hi
    simp only [inRange, Bool.and_eq_true, decide_eq_true_eq]
    omega
  have hF' : ∀ x, x ∈ (setUpdate [] ns).map Int.toNat ↔ x ∈ F := by
    intro x
    rw [List.mem_map]
    constructor
    · rintro ⟨y, hy, rfl⟩
      obtain ⟨i, hi, rfl⟩ := (hmem y).1 (by simpa [mem_setUpdate] using hy)
      simpa using hi
    · intro hx
      exact ⟨x, mem_setUpdate.2 (.inr ((hmem x).2 ⟨x, hx, rfl⟩)), by simp⟩
  have hF'nd := (inRange_mem hall).1
  have hsort : sortedNat F = sortedNat (restOf ((setUpdate [] ns).map Int.toNat)) := by
    refine sortedNat_ext hFnd (restOf_nodup hF'nd) ?_
    intro x
    rw [mem_restOf, hF']
    constructor
    · intro hx
      exact ⟨hx, by rintro rfl; exact hF1 hx, by rintro rfl; exact hF65 hx⟩
    · exact fun h => h.1
  have hkey_f : ∀ it ∈ flds, it.key ≠ py"t" ∧ it.key ≠ py"p" ∧ it.key ≠ py"1" := by
    intro it hm
    have : it.key ∈ keysOf flds := List.mem_map.2 ⟨it, hm, rfl⟩
    rw [hf.keys] at this
    obtain ⟨i, hi, e⟩ := List.mem_map.1 this
    rw [← e]
    exact ⟨natStr_ne_letter (by decide), natStr_ne_letter (by decide),
      natStr_ne_one (by rintro rfl; exact hF1 (mem_sortedNat.1 hi))⟩
  have hkey_h : ∀ it ∈ hdr, it.key = py"h" := by
    intro it hm
    have : it.key ∈ keysOf hdr := List.mem_map.2 ⟨it, hm, rfl⟩
    rcases hh.keys with h | h <;> rw [h] at this <;> simpa using this
  have hW : MsgWrites env spec (lookup (asDoc (decOf items))) ((setUpdate [] ns).map Int.toNat) items bms := by
    refine ⟨hdr, ty, flds, hit.symm, ?_, ?_, (hb.writes hcb hF').1, ?_⟩
    · refine hh.writes (fun x hx => hg x (mh x hx)) ?_
      intro it hm fs hs
      have hk := hkey_h it hm
      exact field_canon it (mh it hm) (by rw [hk]; decide) (by rw [hk]; decide) (by rw [hk]; decide) fs hs
    · refine ht.writes (hg ty mt) ?_
      intro fs hs hnb
      have hk : ty.key = py"t" := by obtain ⟨_, _, hk, _⟩ := ht; exact hk
      have := hce ty mt fs (by rw [hk]; exact hs)
      rw [CanonicalEntry, if_pos hk] at this
      exact this hnb
    · rw [← hsort]
      refine hf.writes (fun x hx => hg x (mf x hx)) ?_
      intro it hm fs hs
      obtain ⟨h1, h2, h3⟩ := hkey_f it hm
      exact field_canon it (mf it hm) h1 h2 h3 fs hs
  refine ⟨_, encode_ok_iff.2 ⟨ns, hns, hall, items, bms, hW, rfl, rfl, rfl⟩, ?_⟩
  intro k
  cases k with
  | obj r =>
    rw [applySets_get?_obj, cleaned, Dict.get?_pop_ne _ (by simp), Dict.get?_pop_ne _ (by simp)]
  | str k =>
    by_cases hkb : k ∈ keysOf bms
    · obtain ⟨it, hm, rfl⟩ := List.mem_map.1 hkb
      have hin : (it.key, it.val) ∈ textsOf bms := List.mem_map.2 ⟨it, hm, rfl⟩
      rw [applySets_get?_mem ?_ hin]
      · exact (hg it (mb it hm)).symm
      · rw [textsOf_keys]
        rcases hbk with h | h <;> rw [h] <;> decide
    · rw [applySets_get? ?_]
      · have hno : ∀ k', k' ∉ keysOf items → (asDoc (decOf items)).get? (.str k') = none := by
          intro k' hk'
          rw [asDoc_get?, Dict.get?_eq_none.2 (by rw [keys_decOf]; exact hk')]; rfl
        have nd := asDoc_nodup (dec := decOf items) (by rw [keys_decOf]; exact hnd)
        by_cases h1 : k = py"1"
        · have hk : k ∉ keysOf items := by
            intro hk
            rw [← hit] at hk
            simp only [List.append_assoc, List.cons_append, keysOf_append, keysOf_cons, List.mem_append, List.mem_cons] at hk
            rcases hk with hk | hk | hk | hk
            · obtain ⟨it, hm, e⟩ := List.mem_map.1 hk
              rw [hkey_h it hm, h1] at e; simp at e
            · obtain ⟨_, _, e, _⟩ := ht; rw [e, h1] at hk; simp at hk
            · exact hkb hk
            · obtain ⟨it, hm, e⟩ := List.mem_map.1 hk
              exact (hkey_f it hm).2.2 (e.trans h1)
          rw [hno k hk]
          refine Dict.get?_eq_none.2 ?_
          rw [mem_keys_cleaned nd]
          rintro ⟨_, h, _⟩
          exact h (by rw [h1])
        · by_cases h65 : k = py"65"
          · have hk : k ∉ keysOf items := by
              intro hk
              rcases hks k hk with h | h | h | h | ⟨i, hi, h⟩
              · rw [h65] at h; simp at h
              · rw [h65] at h; simp at h
              · rw [h65] at h; simp at h
              · rw [h65] at h; simp at h
              · rw [h65, show py"65" = natStr 65 from rfl, natStr_inj] at h
                subst h; exact hF65 hi
            rw [hno k hk]
            refine Dict.get?_eq_none.2 ?_
            rw [mem_keys_cleaned nd]
            rintro ⟨_, _, h⟩
            exact h (by rw [h65])
          · exact cleaned_get? h1 h65
      · intro kv hkv e
        obtain ⟨it, hm, rfl⟩ := List.mem_map.1 hkv
        exact hkb (e ▸ List.mem_map.2 ⟨it, hm, rfl⟩)

/-! ## The demo message is in canonical form -/

theorem demo_canonicalMessage : CanonicalMessage cpython demoSpec demoDec demoEnc := by
  refine ⟨?_, ⟨fun _ => ⟨70, by decide, by decide⟩, fun _ _ _ _ _ => ⟨130, by decide, by decide⟩⟩⟩
  intro k fs e v hs he hv
  have hm := Dict.mem_of_get? hv
  simp only [demoDec, List.mem_cons, Prod.mk.injEq, List.not_mem_nil, or_false] at hm
  rcases hm with ⟨rfl, _⟩ | ⟨rfl, _⟩ | ⟨rfl, _⟩ | ⟨rfl, _⟩ | ⟨rfl, _⟩ | ⟨rfl, _⟩ | ⟨rfl, _⟩ | ⟨rfl, _⟩ <;>
    (have e1 := Option.some.inj ((show _ = some _ from rfl).symm.trans hs)
     have e2 := Option.some.inj ((show _ = some _ from rfl).symm.trans he)
     have e3 := Option.some.inj ((show _ = some _ from rfl).symm.trans hv)
     subst e1; subst e2; subst e3)
  · exact ⟨fun _ => ⟨asciiCodec, rfl, rfl⟩, fun _ h => absurd h (by decide), fun h => absurd h (by decide),
      fun h => absurd rfl h⟩
  · exact fun h => absurd rfl h
  · exact ⟨fun h => absurd rfl h, fun _ h => absurd rfl h⟩
  · refine ⟨?_, fun _ => ?_⟩ <;>
    · rintro _ t ⟨c, hc, ht⟩
      obtain rfl := Option.some.inj ((show _ = some asciiCodec from rfl).symm.trans hc)
      obtain rfl := Option.some.inj ((show asciiCodec.decode _ = some _ from rfl).symm.trans ht)
      exact ⟨by decide, by decide, asciiCodec, rfl, by decide⟩
  · exact ⟨fun _ => ⟨asciiCodec, rfl, rfl⟩, fun _ h => absurd h (by decide), fun h => absurd h (by decide),
      fun _ _ h => absurd rfl h⟩
  · exact ⟨fun h => absurd rfl h, fun h => absurd rfl h, fun _ _ _ _ _ c hc => by rw [← hc]; decide,
      fun _ h => absurd rfl h⟩
  · refine ⟨fun _ => ⟨cp500Codec, rfl, by decide +kernel⟩, fun _ h => absurd h (by decide), fun h => absurd h (by decide), ?_⟩
    rintro _ _ _ n ⟨_, h⟩
    have h3 : declared cpython { dataEnc := py"cp500", lenEnc := py"cp500", lenType := 2, maxLen := 10 } [0xF0, 0xF3] = some 3 := by
      decide +kernel
    have := Option.some.inj (h3.symm.trans h.1)
    exact ⟨cp500Codec, 3, this.symm, rfl, by decide +kernel⟩
  · exact ⟨fun h => absurd rfl h, fun h => absurd rfl h, fun _ h => absurd h (by decide), fun h => absurd rfl h⟩

example : ∃ doc', encode cpython demoSpec (asDoc demoDec) = (.ok (demoMsg, demoEnc), doc') ∧
    ∀ k, doc'.get? k = (asDoc demoDec).get? k :=
  decode_encode cpython_ascii (by decide) demo_decode demo_canonicalMessage

/-! ## Every condition is needed

Each message below is decoded; encoding the decoded dict yields other bytes. -/

/-- A specification without a header; field 2 and field 3 are given. -/
def spellSpec (two three : FieldSpec) : Spec := [
  (py"h", { dataEnc := py"b", lenEnc := py"b", lenType := 0, maxLen := 0 }),
  (py"t", { dataEnc := py"b", lenEnc := py"b", lenType := 0, maxLen := 2 }),
  (py"p", { dataEnc := py"b", lenEnc := py"b", lenType := 0, maxLen := 8 }),
  (py"1", { dataEnc := py"ascii", lenEnc := py"b", lenType := 0, maxLen := 16 }),
  (py"2", two), (py"3", three)]

/-- A field without content. -/
def noField : FieldSpec := { dataEnc := py"b", lenEnc := py"b", lenType := 0, maxLen := 0 }

/-- `decode` reads `s` as `dec`, and `encode` writes `dec` as `s'`. -/
def Respelled (spec : Spec) (s : Bytes) (dec : DecDoc) (s' : Bytes) : Prop :=
  (∃ enc, decode cpython spec s = .ok (dec, enc)) ∧ ∃ enc, (encode cpython spec (asDoc dec)).1 = .ok (s', enc)

theorem respelled_of {spec : Spec} {s s' : Bytes} {dec : DecDoc}
    (h : (match decode cpython spec s with
      | .ok (d, _) => decide (d = dec)
      | .error _ => false) = true)
    (h' : (match (encode cpython spec (asDoc dec)).1 with
      | .ok (r, _) => decide (r = s')
      | .error _ => false) = true) : Respelled spec s dec s' := by
  constructor
  · cases hd : decode cpython spec s with
    | error e => simp [hd] at h
    | ok r =>
      obtain ⟨d, enc⟩ := r
      simp only [hd, decide_eq_true_eq] at h
      exact ⟨enc, by rw [h]⟩
  · cases hd : (encode cpython spec (asDoc dec)).1 with
    | error e => simp [hd] at h'
    | ok r =>
      obtain ⟨r, enc⟩ := r
      simp only [hd, decide_eq_true_eq] at h'
      exact ⟨enc, by rw [h']⟩

/-- A secondary bitmap without fields is dropped. -/
example : Respelled (spellSpec noField noField)
    ([0x02, 0, 0x80, 0, 0, 0, 0, 0, 0, 0] ++ List.replicate 16 0x30)
    [(py"t", py"0200"), (py"p", py"8000000000000000"), (py"1", py"0000000000000000")]
    [0x02, 0, 0, 0, 0, 0, 0, 0, 0, 0] := respelled_of (by decide +kernel) (by decide +kernel)

/-- A bitmap in lower case is rewritten in upper case. -/
example : Respelled ((spellSpec noField noField).set py"67" noField |>.set py"69" noField |>.set py"71" noField)
    ([0x02, 0, 0x80, 0, 0, 0, 0, 0, 0, 0] ++ [0x32, 0x61] ++ List.replicate 14 0x30)
    [(py"t", py"0200"), (py"p", py"8000000000000000"), (py"1", py"2a00000000000000"), (py"67", []), (py"69", []), (py"71", [])]
    ([0x02, 0, 0x80, 0, 0, 0, 0, 0, 0, 0] ++ [0x32, 0x41] ++ List.replicate 14 0x30) :=
  respelled_of (by decide +kernel) (by decide +kernel)

/-- The text length prefix ` 1` becomes `01`. -/
example : Respelled (spellSpec { dataEnc := py"ascii", lenEnc := py"ascii", lenType := 2, maxLen := 9 } noField)
    [0x02, 0, 0x40, 0, 0, 0, 0, 0, 0, 0, 0x20, 0x31, 0x41]
    [(py"t", py"0200"), (py"p", py"4000000000000000"), (py"2", py"A")]
    [0x02, 0, 0x40, 0, 0, 0, 0, 0, 0, 0, 0x30, 0x31, 0x41] := respelled_of (by decide +kernel) (by decide +kernel)

/-- A text field of one nibble occupies a byte, and is written back as two nibbles. -/
example : Respelled (spellSpec { dataEnc := py"ascii", lenEnc := py"b", lenType := 1, maxLen := 9, lenCount := some py"nibbles" } noField)
    [0x02, 0, 0x40, 0, 0, 0, 0, 0, 0, 0, 1, 0x41]
    [(py"t", py"0200"), (py"p", py"4000000000000000"), (py"2", py"A")]
    [0x02, 0, 0x40, 0, 0, 0, 0, 0, 0, 0, 2, 0x41] := respelled_of (by decide +kernel) (by decide +kernel)

/-- The text length prefix `-1` of a field counted in nibbles is accepted as an empty field. -/
example : Respelled (spellSpec { dataEnc := py"ascii", lenEnc := py"ascii", lenType := 2, maxLen := 9, lenCount := some py"nibbles" } noField)
    [0x02, 0, 0x40, 0, 0, 0, 0, 0, 0, 0, 0x2D, 0x31]
    [(py"t", py"0200"), (py"p", py"4000000000000000"), (py"2", [])]
    [0x02, 0, 0x40, 0, 0, 0, 0, 0, 0, 0, 0x30, 0x30] := respelled_of (by decide +kernel) (by decide +kernel)

/-- With both pads, `decode` accepts the right pad where the left pad is missing; `encode` writes the
left pad. -/
example : Respelled (spellSpec ⟨py"b", py"b", 1, 9, some py"nibbles", some py"0", some py"F", none⟩ noField)
    [0x02, 0, 0x40, 0, 0, 0, 0, 0, 0, 0, 1, 0x5F]
    [(py"t", py"0200"), (py"p", py"4000000000000000"), (py"2", py"5")]
    [0x02, 0, 0x40, 0, 0, 0, 0, 0, 0, 0, 1, 0x05] := respelled_of (by decide +kernel) (by decide +kernel)

end Iso8583
