import Verif.Lemmas.Grammar
import Verif.Lemmas.EncodeItems
import Verif.Lemmas.EncodeCongr
/-! # The message format and the items of the encoder -/

namespace Iso8583

theorem headerWrites_iff {env : PyEnv} {spec : Spec} {doc : Doc} {h : List Part} :
    HeaderWrites env spec (lookup doc) (h.map Part.item) ↔ HeaderPartWritten env spec doc h := by
  constructor
  · rintro ⟨fs, hs, hh⟩
    refine ⟨fs, hs, ?_⟩
    split at hh
    · next hm => exact .inl ⟨hm, by simpa using hh⟩
    · next hm =>
      obtain ⟨v, n, it, h1, h2, h3, h4, h5⟩ := hh
      have := congrArg (List.map Item.part) h1
      rw [map_part_item] at this
      have hk : it.part.key = py"h" := h2
      exact .inr ⟨by omega, it.part, this, hk, fs, v, n, by rw [hk]; exact hs, by rw [hk]; exact h3, h4, h5⟩
  · rintro ⟨fs, hs, hh⟩
    refine ⟨fs, hs, ?_⟩
    rcases hh with ⟨hm, rfl⟩ | ⟨hm, p, rfl, hk, fs', v, n, h1, h2, h3, h4⟩
    · rw [if_pos hm]; rfl
    · rw [if_neg (by omega)]
      rw [hk] at h1 h2
      rw [hs] at h1; cases h1
      exact ⟨v, n, p.item, rfl, hk, h2, h3, h4⟩

theorem typeWrites_iff {env : PyEnv} {spec : Spec} {doc : Doc} {t : Part} :
    TypeWrites env spec (lookup doc) t.item ↔ TypePartWritten env spec doc t := by
  constructor
  · rintro ⟨fs, v, hs, hg, hk, hl, hd, hx, hv⟩
    obtain ⟨k, ⟨l, D⟩, x⟩ := t
    dsimp only [Part.item] at hk hl hd hv
    subst hk; subst hl; subst hv
    exact ⟨fs, v, D, hs, hg, rfl, hd, hx⟩
  · rintro ⟨fs, v, D, hs, hg, rfl, hd, hx⟩
    exact ⟨fs, v, hs, hg, rfl, rfl, hd, hx, rfl⟩

theorem bitmapWritten_iff {env : PyEnv} {fs : FieldSpec} {A : Nat → Prop} {off : Nat} {F : List Nat} {D : Bytes} {t : Str}
    (hF : ∀ f ∈ F, off + 1 ≤ f ∧ f ≤ off + 64) (hA : ∀ i, off < i → i ≤ off + 64 → (i ∈ F ↔ A i)) :
    BitmapWritten env fs A off D t ↔ BitmapWrites env fs (bitmapOf off F) D ∧ t = hexText (bitmapOf off F) := by
  constructor
  · rintro ⟨bm, hl, hb, rfl, hw⟩
    have : bm = bitmapOf off F := by
      refine bitmapOf_unique hF hl fun x => ?_
      rw [mem_bitmapFields_announces]
      constructor
      · intro h
        have hx : x ≤ off + 64 := by
          have h2 := h.2
          unfold bitOn at h2
          split at h2
          · next hget =>
            have := List.getElem?_eq_some_iff.1 hget
            obtain ⟨h3, _⟩ := this
            rw [hl] at h3
            have := h.1
            omega
          · cases h2
        exact (hA x h.1 hx).2 ((hb x h.1 hx).1 h)
      · intro h
        have := hF x h
        exact (hb x (by omega) this.2).2 ((hA x (by omega) this.2).1 h)
    subst this
    exact ⟨hw, rfl⟩
  · rintro ⟨hw, rfl⟩
    refine ⟨bitmapOf off F, bitmapOf_length hF, fun i h1 h2 => ?_, rfl, hw⟩
    rw [← hA i h1 h2, ← mem_bitmapFields_announces, mem_fields_bitmapOf hF]

theorem fieldsWrite_iff {env : PyEnv} {spec : Spec} {doc : Doc} : ∀ {is : List Nat} {f : List Part},
    FieldsWrite env spec (lookup doc) is (f.map Part.item) ↔
      f.map Part.key = is.map natStr ∧ ∀ p ∈ f, FieldPartWritten env spec doc p
  | [], [] => by simpa using FieldsWrite.nil
  | [], p :: f => by
    constructor
    · intro h; cases h
    · rintro ⟨h, _⟩; simp at h
  | i :: is, [] => by
    constructor
    · intro h; cases h
    · rintro ⟨h, _⟩; simp at h
  | i :: is, p :: f => by
    constructor
    · intro h
      cases h with
      | cons hs hg hk hw hv hrest =>
        obtain ⟨h1, h2⟩ := fieldsWrite_iff.1 hrest
        have hk' : p.key = natStr i := hk
        refine ⟨by simp [h1, hk'], ?_⟩
        intro q hq
        rcases List.mem_cons.1 hq with rfl | hq
        · exact ⟨_, _, _, by rw [hk']; exact hs, by rw [hk']; exact hg, hw, hv⟩
        · exact h2 q hq
    · rintro ⟨h1, h2⟩
      simp only [List.map_cons, List.cons.injEq] at h1
      obtain ⟨fs, v, n, hs, hg, hw, hv⟩ := h2 p (by simp)
      exact .cons (by rw [← h1.1]; exact hs) (by rw [← h1.1]; exact hg) h1.1 hw hv
        (fieldsWrite_iff.2 ⟨h1.2, fun q hq => h2 q (by simp [hq])⟩)

theorem bitmapsWrite_iff {env : PyEnv} {spec : Spec} {A : Nat → Prop} {F : List Nat} {b : List Part}
    (hF : ∀ x ∈ F, 1 ≤ x ∧ x ≤ 192) (hA : ∀ i, 1 ≤ i → (i ∈ f2Of F ↔ A i)) :
    BitmapsWrite env spec F (b.map Part.item) ↔ BitmapPartsWritten env spec A b := by
  have hF' : ∀ x ∈ F, x ≤ 192 := fun x hx => (hF x hx).2
  have pF : ∀ f ∈ priOf F, 0 + 1 ≤ f ∧ f ≤ 0 + 64 := fun f hf => by have := ((mem_priOf hF').1 hf).2; omega
  have sF : ∀ f ∈ secOf F, 64 + 1 ≤ f ∧ f ≤ 64 + 64 := fun f hf => by have := ((mem_secOf hF').1 hf).2; omega
  have tF : ∀ f ∈ terOf F, 128 + 1 ≤ f ∧ f ≤ 128 + 64 := fun f hf => by have := (mem_terOf.1 hf).2; omega
  have p := fun fs D t => bitmapWritten_iff (env := env) (fs := fs) (A := A) (off := 0) (F := priOf F) (D := D) (t := t) pF
    (fun i h1 h2 => by rw [← hA i (by omega)]; unfold priOf; rw [mem_setInter]; exact ⟨fun h => h.1, fun h => ⟨h, by omega, by omega⟩⟩)
  have s := fun fs D t => bitmapWritten_iff (env := env) (fs := fs) (A := A) (off := 64) (F := secOf F) (D := D) (t := t) sF
    (fun i h1 h2 => by
      rw [← hA i (by omega), mem_secOf hF', mem_f2Of hF']
      constructor
      · rintro ⟨h | h, _⟩
        · exact .inl h
        · exact .inr (.inl h)
      · rintro (h | h | ⟨rfl, _⟩)
        · exact ⟨.inl h, by omega, by omega⟩
        · exact ⟨.inr h, by omega, by omega⟩
        · omega)
  have t := fun fs D t => bitmapWritten_iff (env := env) (fs := fs) (A := A) (off := 128) (F := terOf F) (D := D) (t := t) tF
    (fun i h1 h2 => by
      rw [← hA i (by omega), mem_terOf, mem_f2Of hF']
      constructor
      · rintro ⟨h, _⟩; exact .inl h
      · rintro (h | ⟨rfl, _⟩ | ⟨rfl, _⟩)
        · exact ⟨h, by omega, by omega⟩
        · omega
        · omega)
  have a1 := hA 1 (by decide)
  have a65 := hA 65 (by decide)
  constructor
  · intro h
    generalize hb : b.map Part.item = bi at h
    have hb' := congrArg (List.map Item.part) hb
    rw [map_part_item] at hb'
    subst hb'
    cases h with
    | primary hs hw h1 => exact .one (mt a1.2 h1) hs ((p _ _ _).2 ⟨hw, rfl⟩)
    | secondary hs hw h1 hs1 hw1 h65 =>
      exact .two (a1.1 h1) (mt a65.2 h65) hs ((p _ _ _).2 ⟨hw, rfl⟩) hs1 ((s _ _ _).2 ⟨hw1, rfl⟩)
    | tertiary hs hw h1 hs1 hw1 h65 hw2 =>
      exact .three (a1.1 h1) (a65.1 h65) hs ((p _ _ _).2 ⟨hw, rfl⟩) hs1 ((s _ _ _).2 ⟨hw1, rfl⟩) ((t _ _ _).2 ⟨hw2, rfl⟩)
  · intro h
    cases h with
    | one h1 hs hw =>
      obtain ⟨hv, rfl⟩ := (p _ _ _).1 hw
      exact .primary hs hv (mt a1.1 h1)
    | two h1 h65 hs hw hs1 hw1 =>
      obtain ⟨hv, rfl⟩ := (p _ _ _).1 hw
      obtain ⟨hv1, rfl⟩ := (s _ _ _).1 hw1
      exact .secondary hs hv (a1.2 h1) hs1 hv1 (mt a65.1 h65)
    | three h1 h65 hs hw hs1 hw1 hw2 =>
      obtain ⟨hv, rfl⟩ := (p _ _ _).1 hw
      obtain ⟨hv1, rfl⟩ := (s _ _ _).1 hw1
      obtain ⟨hv2, rfl⟩ := (t _ _ _).1 hw2
      exact .tertiary hs hv (a1.2 h1) hs1 hv1 (a65.2 h65) hv2

theorem docAfter_eq (doc : Doc) (b : List Part) : docAfter doc b = applySets (cleaned doc) (textsOf (b.map Part.item)) := by
  unfold docAfter applySets cleaned textsOf
  rw [List.map_map, List.foldl_map]
  rfl

theorem numsOf_ok {env : PyEnv} {doc : Doc} (nd : doc.NoDup) {ns : List Int} (h : numsOf env doc = .ok ns) :
    NumbersParse env doc ∧ ∀ x, x ∈ ns ↔ Numbered env doc x := by
  obtain ⟨_, h2, h3⟩ := numericKeys_ok h
  constructor
  · intro k hk h1 h65
    exact parse_of_numericKeys h k ((mem_keys_cleaned nd).2 ⟨hk, h1, h65⟩)
  · intro x
    constructor
    · intro hx
      obtain ⟨t, ht, hn, hp⟩ := h3 x hx
      obtain ⟨hk, h1, h65⟩ := (mem_keys_cleaned nd).1 ht
      exact ⟨t, hk, fun e => h1 (by rw [e]), fun e => h65 (by rw [e]), hn, hp⟩
    · rintro ⟨t, hk, h1, h65, hn, hp⟩
      obtain ⟨y, hy, hp'⟩ := h2 t ((mem_keys_cleaned nd).2 ⟨hk, by simpa using h1, by simpa using h65⟩) hn
      rw [hp] at hp'; cases hp'; exact hy

theorem numsOf_of_parse {env : PyEnv} {doc : Doc} (nd : doc.NoDup) (h : NumbersParse env doc) : ∃ ns, numsOf env doc = .ok ns :=
  numericKeys_of_parse fun k hk => by
    obtain ⟨h0, h1, h65⟩ := (mem_keys_cleaned nd).1 hk
    exact h k h0 h1 h65

theorem encode_written_iff {env : PyEnv} {spec : Spec} {doc doc' : Doc} {s : Bytes} {enc : EncDoc} (nd : doc.NoDup) :
    encode env spec doc = (.ok (s, enc), doc') ↔
      ∃ ps b, Written env spec doc ps b ∧ enc = partsEnc ps ∧ s = wire enc ∧ doc' = docAfter doc b := by
  have back : ∀ l : List Item, (l.map Item.part).map Part.item = l := fun l => by
    rw [List.map_map]; exact List.map_id l
  -- facts about the numbers
  have key : ∀ ns, numsOf env doc = .ok ns → (setUpdate [] ns).all inRange = true →
      (∀ x ∈ (setUpdate [] ns).map Int.toNat, 1 ≤ x ∧ x ≤ 192) ∧
      (∀ i : Nat, i ∈ (setUpdate [] ns).map Int.toNat ↔ Numbered env doc i) ∧ (∀ n, Numbered env doc n → 1 ≤ n ∧ n ≤ 192) := by
    intro ns hn hr
    have hm := (numsOf_ok hn (nd := nd)).2
    have hrange : ∀ n ∈ ns, 1 ≤ n ∧ n ≤ 192 := by
      intro n hn
      have := List.all_eq_true.1 hr n (mem_setUpdate.2 (.inr hn))
      simp [inRange] at this
      omega
    refine ⟨?_, ?_, fun n hn => hrange n ((hm n).2 hn)⟩
    · intro x hx
      obtain ⟨y, hy, rfl⟩ := List.mem_map.1 hx
      have := hrange y (by simpa [mem_setUpdate] using hy)
      omega
    · intro i
      rw [← hm]
      constructor
      · intro hx
        obtain ⟨y, hy, rfl⟩ := List.mem_map.1 hx
        have hy : y ∈ ns := by simpa [mem_setUpdate] using hy
        have := hrange y hy
        rwa [Int.toNat_of_nonneg (by omega)]
      · intro hi
        exact List.mem_map.2 ⟨(i : Int), by simpa [mem_setUpdate] using hi, by simp⟩
  have flagged : ∀ F : List Nat, (∀ x ∈ F, 1 ≤ x ∧ x ≤ 192) → (∀ i : Nat, i ∈ F ↔ Numbered env doc i) → ∀ i : Nat,
      i ∈ f2Of F ↔ Flagged env doc i := by
    intro F h1 h2 i
    rw [mem_f2Of (fun x hx => (h1 x hx).2)]
    unfold Flagged
    simp only [h2]
    constructor
    · rintro (h | ⟨h, y, h3, h4⟩ | ⟨h, y, h3, h4⟩)
      · exact .inl h
      · exact .inr (.inl ⟨h, y, h4, h3⟩)
      · exact .inr (.inr ⟨h, y, h4, h3⟩)
    · rintro (h | ⟨h, y, h3, h4⟩ | ⟨h, y, h3, h4⟩)
      · exact .inl h
      · exact .inr (.inl ⟨h, y, h4, h3⟩)
      · exact .inr (.inr ⟨h, y, h4, h3⟩)
  rw [encode_ok_iff]
  constructor
  · rintro ⟨ns, hn, hr, items, bms, ⟨hdr, ty, flds, rfl, hh, ht, hb, hf⟩, rfl, rfl, rfl⟩
    obtain ⟨k1, k2, k3⟩ := key ns hn hr
    have nodup : ((setUpdate [] ns).map Int.toNat).Nodup := toNat_nodup (nodup_setUpdate List.nodup_nil) hr
    rw [← back hdr] at hh
    rw [← back flds] at hf
    rw [← back bms] at hb
    obtain ⟨f1, f2⟩ := fieldsWrite_iff.1 hf
    have e : hdr ++ ty :: bms ++ flds =
        (hdr.map Item.part ++ ty.part :: bms.map Item.part ++ flds.map Item.part).map Part.item := by
      simp [back, item_part]
    refine ⟨hdr.map Item.part ++ ty.part :: bms.map Item.part ++ flds.map Item.part, bms.map Item.part, ⟨(numsOf_ok nd hn).1, k3,
      _, _, _, _, rfl, headerWrites_iff.1 hh, typeWrites_iff.1 ht,
      (bitmapsWrite_iff k1 fun i _ => flagged _ k1 k2 i).1 hb, sortedNat_lt (restOf_nodup nodup), ?_, f1, f2⟩, ?_, ?_, ?_⟩
    · intro i; rw [mem_sortedNat, mem_restOf, k2]
    · rw [e, encOf_items]
    · rw [wire_encOf]
    · rw [docAfter_eq, back]
  · rintro ⟨ps, b, ⟨hp, k3, h, t, f, F, rfl, hh, ht, hb, hF, hm, hk, hf⟩, rfl, rfl, rfl⟩
    obtain ⟨ns, hn⟩ := numsOf_of_parse nd hp
    have hr : (setUpdate [] ns).all inRange = true := by
      rw [List.all_eq_true]
      intro x hx
      have := k3 x (((numsOf_ok nd hn).2 x).1 (by simpa [mem_setUpdate] using hx))
      simp [inRange]
      omega
    obtain ⟨k1, k2, _⟩ := key ns hn hr
    have nodup : ((setUpdate [] ns).map Int.toNat).Nodup := toNat_nodup (nodup_setUpdate List.nodup_nil) hr
    refine ⟨ns, hn, hr, (h ++ t :: b ++ f).map Part.item, b.map Part.item, ⟨h.map Part.item, t.item, f.map Part.item, by simp,
      headerWrites_iff.2 hh, typeWrites_iff.2 ht, (bitmapsWrite_iff k1 fun i _ => flagged _ k1 k2 i).2 hb, ?_⟩, ?_, ?_, ?_⟩
    · have : sortedNat (restOf ((setUpdate [] ns).map Int.toNat)) = F :=
        sorted_lt_ext (sortedNat_lt (restOf_nodup nodup)) hF fun x => by rw [mem_sortedNat, mem_restOf, k2, hm]
      rw [this]
      exact fieldsWrite_iff.2 ⟨hk, hf⟩
    · rw [wireOf_items]
    · rw [encOf_items]
    · rw [docAfter_eq]

end Iso8583
