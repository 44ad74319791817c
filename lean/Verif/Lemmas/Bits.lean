import Verif.Spec.Basic
/-! # Lemmas about bitmaps -/

namespace Iso8583

theorem bit_and_one (n k : Nat) : (n >>> k) &&& 1 = 1 ↔ n.testBit k = true := by
  rw [Nat.testBit, Nat.and_comm]
  have h : 1 &&& (n >>> k) = (n >>> k) % 2 := by rw [Nat.and_comm, Nat.and_one_is_mod]
  rw [h]
  have : (n >>> k) % 2 < 2 := Nat.mod_lt _ (by omega)
  simp

theorem mem_bitColumn {off bit : Nat} : ∀ {bm : Bytes} {k x : Nat},
    x ∈ bitColumn off bit k bm ↔ ∃ j b, bm[j]? = some b ∧ b.toNat.testBit (8 - bit) = true ∧ x = off + (k + j) * 8 + bit
  | [], k, x => by simp [bitColumn]
  | b :: t, k, x => by
    have ih := mem_bitColumn (off := off) (bit := bit) (bm := t) (k := k + 1) (x := x)
    rw [bitColumn]
    constructor
    · intro h
      split at h
      · next hb =>
        rcases List.mem_cons.1 h with h | h
        · exact ⟨0, b, by simp, (bit_and_one _ _).1 hb, by simpa using h⟩
        · obtain ⟨j, c, h1, h2, h3⟩ := ih.1 h
          exact ⟨j + 1, c, by simpa using h1, h2, by rw [h3]; omega⟩
      · obtain ⟨j, c, h1, h2, h3⟩ := ih.1 h
        exact ⟨j + 1, c, by simpa using h1, h2, by rw [h3]; omega⟩
    · rintro ⟨j, c, h1, h2, h3⟩
      cases j with
      | zero =>
        simp at h1; subst h1
        rw [if_pos ((bit_and_one _ _).2 h2)]
        simp [h3]
      | succ j =>
        have : x ∈ bitColumn off bit (k + 1) t := ih.2 ⟨j, c, by simpa using h1, h2, by rw [h3]; omega⟩
        split
        · exact List.mem_cons_of_mem _ this
        · exact this

/-- The list comprehension of the decoder produces exactly the fields whose bit is on. -/
theorem mem_bitmapFields {off x : Nat} {bm : Bytes} :
    x ∈ bitmapFields off bm ↔ ∃ i, 1 ≤ i ∧ x = off + i ∧ bitOn bm i = true := by
  simp only [bitmapFields, List.mem_flatMap]
  constructor
  · rintro ⟨bit, hbit, hx⟩
    obtain ⟨j, b, h1, h2, h3⟩ := mem_bitColumn.1 hx
    have hb : 1 ≤ bit ∧ bit ≤ 8 := by
      simp at hbit; omega
    refine ⟨j * 8 + bit, by omega, by rw [h3]; omega, ?_⟩
    have e1 : (j * 8 + bit - 1) / 8 = j := by omega
    have e2 : 7 - (j * 8 + bit - 1) % 8 = 8 - bit := by omega
    simp only [bitOn, e1, e2, h1, h2]
  · rintro ⟨i, hi, rfl, hb⟩
    unfold bitOn at hb
    split at hb
    · next b hj =>
      refine ⟨(i - 1) % 8 + 1, ?_, mem_bitColumn.2 ⟨(i - 1) / 8, b, hj, ?_, ?_⟩⟩
      · have : (i - 1) % 8 < 8 := Nat.mod_lt _ (by omega)
        simp; omega
      · have : 8 - ((i - 1) % 8 + 1) = 7 - (i - 1) % 8 := by omega
        rw [this]; exact hb
      · omega
    · simp at hb

theorem bitOn_le {bm : Bytes} {i : Nat} (hi : 1 ≤ i) (h : bitOn bm i = true) : i ≤ 8 * bm.length := by
  unfold bitOn at h
  split at h
  · next b hb =>
    have := (List.getElem?_eq_some_iff.1 hb).1
    omega
  · simp at h

/-! ## The encoder's loop -/

theorem orAt_spec : ∀ {bm : Bytes} {i bit : Nat}, i < bm.length → bit < 8 →
    ∃ bm', orAt bm i bit = some bm' ∧ bm'.length = bm.length ∧
      ∀ j k, (∃ b, bm'[j]? = some b ∧ b.toNat.testBit k = true) ↔
        ((∃ b, bm[j]? = some b ∧ b.toNat.testBit k = true) ∨ (j = i ∧ k = bit))
  | [], i, bit, h, _ => by simp at h
  | b :: t, 0, bit, h, hb => by
    refine ⟨_, rfl, rfl, ?_⟩
    have hlt : b.toNat ||| 1 <<< bit < 256 := by
      apply Nat.or_lt_two_pow (n := 8)
      · have := b.toNat_lt; omega
      · rw [Nat.one_shiftLeft]
        exact Nat.pow_lt_pow_right (by omega) hb
    intro j k
    cases j with
    | zero =>
      simp only [List.getElem?_cons_zero, Option.some.injEq]
      have e : (UInt8.ofNat (b.toNat ||| 1 <<< bit)).toNat = b.toNat ||| 1 <<< bit := by
        simp only [UInt8.toNat_ofNat', Nat.mod_eq_of_lt hlt]
      constructor
      · rintro ⟨c, rfl, hc⟩
        rw [e, Nat.testBit_or, Nat.one_shiftLeft, Nat.testBit_two_pow] at hc
        simp at hc
        rcases hc with hc | hc
        · exact Or.inl ⟨b, rfl, hc⟩
        · exact Or.inr ⟨by simp, by omega⟩
      · intro h
        refine ⟨_, rfl, ?_⟩
        rw [e, Nat.testBit_or, Nat.one_shiftLeft, Nat.testBit_two_pow]
        rcases h with ⟨c, rfl, hc⟩ | ⟨_, hk⟩
        · simp [hc]
        · simp [hk]
    | succ j => simp
  | b :: t, i + 1, bit, h, hb => by
    obtain ⟨t', h1, h2, h3⟩ := orAt_spec (bm := t) (i := i) (bit := bit) (by simpa using h) hb
    refine ⟨b :: t', by simp [orAt, h1], by simp [h2], ?_⟩
    intro j k
    cases j with
    | zero => simp
    | succ j => simpa using h3 j k

theorem bitOn_iff {bm : Bytes} {i : Nat} :
    bitOn bm i = true ↔ ∃ b, bm[(i - 1) / 8]? = some b ∧ b.toNat.testBit (7 - (i - 1) % 8) = true := by
  unfold bitOn
  cases bm[(i - 1) / 8]? <;> simp

theorem bitmapLoop_spec {off : Nat} : ∀ {fields : List Nat} {bm : Bytes}, bm.length = 8 →
    (∀ f ∈ fields, off + 1 ≤ f ∧ f ≤ off + 64) →
    ∃ bm', bitmapLoop off fields bm = some bm' ∧ bm'.length = 8 ∧
      ∀ i, 1 ≤ i → (bitOn bm' i = true ↔ (bitOn bm i = true ∨ off + i ∈ fields))
  | [], bm, hl, _ => ⟨bm, rfl, hl, by simp⟩
  | f :: rest, bm, hl, hf => by
    have hf0 := hf f (by simp)
    obtain ⟨bm1, h1, h2, h3⟩ := orAt_spec (bm := bm) (i := (f - (1 + off)) / 8)
      (bit := 7 - (f - (1 + off) - (f - (1 + off)) / 8 * 8)) (by omega) (by omega)
    obtain ⟨bm2, h4, h5, h6⟩ := bitmapLoop_spec (off := off) (fields := rest) (bm := bm1) (by omega)
      (fun x hx => hf x (by simp [hx]))
    refine ⟨bm2, by simp only [bitmapLoop, h1]; exact h4, h5, ?_⟩
    intro i hi
    rw [h6 i hi, bitOn_iff, h3, ← bitOn_iff]
    simp only [List.mem_cons]
    constructor
    · rintro ((h | h) | h)
      · exact Or.inl h
      · exact Or.inr (Or.inl (by omega))
      · exact Or.inr (Or.inr h)
    · rintro (h | h | h)
      · exact Or.inl (Or.inl h)
      · exact Or.inl (Or.inr (by omega))
      · exact Or.inr h

theorem bitOn_zero (i : Nat) : bitOn (List.replicate 8 0) i = false := by
  cases h : bitOn (List.replicate 8 0) i with
  | false => rfl
  | true =>
    obtain ⟨b, h1, h2⟩ := bitOn_iff.1 h
    have := List.getElem?_eq_some_iff.1 h1
    obtain ⟨hl, hb⟩ := this
    rw [List.getElem_replicate] at hb
    subst hb
    simp at h2

/-- Two bitmaps of the same size with the same bits on are equal. -/
theorem bitmap_ext {a b : Bytes} (hl : a.length = b.length)
    (h : ∀ i, 1 ≤ i → (bitOn a i = true ↔ bitOn b i = true)) : a = b := by
  apply List.ext_getElem hl
  intro j h1 h2
  apply UInt8.toNat_inj.1
  apply Nat.eq_of_testBit_eq
  intro k
  by_cases hk : k < 8
  · have := h (j * 8 + (7 - k) + 1) (by omega)
    rw [bitOn_iff, bitOn_iff] at this
    have e1 : (j * 8 + (7 - k) + 1 - 1) / 8 = j := by omega
    have e2 : 7 - (j * 8 + (7 - k) + 1 - 1) % 8 = k := by omega
    rw [e1, e2] at this
    simp only [List.getElem?_eq_getElem h1, List.getElem?_eq_getElem h2, Option.some.injEq,
      exists_eq_left'] at this
    exact Bool.eq_iff_iff.2 this
  · have ha : a[j].toNat < 2 ^ k := Nat.lt_of_lt_of_le a[j].toNat_lt (Nat.pow_le_pow_right (by omega) (by omega))
    have hb : b[j].toNat < 2 ^ k := Nat.lt_of_lt_of_le b[j].toNat_lt (Nat.pow_le_pow_right (by omega) (by omega))
    rw [Nat.testBit_lt_two_pow ha, Nat.testBit_lt_two_pow hb]

/-- The bitmap the encoder builds: the unique 8-byte bitmap whose bits are the given fields. -/
theorem bitmapLoop_zero {off : Nat} {fields : List Nat} (hf : ∀ f ∈ fields, off + 1 ≤ f ∧ f ≤ off + 64) :
    ∃ bm, bitmapLoop off fields (List.replicate 8 0) = some bm ∧ bm.length = 8 ∧
      ∀ i, 1 ≤ i → (bitOn bm i = true ↔ off + i ∈ fields) := by
  obtain ⟨bm, h1, h2, h3⟩ := bitmapLoop_spec (off := off) (bm := List.replicate 8 0) (by simp) hf
  exact ⟨bm, h1, h2, fun i hi => by rw [h3 i hi, bitOn_zero]; simp⟩

/-- Reading back the bitmap the encoder builds. -/
theorem mem_bitmapFields_loop {off x : Nat} {fields : List Nat} {bm : Bytes}
    (hf : ∀ f ∈ fields, off + 1 ≤ f ∧ f ≤ off + 64)
    (h : bitmapLoop off fields (List.replicate 8 0) = some bm) : x ∈ bitmapFields off bm ↔ x ∈ fields := by
  obtain ⟨bm', h1, h2, h3⟩ := bitmapLoop_zero hf
  rw [h] at h1; cases h1
  rw [mem_bitmapFields]
  constructor
  · rintro ⟨i, hi, rfl, hb⟩; exact (h3 i hi).1 hb
  · intro hx
    have := hf x hx
    refine ⟨x - off, by omega, by omega, (h3 _ (by omega)).2 ?_⟩
    rw [show off + (x - off) = x by omega]; exact hx

end Iso8583
