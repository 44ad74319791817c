import Verif.Lemmas.EncodeMsg
/-! # What encode writes, decode reads -/

namespace Iso8583

/-! ## The sets of fields -/

theorem mem_terOf {F : List Nat} {x : Nat} : x ∈ terOf F ↔ x ∈ F ∧ 129 ≤ x ∧ x < 193 := by simp [terOf]

theorem terOf_ne_nil {F : List Nat} (hF : ∀ x ∈ F, x ≤ 192) : terOf F ≠ [] ↔ ∃ y ∈ F, 128 < y := by
  rw [← List.isEmpty_eq_false_iff, List.isEmpty_eq_false_iff_exists_mem]
  constructor
  · rintro ⟨x, hx⟩; obtain ⟨h1, h2, _⟩ := mem_terOf.1 hx; exact ⟨x, h1, by omega⟩
  · rintro ⟨y, hy, h⟩; exact ⟨y, mem_terOf.2 ⟨hy, by omega, by have := hF y hy; omega⟩⟩

theorem mem_f1Of {F : List Nat} (hF : ∀ x ∈ F, x ≤ 192) {x : Nat} :
    x ∈ f1Of F ↔ x ∈ F ∨ (x = 65 ∧ ∃ y ∈ F, 128 < y) := by
  unfold f1Of
  split
  · next h => simp [(terOf_ne_nil hF).1 h]
  · next h =>
    have : ¬ ∃ y ∈ F, 128 < y := fun e => h ((terOf_ne_nil hF).2 e)
    simp only [this, and_false, or_false]

theorem mem_secOf {F : List Nat} (hF : ∀ x ∈ F, x ≤ 192) {x : Nat} :
    x ∈ secOf F ↔ (x ∈ F ∨ (x = 65 ∧ ∃ y ∈ F, 128 < y)) ∧ 65 ≤ x ∧ x < 129 := by
  simp [secOf, mem_f1Of hF]

theorem secOf_ne_nil {F : List Nat} (hF : ∀ x ∈ F, x ≤ 192) : secOf F ≠ [] ↔ ∃ y ∈ F, 64 < y := by
  rw [← List.isEmpty_eq_false_iff, List.isEmpty_eq_false_iff_exists_mem]
  constructor
  · rintro ⟨x, hx⟩
    obtain ⟨h1 | ⟨_, y, hy, h⟩, h2, _⟩ := (mem_secOf hF).1 hx
    · exact ⟨x, h1, by omega⟩
    · exact ⟨y, hy, by omega⟩
  · rintro ⟨y, hy, h⟩
    by_cases h' : 128 < y
    · exact ⟨65, (mem_secOf hF).2 ⟨.inr ⟨rfl, y, hy, h'⟩, by omega, by omega⟩⟩
    · exact ⟨y, (mem_secOf hF).2 ⟨.inl hy, by omega, by omega⟩⟩

theorem mem_f2Of {F : List Nat} (hF : ∀ x ∈ F, x ≤ 192) {x : Nat} :
    x ∈ f2Of F ↔ x ∈ F ∨ (x = 65 ∧ ∃ y ∈ F, 128 < y) ∨ (x = 1 ∧ ∃ y ∈ F, 64 < y) := by
  unfold f2Of
  split
  · next h => simp [mem_f1Of hF, (secOf_ne_nil hF).1 h, or_assoc]
  · next h =>
    have : ¬ ∃ y ∈ F, 64 < y := fun e => h ((secOf_ne_nil hF).2 e)
    simp only [mem_f1Of hF, this, and_false, or_false]

theorem mem_priOf {F : List Nat} (hF : ∀ x ∈ F, x ≤ 192) {x : Nat} :
    x ∈ priOf F ↔ (x ∈ F ∨ (x = 1 ∧ ∃ y ∈ F, 64 < y)) ∧ 1 ≤ x ∧ x < 65 := by
  simp only [priOf, mem_setInter, mem_f2Of hF]
  constructor
  · rintro ⟨h | ⟨rfl, _⟩ | h, h1, h2⟩
    · exact ⟨.inl h, h1, h2⟩
    · omega
    · exact ⟨.inr h, h1, h2⟩
  · rintro ⟨h | h, h1, h2⟩
    · exact ⟨.inl h, h1, h2⟩
    · exact ⟨.inr (.inr h), h1, h2⟩

theorem priOf_range {F : List Nat} : ∀ f ∈ priOf F, 0 + 1 ≤ f ∧ f ≤ 0 + 64 := by
  intro f hf; simp only [priOf, mem_setInter] at hf; omega

theorem secOf_range {F : List Nat} : ∀ f ∈ secOf F, 64 + 1 ≤ f ∧ f ≤ 64 + 64 := by
  intro f hf; simp only [secOf, mem_setInter] at hf; omega

theorem terOf_range {F : List Nat} : ∀ f ∈ terOf F, 128 + 1 ≤ f ∧ f ≤ 128 + 64 := by
  intro f hf; simp only [terOf, mem_setInter] at hf; omega

theorem bitmapOf_length {off : Nat} {F : List Nat} (h : ∀ f ∈ F, off + 1 ≤ f ∧ f ≤ off + 64) :
    (bitmapOf off F).length = 8 := by
  obtain ⟨bm, h1, h2, _⟩ := bitmapLoop_zero h
  rw [bitmapOf_some h] at h1; cases h1; exact h2

theorem bitOn_bitmapOf {off : Nat} {F : List Nat} (h : ∀ f ∈ F, off + 1 ≤ f ∧ f ≤ off + 64) {i : Nat} (hi : 1 ≤ i) :
    bitOn (bitmapOf off F) i = true ↔ off + i ∈ F := by
  obtain ⟨bm, h1, _, h3⟩ := bitmapLoop_zero h
  rw [bitmapOf_some h] at h1; cases h1; exact h3 i hi

theorem mem_fields_bitmapOf {off : Nat} {F : List Nat} (h : ∀ f ∈ F, off + 1 ≤ f ∧ f ≤ off + 64) {x : Nat} :
    x ∈ bitmapFields off (bitmapOf off F) ↔ x ∈ F := mem_bitmapFields_loop h (bitmapOf_some h)

/-- A bitmap is the only one whose bits are those of its fields. -/
theorem bitmapOf_unique {off : Nat} {F : List Nat} {bm : Bytes} (h : ∀ f ∈ F, off + 1 ≤ f ∧ f ≤ off + 64)
    (hl : bm.length = 8) (hb : ∀ x, x ∈ bitmapFields off bm ↔ x ∈ F) : bm = bitmapOf off F := by
  refine bitmap_ext (by rw [hl, bitmapOf_length h]) ?_
  intro i hi
  rw [bitOn_bitmapOf h hi, ← hb, mem_bitmapFields]
  constructor
  · intro h; exact ⟨i, hi, rfl, h⟩
  · rintro ⟨j, _, e, hj⟩
    have : i = j := by omega
    rw [this]; exact hj

/-! ## Bitmaps -/

theorem isHexDigit_hexText (b : Bytes) : ∀ x ∈ hexText b, isHexDigit x = true := by
  have hc : ∀ n, n < 16 → isHexDigit (hexChar n) = true := by decide
  induction b with
  | nil => simp [hexText]
  | cons x t ih =>
    intro y hy
    simp only [hexText, List.mem_cons] at hy
    have hx : x.toNat < 256 := x.toNat_lt
    rcases hy with rfl | rfl | hy
    · exact hc _ (by omega)
    · exact hc _ (by omega)
    · exact ih y hy

theorem BitmapWrites.reads {env : PyEnv} {fs : FieldSpec} {bm D : Bytes} (hl : BitmapLaws env fs) (h8 : bm.length = 8)
    (h : BitmapWrites env fs bm D) : BitmapReads env fs D (hexText bm) bm := by
  unfold BitmapWrites at h
  by_cases hb : fs.isBinary
  · rw [if_pos hb] at h
    subst h
    have hb' : fs.dataEnc = py"b" := hb
    exact ⟨by rw [bitmapWidth, if_pos hb', h8], by rw [plainValue, if_pos hb', hexText_eq], by rw [bitmapBits, if_pos hb']⟩
  · rw [if_neg hb] at h
    obtain ⟨c, hc, he⟩ := h
    obtain ⟨hrt, hw⟩ := hl hb c hc
    have hb' : ¬ fs.dataEnc = py"b" := hb
    obtain ⟨b, hb1, hb2⟩ := hw _ (isHexDigit_hexText bm)
    rw [he] at hb1; cases hb1
    refine ⟨?_, ?_, ?_⟩
    · rw [bitmapWidth, if_neg hb', hb2, hexText_length, h8]
    · rw [plainValue, if_neg hb']
      have hD : D ≠ [] := by
        intro e; rw [e, hexText_length, h8] at hb2; simp at hb2
      simp [bytesDecode, hc, hrt.decode_encode _ _ he, hD]
    · rw [bitmapBits, if_neg hb', ← hexText_eq]
      exact fromHex_bytesHex_upper bm

theorem BitmapsWrite.reads {env : PyEnv} {spec : Spec} {F : List Nat} {bms : List Item}
    (hl : ∀ k fs, k = py"p" ∨ k = py"1" → spec.get? k = some fs → BitmapLaws env fs)
    (hF : ∀ x ∈ F, 1 ≤ x ∧ x ≤ 192) (h : BitmapsWrite env spec F bms) :
    ∃ Fd, BitmapsRead env spec bms Fd ∧ ∀ x, x ∈ Fd ↔ x ∈ restOf F := by
  have hF' : ∀ x ∈ F, x ≤ 192 := fun x hx => (hF x hx).2
  have m0 : ∀ x, x ∈ fields0 (bitmapOf 0 (priOf F)) ↔ x ∈ priOf F := fun x => by
    rw [mem_fields0, mem_fields_bitmapOf priOf_range]
  have m1 : ∀ x, x ∈ bitmapFields 64 (bitmapOf 64 (secOf F)) ↔ x ∈ secOf F := fun x => mem_fields_bitmapOf secOf_range
  have m2 : ∀ x, x ∈ bitmapFields 128 (bitmapOf 128 (terOf F)) ↔ x ∈ terOf F := fun x => mem_fields_bitmapOf terOf_range
  have l0 := bitmapOf_length (off := 0) (priOf_range (F := F))
  have l1 := bitmapOf_length (off := 64) (secOf_range (F := F))
  have l2 := bitmapOf_length (off := 128) (terOf_range (F := F))
  have p1 : 1 ∈ f2Of F ↔ 1 ∈ fields0 (bitmapOf 0 (priOf F)) := by
    rw [m0]; simp [priOf]
  have p65 : 65 ∈ f2Of F → 65 ∈ fields1 (fields0 (bitmapOf 0 (priOf F))) (bitmapOf 64 (secOf F)) := by
    intro h65
    rw [mem_fields1, m1]
    refine ⟨.inr ((mem_secOf hF').2 ⟨?_, by omega, by omega⟩), by omega⟩
    rcases (mem_f2Of hF').1 h65 with h | h | ⟨h, _⟩
    · exact .inl h
    · exact .inr h
    · omega
  have p65' : 65 ∈ fields1 (fields0 (bitmapOf 0 (priOf F))) (bitmapOf 64 (secOf F)) → 65 ∈ f2Of F := by
    rw [mem_fields1, m1, m0, mem_f2Of hF']
    rintro ⟨h | h, _⟩
    · have := priOf_range _ h; omega
    · rcases ((mem_secOf hF').1 h).1 with h | h
      · exact .inl h
      · exact .inr (.inl h)
  cases h with
  | primary hp hw h1 =>
    have hno : ∀ y ∈ F, y ≤ 64 := by
      intro y hy
      rcases Nat.lt_or_ge 64 y with hlt | hge
      · exact absurd ((mem_f2Of hF').2 (.inr (.inr ⟨rfl, y, hy, hlt⟩))) h1
      · exact hge
    refine ⟨_, .primary hp (hw.reads (hl _ _ (.inl rfl) hp) l0) (fun h => h1 (p1.2 h)) ?_, ?_⟩
    · intro h; have := priOf_range _ ((m0 _).1 h); omega
    · intro x
      rw [m0, mem_restOf, mem_priOf hF']
      constructor
      · rintro ⟨h | ⟨_, y, hy, hlt⟩, h2, h3⟩
        · refine ⟨h, ?_, by omega⟩
          rintro rfl
          exact h1 ((mem_f2Of hF').2 (.inl h))
        · have := hno y hy; omega
      · rintro ⟨h, h2, h3⟩
        exact ⟨.inl h, (hF x h).1, by have := hno x h; omega⟩
  | secondary hp hw h1 hs1 hw1 h65 =>
    refine ⟨_, .secondary hp (hw.reads (hl _ _ (.inl rfl) hp) l0) (p1.1 h1) hs1 (hw1.reads (hl _ _ (.inr rfl) hs1) l1)
      (fun h => h65 (p65' h)), ?_⟩
    have hno : ∀ y ∈ F, y ≤ 128 := by
      intro y hy
      rcases Nat.lt_or_ge 128 y with hlt | hge
      · exact absurd ((mem_f2Of hF').2 (.inr (.inl ⟨rfl, y, hy, hlt⟩))) h65
      · exact hge
    intro x
    rw [mem_fields1, m0, m1, mem_restOf, mem_priOf hF', mem_secOf hF']
    constructor
    · rintro ⟨⟨h | ⟨h, _⟩, _⟩ | ⟨h | ⟨_, y, hy, hlt⟩, h2, h3⟩, hne⟩
      · exact ⟨h, hne, by omega⟩
      · exact absurd h hne
      · refine ⟨h, hne, ?_⟩
        rintro rfl
        exact h65 ((mem_f2Of hF').2 (.inl h))
      · have := hno y hy; omega
    · rintro ⟨h, h2, h3⟩
      refine ⟨?_, h2⟩
      have a1 := hF x h
      have a2 := hno x h
      by_cases hx : x < 65
      · exact .inl ⟨.inl h, a1.1, hx⟩
      · exact .inr ⟨.inl h, by omega, by omega⟩
  | tertiary hp hw h1 hs1 hw1 h65 hw2 =>
    refine ⟨_, .tertiary hp (hw.reads (hl _ _ (.inl rfl) hp) l0) (p1.1 h1) hs1 (hw1.reads (hl _ _ (.inr rfl) hs1) l1)
      (p65 h65) (hw2.reads (hl _ _ (.inr rfl) hs1) l2), ?_⟩
    intro x
    rw [mem_fields2, mem_fields1, m0, m1, m2, mem_restOf, mem_priOf hF', mem_secOf hF', mem_terOf]
    constructor
    · rintro ⟨⟨⟨h | ⟨h, _⟩, _⟩ | ⟨h | ⟨h, _⟩, h2, h3⟩, hne⟩ | ⟨h, h2, h3⟩, hne'⟩
      · exact ⟨h, hne, hne'⟩
      · exact absurd h hne
      · exact ⟨h, hne, hne'⟩
      · exact absurd h hne'
      · exact ⟨h, by omega, hne'⟩
    · rintro ⟨h, h2, h3⟩
      refine ⟨?_, h3⟩
      have a1 := hF x h
      by_cases hx : x < 65
      · exact .inl ⟨.inl ⟨.inl h, a1.1, hx⟩, h2⟩
      · by_cases hx' : x < 129
        · exact .inl ⟨.inr ⟨.inl h, by omega, hx'⟩, h2⟩
        · exact .inr ⟨h, by omega, by omega⟩

/-! ## The other parts -/

theorem HeaderWrites.reads {env : PyEnv} {spec : Spec} {g : Str → Option Val} {hdr : List Item} (hl : SpecLaws env spec)
    (h : HeaderWrites env spec g hdr) : HeaderReads env spec hdr := by
  obtain ⟨fs, hs, h⟩ := h
  refine ⟨fs, hs, ?_⟩
  split
  · next hm => rw [if_pos hm] at h; exact h
  · next hm =>
    rw [if_neg hm] at h
    obtain ⟨v, n, it, rfl, hk, _, hw, hv⟩ := h
    exact ⟨n, it, rfl, hk, hv ▸ hw.reads (hl.fields _ _ hs (by decide) (by decide) (by decide))⟩

theorem TypeWrites.reads {env : PyEnv} {spec : Spec} {g : Str → Option Val} {ty : Item} (hl : SpecLaws env spec)
    (h : TypeWrites env spec g ty) : TypeItem env spec ty := by
  obtain ⟨fs, v, hs, _, hk, hlen, hd, hx, hv⟩ := h
  refine ⟨fs, hs, hk, hlen, ?_⟩
  unfold DataWrites at hd
  have hnn : ¬ (asType fs).inNibbles := by simp [FieldSpec.inNibbles, asType]
  by_cases hb : fs.isBinary
  · rw [if_pos (show (asType fs).isBinary from hb), if_neg hnn] at hd
    refine ⟨hd.2.symm, ?_⟩
    rw [plainValue, if_pos (show fs.dataEnc = py"b" from hb), hexText_eq, hd.1, hv, readBack, if_pos hb]
  · rw [if_neg (show ¬ (asType fs).isBinary from hb)] at hd
    obtain ⟨t, c, rfl, hc, he, hn⟩ := hd
    rw [if_neg hnn] at hn
    refine ⟨hn.symm, ?_⟩
    have hc' : env.codec fs.dataEnc = some c := hc
    rw [plainValue, if_neg (show ¬ fs.dataEnc = py"b" from hb), hv, readBack, if_neg hb]
    have hD : ty.data ≠ [] := by
      intro e; rw [e] at hn; simp [typeWidth, show ¬ fs.dataEnc = py"b" from hb] at hn
    simp [bytesDecode, hD, hc', (hl.type fs hs hb c hc').decode_encode _ _ he, Val.text]

theorem FieldsWrite.reads {env : PyEnv} {spec : Spec} {g : Str → Option Val} {is : List Nat} {flds : List Item}
    (hl : SpecLaws env spec) (h : FieldsWrite env spec g is flds) (h1 : 1 ∉ is) : FieldsRead env spec is flds := by
  induction h with
  | nil => exact .nil
  | cons hs hg hk hw hv _ ih =>
    simp only [List.mem_cons, not_or] at h1
    refine .cons hs hk (hv ▸ hw.reads (hl.fields _ _ hs ?_ ?_ ?_)) (ih h1.2)
    · exact natStr_ne_letter (by decide)
    · exact natStr_ne_letter (by decide)
    · exact natStr_ne_one (Ne.symm h1.1)

theorem MsgWrites.reads {env : PyEnv} {spec : Spec} {g : Str → Option Val} {F : List Nat} {items bms : List Item}
    (hl : SpecLaws env spec) (hnd : F.Nodup) (hF : ∀ x ∈ F, 1 ≤ x ∧ x ≤ 192)
    (h : MsgWrites env spec g F items bms) : MsgReads env spec items := by
  obtain ⟨hdr, ty, flds, rfl, hh, ht, hb, hf⟩ := h.parts
  obtain ⟨Fd, hr, hmem⟩ := hb.reads hl.bitmaps hF
  refine ⟨hdr, ty, bms, flds, Fd, rfl, hh.reads hl, ht.reads hl, hr, ?_⟩
  rw [sortedNat_ext hr.fields.1 (restOf_nodup hnd) hmem]
  exact hf.reads hl (by simp [mem_restOf])

theorem inRange_mem {ns : List Int} (h : (setUpdate [] ns).all inRange = true) :
    ((setUpdate [] ns).map Int.toNat).Nodup ∧ ∀ x ∈ (setUpdate [] ns).map Int.toNat, 1 ≤ x ∧ x ≤ 192 := by
  refine ⟨toNat_nodup (nodup_setUpdate List.nodup_nil) h, ?_⟩
  intro x hx
  obtain ⟨i, hi, rfl⟩ := List.mem_map.1 hx
  have := List.all_eq_true.1 h i hi
  simp only [inRange, Bool.and_eq_true, decide_eq_true_eq] at this
  omega

end Iso8583
