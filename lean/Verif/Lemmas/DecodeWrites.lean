import Verif.Lemmas.EncodeCongr
import Verif.Lemmas.DecodeFault
import Verif.Spec.Canonical
import Verif.Props.EncodeRoundTrip
import Verif.Props.LengthPrefix
/-! # What decode reads in canonical form, encode writes -/

namespace Iso8583

/-- A field in canonical form is written the way it was read. -/
theorem FieldReads.writes {env : PyEnv} {fs : FieldSpec} {n : Int} {L D : Bytes} {v : Str}
    (h : FieldReads env fs n L D v) (hc : CanonicalField env fs ⟨L, D⟩ v) :
    ∃ m, FieldWrites env fs (.str v) m L D ∧ v = readBack fs (.str v) := by
  obtain ⟨hu, hd, hs⟩ := h.says
  have hup : fs.isBinary → upperCase v = v := by
    intro hb
    unfold DataSays at hs
    split at hs
    · subst hs; rfl
    · have hh := hexText_upper D
      split at hs
      · split at hs
        · obtain ⟨c, e⟩ := hs
          rw [e] at hh
          simp only [upperCase, List.map_cons, List.cons.injEq] at hh
          exact hh.2
        · obtain ⟨c, _, e⟩ := hs
          rw [e] at hh
          rw [upperCase_append] at hh
          exact (List.append_inj' hh rfl).1
      · subst hs; exact hh
  have hn0 : 0 ≤ n := by
    rcases Int.lt_or_le n 0 with hlt | hge
    · exfalso
      have hn1 : n = -1 ∧ fs.inNibbles := by
        unfold bytesFor at hd
        split at hd
        · next hb => exact ⟨by omega, hb⟩
        · omega
      obtain ⟨rfl, hnb⟩ := hn1
      by_cases hb : fs.isBinary
      · have hD : D = [] := by
          apply List.eq_nil_of_length_eq_zero
          rw [bytesFor, if_pos hnb] at hd
          omega
        subst hD
        have := h.data (by decide)
        unfold dataValue at this
        rw [if_pos (show fs.dataEnc = py"b" from hb), if_pos ⟨(count_nibbles fs).2 hnb, by decide⟩] at this
        have he : stripPad fs (-1) (upperAscii (bytesHex [])) = .error (.padMissing 0 (-1)) := by
          unfold stripPad
          rw [if_neg, if_neg]
          · rfl
          · rintro ⟨hp, e⟩
            rw [← e] at hp
            exact absurd hp (by decide)
          · rintro ⟨hp, e⟩
            rw [← e] at hp
            exact absurd hp (by decide)
        rw [he] at this
        cases this
      · have := hc.whole hb hnb (-1) hu
        omega
    · exact hge
  obtain ⟨m, rfl⟩ : ∃ m : Nat, n = m := ⟨n.toNat, by omega⟩
  refine ⟨m, ⟨?_, fun _ => .inl ⟨v, rfl⟩, ?_⟩, ?_⟩
  · unfold DataWrites
    by_cases hb : fs.isBinary
    · rw [if_pos hb]
      by_cases hnb : fs.inNibbles
      · rw [if_pos hnb]
        rw [bytesFor, if_pos hnb] at hd
        by_cases hD : D = []
        · subst hD
          have hv : v = [] := by unfold DataSays at hs; simpa using hs
          subst hv
          have : m = 0 := by simp at hd; omega
          subst this
          exact ⟨rfl, by simp [hexText, upperCase, Val.text]⟩
        · unfold DataSays at hs
          rw [if_neg hD, if_pos hb] at hs
          by_cases ho : m % 2 = 1
          · have ho' : (m : Int) % 2 = 1 := by omega
            rw [if_pos ⟨hnb, ho'⟩] at hs
            have hpad := hc.pad hb hnb m hu ho'
            rw [if_pos ho]
            cases hl : firstPad fs.leftPad with
            | some c =>
              rw [hl] at hs
              have hc1 : (hexText D).head? = some c := hpad c hl
              rw [if_pos hc1.symm] at hs
              obtain ⟨c', e⟩ := hs
              rw [e] at hc1
              obtain rfl : c' = c := by simpa using hc1
              refine ⟨?_, ?_⟩
              · have := congrArg List.length e; simp at this; simp only [Val.text]; omega
              · simp only [Val.text]; rw [← e, hexText_upper]
            | none =>
              rw [hl] at hs
              have hne : ¬ (none = (hexText D).head?) := by
                intro e
                have := List.head?_eq_none_iff.1 e.symm
                have hlen := congrArg List.length this
                simp at hlen
                exact hD (List.eq_nil_of_length_eq_zero (by omega))
              rw [if_neg hne] at hs
              obtain ⟨c, hr, e⟩ := hs
              rw [hr]
              refine ⟨?_, ?_⟩
              · have := congrArg List.length e; simp at this; simp only [Val.text]; omega
              · simp only [Val.text]; rw [← e, hexText_upper]
          · rw [if_neg (fun h => ho (by have := h.2; omega))] at hs
            subst hs
            rw [if_neg ho]
            refine ⟨?_, ?_⟩
            · simp only [Val.text, hexText_length]; omega
            · simp only [Val.text, hexText_upper]
      · rw [if_neg hnb]
        rw [bytesFor, if_neg hnb] at hd
        unfold DataSays at hs
        by_cases hD : D = []
        · rw [if_pos hD] at hs
          subst hD; subst hs
          exact ⟨by simp [hexText, upperCase, Val.text], by simp at hd; simp; omega⟩
        · rw [if_neg hD, if_pos hb, if_neg (fun h => hnb h.1)] at hs
          subst hs
          exact ⟨by simp only [Val.text, hexText_upper], by omega⟩
    · rw [if_neg hb]
      obtain ⟨c, hcd, he⟩ := hc.text hb
      refine ⟨v, c, rfl, hcd, he, ?_⟩
      unfold bytesFor at hd
      by_cases hnb : fs.inNibbles
      · rw [if_pos hnb] at hd ⊢
        have := hc.whole hb hnb m hu
        omega
      · rw [if_neg hnb] at hd ⊢
        omega
  · obtain ⟨hlen, hu'⟩ := hu
    by_cases h0 : fs.lenType = 0
    · rw [if_pos h0] at hu' ⊢
      exact ⟨hu', List.eq_nil_of_length_eq_zero (by omega)⟩
    · rw [if_neg h0] at hu' ⊢
      refine ⟨hu'.2, ?_⟩
      have hdecl := hu'.1
      unfold PrefixWrites
      unfold declared at hdecl
      by_cases hbb : fs.lenEnc = py"b"
      · rw [if_pos hbb] at hdecl ⊢
        exact ⟨hlen, by have := Option.some.inj hdecl; omega⟩
      · rw [if_neg hbb] at hdecl ⊢
        by_cases hbc : fs.lenEnc = py"bcd"
        · rw [if_pos hbc] at hdecl ⊢
          refine ⟨hlen, ?_⟩
          cases hx : bcdValue L with
          | none => simp [hx] at hdecl
          | some y => simp [hx] at hdecl; simp; omega
        · rw [if_neg hbc]
          obtain ⟨c, m', e, hcd, he⟩ := hc.prefixText h0 hbb hbc m ⟨hlen, by rw [if_neg h0]; exact hu'⟩
          obtain rfl : m = m' := by omega
          exact ⟨c, hcd, he, by omega⟩
  · unfold readBack
    split
    · next hb => exact (hup hb).symm
    · rfl

/-! ## Bitmaps -/

theorem upperCase_of_upperHex {t : Str} (h : ∀ c ∈ t, isUpperHexDigit c = true) : upperCase t = t := by
  unfold upperCase
  conv => rhs; rw [← List.map_id t]
  refine List.map_congr_left ?_
  intro c hc
  have := h c hc
  simp only [isUpperHexDigit, Bool.or_eq_true, Bool.and_eq_true, decide_eq_true_eq] at this
  rw [if_neg (by omega)]; rfl

/-- A bitmap in canonical form is written the way it was read. -/
theorem BitmapReads.writes {env : PyEnv} {fs : FieldSpec} {D : Bytes} {t : Str} {bm : Bytes}
    (h : BitmapReads env fs D t bm) (hc : CanonicalBitmap env fs D) :
    bm.length = 8 ∧ t = hexText bm ∧ BitmapWrites env fs bm D := by
  have hw := h.width
  have hD : D ≠ [] := by
    rintro rfl
    have := bitmapBytes_pos fs
    simp only [List.length_nil] at hw
    have : bitmapWidth fs = bitmapBytes fs := rfl
    omega
  have hs := (plainValue_ok_iff hD).1 h.data
  have hb := h.bits
  unfold bitmapBits at hb
  unfold BitmapWrites
  by_cases hbin : fs.isBinary
  · rw [if_pos (show fs.dataEnc = py"b" from hbin)] at hb
    obtain rfl := Option.some.inj hb
    rw [PlainSays, if_pos hbin] at hs
    rw [if_pos hbin]
    refine ⟨?_, hs, rfl⟩
    rw [hw, bitmapWidth, if_pos (show fs.dataEnc = py"b" from hbin)]
  · rw [if_neg (show ¬ fs.dataEnc = py"b" from hbin)] at hb
    obtain ⟨hlen, hup, c, hcd, he⟩ := hc hbin t hs
    rw [if_neg hbin]
    have hsp : ∀ x ∈ t, isAsciiSpace x = false := by
      intro x hx
      have := hup x hx
      simp only [isUpperHexDigit, Bool.or_eq_true, Bool.and_eq_true, decide_eq_true_eq] at this
      rw [Bool.eq_false_iff]
      simp only [isAsciiSpace, ne_eq, Bool.or_eq_true, Bool.and_eq_true, decide_eq_true_eq, beq_iff_eq]
      omega
    rw [fromHex_eq_a2bHex hsp] at hb
    have ht := a2bHex_iff.1 hb
    rw [upperCase_of_upperHex hup] at ht
    refine ⟨?_, ht.symm, c, hcd, by rw [ht]; exact he⟩
    have := congrArg List.length ht
    simp only [hexText_length] at this
    omega

theorem bitmapFields_le {off x : Nat} {bm : Bytes} (hl : bm.length = 8) (h : x ∈ bitmapFields off bm) : x ≤ off + 64 := by
  obtain ⟨i, hi, rfl, hb⟩ := mem_bitmapFields.1 h
  have := bitOn_le hi hb
  omega

/-- The bitmap items of a message in canonical form. -/
structure CanonicalBitmaps (env : PyEnv) (spec : Spec) (bms : List Item) (F : List Nat) : Prop where
  items : ∀ it ∈ bms, ∀ fs, spec.get? it.key = some fs → CanonicalBitmap env fs (it.data.take (bitmapBytes fs)) ∧
    (bitmapBytes fs < it.data.length → CanonicalBitmap env fs (it.data.drop (bitmapBytes fs)))
  secondary : py"1" ∈ keysOf bms → ∃ i ∈ F, 64 < i
  tertiary : ∀ it ∈ bms, it.key = py"1" → ∀ fs, spec.get? py"1" = some fs → bitmapBytes fs < it.data.length → ∃ i ∈ F, 128 < i

theorem take_width {D E : Bytes} {n : Nat} (h : D.length = n) : (D ++ E).take n = D ∧ (D ++ E).drop n = E := by
  subst h; simp

theorem BitmapsRead.writes {env : PyEnv} {spec : Spec} {bms : List Item} {F F' : List Nat}
    (h : BitmapsRead env spec bms F) (hc : CanonicalBitmaps env spec bms F) (hF' : ∀ x, x ∈ F' ↔ x ∈ F) :
    BitmapsWrite env spec F' bms ∧ ∀ x ∈ F, x ≤ 192 := by
  obtain ⟨hnd, h1, h65, h0⟩ := h.fields
  have hmem : ∀ {x}, x ∈ F' → x ∈ F := fun h => (hF' _).1 h
  obtain ⟨hi, hsec, hter⟩ := hc
  have tk : ∀ (fs : FieldSpec) (D : Bytes), D.length = bitmapWidth fs → D.take (bitmapBytes fs) = D := by
    intro fs D hD
    rw [show bitmapBytes fs = bitmapWidth fs from rfl, ← hD, List.take_length]
  have w8 : ∀ fs : FieldSpec, bitmapBytes fs = bitmapWidth fs := fun _ => rfl
  cases h with
  | @primary fs D t bm hp hr hn1 hn65 =>
    have hcb := (hi _ (List.mem_singleton.2 rfl) fs hp).1
    dsimp only at hcb
    rw [tk fs D hr.width] at hcb
    obtain ⟨hl, rfl, hw⟩ := hr.writes hcb
    have hle : ∀ x ∈ fields0 bm, x ≤ 64 := fun x hx => by
      have := bitmapFields_le hl (mem_fields0.1 hx); omega
    have hle' : ∀ x ∈ F', x ≤ 192 := fun x hx => by have := hle x (hmem hx); omega
    have hbm : bm = bitmapOf 0 (priOf F') := by
      refine bitmapOf_unique priOf_range hl ?_
      intro x
      rw [← mem_fields0, mem_priOf hle', hF']
      constructor
      · intro hx
        refine ⟨.inl hx, ?_, ?_⟩
        · rcases Nat.eq_zero_or_pos x with rfl | hp
          · exact absurd hx h0
          · exact hp
        · have := hle x hx; omega
      · rintro ⟨hx | ⟨rfl, y, hy, hlt⟩, _, _⟩
        · exact hx
        · have := hle y (hmem hy); omega
    refine ⟨?_, fun x hx => by have := hle x hx; omega⟩
    have hno : 1 ∉ f2Of F' := by
      rw [mem_f2Of hle', hF']
      rintro (h | ⟨h, _⟩ | ⟨_, y, hy, hlt⟩)
      · exact hn1 h
      · omega
      · have := hle y (hmem hy); omega
    subst hbm
    exact .primary hp hw hno
  | @secondary fs fs1 D D1 t t1 bm bm1 hp hr hin1 hs1 hr1 hn65 =>
    have hcb := (hi ⟨py"p", [], D, t⟩ (by simp) fs hp).1
    have hcb1 := (hi ⟨py"1", [], D1, t1⟩ (by simp) fs1 hs1).1
    dsimp only at hcb hcb1
    rw [tk fs D hr.width] at hcb
    rw [tk fs1 D1 hr1.width] at hcb1
    obtain ⟨hl, rfl, hw⟩ := hr.writes hcb
    obtain ⟨hl1, rfl, hw1⟩ := hr1.writes hcb1
    have hx0 : ∀ x ∈ fields0 bm, x ≤ 64 := fun x hx => by
      have := bitmapFields_le hl (mem_fields0.1 hx); omega
    have hx1 : ∀ x ∈ bitmapFields 64 bm1, 64 < x ∧ x ≤ 128 := fun x hx =>
      ⟨bitmapFields_gt hx, by have := bitmapFields_le hl1 hx; omega⟩
    have hle : ∀ x ∈ fields1 (fields0 bm) bm1, x ≤ 128 := fun x hx => by
      rcases (mem_fields1.1 hx).1 with h | h
      · have := hx0 x h; omega
      · exact (hx1 x h).2
    have hle' : ∀ x ∈ F', x ≤ 192 := fun x hx => by have := hle x (hmem hx); omega
    obtain ⟨y, hy, hy64⟩ := hsec (by simp)
    have hbm : bm = bitmapOf 0 (priOf F') := by
      refine bitmapOf_unique priOf_range hl ?_
      intro x
      rw [← mem_fields0, mem_priOf hle', hF', mem_fields1]
      constructor
      · intro hx
        have := hx0 x hx
        refine ⟨?_, bitmapFields_gt (mem_fields0.1 hx), by omega⟩
        by_cases hx1 : x = 1
        · exact .inr ⟨hx1, y, (hF' y).2 hy, hy64⟩
        · exact .inl ⟨.inl hx, hx1⟩
      · rintro ⟨⟨hx | hx, _⟩ | ⟨rfl, _⟩, _, hlt⟩
        · exact hx
        · have := hx1 x hx; omega
        · exact hin1
    have hbm1 : bm1 = bitmapOf 64 (secOf F') := by
      refine bitmapOf_unique secOf_range hl1 ?_
      intro x
      rw [mem_secOf hle', hF', mem_fields1]
      constructor
      · intro hx
        have := hx1 x hx
        exact ⟨.inl ⟨.inr hx, by omega⟩, by omega, by omega⟩
      · rintro ⟨⟨hx | hx, _⟩ | ⟨_, z, hz, hlt⟩, hge, _⟩
        · have := hx0 x hx; omega
        · exact hx
        · have := hle z (hmem hz); omega
    refine ⟨?_, fun x hx => by have := hle x hx; omega⟩
    have hin : 1 ∈ f2Of F' := (mem_f2Of hle').2 (.inr (.inr ⟨rfl, y, (hF' y).2 hy, hy64⟩))
    have hno : 65 ∉ f2Of F' := by
      rw [mem_f2Of hle', hF']
      rintro (h | ⟨_, z, hz, hlt⟩ | ⟨h, _⟩)
      · exact hn65 h
      · have := hle z (hmem hz); omega
      · omega
    subst hbm; subst hbm1
    exact .secondary hp hw hin hs1 hw1 hno
  | @tertiary fs fs1 D D1 D2 t t1 t2 bm bm1 bm2 hp hr hin1 hs1 hr1 hin65 hr2 =>
    have hcb := (hi ⟨py"p", [], D, t⟩ (by simp) fs hp).1
    have hcb1 := hi ⟨py"1", [], D1 ++ D2, t1 ++ t2⟩ (by simp) fs1 hs1
    dsimp only at hcb hcb1
    rw [tk fs D hr.width] at hcb
    have hgt : bitmapBytes fs1 < (D1 ++ D2).length := by
      have a := hr1.width; have b := hr2.width; have c := bitmapBytes_pos fs1
      rw [w8] at c ⊢
      rw [List.length_append]; omega
    obtain ⟨e1, e2⟩ := take_width (E := D2) (show D1.length = bitmapBytes fs1 from hr1.width)
    rw [e1, e2] at hcb1
    obtain ⟨hl, rfl, hw⟩ := hr.writes hcb
    obtain ⟨hl1, rfl, hw1⟩ := hr1.writes hcb1.1
    obtain ⟨hl2, rfl, hw2⟩ := hr2.writes (hcb1.2 hgt)
    have hx0 : ∀ x ∈ fields0 bm, x ≤ 64 := fun x hx => by
      have := bitmapFields_le hl (mem_fields0.1 hx); omega
    have hx1 : ∀ x ∈ bitmapFields 64 bm1, 64 < x ∧ x ≤ 128 := fun x hx =>
      ⟨bitmapFields_gt hx, by have := bitmapFields_le hl1 hx; omega⟩
    have hx2 : ∀ x ∈ bitmapFields 128 bm2, 128 < x ∧ x ≤ 192 := fun x hx =>
      ⟨bitmapFields_gt hx, by have := bitmapFields_le hl2 hx; omega⟩
    have hle : ∀ x ∈ fields2 (fields1 (fields0 bm) bm1) bm2, x ≤ 192 := fun x hx => by
      rcases (mem_fields2.1 hx).1 with h | h
      · rcases (mem_fields1.1 h).1 with h | h
        · have := hx0 x h; omega
        · have := hx1 x h; omega
      · exact (hx2 x h).2
    have hle' : ∀ x ∈ F', x ≤ 192 := fun x hx => hle x (hmem hx)
    obtain ⟨y, hy, hy128⟩ := hter ⟨py"1", [], D1 ++ D2, _⟩ (List.mem_cons_of_mem _ (List.mem_singleton.2 rfl)) rfl fs1 hs1 hgt
    have hin65' : 65 ∈ bitmapFields 64 bm1 := by
      rcases (mem_fields1.1 hin65).1 with h | h
      · have := hx0 65 h; omega
      · exact h
    have hbm : bm = bitmapOf 0 (priOf F') := by
      refine bitmapOf_unique priOf_range hl ?_
      intro x
      rw [← mem_fields0, mem_priOf hle', hF', mem_fields2, mem_fields1]
      constructor
      · intro hx
        have := hx0 x hx
        refine ⟨?_, bitmapFields_gt (mem_fields0.1 hx), by omega⟩
        by_cases hx1 : x = 1
        · exact .inr ⟨hx1, y, (hF' y).2 hy, by omega⟩
        · exact .inl ⟨.inl ⟨.inl hx, hx1⟩, by omega⟩
      · rintro ⟨⟨⟨hx | hx, _⟩ | hx, _⟩ | ⟨rfl, _⟩, _, hlt⟩
        · exact hx
        · have := hx1 x hx; omega
        · have := hx2 x hx; omega
        · exact hin1
    have hbm1 : bm1 = bitmapOf 64 (secOf F') := by
      refine bitmapOf_unique secOf_range hl1 ?_
      intro x
      rw [mem_secOf hle', hF', mem_fields2, mem_fields1]
      constructor
      · intro hx
        have := hx1 x hx
        refine ⟨?_, by omega, by omega⟩
        by_cases hx65 : x = 65
        · exact .inr ⟨hx65, y, (hF' y).2 hy, hy128⟩
        · exact .inl ⟨.inl ⟨.inr hx, by omega⟩, hx65⟩
      · rintro ⟨⟨⟨hx | hx, _⟩ | hx, _⟩ | ⟨rfl, _⟩, hge, hlt⟩
        · have := hx0 x hx; omega
        · exact hx
        · have := hx2 x hx; omega
        · exact hin65'
    have hbm2 : bm2 = bitmapOf 128 (terOf F') := by
      refine bitmapOf_unique terOf_range hl2 ?_
      intro x
      rw [mem_terOf, hF', mem_fields2, mem_fields1]
      constructor
      · intro hx
        have := hx2 x hx
        exact ⟨⟨.inr hx, by omega⟩, by omega, by omega⟩
      · rintro ⟨⟨⟨hx | hx, _⟩ | hx, _⟩, hge, hlt⟩
        · have := hx0 x hx; omega
        · have := hx1 x hx; omega
        · exact hx
    refine ⟨?_, hle⟩
    have hin : 1 ∈ f2Of F' := (mem_f2Of hle').2 (.inr (.inr ⟨rfl, y, (hF' y).2 hy, by omega⟩))
    have hi65 : 65 ∈ f2Of F' := (mem_f2Of hle').2 (.inr (.inl ⟨rfl, y, (hF' y).2 hy, hy128⟩))
    subst hbm; subst hbm1; subst hbm2
    exact .tertiary hp hw hin hs1 hw1 hi65 hw2
  | @oddPrimary fs D D2 t t2 bm bm2 hp hr hn1 hin65 hr2 =>
    exfalso
    have hcb := (hi ⟨py"p", [], D ++ D2, t ++ t2⟩ (by simp) fs hp).1
    dsimp only at hcb
    rw [(take_width (E := D2) (show D.length = bitmapBytes fs from hr.width)).1] at hcb
    obtain ⟨hl, _, _⟩ := hr.writes hcb
    have := bitmapFields_le hl (mem_fields0.1 hin65)
    omega

end Iso8583
