import Verif.Props.DecodeFailure
import Verif.Props.DecodeContent
import Verif.Props.EncodeRoundTrip
/-!
# Binary and BCD length prefixes are canonical (C46)
-/

namespace Iso8583

theorem beValue_lt (L : Bytes) : beValue L < 256 ^ L.length := by
  rw [← beValue_eq]; exact fromBytesBE_lt L

/-- Division of `a * m + r` by `m`. -/
theorem mul_add_inj {m a b r q : Nat} (hr : r < m) (hq : q < m) (h : a * m + r = b * m + q) : a = b ∧ r = q := by
  have hm : 0 < m := by omega
  have h1 : (a * m + r) / m = a := by
    rw [Nat.mul_comm, Nat.mul_add_div hm, Nat.div_eq_of_lt hr]; rfl
  have h2 : (b * m + q) / m = b := by
    rw [Nat.mul_comm, Nat.mul_add_div hm, Nat.div_eq_of_lt hq]; rfl
  have : a = b := by rw [← h1, ← h2, h]
  subst this
  exact ⟨rfl, by omega⟩

theorem beValue_inj : ∀ {a b : Bytes}, a.length = b.length → beValue a = beValue b → a = b
  | [], [], _, _ => rfl
  | x :: a, y :: b, hl, h => by
    simp only [List.length_cons, Nat.add_right_cancel_iff] at hl
    rw [beValue, beValue, hl] at h
    obtain ⟨h1, h2⟩ := mul_add_inj (by rw [← hl]; exact beValue_lt a) (beValue_lt b) h
    rw [beValue_inj hl h2, UInt8.toNat_inj.1 h1]

theorem bcdValue_inj : ∀ {a b : Bytes} {n : Nat}, a.length = b.length → bcdValue a = some n → bcdValue b = some n → a = b
  | [], [], _, _, _, _ => rfl
  | x :: a, y :: b, n, hl, h1, h2 => by
    simp only [List.length_cons, Nat.add_right_cancel_iff] at hl
    rw [bcdValue] at h1 h2
    split at h1
    · next hx =>
      split at h2
      · next hy =>
        cases ha : bcdValue a with
        | none => simp [ha] at h1
        | some r =>
          cases hb : bcdValue b with
          | none => simp [hb] at h2
          | some q =>
            simp only [ha, hb, Option.map_some, Option.some.injEq] at h1 h2
            rw [hl] at h1
            have hr := bcdValue_lt ha
            have hq := bcdValue_lt hb
            rw [hl] at hr
            obtain ⟨e1, e2⟩ := mul_add_inj hr hq (h1.trans h2.symm)
            subst e2
            rw [bcdValue_inj hl ha hb]
            have : x.toNat = y.toNat := by omega
            rw [UInt8.toNat_inj.1 this]
      · cases h2
    · cases h1

/-- **C46**: distinct prefixes of one width never denote the same length. -/
theorem prefix_injective {env : PyEnv} {fs : FieldSpec} (he : fs.lenEnc = py"b" ∨ fs.lenEnc = py"bcd") {L L' : Bytes} {n : Int}
    (hl : L.length = L'.length) (h : declared env fs L = some n) (h' : declared env fs L' = some n) : L = L' := by
  unfold declared at h h'
  rcases he with he | he
  · rw [if_pos he, Option.some.injEq] at h h'
    exact beValue_inj hl (by omega)
  · rw [if_neg (by rw [he]; decide), if_pos he] at h h'
    cases hb : bcdValue L with
    | none => simp [hb] at h
    | some m =>
      cases hb' : bcdValue L' with
      | none => simp [hb'] at h'
      | some m' =>
        simp only [hb, hb', Option.map_some, Option.some.injEq, Int.ofNat_eq_natCast] at h h'
        have : m = m' := by omega
        subst this
        exact bcdValue_inj hl hb hb'

/-- **C46**: a binary or BCD prefix that decode accepts for a field of `n` units is the one encode emits
for a value of `n` units, whatever the two messages and their data. -/
theorem prefix_canonical {env : PyEnv} {spec : Spec} {s s' : Bytes} {dec : DecDoc} {enc enc' : EncDoc} {doc doc' : Doc}
    (hd : decode env spec s = .ok (dec, enc)) (he : encode env spec doc = (.ok (s', enc'), doc'))
    {k : Str} {e e' : EncEntry} (hk : enc.get? k = some e) (hk' : enc'.get? k = some e')
    (ht : k ≠ py"t") (hp : k ≠ py"p") (h1 : k ≠ py"1") {fs : FieldSpec} (hs : spec.get? k = some fs)
    (hle : fs.lenEnc = py"b" ∨ fs.lenEnc = py"bcd") {v : Val} {n : Nat} (hv : doc.get? (.str k) = some v)
    (hw : DataWrites env fs v n e'.data) (hn : fs.lenType ≠ 0 → declared env fs e.len = some (n : Int)) : e.len = e'.len := by
  obtain ⟨fs1, _, hs1, hl, _, _, _, _, _⟩ := decode_lengths hd hk ht hp h1
  obtain ⟨fs2, v', n', hs2, hv', hw', h0, h'⟩ := encode_prefix he hk' ht hp h1
  rw [hs] at hs1 hs2
  rw [hv] at hv'
  cases hs1; cases hs2; cases hv'
  by_cases hz : fs.lenType = 0
  · rw [h0 hz]
    exact List.length_eq_zero_iff.1 (by omega)
  · have h2 := h' hz (hle.elim .inl fun h => .inr (.inl h))
    have := dataWrites_units hw hw'
    subst this
    exact prefix_injective hle (by omega) (hn hz) h2.2.1

/-- **C46**: every nibble of a BCD prefix in an accepted message is a decimal digit. -/
theorem decode_bcd_decimal {env : PyEnv} {spec : Spec} {s : Bytes} {dec : DecDoc} {enc : EncDoc}
    (h : decode env spec s = .ok (dec, enc)) {k : Str} {e : EncEntry} (hk : enc.get? k = some e)
    (ht : k ≠ py"t") (hp : k ≠ py"p") (h1 : k ≠ py"1") {fs : FieldSpec} (hs : spec.get? k = some fs)
    (h0 : fs.lenType ≠ 0) (hc : fs.lenEnc = py"bcd") : ∀ b ∈ e.len, b.toNat / 16 ≤ 9 ∧ b.toNat % 16 ≤ 9 := by
  obtain ⟨fs1, n, hs1, _, _, _, _, hdecl, _⟩ := decode_lengths h hk ht hp h1
  rw [hs] at hs1
  cases hs1
  have := hdecl h0
  rw [declared, if_neg (by rw [hc]; decide), if_pos hc] at this
  have key : ∀ (L : Bytes), (bcdValue L).isSome → ∀ b ∈ L, b.toNat / 16 ≤ 9 ∧ b.toNat % 16 ≤ 9 := by
    intro L
    induction L with
    | nil => simp
    | cons x t ih =>
      intro hs b hb
      rw [bcdValue] at hs
      split at hs
      · next hx =>
        rcases List.mem_cons.1 hb with rfl | hb
        · exact hx
        · exact ih (by simpa using hs) b hb
      · simp at hs
  apply key
  cases hb : bcdValue e.len with
  | none => simp [hb] at this
  | some m => rfl

theorem bcdValue_none {L : Bytes} (h : ∃ b ∈ L, ¬ (b.toNat / 16 ≤ 9 ∧ b.toNat % 16 ≤ 9)) : bcdValue L = none := by
  induction L with
  | nil => obtain ⟨b, hb, _⟩ := h; simp at hb
  | cons x t ih =>
    rw [bcdValue]
    split
    · next hx =>
      obtain ⟨b, hb, hn⟩ := h
      rcases List.mem_cons.1 hb with rfl | hb
      · exact absurd hx hn
      · rw [ih ⟨b, hb, hn⟩]; rfl
    · rfl

/-- **C46**: put any prefix with a non-decimal nibble in place of the BCD prefix of a field of an
accepted message, and anything after it: decode names the field, its offset and the reason. -/
theorem bcd_rejected {env : PyEnv} {spec : Spec} {s : Bytes} {dec : DecDoc} {pre post : EncDoc} {k : Str}
    {old : EncEntry} (h : decode env spec s = .ok (dec, pre ++ (k, old) :: post))
    (ht : k ≠ py"t") (hp : k ≠ py"p") (h1 : k ≠ py"1") {fs : FieldSpec} (hs : spec.get? k = some fs)
    (hc : fs.lenEnc = py"bcd") {L rest : Bytes} (hl : L.length = fs.lenType)
    (hbad : ∃ b ∈ L, ¬ (b.toNat / 16 ≤ 9 ∧ b.toNat % 16 ≤ 9)) :
    decode env spec (wire pre ++ L ++ rest) = .error (.decodeError ⟨.lenInvalidBcd, wire pre ++ L ++ rest,
      dec.take pre.length ++ [(k, [])], pre ++ [(k, ⟨L, []⟩)], (wire pre).length, k⟩) := by
  have h0 : fs.lenType ≠ 0 := by
    obtain ⟨b, hb, _⟩ := hbad
    intro h0
    rw [List.length_eq_zero_iff.1 (hl.trans h0)] at hb
    simp at hb
  refine decode_fault (off := 0) h (by rw [List.append_assoc]; exact List.prefix_append _ _) hs ?_
  unfold DecSimpleFault
  rw [if_neg ht, if_neg (by simp [hp, h1])]
  refine ⟨⟨⟨h0, ⟨by simp [hl], ?_⟩, rfl, rfl⟩, hc, .inl (bcdValue_none hbad)⟩, rfl⟩
  rw [List.append_assoc, List.drop_left, ← hl, List.take_left]

/-! ## Examples -/

example : [0x05] = ([0x05] : Bytes) :=
  prefix_canonical demo_decode demo_encode (k := py"2") (e := ⟨[0x05], [0x31, 0x32, 0x33, 0x34, 0x35]⟩)
    (e' := ⟨[0x05], [0x31, 0x32, 0x33, 0x34, 0x35]⟩) (by decide) (by decide) (by decide) (by decide) (by decide)
    (fs := { dataEnc := py"ascii", lenEnc := py"bcd", lenType := 1, maxLen := 19 }) (by decide) (.inr rfl)
    (v := .str py"12345") (n := 5) (by decide) ⟨_, _, rfl, rfl, by decide +kernel, rfl⟩ fun _ => by decide +kernel

/-- Text prefixes are not canonical: `"05"`, `" 5"` and `"+5"` all denote 5. -/
example : let fs : FieldSpec := { dataEnc := py"ascii", lenEnc := py"ascii", lenType := 2, maxLen := 9 }
    declared cpython fs [0x30, 0x35] = some 5 ∧ declared cpython fs [0x20, 0x35] = some 5 ∧
    declared cpython fs [0x2B, 0x35] = some 5 := by decide +kernel

example : ∀ b ∈ ([0x05] : Bytes), b.toNat / 16 ≤ 9 ∧ b.toNat % 16 ≤ 9 :=
  decode_bcd_decimal demo_decode (k := py"2") (e := ⟨[0x05], [0x31, 0x32, 0x33, 0x34, 0x35]⟩) (by decide) (by decide) (by decide)
    (by decide) (fs := { dataEnc := py"ascii", lenEnc := py"bcd", lenType := 1, maxLen := 19 }) (by decide) (by decide) rfl

example : decode cpython demoSpec (wire (demoEnc.take 4) ++ [0xF1] ++ [1, 2, 3]) =
    .error (.decodeError ⟨.lenInvalidBcd, wire (demoEnc.take 4) ++ [0xF1] ++ [1, 2, 3],
      demoDec.take 4 ++ [(py"2", [])], demoEnc.take 4 ++ [(py"2", ⟨[0xF1], []⟩)], 45, py"2"⟩) :=
  bcd_rejected (pre := demoEnc.take 4) (post := demoEnc.drop 5) (old := ⟨[0x05], [0x31, 0x32, 0x33, 0x34, 0x35]⟩) demo_decode
    (by decide) (by decide) (by decide) (fs := { dataEnc := py"ascii", lenEnc := py"bcd", lenType := 1, maxLen := 19 })
    (by decide) rfl rfl ⟨0xF1, by simp, by decide⟩

/-- An instance of `prefix_injective`. -/
example (L : Bytes) (h : L.length = 2)
    (hd : declared cpython { dataEnc := py"ascii", lenEnc := py"bcd", lenType := 2, maxLen := 999 } L = some 123) : L = [0x01, 0x23] :=
  prefix_injective (.inr rfl) h hd (by decide +kernel)

end Iso8583
