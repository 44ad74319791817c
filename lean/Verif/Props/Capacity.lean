import Verif.Props.Edit
import Verif.Props.LengthPrefix
import Verif.Props.PythonMore
/-!
# How long a field can be, and the documented table of length types (C96)
-/

namespace Iso8583

/-- A text length encoding is known and writes digits as one byte each. -/
def PrefixCodec (env : PyEnv) (fs : FieldSpec) : Prop :=
  fs.lenEnc = py"b" ∨ fs.lenEnc = py"bcd" ∨ ∃ c, env.codec fs.lenEnc = some c ∧ c.WritesHexDigits

/-- Every number of `w` pairs of decimal digits is that of a BCD prefix of `w` bytes. -/
theorem bcd_exists : ∀ (w n : Nat), n < 100 ^ w → ∃ L : Bytes, L.length = w ∧ bcdValue L = some n
  | 0, n, h => ⟨[], rfl, by simp at h; subst h; rfl⟩
  | w + 1, n, h => by
    have hp : 0 < 100 ^ w := Nat.pow_pos (by decide)
    have hq : n / 100 ^ w < 100 := by
      rw [Nat.div_lt_iff_lt_mul hp]
      rw [Nat.pow_succ] at h; rw [Nat.mul_comm]; exact h
    obtain ⟨L, hl, hv⟩ := bcd_exists w (n % 100 ^ w) (Nat.mod_lt _ hp)
    refine ⟨UInt8.ofNat (n / 100 ^ w / 10 * 16 + n / 100 ^ w % 10) :: L, by simp [hl], ?_⟩
    have hb : (UInt8.ofNat (n / 100 ^ w / 10 * 16 + n / 100 ^ w % 10)).toNat = n / 100 ^ w / 10 * 16 + n / 100 ^ w % 10 := by
      rw [UInt8.toNat_ofNat']
      omega
    have h1 : (n / 100 ^ w / 10 * 16 + n / 100 ^ w % 10) / 16 = n / 100 ^ w / 10 := by omega
    have h2 : (n / 100 ^ w / 10 * 16 + n / 100 ^ w % 10) % 16 = n / 100 ^ w % 10 := by omega
    have h3 := Nat.div_add_mod n (100 ^ w)
    have h4 : (n / 100 ^ w / 10 * 10 + n / 100 ^ w % 10) = n / 100 ^ w := by omega
    rw [bcdValue, hb, h1, h2, if_pos ⟨by omega, by omega⟩, hv, hl, h4]
    simp only [Option.map_some, Option.some.injEq]
    rw [Nat.mul_comm]; exact h3

/-- A prefix can be written exactly for the numbers below its capacity. -/
theorem prefix_exists_iff {env : PyEnv} {fs : FieldSpec} (h0 : fs.lenType ≠ 0) (hc : PrefixCodec env fs) {n : Nat} :
    (∃ L, PrefixWrites env fs n L) ↔ n < capacity fs := by
  unfold PrefixWrites capacity
  by_cases hb : fs.lenEnc = py"b"
  · simp only [if_pos hb]
    constructor
    · rintro ⟨L, h1, rfl⟩; rw [← h1]; exact beValue_lt L
    · intro h
      cases hL : toBytesBE n fs.lenType with
      | some L => exact ⟨L, toBytes_iff.1 hL⟩
      | none => rw [toBytesBE, if_pos h] at hL; cases hL
  · by_cases hb' : fs.lenEnc = py"bcd"
    · simp only [if_neg hb, if_pos hb']
      constructor
      · rintro ⟨L, h1, h⟩; rw [← h1]; exact bcdValue_lt h
      · exact bcd_exists _ _
    · simp only [if_neg hb, if_neg hb']
      obtain ⟨c, hcc, hw⟩ : ∃ c, env.codec fs.lenEnc = some c ∧ c.WritesHexDigits := by
        rcases hc with h | h | h
        · exact absurd h hb
        · exact absurd h hb'
        · exact h
      obtain ⟨L, hL, hl⟩ := hw (zeroPad fs.lenType n) (fun x hx => by
        have := zeroPad_digits _ _ x hx
        simp only [isAsciiDigit, Bool.and_eq_true, decide_eq_true_eq] at this
        simp [isHexDigit, this])
      rw [zeroPad_length] at hl
      rw [← natStr_length_le (by omega)]
      constructor
      · rintro ⟨L', c', hc', he, hl'⟩
        rw [hcc] at hc'; cases hc'
        rw [hL] at he; cases he
        omega
      · intro h
        exact ⟨L, c, hcc, hL, by omega⟩

/-- The data encoding of a field writes hex digits as one byte each, or packs them. -/
def DataCodec (env : PyEnv) (fs : FieldSpec) : Prop :=
  fs.isBinary ∨ ∃ c, env.codec fs.dataEnc = some c ∧ c.WritesHexDigits

theorem upperCase_zeros (n : Nat) : upperCase (List.replicate n 48) = List.replicate n 48 := by
  simp [upperCase]

theorem hexText_zeros : ∀ n : Nat, hexText (List.replicate n 0) = List.replicate (2 * n) 48
  | 0 => rfl
  | n + 1 => by
    rw [List.replicate_succ, hexText, hexText_zeros n, show 2 * (n + 1) = 2 * n + 1 + 1 from by omega,
      List.replicate_succ, List.replicate_succ]
    rfl

/-- There is a value of every length. -/
theorem value_exists {env : PyEnv} {fs : FieldSpec} (hn : ¬ fs.inNibbles) (hd : DataCodec env fs) (n : Nat) :
    ∃ t D, DataWrites env fs (.str t) n D := by
  unfold DataWrites
  by_cases hb : fs.isBinary
  · simp only [if_pos hb, if_neg hn]
    exact ⟨List.replicate (2 * n) 48, List.replicate n 0, by simp [Val.text, upperCase_zeros, hexText_zeros], by simp⟩
  · obtain ⟨c, hc, hw⟩ := hd.resolve_left hb
    obtain ⟨D, hD, hl⟩ := hw (List.replicate n 48) (fun x hx => by rw [List.eq_of_mem_replicate hx]; decide)
    simp only [if_neg hb, if_neg hn]
    exact ⟨_, D, _, c, rfl, hc, hD, by simpa using hl.symm⟩

/-- **C96**: in a dict that can be encoded, a variable field may be given a text of `n` units exactly if
`n` is at most `max_len` and below the capacity of the length prefix. -/
theorem length_fits_iff {env : PyEnv} {spec : Spec} {doc d : Doc} {s : Bytes} {enc : EncDoc} {k : Str} {fs : FieldSpec}
    {t : Str} {n : Nat} {D : Bytes} (nd : doc.NoDup) (h : encode env spec doc = (.ok (s, enc), d)) (hk : k ∈ enc.keys)
    (ht : k ≠ py"t") (hp : k ≠ py"p") (h1 : k ≠ py"1") (hs : spec.get? k = some fs) (h0 : fs.lenType ≠ 0)
    (hc : PrefixCodec env fs) (hw : DataWrites env fs (.str t) n D) :
    (∃ r d', encode env spec (doc.set (.str k) (.str t)) = (.ok r, d')) ↔ (n : Int) ≤ fs.maxLen ∧ n < capacity fs := by
  constructor
  · rintro ⟨⟨s', enc'⟩, d', h'⟩
    obtain ⟨n', L, D', hf, _⟩ := (edit_field nd h hk ht hp h1 hs).1 h'
    have hn : n' = n := (hf.data.units hw).1
    subst hn
    have := hf.size
    rw [if_neg h0] at this
    exact ⟨this.1, (prefix_exists_iff h0 hc).1 ⟨L, this.2⟩⟩
  · rintro ⟨h2, h3⟩
    obtain ⟨L, hL⟩ := (prefix_exists_iff h0 hc).2 h3
    exact ⟨(_, _), _, (edit_field nd h hk ht hp h1 hs).2
      ⟨n, L, D, ⟨hw, fun _ => .inl ⟨t, rfl⟩, by rw [if_neg h0]; exact ⟨h2, hL⟩⟩, rfl, rfl, rfl⟩⟩

/-- The table in the doc string of specs.py (specs.py:50-65): how many bytes of length a field needs whose
lengths have up to `digits` decimal digits (LVAR, LLVAR, LLLVAR, LLLLVAR). -/
def documentedLenType (lenEnc : Str) (digits : Nat) : Nat :=
  if lenEnc = py"b" then
    match digits with
    | 0 => 0
    | 1 => 1
    | 2 => 1
    | 3 => 2
    | _ => 2
  else if lenEnc = py"bcd" then
    match digits with
    | 0 => 0
    | 1 => 1
    | 2 => 1
    | 3 => 2
    | _ => 2
  else digits

theorem documentedLenType_iff {fs : FieldSpec} {r : Nat} (hr : 1 ≤ r) (hr4 : r ≤ 4) (h0 : fs.lenType ≠ 0) :
    documentedLenType fs.lenEnc r ≤ fs.lenType ↔ 10 ^ r ≤ capacity fs := by
  unfold documentedLenType capacity
  by_cases hb : fs.lenEnc = py"b"
  · simp only [if_pos hb]
    by_cases h1 : fs.lenType = 1
    · rw [h1]
      obtain rfl | rfl | rfl | rfl : r = 1 ∨ r = 2 ∨ r = 3 ∨ r = 4 := by omega
      all_goals decide
    · have h2 : 256 ^ 2 ≤ 256 ^ fs.lenType := Nat.pow_le_pow_right (by decide) (by omega)
      obtain rfl | rfl | rfl | rfl : r = 1 ∨ r = 2 ∨ r = 3 ∨ r = 4 := by omega
      all_goals (simp only [Nat.reducePow] at h2 ⊢; omega)
  · by_cases hb' : fs.lenEnc = py"bcd"
    · simp only [if_neg hb, if_pos hb', show (100 : Nat) = 10 ^ 2 from rfl, ← Nat.pow_mul]
      rw [Nat.pow_le_pow_iff_right (by decide)]
      obtain rfl | rfl | rfl | rfl : r = 1 ∨ r = 2 ∨ r = 3 ∨ r = 4 := by omega
      all_goals (simp only; omega)
    · simp only [if_neg hb, if_neg hb']
      exact (Nat.pow_le_pow_iff_right (by decide)).symm

/-- **C96**: the documented table is right and cannot be improved: a field that may have up to `r` digits
of length takes all values of these lengths exactly if it has the number of length bytes in the table. -/
theorem documented_table {env : PyEnv} {spec : Spec} {doc d : Doc} {s : Bytes} {enc : EncDoc} {k : Str} {fs : FieldSpec}
    {r : Nat} (nd : doc.NoDup) (h : encode env spec doc = (.ok (s, enc), d)) (hk : k ∈ enc.keys)
    (ht : k ≠ py"t") (hp : k ≠ py"p") (h1 : k ≠ py"1") (hs : spec.get? k = some fs) (h0 : fs.lenType ≠ 0)
    (hc : PrefixCodec env fs) (hd : DataCodec env fs) (hn : ¬ fs.inNibbles) (hr : 1 ≤ r) (hr4 : r ≤ 4)
    (hm : fs.maxLen = 10 ^ r - 1) :
    (∀ t n D, DataWrites env fs (.str t) n D → n < 10 ^ r →
      ∃ r d', encode env spec (doc.set (.str k) (.str t)) = (.ok r, d')) ↔
    documentedLenType fs.lenEnc r ≤ fs.lenType := by
  rw [documentedLenType_iff hr hr4 h0]
  have hpos : 0 < 10 ^ r := Nat.pow_pos (by decide)
  have hcast : ((10 ^ r : Nat) : Int) = 10 ^ r := by simp
  constructor
  · intro hall
    obtain ⟨t, D, hw⟩ := value_exists hn hd (10 ^ r - 1)
    have := ((length_fits_iff nd h hk ht hp h1 hs h0 hc hw).1 (hall t _ D hw (by omega))).2
    omega
  · intro hcap t n D hw hlt
    exact (length_fits_iff nd h hk ht hp h1 hs h0 hc hw).2 ⟨by omega, by omega⟩

/-- Field 2 of the worked message has one BCD byte of length and at most 19 bytes: 5 bytes fit. -/
example : ∃ r d', encode cpython demoSpec (demoDoc.set (.str py"2") (.str py"98765")) = (.ok r, d') :=
  (length_fits_iff (t := py"98765") (n := 5) (D := [0x39, 0x38, 0x37, 0x36, 0x35]) demo_nodup demo_encode (by decide) (by decide)
    (by decide) (by decide) (fs := { dataEnc := py"ascii", lenEnc := py"bcd", lenType := 1, maxLen := 19 }) rfl (by decide)
    (.inr (.inl rfl)) ⟨_, asciiCodec, rfl, rfl, by decide, by decide⟩).2 ⟨by decide, by decide⟩

/-- The worked specification with a field 2 of up to 999 bytes. -/
def wideSpec (lenEnc : Str) (lenType : Nat) : Spec :=
  demoSpec.set py"2" { dataEnc := py"ascii", lenEnc := lenEnc, lenType := lenType, maxLen := 999 }

/-- Two BCD bytes are enough for it (LLLVAR) … -/
example : ∀ t n D, DataWrites cpython { dataEnc := py"ascii", lenEnc := py"bcd", lenType := 2, maxLen := 999 } (.str t) n D → n < 10 ^ 3 →
    ∃ r d', encode cpython (wideSpec py"bcd" 2) (demoDoc.set (.str py"2") (.str t)) = (.ok r, d') := by
  have h : encode cpython (wideSpec py"bcd" 2) demoDoc = (.ok (wire (demoEnc.set py"2" ⟨[0, 5], [0x31, 0x32, 0x33, 0x34, 0x35]⟩),
      demoEnc.set py"2" ⟨[0, 5], [0x31, 0x32, 0x33, 0x34, 0x35]⟩), demoDocAfter) := by decide +kernel
  exact (documented_table demo_nodup h (by decide) (by decide) (by decide) (by decide) rfl (by decide) (.inr (.inl rfl))
    (.inr ⟨asciiCodec, rfl, ascii_lawful.writesHex⟩) (by decide) (by decide) (by decide) (by decide)).2 (by decide)

/-- … and one byte of an unsigned number is not. -/
example : ¬ ∀ t n D, DataWrites cpython { dataEnc := py"ascii", lenEnc := py"b", lenType := 1, maxLen := 999 } (.str t) n D → n < 10 ^ 3 →
    ∃ r d', encode cpython (wideSpec py"b" 1) (demoDoc.set (.str py"2") (.str t)) = (.ok r, d') := by
  have h : encode cpython (wideSpec py"b" 1) demoDoc = (.ok (wire (demoEnc.set py"2" ⟨[5], [0x31, 0x32, 0x33, 0x34, 0x35]⟩),
      demoEnc.set py"2" ⟨[5], [0x31, 0x32, 0x33, 0x34, 0x35]⟩), demoDocAfter) := by decide +kernel
  exact fun hall => absurd ((documented_table demo_nodup h (by decide) (by decide) (by decide) (by decide) rfl (by decide) (.inl rfl)
    (.inr ⟨asciiCodec, rfl, ascii_lawful.writesHex⟩) (by decide) (by decide) (by decide) (by decide)).1 hall) (by decide)

end Iso8583
