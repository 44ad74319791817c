import Verif.Spec.Basic
/-!
# What each decode error message claims

For a field that starts at `idx` of the input `s`: the entry `e` and the text `v` stored for it,
and what has to be true for each message.  Nothing here refers to the order in which the decoder
tests things.
-/

namespace Iso8583

/-- The whole length prefix is there and is stored. -/
def PrefixHeld (fs : FieldSpec) (s : Bytes) (idx : Nat) (e : EncEntry) : Prop :=
  idx + fs.lenType ≤ s.length ∧ e.len = (s.drop idx).take fs.lenType

/-- The length prefix is there, nothing else is stored. -/
def OnlyPrefix (fs : FieldSpec) (s : Bytes) (idx : Nat) (e : EncEntry) (v : Str) : Prop :=
  fs.lenType ≠ 0 ∧ PrefixHeld fs s idx e ∧ e.data = [] ∧ v = []

/-- A length prefix that is text. -/
def FieldSpec.textLen (fs : FieldSpec) : Prop := fs.lenEnc ≠ py"b" ∧ fs.lenEnc ≠ py"bcd"

/-- More digits than `int` converts. -/
def tooManyDigits (env : PyEnv) (n : Nat) : Prop := env.maxStrDigits ≠ 0 ∧ env.maxStrDigits < n

/-- The field has `n` units, and `int` could find out. -/
def UnitsRead (env : PyEnv) (fs : FieldSpec) (L : Bytes) (n : Int) : Prop :=
  UnitsAre env fs L n ∧ (fs.lenType ≠ 0 → fs.lenEnc = py"bcd" → ¬ tooManyDigits env (2 * fs.lenType))

/-- The field has `n` units, not zero, and all its data is there and stored. -/
def DataHeld (env : PyEnv) (fs : FieldSpec) (s : Bytes) (idx : Nat) (e : EncEntry) (n : Int) : Prop :=
  PrefixHeld fs s idx e ∧ UnitsRead env fs e.len n ∧ n ≠ 0 ∧ (e.data.length : Int) = bytesFor fs n ∧
    e.data <+: s.drop (idx + fs.lenType)

/-- What message `m` says about a field (header or numbered) that starts at `idx`. -/
def DecFieldFault (env : PyEnv) (fs : FieldSpec) (s : Bytes) (idx : Nat) (e : EncEntry) (v : Str) : DecMsg → Prop
  | .lenWidth actual expected =>
    s.length < idx + fs.lenType ∧ e = ⟨s.drop idx, []⟩ ∧ v = [] ∧ actual = s.length - idx ∧ expected = fs.lenType
  | .lenInvalidBcd => OnlyPrefix fs s idx e v ∧ fs.lenEnc = py"bcd" ∧
    (bcdValue e.len = none ∨ tooManyDigits env (2 * fs.lenType))
  | .lenUnknownEncoding => OnlyPrefix fs s idx e v ∧ fs.textLen ∧ env.codec fs.lenEnc = none
  | .lenInvalidData => OnlyPrefix fs s idx e v ∧ fs.textLen ∧ ∃ c, env.codec fs.lenEnc = some c ∧ c.decode e.len = none
  | .lenNonNumeric => OnlyPrefix fs s idx e v ∧ fs.textLen ∧
    ∃ c t, env.codec fs.lenEnc = some c ∧ c.decode e.len = some t ∧ pyInt env t = none
  | .tooLong n unit limit => OnlyPrefix fs s idx e v ∧ declared env fs e.len = some n ∧
    (fs.lenEnc = py"bcd" → ¬ tooManyDigits env (2 * fs.lenType)) ∧ fs.maxLen < n ∧ unit = fs.lenCount.getD py"bytes" ∧ limit = fs.maxLen
  | .dataShort actual unit n => PrefixHeld fs s idx e ∧ UnitsRead env fs e.len n ∧ n ≠ 0 ∧
    e.data = slice s (idx + fs.lenType) ((idx + fs.lenType : Nat) + bytesFor fs n) ∧
    (e.data.length : Int) ≠ bytesFor fs n ∧ v = [] ∧
    actual = (if fs.inNibbles then 2 * e.data.length else e.data.length) ∧ unit = fs.lenCount.getD py"bytes"
  | .padMissing actual n => DataHeld env fs s idx e n ∧
    fs.isBinary ∧ fs.inNibbles ∧ n % 2 = 1 ∧
    (∀ c, firstPad fs.leftPad = some c → (hexText e.data).head? ≠ some c) ∧
    (∀ c, firstPad fs.rightPad = some c → (hexText e.data).getLast? ≠ some c) ∧
    v = hexText e.data ∧ actual = 2 * e.data.length
  | .unknownEncoding => ∃ n, DataHeld env fs s idx e n ∧
    ¬ fs.isBinary ∧ e.data ≠ [] ∧ env.codec fs.dataEnc = none ∧ v = []
  | .invalidData => ∃ n, DataHeld env fs s idx e n ∧
    ¬ fs.isBinary ∧ e.data ≠ [] ∧ (∃ c, env.codec fs.dataEnc = some c ∧ c.decode e.data = none) ∧ v = []
  | _ => False

/-- What message `m` says about the message type. -/
def DecTypeFault (env : PyEnv) (fs : FieldSpec) (s : Bytes) (idx : Nat) (e : EncEntry) (v : Str) : DecMsg → Prop
  | .fieldDataBytes actual expected => s.length < idx + typeBytes fs ∧ e = ⟨[], s.drop idx⟩ ∧ v = [] ∧
    actual = s.length - idx ∧ expected = typeBytes fs
  | .unknownEncoding => idx + typeBytes fs ≤ s.length ∧ e = ⟨[], (s.drop idx).take (typeBytes fs)⟩ ∧ v = [] ∧
    ¬ fs.isBinary ∧ env.codec fs.dataEnc = none
  | .invalidData => idx + typeBytes fs ≤ s.length ∧ e = ⟨[], (s.drop idx).take (typeBytes fs)⟩ ∧ v = [] ∧
    ¬ fs.isBinary ∧ ∃ c, env.codec fs.dataEnc = some c ∧ c.decode e.data = none
  | _ => False

/-- What message `m` says about one bitmap that starts at `idx`: `D` is what is stored of it and
`v` its text; `old` counts the bytes of the bitmap the entry already held, `mult` the bitmaps it
should hold. -/
def DecBitmapFault (env : PyEnv) (fs : FieldSpec) (s : Bytes) (idx old mult : Nat) (D : Bytes) (v : Str) : DecMsg → Prop
  | .fieldDataBytes actual expected => s.length < idx + bitmapBytes fs ∧ D = s.drop idx ∧ v = [] ∧
    actual = old + (s.length - idx) ∧ expected = bitmapBytes fs * mult
  | .unknownEncoding => idx + bitmapBytes fs ≤ s.length ∧ D = (s.drop idx).take (bitmapBytes fs) ∧ v = [] ∧
    ¬ fs.isBinary ∧ env.codec fs.dataEnc = none
  | .invalidData => idx + bitmapBytes fs ≤ s.length ∧ D = (s.drop idx).take (bitmapBytes fs) ∧ v = [] ∧
    ¬ fs.isBinary ∧ ∃ c, env.codec fs.dataEnc = some c ∧ c.decode D = none
  | .nonHexBitmap => idx + bitmapBytes fs ≤ s.length ∧ D = (s.drop idx).take (bitmapBytes fs) ∧
    ¬ fs.isBinary ∧ (∃ c, env.codec fs.dataEnc = some c ∧ c.decode D = some v) ∧ fromHex v = none
  | _ => False

/-- What message `m` says about the entry of key `k`, which starts at `idx`. An entry with a
second half is the secondary bitmap followed by what there is of the tertiary one. -/
def DecEntryFault (env : PyEnv) (spec : Spec) (s : Bytes) (idx : Nat) (k : Str) (e : EncEntry) (v : Str) (m : DecMsg) : Prop :=
  ∃ fs, spec.get? k = some fs ∧
    if k = py"t" then DecTypeFault env fs s idx e v m
    else if k = py"p" ∨ k = py"1" then
      e.len = [] ∧
      (DecBitmapFault env fs s idx 0 1 e.data v m ∨
       ∃ v1 v2, v = v1 ++ v2 ∧ idx + bitmapBytes fs ≤ s.length ∧
         e.data.take (bitmapBytes fs) = (s.drop idx).take (bitmapBytes fs) ∧
         ReadableBitmap env fs (e.data.take (bitmapBytes fs)) ∧ PlainSays env fs (e.data.take (bitmapBytes fs)) v1 ∧
         DecBitmapFault env fs s (idx + bitmapBytes fs) (bitmapBytes fs) 2 (e.data.drop (bitmapBytes fs)) v2 m)
    else DecFieldFault env fs s idx e v m

end Iso8583
