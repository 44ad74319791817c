import Verif.Model.Encoder
/-!
# Vocabulary for property statements

Small definitions, independent of the model's helper functions, used to say what encode and
decode should do.
-/

namespace Iso8583

/-- The bytes an encoded dict describes: length prefix and data of every entry, in dict order. -/
def wire (enc : EncDoc) : Bytes := enc.flatMap fun kv => kv.2.len ++ kv.2.data

/-- Bit `i` of a bitmap, counted from 1 at the most significant bit of the first byte
(the ISO8583 convention). Bits beyond the end are off. -/
def bitOn (bm : Bytes) (i : Nat) : Bool :=
  match bm[(i - 1) / 8]? with
  | some b => b.toNat.testBit (7 - (i - 1) % 8)
  | none => false

/-! ## Hexadecimal text -/

/-- The upper-case hex digit `0`..`9`, `A`..`F` of a number below 16. -/
def hexChar (n : Nat) : Nat := if n < 10 then 48 + n else 55 + n

/-- Upper-case hex text of bytes, two digits per byte, high nibble first. -/
def hexText : Bytes → Str
  | [] => []
  | b :: t => hexChar (b.toNat / 16) :: hexChar (b.toNat % 16) :: hexText t

/-- Numeric value of a hex digit of either case. -/
def hexDigitValue (c : Nat) : Nat := if c ≤ 57 then c - 48 else if c ≤ 70 then c - 55 else c - 87

/-- Bit `i` of a bitmap given as hex text: four bits per digit, counted from 1 at the most
significant bit of the first digit. Bits beyond the end are off. -/
def hexBit (t : Str) (i : Nat) : Bool :=
  match t[(i - 1) / 4]? with
  | some c => (hexDigitValue c).testBit (3 - (i - 1) % 4)
  | none => false

/-! ## Lengths -/

/-- The field is counted in nibbles. -/
def FieldSpec.inNibbles (fs : FieldSpec) : Prop := fs.lenCount = some py"nibbles"

instance (fs : FieldSpec) : Decidable fs.inNibbles := inferInstanceAs (Decidable (_ = _))

/-- The data is binary (hex digits in the decoded dict). -/
def FieldSpec.isBinary (fs : FieldSpec) : Prop := fs.dataEnc = py"b"

instance (fs : FieldSpec) : Decidable fs.isBinary := inferInstanceAs (Decidable (_ = _))

/-- Number of bytes holding `n` units: `n`, or half of it rounded up for nibbles. -/
def bytesFor (fs : FieldSpec) (n : Int) : Int := if fs.inNibbles then (n + 1) / 2 else n

/-- Big-endian value. -/
def beValue : Bytes → Nat
  | [] => 0
  | b :: t => b.toNat * 256 ^ t.length + beValue t

/-- Value of packed decimal digits, two per byte; `none` when a nibble is not a decimal digit. -/
def bcdValue : Bytes → Option Nat
  | [] => some 0
  | b :: t =>
    if b.toNat / 16 ≤ 9 ∧ b.toNat % 16 ≤ 9 then
      (bcdValue t).map fun r => (b.toNat / 16 * 10 + b.toNat % 16) * 100 ^ t.length + r
    else none

/-- The number a length prefix denotes: big-endian, packed decimal, or text read by `int`. -/
def declared (env : PyEnv) (fs : FieldSpec) (L : Bytes) : Option Int :=
  if fs.lenEnc = py"b" then some (beValue L)
  else if fs.lenEnc = py"bcd" then (bcdValue L).map Int.ofNat
  else match env.codec fs.lenEnc with
    | some c => (c.decode L).bind (pyInt env)
    | none => none

/-! ## Decoded fields -/

/-- `n` is the number of units of a field with length prefix `L`: `max_len` when the field is
fixed, otherwise what the prefix declares, which must not exceed `max_len`. -/
def UnitsAre (env : PyEnv) (fs : FieldSpec) (L : Bytes) (n : Int) : Prop :=
  L.length = fs.lenType ∧
    if fs.lenType = 0 then n = fs.maxLen
    else declared env fs L = some n ∧ n ≤ fs.maxLen

/-- The first character of an optional pad property. -/
def firstPad (p : Option Str) : Option Nat := p.bind List.head?

/-- Data `D` of `n` units stands for the text `v`: nothing is `''`; binary data is its upper-case
hex text, less the pad digit when the number of nibbles is odd (the left pad if it is there,
otherwise the right pad); other data is decoded by the codec. -/
def DataSays (env : PyEnv) (fs : FieldSpec) (n : Int) (D : Bytes) (v : Str) : Prop :=
  if D = [] then v = []
  else if fs.isBinary then
    if fs.inNibbles ∧ n % 2 = 1 then
      if firstPad fs.leftPad = (hexText D).head? then ∃ c, hexText D = c :: v
      else ∃ c, firstPad fs.rightPad = some c ∧ hexText D = v ++ [c]
    else v = hexText D
  else ∃ c, env.codec fs.dataEnc = some c ∧ c.decode D = some v

/-- Data `D` without units stands for the text `v`: upper-case hex, or decoded by the codec. -/
def PlainSays (env : PyEnv) (fs : FieldSpec) (D : Bytes) (v : Str) : Prop :=
  if fs.isBinary then v = hexText D else ∃ c, env.codec fs.dataEnc = some c ∧ c.decode D = some v

/-- Width of the message type on the wire. -/
def typeBytes (fs : FieldSpec) : Nat := if fs.isBinary then 2 else 4

/-- Width of one bitmap on the wire. -/
def bitmapBytes (fs : FieldSpec) : Nat := if fs.isBinary then 8 else 16

/-- Bitmap data: one bitmap, or two one after the other (secondary and tertiary). -/
def BitmapSays (env : PyEnv) (fs : FieldSpec) (D : Bytes) (v : Str) : Prop :=
  (D.length = bitmapBytes fs ∧ PlainSays env fs D v) ∨
  (D.length = 2 * bitmapBytes fs ∧ ∃ v1 v2, v = v1 ++ v2 ∧ PlainSays env fs (D.take (bitmapBytes fs)) v1 ∧
    PlainSays env fs (D.drop (bitmapBytes fs)) v2)

/-- Entry `e` of field `k` is complete and stands for the text `v`. -/
def EntrySays (env : PyEnv) (spec : Spec) (k : Str) (e : EncEntry) (v : Str) : Prop :=
  ∃ fs, spec.get? k = some fs ∧
    if k = py"t" then e.len = [] ∧ e.data.length = typeBytes fs ∧ PlainSays env fs e.data v
    else if k = py"p" ∨ k = py"1" then e.len = [] ∧ BitmapSays env fs e.data v
    else ∃ n, UnitsAre env fs e.len n ∧ (e.data.length : Int) = bytesFor fs n ∧ DataSays env fs n e.data v

/-- The specification has a header. -/
def hasHeader (spec : Spec) : Prop := ∃ fs, spec.get? py"h" = some fs ∧ 0 < fs.maxLen

/-- `D` is one complete bitmap that can be read: right width, decodable, and hex digits
(possibly with white space, which `bytes.fromhex` skips). -/
def ReadableBitmap (env : PyEnv) (fs : FieldSpec) (D : Bytes) : Prop :=
  D.length = bitmapBytes fs ∧ ∃ t, PlainSays env fs D t ∧ (¬ fs.isBinary → (fromHex t).isSome)

/-- The text of the received bitmaps: what the decoded dict holds under `p` followed by `1`. -/
def bitmapText (dec : DecDoc) : Str := (dec.get? py"p").getD [] ++ (dec.get? py"1").getD []

/-- Messages raised once the length prefix of a field has been accepted: the data is at fault. -/
def DecMsg.aboutData : DecMsg → Bool
  | .dataShort .. | .padMissing .. | .unknownEncoding | .invalidData => true
  | _ => false

end Iso8583
