import Verif.Spec.Encode
/-!
# Messages in canonical form

`decode` accepts several spellings of the same message.  These conditions single out the one
`encode` writes.
-/

namespace Iso8583

/-- A decoded dict passed to `encode`. -/
def asDoc (dec : DecDoc) : Doc := dec.map fun kv => (Key.str kv.1, Val.str kv.2)

/-- A field is spelled the way `encode` spells it.  Text is in the image of its codec and fills
whole bytes.  An odd number of nibbles is completed by the left pad when there is one.  A text
length prefix is the zero-padded decimal number. -/
structure CanonicalField (env : PyEnv) (fs : FieldSpec) (e : EncEntry) (v : Str) : Prop where
  text : ¬ fs.isBinary → ∃ c, env.codec fs.dataEnc = some c ∧ c.encode v = some e.data
  whole : ¬ fs.isBinary → fs.inNibbles → ∀ n, UnitsAre env fs e.len n → n % 2 = 0
  pad : fs.isBinary → fs.inNibbles → ∀ n, UnitsAre env fs e.len n → n % 2 = 1 →
    ∀ c, firstPad fs.leftPad = some c → (hexText e.data).head? = some c
  prefixText : fs.lenType ≠ 0 → fs.lenEnc ≠ py"b" → fs.lenEnc ≠ py"bcd" → ∀ n, UnitsAre env fs e.len n →
    ∃ c, ∃ m : Nat, n = m ∧ env.codec fs.lenEnc = some c ∧ c.encode (zeroPad fs.lenType m) = some e.len

/-- One bitmap is spelled as 16 upper-case hex digits in the image of its codec.  Binary bitmaps
always are. -/
def CanonicalBitmap (env : PyEnv) (fs : FieldSpec) (D : Bytes) : Prop :=
  ¬ fs.isBinary → ∀ t, PlainSays env fs D t →
    t.length = 16 ∧ (∀ c ∈ t, isUpperHexDigit c = true) ∧ ∃ c, env.codec fs.dataEnc = some c ∧ c.encode t = some D

/-- Entry `e` of key `k`, standing for `v`, is in canonical form. -/
def CanonicalEntry (env : PyEnv) (fs : FieldSpec) (k : Str) (e : EncEntry) (v : Str) : Prop :=
  if k = py"t" then ¬ fs.isBinary → ∃ c, env.codec fs.dataEnc = some c ∧ c.encode v = some e.data
  else if k = py"p" ∨ k = py"1" then
    CanonicalBitmap env fs (e.data.take (bitmapBytes fs)) ∧
      (bitmapBytes fs < e.data.length → CanonicalBitmap env fs (e.data.drop (bitmapBytes fs)))
  else CanonicalField env fs e v

/-- No bitmap is sent in vain: a secondary bitmap announces a field above 64 and a tertiary one a
field above 128. -/
structure MinimalBitmaps (spec : Spec) (dec : DecDoc) (enc : EncDoc) : Prop where
  secondary : py"1" ∈ dec.keys → ∃ i, 64 < i ∧ natStr i ∈ dec.keys
  tertiary : ∀ fs e, spec.get? py"1" = some fs → enc.get? py"1" = some e → bitmapBytes fs < e.data.length →
    ∃ i, 128 < i ∧ natStr i ∈ dec.keys

/-- The whole message is in canonical form. -/
structure CanonicalMessage (env : PyEnv) (spec : Spec) (dec : DecDoc) (enc : EncDoc) : Prop where
  entries : ∀ k fs e v, spec.get? k = some fs → enc.get? k = some e → dec.get? k = some v → CanonicalEntry env fs k e v
  minimal : MinimalBitmaps spec dec enc

end Iso8583
