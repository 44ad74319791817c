import Verif.Spec.Encode
/-!
# Specifications under which received messages can be sent on

`decode` accepts several spellings of a message.  These conditions ensure that what it accepted can
be written again.
-/

namespace Iso8583

/-- A field whose accepted values can be written: text is counted in bytes and its codec writes back
what it reads; pads of nibble fields are hex digits; a text length prefix has room for `max_len`. -/
structure FieldNormal (env : PyEnv) (fs : FieldSpec) : Prop where
  laws : FieldLaws env fs
  units : ¬ fs.isBinary → ¬ fs.inNibbles
  text : ¬ fs.isBinary → ∀ c, env.codec fs.dataEnc = some c → c.Canonical ∧ c.encode [] = some []
  known : ¬ fs.isBinary → ∃ c, env.codec fs.dataEnc = some c
  pads : fs.isBinary → fs.inNibbles → ∀ c, firstPad fs.leftPad = some c ∨ firstPad fs.rightPad = some c → isHexDigit c = true
  room : fs.lenType ≠ 0 → fs.lenEnc ≠ py"b" → fs.lenEnc ≠ py"bcd" → fs.maxLen < capacity fs

/-- A specification under which every accepted message can be written: every field is normal, the
type codec writes back what it reads, and bitmap codecs write hex digits as one byte each and never
read more characters than bytes. -/
structure SpecNormal (env : PyEnv) (spec : Spec) : Prop where
  fields : ∀ k fs, spec.get? k = some fs → k ≠ py"t" → k ≠ py"p" → k ≠ py"1" → FieldNormal env fs
  type : ∀ fs, spec.get? py"t" = some fs → ¬ fs.isBinary → ∀ c, env.codec fs.dataEnc = some c → c.Canonical ∧ c.RoundTrips
  bitmaps : ∀ k fs, k = py"p" ∨ k = py"1" → spec.get? k = some fs → BitmapLaws env fs ∧
    (¬ fs.isBinary → ∀ c, env.codec fs.dataEnc = some c → c.Bounded)

theorem SpecNormal.laws {env : PyEnv} {spec : Spec} (h : SpecNormal env spec) : SpecLaws env spec :=
  ⟨fun k fs a b c d => (h.fields k fs a b c d).laws, fun fs a b c d => (h.type fs a b c d).2, fun k fs a b => (h.bitmaps k fs a b).1⟩

end Iso8583
