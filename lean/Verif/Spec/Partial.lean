import Verif.Model.Partial
/-!
# Vocabulary for specifications with missing properties
-/

namespace Iso8583

/-- `g` is `f` with its missing mandatory properties filled in, with anything. -/
def PartialField.FilledBy (f : PartialField) (g : FieldSpec) : Prop :=
  (∀ v, f.dataEnc = some v → g.dataEnc = v) ∧ (∀ v, f.lenEnc = some v → g.lenEnc = v) ∧
  (∀ v, f.lenType = some v → g.lenType = v) ∧ (∀ v, f.maxLen = some v → g.maxLen = v) ∧
  g.lenCount = f.lenCount ∧ g.leftPad = f.leftPad ∧ g.rightPad = f.rightPad ∧ g.desc = f.desc

/-- `g` specifies the same fields as `f`, each filled in. -/
def PartialSpec.FilledBy (f : PartialSpec) (g : Spec) : Prop := ∀ k,
  (f.get? k = none ∧ g.get? k = none) ∨ ∃ a b, f.get? k = some a ∧ g.get? k = some b ∧ a.FilledBy b

/-- The specification of field `k` lacks the property `p`, and fields like `k` cannot do without:
`data_enc` for every field; for the header and the numbered fields also `len_type`, `max_len` and,
unless the field has a fixed length, `len_enc`. -/
def PartialField.Lacks (f : PartialField) (k p : Str) : Prop :=
  (p = py"data_enc" ∧ f.dataEnc = none) ∨
  ((k ≠ py"t" ∧ k ≠ py"p" ∧ k ≠ py"1") ∧
    ((p = py"len_type" ∧ f.lenType = none) ∨ (p = py"max_len" ∧ f.maxLen = none) ∨
      (p = py"len_enc" ∧ f.lenEnc = none ∧ f.lenType ≠ some 0)))

/-- The specification lacks a property that field `k` cannot do without. -/
def PartialSpec.Lacks (spec : PartialSpec) (k p : Str) : Prop := ∃ f, spec.get? k = some f ∧ f.Lacks k p

/-- The fields `decode` got to: the keys of its result or of its `DecodeError`. -/
def GotTo : Except DecodeExc (DecDoc × EncDoc) → Str → Prop
  | .ok (dec, _), k => k ∈ dec.keys
  | .error (.decodeError e), k => k ∈ e.docDec.keys
  | .error _, _ => True

/-- The fields `encode` got to. -/
def EncGotTo : Except EncodeExc (Bytes × EncDoc) → Str → Prop
  | .ok (_, enc), k => k ∈ enc.keys
  | .error (.encodeError e), k => k ∈ e.docEnc.keys
  | .error _, _ => True

end Iso8583
