import Verif.Model.Py
/-!
# Specifications, decoded and encoded dictionaries

The dictionaries exchanged with the user (`/repo/iso8583/specs.py:1-180`,
`/repo/iso8583/decoder.py:5-7`, `/repo/iso8583/encoder.py:6-8`).
-/

namespace Iso8583

/-- One field of a specification (`specs.py:18-97`).  Mandatory properties are total here: a
specification that omits one of them is the subject of `Model/Partial.lean`.  `len_type` is a natural number
(it is a byte count); `max_len` may be any int because the code compares it with `0`. -/
structure FieldSpec where
  dataEnc  : Str
  lenEnc   : Str
  lenType  : Nat
  maxLen   : Int
  lenCount : Option Str := none
  leftPad  : Option Str := none
  rightPad : Option Str := none
  desc     : Option Str := none
deriving DecidableEq, Repr

/-- A specification: a mapping from field key to field specification. -/
abbrev Spec := Dict Str FieldSpec

/-- `field_spec.get("len_count", "bytes")` (decoder.py:445, encoder.py:402). -/
def FieldSpec.count (fs : FieldSpec) : Str := fs.lenCount.getD py"bytes"

/-- One entry of an encoded dictionary: `{"len": ..., "data": ...}`. -/
structure EncEntry where
  len  : Bytes
  data : Bytes
deriving DecidableEq, Repr

/-- `EncodedDict` (decoder.py:6, encoder.py:7). -/
abbrev EncDoc := Dict Str EncEntry

/-- The decoded dictionary `decode` builds: `Dict[str, str]` (decoder.py:5). -/
abbrev DecDoc := Dict Str Str

end Iso8583
