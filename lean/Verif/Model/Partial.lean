import Verif.Model.Tools
/-!
# Specifications with missing properties

`Model/Decoder.lean`, `Model/Encoder.lean` and `Model/Tools.lean` assume that every field
specification has its mandatory properties.  Here the same functions are modelled on specifications
that may lack any property: `field_spec["len_enc"]` raises `KeyError('len_enc')` when it is reached
and the property is missing.  Everything else is as in the other files; the helpers that read only
properties already known to be there are shared.
-/

namespace Iso8583

/-- One field of a specification, any property of which may be missing. -/
structure PartialField where
  dataEnc  : Option Str := none
  lenEnc   : Option Str := none
  lenType  : Option Nat := none
  maxLen   : Option Int := none
  lenCount : Option Str := none
  leftPad  : Option Str := none
  rightPad : Option Str := none
  desc     : Option Str := none
deriving DecidableEq, Repr

/-- A specification of such fields. -/
abbrev PartialSpec := Dict Str PartialField

/-- `x[name]` for a property; `ke` builds the `KeyError`. -/
def need {ε σ α : Type} (ke : Str → ε) (name : Str) : Option α → PyM ε σ α
  | some a => pure a
  | none => PyM.raise (ke name)

/-- `spec[k]`. -/
def partialSpec {ε σ : Type} (ke : Str → ε) (spec : PartialSpec) (k : Str) : PyM ε σ PartialField := need ke k (spec.get? k)

/-- The field as the helpers see it once they run; properties they do not read are filled in. -/
def PartialField.seen (f : PartialField) : FieldSpec where
  dataEnc := f.dataEnc.getD []
  lenEnc := f.lenEnc.getD []
  lenType := f.lenType.getD 0
  maxLen := f.maxLen.getD 0
  lenCount := f.lenCount
  leftPad := f.leftPad
  rightPad := f.rightPad
  desc := f.desc

/-! ## decoder.py -/

/-- decoder.py:442-598 `_decode_field`. -/
def decodeFieldP (env : PyEnv) (s : Bytes) (idx : Nat) (key : Str) (f : PartialField) : DecM Nat := do
  let lenType ← need .keyError py"len_type" f.lenType
  let lenCount := f.lenCount.getD py"bytes"
  setDec key []
  let lenBytes := slice s idx (idx + lenType)
  setEnc key ⟨lenBytes, []⟩
  if lenBytes.length ≠ lenType then
    decFail (.lenWidth lenBytes.length lenType) idx key
  let encLen : Int ←
    if lenType = 0 then need .keyError py"max_len" f.maxLen
    else do
      let _ ← need .keyError py"len_enc" f.lenEnc
      let n ← decodeLength env lenBytes idx key f.seen
      let maxLen ← need .keyError py"max_len" f.maxLen
      if n > maxLen then
        decFail (.tooLong n lenCount maxLen) idx key
      pure n
  let idx := idx + lenType
  if encLen = 0 then
    return idx
  let byteLen := byteFieldLen f.seen encLen
  let data := slice s idx (idx + byteLen)
  setEnc key ⟨lenBytes, data⟩
  if (data.length : Int) ≠ byteLen then
    decFail (.dataShort (if lenCount = py"nibbles" then data.length * 2 else data.length) lenCount encLen) idx key
  let dataEnc ← need .keyError py"data_enc" f.dataEnc
  if dataEnc = py"b" then
    setDec key (upperAscii (bytesHex data))
    if lenCount = py"nibbles" ∧ encLen % 2 = 1 then
      setDec key (← removePadField idx key f.seen encLen)
  else
    setDec key (← decodeTextData env data idx key f.seen)
  return (idx + byteLen).toNat

/-- decoder.py:209-213 `_decode_header`. -/
def decodeHeaderP (env : PyEnv) (spec : PartialSpec) (s : Bytes) (idx : Nat) : DecM Nat := do
  let f ← partialSpec .keyError spec py"h"
  let maxLen ← need .keyError py"max_len" f.maxLen
  if maxLen ≤ 0 then
    return idx
  decodeFieldP env s idx py"h" f

/-- decoder.py:250-283 `_decode_type`. -/
def decodeTypeP (env : PyEnv) (spec : PartialSpec) (s : Bytes) (idx : Nat) : DecM Nat := do
  let f ← partialSpec .keyError spec py"t"
  let dataEnc ← need .keyError py"data_enc" f.dataEnc
  let expected : Nat := if dataEnc = py"b" then 2 else 4
  let data := slice s idx (idx + expected)
  setDec py"t" []
  setEnc py"t" ⟨[], data⟩
  if data.length ≠ expected then
    decFail (.fieldDataBytes data.length expected) idx py"t"
  if dataEnc = py"b" then
    setDec py"t" (upperAscii (bytesHex data))
  else
    setDec py"t" (← decodeTextData env data idx py"t" f.seen)
  return idx + expected

/-- decoder.py:332-403 `_decode_bitmap`: the only property it reads is `data_enc`, first of all. -/
def decodeBitmapP (env : PyEnv) (s : Bytes) (idx : Nat) (key : Str) (f : PartialField)
    (offset : Nat) (isExtended : Bool) (fields : List Nat) : DecM (Nat × List Nat) := do
  let _ ← need .keyError py"data_enc" f.dataEnc
  decodeBitmap env s idx key f.seen offset isExtended fields

/-- decoder.py:157-158. -/
def decodeFieldsP (env : PyEnv) (spec : PartialSpec) (s : Bytes) : Nat → Str → List Nat → DecM (Nat × Str)
  | idx, last, [] => pure (idx, last)
  | idx, _, i :: rest => do
    let key := natStr i
    let f ← partialSpec .keyError spec key
    let idx' ← decodeFieldP env s idx key f
    decodeFieldsP env spec s idx' key rest

/-- decoder.py:107-163, body of `decode`. -/
def decodeBodyP (env : PyEnv) (spec : PartialSpec) (s : Bytes) : DecM Unit := do
  let idx ← decodeHeaderP env spec s 0
  let idx ← decodeTypeP env spec s idx
  let field := py"p"
  let (idx, fields) ← decodeBitmapP env s idx field (← partialSpec .keyError spec field) 0 false []
  let (field, idx, fields) ←
    if 1 ∈ fields then do
      let field := py"1"
      let (idx, fields) ← decodeBitmapP env s idx field (← partialSpec .keyError spec field) 64 false fields
      pure (field, idx, setRemove fields 1)
    else pure (field, idx, fields)
  let (idx, fields) ←
    if 65 ∈ fields then do
      let (idx, fields) ← decodeBitmapP env s idx field (← partialSpec .keyError spec field) 128 true fields
      pure (idx, setRemove fields 65)
    else pure (idx, fields)
  let (idx, field) ← decodeFieldsP env spec s idx field (sortedNat fields)
  if idx ≠ s.length then
    decFail .extraData idx field

/-- decoder.py:59-165 `decode`. -/
def decodeP (env : PyEnv) (spec : PartialSpec) (s : Bytes) : Except DecodeExc (DecDoc × EncDoc) :=
  match decodeBodyP env spec s ⟨[], []⟩ with
  | (.ok _, st) => .ok (st.dec, st.enc)
  | (.error (.err m pos field), st) => .error (.decodeError ⟨m, s, st.dec, st.enc, pos, field⟩)
  | (.error (.keyError k), _) => .error (.keyError k)

/-! ## encoder.py -/

/-- encoder.py:398-513 `_encode_field`. -/
def encodeFieldP (env : PyEnv) (key : Str) (f : PartialField) : EncM Bytes := do
  encSet key ⟨[], []⟩
  let count := f.lenCount.getD py"bytes"
  let dataEnc ← need .keyError py"data_enc" f.dataEnc
  let v ← docGet key
  let (data, encLen) ← PyM.lift <|
    if dataEnc = py"b" then encodeBinaryField v key f.seen count
    else encodeTextField env v key f.seen count
  encSet key ⟨[], data⟩
  let lenType ← need .keyError py"len_type" f.lenType
  let maxLen ← need .keyError py"max_len" f.maxLen
  if lenType = 0 then
    if (encLen : Int) ≠ maxLen then
      encFail (.fixedLen encLen count maxLen) key
    return data
  if (encLen : Int) > maxLen then
    encFail (.tooLong encLen count maxLen) key
  let _ ← need .keyError py"len_enc" f.lenEnc
  encodeLength env encLen key f.seen
  let e ← encGet key
  return e.len ++ e.data

/-- encoder.py:200-210 `_encode_header`. -/
def encodeHeaderP (env : PyEnv) (spec : PartialSpec) : EncM Bytes := do
  let f ← partialSpec .keyError spec py"h"
  let maxLen ← need .keyError py"max_len" f.maxLen
  if maxLen ≤ 0 then
    return []
  if ¬ (← PyM.get).dec.contains (.str py"h") then
    encFail .requiredBySpec py"h"
  encodeFieldP env py"h" f

/-- encoder.py:241-280 `_encode_type`. -/
def encodeTypeP (env : PyEnv) (spec : PartialSpec) : EncM Bytes := do
  if ¬ (← PyM.get).dec.contains (.str py"t") then
    encFail .required py"t"
  let f ← partialSpec .keyError spec py"t"
  let dataEnc ← need .keyError py"data_enc" f.dataEnc
  let expected : Nat := if dataEnc = py"b" then 2 else 4
  encSet py"t" ⟨[], []⟩
  let v ← docGet py"t"
  let (data, encLen) ← PyM.lift <|
    if dataEnc = py"b" then encodeBinaryField v py"t" f.seen py"bytes"
    else encodeTextField env v py"t" f.seen py"bytes"
  encSet py"t" ⟨[], data⟩
  if encLen ≠ expected then
    encFail (.typeLen encLen expected) py"t"
  return data

/-- encoder.py:323-364 `_encode_bitmap`. -/
def encodeBitmapP (env : PyEnv) (key : Str) (f : PartialField) (offset : Nat) (isExtended : Bool)
    (fields : List Nat) : EncM Bytes := do
  match bitmapLoop offset fields (List.replicate 8 0) with
  | none => PyM.raise .indexError
  | some bitmap =>
    let hexBitmap := upperAscii (bytesHex bitmap)
    if isExtended then
      docAppend key hexBitmap
    else
      docSet key hexBitmap
      encSet key ⟨[], []⟩
    let dataEnc ← need .keyError py"data_enc" f.dataEnc
    let data ←
      if dataEnc = py"b" then pure bitmap
      else do
        let (d, _) ← PyM.lift (encodeTextField env (.str hexBitmap) key f.seen py"bytes")
        pure d
    let e ← encGet key
    if isExtended then
      encSet key { e with data := e.data ++ data }
    else
      encSet key { e with data := data }
    return data

/-- encoder.py:159-160. -/
def encodeFieldsP (env : PyEnv) (spec : PartialSpec) : List Nat → EncM Bytes
  | [] => pure []
  | i :: rest => do
    let key := natStr i
    let f ← partialSpec .keyError spec key
    let w ← encodeFieldP env key f
    let ws ← encodeFieldsP env spec rest
    return w ++ ws

/-- encoder.py:85-162, body of `encode`. -/
def encodeBodyP (env : PyEnv) (spec : PartialSpec) : EncM Bytes := do
  PyM.modify fun st => { st with dec := (st.dec.pop (.str py"1")).pop (.str py"65") }
  let h ← encodeHeaderP env spec
  let t ← encodeTypeP env spec
  let ks := (← PyM.get).dec.keys
  let nums ← PyM.lift (numericKeys env ks ks)
  let ints := setUpdate [] nums
  if ¬ ints.all inRange then
    encFail (.outOfRange (sortedBy id (ints.filter fun n => ¬ inRange n))) py"p"
  let fields := ints.map Int.toNat
  let tertiary := setInter fields 129 193
  let fields := if tertiary ≠ [] then setAdd fields 65 else fields
  let secondary := setInter fields 65 129
  let fields := if secondary ≠ [] then setAdd fields 1 else fields
  let p ← encodeBitmapP env py"p" (← partialSpec .keyError spec py"p") 0 false (setInter fields 1 65)
  let (b1, fields) ←
    if 1 ∈ fields then do
      let w ← encodeBitmapP env py"1" (← partialSpec .keyError spec py"1") 64 false secondary
      pure (w, setRemove fields 1)
    else pure ([], fields)
  let (b2, fields) ←
    if 65 ∈ fields then do
      let w ← encodeBitmapP env py"1" (← partialSpec .keyError spec py"1") 128 true tertiary
      pure (w, setRemove fields 65)
    else pure ([], fields)
  let ws ← encodeFieldsP env spec (sortedNat fields)
  return h ++ t ++ p ++ b1 ++ b2 ++ ws

/-- encoder.py:42-162 `encode`. -/
def encodeP (env : PyEnv) (spec : PartialSpec) (doc : Doc) : Except EncodeExc (Bytes × EncDoc) × Doc :=
  match encodeBodyP env spec ⟨doc, []⟩ with
  | (.ok s, st) => (.ok (s, st.enc), st.dec)
  | (.error r, st) =>
    (.error (match r with
      | .err m f => .encodeError ⟨m, st.dec, st.enc, f⟩
      | .keyError k => .keyError k
      | .valueError => .valueError
      | .typeError => .typeError
      | .unboundLocal => .unboundLocal
      | .indexError => .indexError), st.dec)

/-! ## tools.py -/

/-- tools.py:79-121 `_pp_field`. -/
def ppFieldP (env : PyEnv) (doc : PpDoc) (spec : PartialSpec) (descWidth lineWidth : Int) (key : Str) : PpM Unit := do
  ppWrite (ljust 3 key)
  let indent : Nat ←
    if descWidth > 0 then do
      let f ← partialSpec .keyError spec key
      let d ← need .keyError py"desc" f.desc
      ppWrite (py" " ++ ljust descWidth.toNat (d.take descWidth.toNat))
      pure (5 + (descWidth.toNat + 1))
    else pure 5
  ppWrite py": "
  match doc.get? (.str key) with
  | none => PyM.raise (.keyError key)
  | some (.dict len data) =>
    let l := len.getD []
    let indent ←
      if l.length > 0 then do
        ppWrite (reprBytes l ++ py" ")
        pure (indent + ((reprBytes l).length + 1))
      else pure indent
    ppValue env (.bytes (data.getD [])) indent lineWidth
  | some v => ppValue env v indent lineWidth

/-- tools.py:73-76. -/
def ppFieldsP (env : PyEnv) (doc : PpDoc) (spec : PartialSpec) (descWidth lineWidth : Int) : List Str → PpM Unit
  | [] => pure ()
  | k :: t => do
    ppFieldP env doc spec descWidth lineWidth k
    ppFieldsP env doc spec descWidth lineWidth t

/-- tools.py:64-76, body of `pp`. -/
def ppBodyP (env : PyEnv) (doc : PpDoc) (spec : PartialSpec) (descWidth lineWidth : Int) : PpM Unit := do
  if doc.contains (.str py"h") then
    let f ← partialSpec .keyError spec py"h"
    let maxLen ← need .keyError py"max_len" f.maxLen
    if maxLen > 0 then
      ppFieldP env doc spec descWidth lineWidth py"h"
  if doc.contains (.str py"t") then
    ppFieldP env doc spec descWidth lineWidth py"t"
  if doc.contains (.str py"p") then
    ppFieldP env doc spec descWidth lineWidth py"p"
  let ks ← PyM.lift (ppNumericKeys env doc.keys)
  ppFieldsP env doc spec descWidth lineWidth ((sortedBy Prod.snd ks).map Prod.fst)

/-- tools.py:11-76 `pp`. -/
def ppP (env : PyEnv) (doc : PpDoc) (spec : PartialSpec) (descWidth lineWidth : Int) : Except PpRaise Unit × Str :=
  ppBodyP env doc spec descWidth lineWidth []

end Iso8583
