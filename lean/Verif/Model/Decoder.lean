import Verif.Model.FieldSpec
/-!
# Model of `/repo/iso8583/decoder.py`

Function by function, branch by branch.  `doc_dec` and `doc_enc` are the mutable state; an
exception leaves the state as it was when raised, as in Python.
-/

namespace Iso8583

/-- The error messages of decoder.py, with their interpolated values. -/
inductive DecMsg
  | fieldDataBytes (actual expected : Nat)                 -- decoder.py:262, 350
  | nonHexBitmap                                           -- decoder.py:386
  | lenWidth (actual expected : Nat)                       -- decoder.py:452
  | lenInvalidBcd                                          -- decoder.py:490
  | lenUnknownEncoding                                     -- decoder.py:503
  | lenInvalidData                                         -- decoder.py:512
  | lenNonNumeric                                          -- decoder.py:524
  | tooLong (len : Int) (count : Str) (maxLen : Int)       -- decoder.py:534
  | dataShort (actual : Nat) (count : Str) (expected : Int) -- decoder.py:567
  | padMissing (actual : Nat) (expected : Int)             -- decoder.py:649
  | unknownEncoding                                        -- decoder.py:703
  | invalidData                                            -- decoder.py:712
  | extraData                                              -- decoder.py:162
deriving DecidableEq, Repr

/-- The text of each message (the f-strings at the lines cited on the constructors). -/
def DecMsg.text : DecMsg → Str
  | .fieldDataBytes a e => py"Field data is " ++ natStr a ++ py" bytes, expecting " ++ natStr e
  | .nonHexBitmap => py"Failed to decode field, non-hex data"
  | .lenWidth a e => py"Field length is " ++ natStr a ++ py" bytes wide, expecting " ++ natStr e
  | .lenInvalidBcd => py"Failed to decode field length, invalid BCD data"
  | .lenUnknownEncoding => py"Failed to decode field length, unknown encoding specified"
  | .lenInvalidData => py"Failed to decode field length, invalid data"
  | .lenNonNumeric => py"Failed to decode field length, non-numeric data"
  | .tooLong n c m =>
    py"Field data is " ++ intStr n ++ py" " ++ c ++ py", larger than maximum " ++ intStr m
  | .dataShort a c e =>
    py"Field data is " ++ natStr a ++ py" " ++ c ++ py", expecting " ++ intStr e
  | .padMissing a e => py"Field data is " ++ natStr a ++ py" nibbles, expecting " ++ intStr e
  | .unknownEncoding => py"Failed to decode field, unknown encoding specified"
  | .invalidData => py"Failed to decode field, invalid data"
  | .extraData => py"Extra data after last field"

/-- What can be raised while decoding: a `DecodeError(msg, s, doc_dec, doc_enc, pos, field)`,
or the `KeyError` of a failed subscript such as `spec[field]`. -/
inductive DecRaise
  | err (msg : DecMsg) (pos : Nat) (field : Str)
  | keyError (key : Str)
deriving DecidableEq, Repr

/-- The two dictionaries under construction (decoder.py:107-108). -/
structure DecState where
  dec : DecDoc
  enc : EncDoc
deriving DecidableEq, Repr

abbrev DecM := PyM DecRaise DecState

/-- `doc_dec[k] = v`. -/
def setDec (k v : Str) : DecM Unit := PyM.modify fun st => { st with dec := st.dec.set k v }

/-- `doc_enc[k] = {"len": l, "data": d}`. -/
def setEnc (k : Str) (e : EncEntry) : DecM Unit := PyM.modify fun st => { st with enc := st.enc.set k e }

/-- `doc_dec[k]`. -/
def getDec (k : Str) : DecM Str := do
  match (← PyM.get).dec.get? k with
  | some v => pure v
  | none => PyM.raise (.keyError k)

/-- `doc_enc[k]`. -/
def getEnc (k : Str) : DecM EncEntry := do
  match (← PyM.get).enc.get? k with
  | some v => pure v
  | none => PyM.raise (.keyError k)

/-- `spec[k]` inside the decoder. -/
def decSpec (spec : Spec) (k : Str) : DecM FieldSpec :=
  match spec.get? k with
  | some fs => pure fs
  | none => PyM.raise (.keyError k)

/-- `raise DecodeError(...)`. -/
def decFail {α : Type} (m : DecMsg) (pos : Nat) (field : Str) : DecM α := PyM.raise (.err m pos field)

/-- decoder.py:658-718 `_decode_text_data`. -/
def decodeTextData (env : PyEnv) (data : Bytes) (idx : Nat) (key : Str) (fs : FieldSpec) : DecM Str :=
  match bytesDecode env fs.dataEnc data with
  | .ok t => pure t
  | .error .lookup => decFail .unknownEncoding idx key
  | .error .invalid => decFail .invalidData idx key

/-- `x[:1]` of an optional string property, `""` when absent (decoder.py:640, 644;
encoder.py:610, 614). -/
def padChar (p : Option Str) : Str := (p.getD []).take 1

/-- decoder.py:601-655 `_remove_pad_field`. -/
def removePadField (idx : Nat) (key : Str) (fs : FieldSpec) (encLen : Int) : DecM Str := do
  let pad := padChar fs.leftPad
  let cur ← getDec key
  if pad.length > 0 ∧ cur.take 1 = pad then
    return cur.drop 1
  let pad := padChar fs.rightPad
  if pad.length > 0 ∧ cur.drop (cur.length - 1) = pad then
    return cur.take (cur.length - 1)
  decFail (.padMissing cur.length encLen) idx key

/-- decoder.py:465-530: the numeric value of a variable-length field's length prefix. -/
def decodeLength (env : PyEnv) (lenBytes : Bytes) (idx : Nat) (key : Str) (fs : FieldSpec) : DecM Int :=
  if fs.lenEnc = py"b" then
    pure (fromBytesBE lenBytes : Int)
  else if fs.lenEnc = py"bcd" then
    match pyInt env (bytesHex lenBytes) with
    | some n => pure n
    | none => decFail .lenInvalidBcd idx key
  else
    match bytesDecode env fs.lenEnc lenBytes with
    | .error .lookup => decFail .lenUnknownEncoding idx key
    | .error .invalid => decFail .lenInvalidData idx key
    | .ok t =>
      match pyInt env t with
      | some n => pure n
      | none => decFail .lenNonNumeric idx key

/-- decoder.py:548-556: number of bytes holding `encLen` units. `& 1` is parity and `//` is
floor division, also on negative ints. -/
def byteFieldLen (fs : FieldSpec) (encLen : Int) : Int :=
  if fs.count = py"nibbles" then
    if encLen % 2 = 1 then (encLen + 1) / 2 else encLen / 2
  else encLen

/-- decoder.py:406-598 `_decode_field`.  The returned index `idx + byte_field_len` is a Python
int; here it is truncated to `Nat`, which changes nothing because the length check above it
forces `byte_field_len >= 0`. -/
def decodeField (env : PyEnv) (s : Bytes) (idx : Nat) (key : Str) (fs : FieldSpec) : DecM Nat := do
  let lenType := fs.lenType
  let lenCount := fs.count
  setDec key []
  let lenBytes := slice s idx (idx + lenType)
  setEnc key ⟨lenBytes, []⟩
  if lenBytes.length ≠ lenType then
    decFail (.lenWidth lenBytes.length lenType) idx key
  let encLen : Int ←
    if lenType = 0 then pure fs.maxLen
    else do
      let n ← decodeLength env lenBytes idx key fs
      if n > fs.maxLen then
        decFail (.tooLong n lenCount fs.maxLen) idx key
      pure n
  let idx := idx + lenType
  if encLen = 0 then
    return idx
  let byteLen := byteFieldLen fs encLen
  let data := slice s idx (idx + byteLen)
  setEnc key ⟨lenBytes, data⟩
  if (data.length : Int) ≠ byteLen then
    decFail (.dataShort (if lenCount = py"nibbles" then data.length * 2 else data.length) lenCount encLen) idx key
  if fs.dataEnc = py"b" then
    setDec key (upperAscii (bytesHex data))
    if lenCount = py"nibbles" ∧ encLen % 2 = 1 then
      setDec key (← removePadField idx key fs encLen)
  else
    setDec key (← decodeTextData env data idx key fs)
  return (idx + byteLen).toNat

/-- decoder.py:175-213 `_decode_header`. -/
def decodeHeader (env : PyEnv) (spec : Spec) (s : Bytes) (idx : Nat) : DecM Nat := do
  let fs ← decSpec spec py"h"
  if fs.maxLen ≤ 0 then
    return idx
  decodeField env s idx py"h" fs

/-- decoder.py:216-283 `_decode_type`. -/
def decodeType (env : PyEnv) (spec : Spec) (s : Bytes) (idx : Nat) : DecM Nat := do
  let fs ← decSpec spec py"t"
  let expected : Nat := if fs.dataEnc = py"b" then 2 else 4
  let data := slice s idx (idx + expected)
  setDec py"t" []
  setEnc py"t" ⟨[], data⟩
  if data.length ≠ expected then
    decFail (.fieldDataBytes data.length expected) idx py"t"
  if fs.dataEnc = py"b" then
    setDec py"t" (upperAscii (bytesHex data))
  else
    setDec py"t" (← decodeTextData env data idx py"t" fs)
  return idx + expected

/-- `enumerate(bitmap)` filtered by one bit column: the bytes with bit `bit` (1 = most
significant) set contribute `offset + byte_idx * 8 + bit` (decoder.py:396-399). -/
def bitColumn (offset bit : Nat) : Nat → Bytes → List Nat
  | _, [] => []
  | byteIdx, b :: t =>
    if (b.toNat >>> (8 - bit)) &&& 1 = 1 then (offset + byteIdx * 8 + bit) :: bitColumn offset bit (byteIdx + 1) t
    else bitColumn offset bit (byteIdx + 1) t

/-- The list comprehension of decoder.py:395-400: outer loop over bits 1..8, inner over bytes. -/
def bitmapFields (offset : Nat) (bitmap : Bytes) : List Nat :=
  [1, 2, 3, 4, 5, 6, 7, 8].flatMap fun bit => bitColumn offset bit 0 bitmap

/-- decoder.py:286-403 `_decode_bitmap`.  `fields` is returned updated instead of mutated. -/
def decodeBitmap (env : PyEnv) (s : Bytes) (idx : Nat) (key : Str) (fs : FieldSpec)
    (offset : Nat) (isExtended : Bool) (fields : List Nat) : DecM (Nat × List Nat) := do
  let expected : Nat := if fs.dataEnc = py"b" then 8 else 16
  let data := slice s idx (idx + expected)
  if isExtended then
    let e ← getEnc key
    setEnc key { e with data := e.data ++ data }
  else
    setDec key []
    setEnc key ⟨[], data⟩
  if data.length ≠ expected then
    let e ← getEnc key
    decFail (.fieldDataBytes e.data.length (if isExtended then expected * 2 else expected)) idx key
  let bitmap ←
    if fs.dataEnc = py"b" then do
      let decoded := upperAscii (bytesHex data)
      if isExtended then
        setDec key ((← getDec key) ++ decoded)
      else
        setDec key decoded
      pure data
    else do
      let decoded ← decodeTextData env data idx key fs
      if isExtended then
        setDec key ((← getDec key) ++ decoded)
      else
        setDec key decoded
      match fromHex decoded with
      | some b => pure b
      | none => decFail .nonHexBitmap idx key
  return (idx + expected, setUpdate fields (bitmapFields offset bitmap))

/-- decoder.py:157-158: decode the given fields in order; also returns the value the loop
variable `field` has afterwards (`last` if the loop body never ran). -/
def decodeFields (env : PyEnv) (spec : Spec) (s : Bytes) : Nat → Str → List Nat → DecM (Nat × Str)
  | idx, last, [] => pure (idx, last)
  | idx, _, i :: rest => do
    let key := natStr i
    let fs ← decSpec spec key
    let idx' ← decodeField env s idx key fs
    decodeFields env spec s idx' key rest

/-- Body of `decode` after the type check (decoder.py:107-163). -/
def decodeBody (env : PyEnv) (spec : Spec) (s : Bytes) : DecM Unit := do
  let idx ← decodeHeader env spec s 0
  let idx ← decodeType env spec s idx
  let field := py"p"
  let (idx, fields) ← decodeBitmap env s idx field (← decSpec spec field) 0 false []
  let (field, idx, fields) ←
    if 1 ∈ fields then do
      let field := py"1"
      let (idx, fields) ← decodeBitmap env s idx field (← decSpec spec field) 64 false fields
      pure (field, idx, setRemove fields 1)
    else pure (field, idx, fields)
  let (idx, fields) ←
    if 65 ∈ fields then do
      let (idx, fields) ← decodeBitmap env s idx field (← decSpec spec field) 128 true fields
      pure (idx, setRemove fields 65)
    else pure (idx, fields)
  let (idx, field) ← decodeFields env spec s idx field (sortedNat fields)
  if idx ≠ s.length then
    decFail .extraData idx field

/-- The attributes of a `DecodeError` instance (decoder.py:10-45). -/
structure DecodeError where
  msg    : DecMsg
  s      : Bytes
  docDec : DecDoc
  docEnc : EncDoc
  pos    : Nat
  field  : Str
deriving DecidableEq, Repr

/-- `str(e)`: decoder.py:38 `f"{msg}: field {field} pos {pos}"`. -/
def DecodeError.text (e : DecodeError) : Str :=
  e.msg.text ++ py": field " ++ e.field ++ py" pos " ++ natStr e.pos

/-- The exceptions that can leave `decode`. -/
inductive DecodeExc
  | decodeError (e : DecodeError)
  | keyError (key : Str)
  | typeError (className : Str)
deriving DecidableEq, Repr

/-- decoder.py:59-165 `decode(s, spec)` on `bytes` or `bytearray` input: the pair
`(doc_dec, doc_enc)`, or the exception raised. -/
def decode (env : PyEnv) (spec : Spec) (s : Bytes) : Except DecodeExc (DecDoc × EncDoc) :=
  match decodeBody env spec s ⟨[], []⟩ with
  | (.ok _, st) => .ok (st.dec, st.enc)
  | (.error (.err m pos field), st) => .error (.decodeError ⟨m, s, st.dec, st.enc, pos, field⟩)
  | (.error (.keyError k), _) => .error (.keyError k)

/-- The argument of `decode`: bytes-like, or an instance of some other class. -/
inductive DecodeArg
  | bytes (s : Bytes)
  | bytearray (s : Bytes)
  | other (className : Str)
deriving DecidableEq, Repr

/-- decoder.py:102-105: the type check in front of `decode`. -/
def decodeApi (env : PyEnv) (spec : Spec) : DecodeArg → Except DecodeExc (DecDoc × EncDoc)
  | .bytes s => decode env spec s
  | .bytearray s => decode env spec s
  | .other c => .error (.typeError c)

end Iso8583
