import Verif.Model.Decoder
/-!
# Model of `/repo/iso8583/encoder.py`

Function by function, branch by branch.  The caller's `doc_dec` is mutable state, because
`encode` mutates it and the caller sees that, also when an exception is raised.
-/

namespace Iso8583

/-- A key of the caller's dictionary: a `str`, or any hashable object without an `isnumeric`
method (int, float, tuple, bytes, ...), represented by its `repr`. -/
inductive Key
  | str (s : Str)
  | obj (repr : Str)
deriving DecidableEq, Repr

/-- A value of the caller's dictionary.  The documented type is `str`; the code also meets
`bytes`-like values, other objects that have a `len` (list, tuple, dict, ...), and objects
without (`None`, int, ...). -/
inductive Val
  | str (s : Str)
  | bytes (b : Bytes)
  | sized (len : Nat)
  | unsized
deriving DecidableEq, Repr

/-- The dictionary passed to `encode`. -/
abbrev Doc := Dict Key Val

/-- The error messages of encoder.py, with their interpolated values. -/
inductive EncMsg
  | invalidFields (keys : List Str)                        -- encoder.py:100
  | outOfRange (nums : List Int)                           -- encoder.py:109
  | requiredBySpec                                         -- encoder.py:207
  | required                                               -- encoder.py:243
  | typeLen (actual expected : Nat)                        -- encoder.py:274
  | fixedLen (len : Nat) (count : Str) (expected : Int)    -- encoder.py:431
  | tooLong (len : Nat) (count : Str) (maxLen : Int)       -- encoder.py:444
  | lenDoesNotFit                                          -- encoder.py:458, 474, 507
  | lenUnknownEncoding                                     -- encoder.py:489
  | lenInvalid                                             -- encoder.py:499
  | oddNibbles                                             -- encoder.py:560
  | oddHex                                                 -- encoder.py:567
  | nonHex                                                 -- encoder.py:573
  | unknownEncoding                                        -- encoder.py:659
  | invalidData                                            -- encoder.py:666
deriving DecidableEq, Repr

/-- `", ".join(xs)` inside a list `repr`. -/
def commaJoin : List Str → Str
  | [] => []
  | [x] => x
  | x :: t => x ++ py", " ++ commaJoin t

/-- The text of each message.  The detail after "Failed to encode field length, " in
`lenInvalid` is the codec's own exception text and is left out. -/
def EncMsg.text : EncMsg → Str
  | .invalidFields ks => py"Dictionary contains invalid fields [" ++ commaJoin ks ++ py"]"
  | .outOfRange ns =>
    py"Dictionary contains fields outside of 1-192 range [" ++ commaJoin (ns.map intStr) ++ py"]"
  | .requiredBySpec => py"Field data is required according to specifications"
  | .required => py"Field data is required"
  | .typeLen a e => py"Field data is " ++ natStr a ++ py" bytes, expecting " ++ natStr e
  | .fixedLen n c e => py"Field data is " ++ natStr n ++ py" " ++ c ++ py", expecting " ++ intStr e
  | .tooLong n c m =>
    py"Field data is " ++ natStr n ++ py" " ++ c ++ py", larger than maximum " ++ intStr m
  | .lenDoesNotFit =>
    py"Failed to encode field length, field length does not fit into configured field size"
  | .lenUnknownEncoding => py"Failed to encode field length, unknown encoding specified"
  | .lenInvalid => py"Failed to encode field length, "
  | .oddNibbles => py"Failed to encode field, odd-length nibble data, specify pad"
  | .oddHex => py"Failed to encode field, odd-length hex data"
  | .nonHex => py"Failed to encode field, non-hex data"
  | .unknownEncoding => py"Failed to encode field, unknown encoding specified"
  | .invalidData => py"Failed to encode field, invalid data"

/-- Everything that can be raised while encoding. -/
inductive EncRaise
  | err (msg : EncMsg) (field : Str)   -- `EncodeError`
  | keyError (key : Str)               -- failed subscript
  | valueError                         -- `int(k)` at encoder.py:97
  | typeError                          -- `len(...)` / `+` on an unsuitable object
  | unboundLocal                       -- `data_to_encode` read before assignment, encoder.py:558
  | indexError                         -- `bitmap[byte]` at encoder.py:337
deriving DecidableEq, Repr

/-- The caller's dictionary and the encoded dictionary under construction. -/
structure EncState where
  dec : Doc
  enc : EncDoc
deriving DecidableEq, Repr

abbrev EncM := PyM EncRaise EncState

/-- `raise EncodeError(...)`. -/
def encFail {α : Type} (m : EncMsg) (field : Str) : EncM α := PyM.raise (.err m field)

/-- `spec[k]` inside the encoder. -/
def encSpec (spec : Spec) (k : Str) : EncM FieldSpec :=
  match spec.get? k with
  | some fs => pure fs
  | none => PyM.raise (.keyError k)

/-- `doc_dec[k]`. -/
def docGet (k : Str) : EncM Val := do
  match (← PyM.get).dec.get? (.str k) with
  | some v => pure v
  | none => PyM.raise (.keyError k)

/-- `doc_dec[k] = v`. -/
def docSet (k : Str) (v : Str) : EncM Unit :=
  PyM.modify fun st => { st with dec := st.dec.set (.str k) (.str v) }

/-- `doc_enc[k] = {...}` and `doc_enc[k]["len"|"data"] = ...`. -/
def encSet (k : Str) (e : EncEntry) : EncM Unit :=
  PyM.modify fun st => { st with enc := st.enc.set k e }

/-- `doc_enc[k]`. -/
def encGet (k : Str) : EncM EncEntry := do
  match (← PyM.get).enc.get? k with
  | some v => pure v
  | none => PyM.raise (.keyError k)

/-- encoder.py:621-677 `_encode_text_field`: data and length (in units of `count`). -/
def encodeTextField (env : PyEnv) (v : Val) (key : Str) (fs : FieldSpec) (count : Str) :
    Except EncRaise (Bytes × Nat) :=
  match v with
  | .str t =>
    match strEncode env fs.dataEnc t with
    | .error .lookup => .error (.err .unknownEncoding key)
    | .error .invalid => .error (.err .invalidData key)
    | .ok b => .ok (b, if count = py"nibbles" then b.length * 2 else b.length)
  | _ => .error (.err .invalidData key)

/-- `len(v)`; `none` = `TypeError`. -/
def Val.len? : Val → Option Nat
  | .str s => some s.length
  | .bytes b => some b.length
  | .sized n => some n
  | .unsized => none

/-- encoder.py:587-618 `_add_pad_field`; `none` = `TypeError` of `str + other`. -/
def addPadField (v : Val) (fs : FieldSpec) : Option Val :=
  let pad := padChar fs.leftPad
  if pad.length > 0 then
    match v with
    | .str s => some (.str (pad ++ s))
    | _ => none
  else
    let pad := padChar fs.rightPad
    if pad.length > 0 then
      match v with
      | .str s => some (.str (s ++ pad))
      | _ => none
    else some v

/-- `binascii.a2b_hex(v)` on any object; `none` = some exception. -/
def Val.a2bHex : Val → Option Bytes
  | .str s => Iso8583.a2bHex s
  | .bytes b => Iso8583.a2bHex (b.map UInt8.toNat)
  | _ => none

/-- The exception handler of encoder.py:557-577; `dte` is `data_to_encode`, `none` = unbound. -/
def binaryHandler (dte : Option Val) (key : Str) (count : Str) : EncRaise :=
  match dte with
  | none => .unboundLocal
  | some v =>
    match v.len? with
    | none => .typeError
    | some n =>
      if count = py"nibbles" ∧ n % 2 = 1 then .err .oddNibbles key
      else if n % 2 = 1 then .err .oddHex key
      else .err .nonHex key

/-- encoder.py:516-584 `_encode_bindary_field`: data and length (in units of `count`).
The `try` body first binds `data_to_encode`, then converts it; any exception goes to the handler. -/
def encodeBinaryField (v : Val) (key : Str) (fs : FieldSpec) (count : Str) :
    Except EncRaise (Bytes × Nat) :=
  let dte : Option Val :=
    if count = py"nibbles" then
      match v.len? with
      | none => none
      | some n => if n % 2 = 1 then addPadField v fs else some v
    else some v
  match dte.bind Val.a2bHex with
  | none => .error (binaryHandler dte key count)
  | some b =>
    if count = py"nibbles" then
      match v.len? with
      | some n => .ok (b, n)
      | none => .error .typeError   -- not reachable: `len(v)` succeeded above
    else .ok (b, b.length)

/-- encoder.py:450-511: the encoded length prefix of a variable-length field. -/
def encodeLength (env : PyEnv) (n : Nat) (key : Str) (fs : FieldSpec) : EncM Unit := do
  let e ← encGet key
  if fs.lenEnc = py"b" then
    match toBytesBE n fs.lenType with
    | none => encFail .lenDoesNotFit key
    | some l => encSet key { e with len := l }
  else if fs.lenEnc = py"bcd" then
    let t := zeroPad (fs.lenType * 2) n
    if t.length > fs.lenType * 2 then
      encFail .lenDoesNotFit key
    match a2bHex t with
    | none => PyM.raise .valueError   -- not reachable: an even number of decimal digits
    | some l => encSet key { e with len := l }
  else
    match strEncode env fs.lenEnc (zeroPad fs.lenType n) with
    | .error .lookup => encFail .lenUnknownEncoding key
    | .error .invalid => encFail .lenInvalid key
    | .ok l =>
      encSet key { e with len := l }
      if l.length > fs.lenType then
        encFail .lenDoesNotFit key

/-- encoder.py:367-513 `_encode_field`. -/
def encodeField (env : PyEnv) (key : Str) (fs : FieldSpec) : EncM Bytes := do
  encSet key ⟨[], []⟩
  let count := fs.count
  let v ← docGet key
  let (data, encLen) ← PyM.lift <|
    if fs.dataEnc = py"b" then encodeBinaryField v key fs count
    else encodeTextField env v key fs count
  encSet key ⟨[], data⟩
  if fs.lenType = 0 then
    if (encLen : Int) ≠ fs.maxLen then
      encFail (.fixedLen encLen count fs.maxLen) key
    return data
  if (encLen : Int) > fs.maxLen then
    encFail (.tooLong encLen count fs.maxLen) key
  encodeLength env encLen key fs
  let e ← encGet key
  return e.len ++ e.data

/-- encoder.py:172-210 `_encode_header`. -/
def encodeHeader (env : PyEnv) (spec : Spec) : EncM Bytes := do
  let fs ← encSpec spec py"h"
  if fs.maxLen ≤ 0 then
    return []
  if ¬ (← PyM.get).dec.contains (.str py"h") then
    encFail .requiredBySpec py"h"
  encodeField env py"h" fs

/-- encoder.py:213-280 `_encode_type`. -/
def encodeType (env : PyEnv) (spec : Spec) : EncM Bytes := do
  if ¬ (← PyM.get).dec.contains (.str py"t") then
    encFail .required py"t"
  let fs ← encSpec spec py"t"
  let expected : Nat := if fs.dataEnc = py"b" then 2 else 4
  encSet py"t" ⟨[], []⟩
  let v ← docGet py"t"
  let (data, encLen) ← PyM.lift <|
    if fs.dataEnc = py"b" then encodeBinaryField v py"t" fs py"bytes"
    else encodeTextField env v py"t" fs py"bytes"
  encSet py"t" ⟨[], data⟩
  if encLen ≠ expected then
    encFail (.typeLen encLen expected) py"t"
  return data

/-- `bitmap[i] |= 1 << bit` on a bytearray; `none` = `IndexError` (encoder.py:337). -/
def orAt (bitmap : Bytes) (i bit : Nat) : Option Bytes :=
  match bitmap, i with
  | [], _ => none
  | b :: t, 0 => some (UInt8.ofNat (b.toNat ||| 1 <<< bit) :: t)
  | b :: t, i + 1 => (orAt t i bit).map (b :: ·)

/-- The loop of encoder.py:325-337.  The subtractions are on natural numbers; the callers pass
fields `>= 1 + offset` only. -/
def bitmapLoop (offset : Nat) : List Nat → Bytes → Option Bytes
  | [], bm => some bm
  | f :: rest, bm =>
    let field := f - (1 + offset)
    let byte := field / 8
    let bit := 7 - (field - byte * 8)
    match orAt bm byte bit with
    | none => none
    | some bm' => bitmapLoop offset rest bm'

/-- `doc_dec[k] + hex_bitmap` (encoder.py:342). -/
def docAppend (k : Str) (t : Str) : EncM Unit := do
  match ← docGet k with
  | .str s => docSet k (s ++ t)
  | _ => PyM.raise .typeError

/-- encoder.py:283-364 `_encode_bitmap`. -/
def encodeBitmap (env : PyEnv) (key : Str) (fs : FieldSpec) (offset : Nat) (isExtended : Bool)
    (fields : List Nat) : EncM Bytes := do
  match bitmapLoop offset fields (List.replicate 8 0) with
  | none => PyM.raise .indexError
  | some bitmap =>
    let hexBitmap := upperAscii (bytesHex bitmap)
    if isExtended then
      docAppend key hexBitmap
    else
      docSet key hexBitmap
      encSet key ⟨[], []⟩
    let data ←
      if fs.dataEnc = py"b" then pure bitmap
      else do
        let (d, _) ← PyM.lift (encodeTextField env (.str hexBitmap) key fs py"bytes")
        pure d
    let e ← encGet key
    if isExtended then
      encSet key { e with data := e.data ++ data }
    else
      encSet key { e with data := data }
    return data

/-- encoder.py:97: `[int(k) for k in doc_dec.keys() if k.isnumeric()]`, in dictionary order.
`AttributeError` (a key that is not a string) becomes `EncodeError` at encoder.py:98-104;
`ValueError` from `int` is not caught. -/
def numericKeys (env : PyEnv) (all : List Key) : List Key → Except EncRaise (List Int)
  | [] => .ok []
  | .obj _ :: _ =>
    .error (.err (.invalidFields (all.filterMap fun | .obj r => some r | .str _ => none)) py"p")
  | .str k :: t =>
    if isNumeric env k then
      match pyInt env k with
      | none => .error .valueError
      | some n => match numericKeys env all t with
        | .error e => .error e
        | .ok ns => .ok (n :: ns)
    else numericKeys env all t

/-- encoder.py:159-160: encode the given fields in order, concatenating. -/
def encodeFields (env : PyEnv) (spec : Spec) : List Nat → EncM Bytes
  | [] => pure []
  | i :: rest => do
    let key := natStr i
    let fs ← encSpec spec key
    let w ← encodeField env key fs
    let ws ← encodeFields env spec rest
    return w ++ ws

/-- `range(1, 193)` membership. -/
def inRange (n : Int) : Bool := 1 ≤ n && n < 193

/-- Body of `encode` after the type check (encoder.py:85-162). -/
def encodeBody (env : PyEnv) (spec : Spec) : EncM Bytes := do
  PyM.modify fun st => { st with dec := (st.dec.pop (.str py"1")).pop (.str py"65") }
  let h ← encodeHeader env spec
  let t ← encodeType env spec
  let ks := (← PyM.get).dec.keys
  let nums ← PyM.lift (numericKeys env ks ks)
  let ints := setUpdate [] nums
  if ¬ ints.all inRange then
    encFail (.outOfRange (sortedBy id (ints.filter fun n => ¬ inRange n))) py"p"
  let fields := ints.map Int.toNat
  let tertiary := setInter fields 129 193
  let fields := if tertiary ≠ [] then setAdd fields 65 else fields
  let secondary := setInter fields 65 129
  let fields := if secondary ≠ [] then setAdd fields 1 else fields
  let p ← encodeBitmap env py"p" (← encSpec spec py"p") 0 false (setInter fields 1 65)
  let (b1, fields) ←
    if 1 ∈ fields then do
      let w ← encodeBitmap env py"1" (← encSpec spec py"1") 64 false secondary
      pure (w, setRemove fields 1)
    else pure ([], fields)
  let (b2, fields) ←
    if 65 ∈ fields then do
      let w ← encodeBitmap env py"1" (← encSpec spec py"1") 128 true tertiary
      pure (w, setRemove fields 65)
    else pure ([], fields)
  let ws ← encodeFields env spec (sortedNat fields)
  return h ++ t ++ p ++ b1 ++ b2 ++ ws

/-- The attributes of an `EncodeError` instance (encoder.py:11-34). -/
structure EncodeError where
  msg    : EncMsg
  docDec : Doc
  docEnc : EncDoc
  field  : Str
deriving DecidableEq, Repr

/-- `str(e)`: encoder.py:29 `f"{msg}: field {field}"`; `detail` is the text of the exception that `msg` ends with
in encoder.py:499, empty for every other message. -/
def EncodeError.text (e : EncodeError) (detail : Str := []) : Str := e.msg.text ++ detail ++ py": field " ++ e.field

/-- The exceptions that can leave `encode`. -/
inductive EncodeExc
  | encodeError (e : EncodeError)
  | keyError (key : Str)
  | valueError
  | typeError
  | unboundLocal
  | indexError
  | notDict (className : Str)          -- `TypeError` of encoder.py:80-83
deriving DecidableEq, Repr

/-- encoder.py:42-162 `encode(doc_dec, spec)`: the pair `(s, doc_enc)` or the exception raised,
together with the caller's dictionary as it is left afterwards. -/
def encode (env : PyEnv) (spec : Spec) (doc : Doc) : Except EncodeExc (Bytes × EncDoc) × Doc :=
  match encodeBody env spec ⟨doc, []⟩ with
  | (.ok s, st) => (.ok (s, st.enc), st.dec)
  | (.error r, st) =>
    (.error (match r with
      | .err m f => .encodeError ⟨m, st.dec, st.enc, f⟩
      | .keyError k => .keyError k
      | .valueError => .valueError
      | .typeError => .typeError
      | .unboundLocal => .unboundLocal
      | .indexError => .indexError), st.dec)

/-- The argument of `encode`: a dict, or an instance of some other class. -/
inductive EncodeArg
  | dict (d : Doc)
  | other (className : Str)
deriving DecidableEq, Repr

/-- encoder.py:80-83: the type check in front of `encode`; the argument as left afterwards. -/
def encodeApi (env : PyEnv) (spec : Spec) : EncodeArg → Except EncodeExc (Bytes × EncDoc) × EncodeArg
  | .dict d => let (r, d') := encode env spec d; (r, .dict d')
  | .other c => (.error (.notDict c), .other c)

end Iso8583
