import Verif.Model.Encoder
/-!
# The exception classes

`DecodeError` and `EncodeError` as Python objects: what `__init__` stores, what `__reduce__`
returns, and what unpickling does with it (call the class with the arguments).
-/

namespace Iso8583

/-- A `DecodeError` object: its class (a subclass may have been raised), the only entry of
`BaseException.args`, which is what `str()` shows, and the six attributes (decoder.py:38-45). -/
structure DecodeErrorObj where
  cls    : Str
  args0  : Str
  msg    : Str
  s      : DecodeArg
  docDec : DecDoc
  docEnc : EncDoc
  field  : Str
  pos    : Int
deriving DecidableEq, Repr

/-- decoder.py:29-45 `DecodeError.__init__`. -/
def DecodeErrorObj.init (cls msg : Str) (s : DecodeArg) (docDec : DecDoc) (docEnc : EncDoc) (pos : Int) (field : Str) :
    DecodeErrorObj :=
  let errmsg := msg ++ py": field " ++ field ++ py" pos " ++ intStr pos
  { cls := cls, args0 := errmsg, msg := msg, s := s, docDec := docDec, docEnc := docEnc, field := field, pos := pos }

/-- decoder.py:47-56 `DecodeError.__reduce__`: the class and the argument tuple. -/
def DecodeErrorObj.reduce (e : DecodeErrorObj) : Str × (Str × DecodeArg × DecDoc × EncDoc × Int × Str) :=
  (e.cls, (e.msg, e.s, e.docDec, e.docEnc, e.pos, e.field))

/-- What `pickle.loads` and `copy.copy` do with the result of `__reduce__`: call the class. -/
def DecodeErrorObj.rebuild : Str × (Str × DecodeArg × DecDoc × EncDoc × Int × Str) → DecodeErrorObj
  | (cls, (msg, s, docDec, docEnc, pos, field)) => .init cls msg s docDec docEnc pos field

/-- The object `decode` raises; `s` is the object the caller passed. -/
def DecodeError.obj (s : DecodeArg) (e : DecodeError) : DecodeErrorObj :=
  .init py"DecodeError" e.msg.text s e.docDec e.docEnc e.pos e.field

/-- An `EncodeError` object (encoder.py:28-34). -/
structure EncodeErrorObj where
  cls    : Str
  args0  : Str
  msg    : Str
  docDec : Doc
  docEnc : EncDoc
  field  : Str
deriving DecidableEq, Repr

/-- encoder.py:26-34 `EncodeError.__init__`. -/
def EncodeErrorObj.init (cls msg : Str) (docDec : Doc) (docEnc : EncDoc) (field : Str) : EncodeErrorObj :=
  let errmsg := msg ++ py": field " ++ field
  { cls := cls, args0 := errmsg, msg := msg, docDec := docDec, docEnc := docEnc, field := field }

/-- encoder.py:36-39 `EncodeError.__reduce__`. -/
def EncodeErrorObj.reduce (e : EncodeErrorObj) : Str × (Str × Doc × EncDoc × Str) :=
  (e.cls, (e.msg, e.docDec, e.docEnc, e.field))

/-- Unpickling: call the class with the arguments. -/
def EncodeErrorObj.rebuild : Str × (Str × Doc × EncDoc × Str) → EncodeErrorObj
  | (cls, (msg, docDec, docEnc, field)) => .init cls msg docDec docEnc field

/-- The object `encode` raises. -/
def EncodeError.obj (e : EncodeError) : EncodeErrorObj := .init py"EncodeError" e.msg.text e.docDec e.docEnc e.field

end Iso8583
