import Verif.Model.Exceptions
import Verif.Model.Partial
/-!
# The interpreter's limit on numbers in error messages

CPython 3.11 and later refuse to convert an int to decimal text when it has more digits than
`sys.get_int_max_str_digits()` (4300 by default), with `ValueError`.  The f-strings that make up the
error messages are such conversions.  `Model/Decoder.lean` and `Model/Encoder.lean` leave this out;
here are `decode` and `encode` with it.
-/

namespace Iso8583

/-- `f"{n}"` works. -/
def formats (env : PyEnv) (n : Int) : Bool := env.maxStrDigits == 0 || (natStr n.natAbs).length ≤ env.maxStrDigits

/-- The numbers in a message (the f-strings at the lines cited in Model/Decoder.lean). -/
def DecMsg.numbers : DecMsg → List Int
  | .fieldDataBytes a e => [a, e]
  | .lenWidth a e => [a, e]
  | .tooLong n _ m => [n, m]
  | .dataShort a _ e => [a, e]
  | .padMissing a e => [a, e]
  | _ => []

/-- The numbers in a message (the f-strings at the lines cited in Model/Encoder.lean). -/
def EncMsg.numbers : EncMsg → List Int
  | .outOfRange ns => ns
  | .typeLen a e => [a, e]
  | .fixedLen n _ e => [n, e]
  | .tooLong n _ m => [n, m]
  | _ => []

/-- An exception, or the `ValueError` of a conversion that takes its place. -/
inductive Limited (ε : Type)
  | exc (e : ε)
  | valueError
deriving DecidableEq, Repr

/-- decoder.py:59-165 `decode`, under the interpreter's limit: the text of the message is made before
the exception object, whose `__init__` converts `pos` (decoder.py:38). -/
def decodeLim (env : PyEnv) (spec : Spec) (s : Bytes) : Except (Limited DecodeExc) (DecDoc × EncDoc) :=
  match decode env spec s with
  | .ok r => .ok r
  | .error (.decodeError e) =>
    if (e.msg.numbers ++ [(e.pos : Int)]).all (formats env) then .error (.exc (.decodeError e)) else .error .valueError
  | .error x => .error (.exc x)

/-- encoder.py:42-162 `encode`, under the interpreter's limit.  (Length prefixes are conversions too,
encoder.py:470 and 484, of numbers no larger than the length of data in memory; they are not limited
here.) -/
def encodeLim (env : PyEnv) (spec : Spec) (doc : Doc) : Except (Limited EncodeExc) (Bytes × EncDoc) × Doc :=
  match encode env spec doc with
  | (.ok r, d) => (.ok r, d)
  | (.error (.encodeError e), d) =>
    (if e.msg.numbers.all (formats env) then .error (.exc (.encodeError e)) else .error .valueError, d)
  | (.error x, d) => (.error (.exc x), d)

/-- As `decodeLim`, on a specification that may lack properties. -/
def decodeLimP (env : PyEnv) (spec : PartialSpec) (s : Bytes) : Except (Limited DecodeExc) (DecDoc × EncDoc) :=
  match decodeP env spec s with
  | .ok r => .ok r
  | .error (.decodeError e) =>
    if (e.msg.numbers ++ [(e.pos : Int)]).all (formats env) then .error (.exc (.decodeError e)) else .error .valueError
  | .error x => .error (.exc x)

/-- As `encodeLim`, on a specification that may lack properties. -/
def encodeLimP (env : PyEnv) (spec : PartialSpec) (doc : Doc) : Except (Limited EncodeExc) (Bytes × EncDoc) × Doc :=
  match encodeP env spec doc with
  | (.ok r, d) => (.ok r, d)
  | (.error (.encodeError e), d) =>
    (if e.msg.numbers.all (formats env) then .error (.exc (.encodeError e)) else .error .valueError, d)
  | (.error x, d) => (.error (.exc x), d)

end Iso8583
