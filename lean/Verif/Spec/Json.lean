import Verif.Spec.Literal
import Verif.Spec.Laws
/-!
# JSON text of a dict of texts

`json.dumps` and `json.loads` of the standard library with default arguments, for dicts whose keys
and values are texts (the documentation, `docs/howto.rst`, sends decoded dicts through JSON).  Not
code of the repository.
-/

namespace Iso8583

/-- Four lower-case hex digits. -/
def hex4 (n : Nat) : Str := hexPad 4 n

/-- One character inside a JSON string (`json.encoder.py_encode_basestring_ascii`). -/
def jsonChar (c : Nat) : Str :=
  if c = 34 ∨ c = 92 then [92, c]
  else if c = 10 then py"\\n"
  else if c = 13 then py"\\r"
  else if c = 9 then py"\\t"
  else if c = 12 then py"\\f"
  else if c = 8 then py"\\b"
  else if 32 ≤ c ∧ c ≤ 126 then [c]
  else if c < 0x10000 then py"\\u" ++ hex4 c
  else py"\\u" ++ hex4 (0xd800 + (c - 0x10000) / 0x400) ++ py"\\u" ++ hex4 (0xdc00 + (c - 0x10000) % 0x400)

/-- A JSON string. -/
def jsonStr (s : Str) : Str := 34 :: (s.flatMap jsonChar ++ [34])

/-- The members of a JSON object. -/
def jsonMembers : Dict Str Str → Str
  | [] => []
  | [(k, v)] => jsonStr k ++ py": " ++ jsonStr v
  | (k, v) :: t => jsonStr k ++ py": " ++ jsonStr v ++ py", " ++ jsonMembers t

/-- `json.dumps(d)`. -/
def jsonDumps (d : Dict Str Str) : Str := 123 :: (jsonMembers d ++ [125])

/-- A UTF-16 high surrogate. -/
def IsHigh (c : Nat) : Prop := 0xd800 ≤ c ∧ c ≤ 0xdbff

/-- A UTF-16 low surrogate. -/
def IsLow (c : Nat) : Prop := 0xdc00 ≤ c ∧ c ≤ 0xdfff

instance (c : Nat) : Decidable (IsHigh c) := inferInstanceAs (Decidable (_ ∧ _))
instance (c : Nat) : Decidable (IsLow c) := inferInstanceAs (Decidable (_ ∧ _))

/-- After a backslash: the character meant, and what follows (`json.decoder.py_scanstring`).  A high
surrogate followed by the escape of a low one is one character. -/
def jsonEscape : Str → Option (Nat × Str)
  | [] => none
  | x :: r =>
    if x = 34 ∨ x = 92 ∨ x = 47 then some (x, r)
    else if x = 98 then some (8, r)
    else if x = 102 then some (12, r)
    else if x = 110 then some (10, r)
    else if x = 114 then some (13, r)
    else if x = 116 then some (9, r)
    else if x = 117 then
      (hexRun 4 r).bind fun p =>
        if IsHigh p.1 ∧ p.2.take 2 = py"\\u" then
          (hexRun 4 (p.2.drop 2)).bind fun q =>
            if IsLow q.1 then some (0x10000 + (p.1 - 0xd800) * 0x400 + (q.1 - 0xdc00), q.2) else some (p.1, p.2)
        else some (p.1, p.2)
    else none

/-- The characters up to the closing quote, and what follows it; the number is fuel. -/
def jsonBody : Nat → Str → Option (Str × Str)
  | 0, _ => none
  | n + 1, t =>
    match t with
    | [] => none
    | c :: r =>
      if c = 34 then some ([], r)
      else if c = 92 then (jsonEscape r).bind fun p => (jsonBody n p.2).map fun q => (p.1 :: q.1, q.2)
      else if c < 32 then none
      else (jsonBody n r).map fun q => (c :: q.1, q.2)

/-- A JSON string, and what follows it. -/
def readJsonStr : Str → Option (Str × Str)
  | 34 :: t => jsonBody (t.length + 1) t
  | _ => none

/-- Skip JSON white space. -/
def jsonSkip (t : Str) : Str := t.dropWhile fun c => c = 32 || c = 9 || c = 10 || c = 13

/-- Expect a character after white space. -/
def jsonExpect (c : Nat) (t : Str) : Option Str :=
  match jsonSkip t with
  | x :: r => if x = c then some r else none
  | [] => none

/-- One member: name, colon, value. -/
def readMember (t : Str) : Option ((Str × Str) × Str) :=
  (readJsonStr (jsonSkip t)).bind fun k => (jsonExpect 58 k.2).bind fun r =>
    (readJsonStr (jsonSkip r)).map fun v => ((k.1, v.1), v.2)

/-- Members up to the closing brace; the number is fuel.  A repeated name replaces the value. -/
def readMembers : Nat → Dict Str Str → Str → Option (Dict Str Str × Str)
  | 0, _, _ => none
  | n + 1, d, t =>
    (readMember t).bind fun m =>
      match jsonSkip m.2 with
      | x :: r =>
        if x = 44 then readMembers n (d.set m.1.1 m.1.2) r
        else if x = 125 then some (d.set m.1.1 m.1.2, r)
        else none
      | [] => none

/-- `json.loads(t)`, of an object whose members are strings. -/
def jsonLoads (t : Str) : Option (Dict Str Str) :=
  (jsonExpect 123 t).bind fun r =>
    match jsonExpect 125 r with
    | some r' => if jsonSkip r' = [] then some [] else none
    | none => (readMembers (r.length + 1) [] r).bind fun p => if jsonSkip p.2 = [] then some p.1 else none

/-- The text has no high surrogate directly before a low one. -/
def Unpaired : Str → Prop
  | x :: y :: t => ¬ (IsHigh x ∧ IsLow y) ∧ Unpaired (y :: t)
  | _ => True

/-- Decoding yields Unicode characters: code points below 0x110000 that are no surrogates. -/
def Codec.Scalar (c : Codec) : Prop :=
  ∀ b s, c.decode b = some s → ∀ x ∈ s, x < 0x110000 ∧ ¬ (0xd800 ≤ x ∧ x ≤ 0xdfff)

end Iso8583
