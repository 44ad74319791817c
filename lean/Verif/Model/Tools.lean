import Verif.Model.Encoder
/-!
# Model of `/repo/iso8583/tools.py` (`pp`)

The stream is modelled by the text written to it so far; text written before an exception
stays written.
-/

namespace Iso8583

/-! ## `repr` of `str` and `bytes` (CPython) -/

/-- Lower-case hex of `n`, exactly `w` digits. -/
def hexPad : Nat → Nat → Str
  | 0, _ => []
  | w + 1, n => hexPad w (n / 16) ++ [hexDigitLower (n % 16)]

/-- The quote `repr` picks: `"` when the text contains `'` and no `"`, otherwise `'`. -/
def reprQuote (cs : List Nat) : Nat := if 39 ∈ cs ∧ 34 ∉ cs then 34 else 39

/-- One character inside `repr(str)`. -/
def reprStrChar (env : PyEnv) (q c : Nat) : Str :=
  if c = q ∨ c = 92 then [92, c]
  else if c = 9 then py"\\t"
  else if c = 10 then py"\\n"
  else if c = 13 then py"\\r"
  else if c < 32 ∨ c = 127 then py"\\x" ++ hexPad 2 c
  else if c < 127 then [c]
  else if env.isPrintableCp c then [c]
  else if c ≤ 0xff then py"\\x" ++ hexPad 2 c
  else if c ≤ 0xffff then py"\\u" ++ hexPad 4 c
  else py"\\U" ++ hexPad 8 c

/-- `repr(s)` for a `str`. -/
def reprStr (env : PyEnv) (s : Str) : Str :=
  let q := reprQuote s
  [q] ++ s.flatMap (reprStrChar env q) ++ [q]

/-- One byte inside `repr(bytes)`. -/
def reprByte (q c : Nat) : Str :=
  if c = q ∨ c = 92 then [92, c]
  else if c = 9 then py"\\t"
  else if c = 10 then py"\\n"
  else if c = 13 then py"\\r"
  else if c < 32 ∨ c ≥ 127 then py"\\x" ++ hexPad 2 c
  else [c]

/-- `repr(b)` for a `bytes`. -/
def reprBytes (b : Bytes) : Str :=
  let cs := b.map UInt8.toNat
  let q := reprQuote cs
  [98, q] ++ cs.flatMap (reprByte q) ++ [q]

/-! ## tools.py -/

/-- A value in the dictionary given to `pp`: decoded text, raw bytes, an encoded entry
`{"len": .., "data": ..}` (either key may be missing), or another object known by its `repr`. -/
inductive PpVal
  | str (s : Str)
  | bytes (b : Bytes)
  | dict (len data : Option Bytes)
  | other (repr : Str)
deriving DecidableEq, Repr

/-- The dictionary given to `pp`. -/
abbrev PpDoc := Dict Key PpVal

/-- What can be raised by `pp`. -/
inductive PpRaise
  | keyError (key : Str)
  | valueError
deriving DecidableEq, Repr

abbrev PpM := PyM PpRaise Str

/-- `stream.write(t)`. -/
def ppWrite (t : Str) : PpM Unit := PyM.modify (· ++ t)

/-- Left-justify in a field of `w` characters: `{:ws}` and `{: <w}`. -/
def ljust (w : Nat) (t : Str) : Str := t ++ List.replicate (w - t.length) 32

/-- Cut into pieces of `w` characters (`range(0, len(obj), width)`, tools.py:167-168); the
first argument is fuel. -/
def chunksAux (w : Nat) : Nat → Str → List Str
  | 0, _ => []
  | _ + 1, [] => []
  | f + 1, c :: t => (c :: t).take w :: chunksAux w f ((c :: t).drop w)

/-- The slices `_wrap_str_repr` takes (tools.py:159-168). -/
def wrapStr (obj : Str) (width : Int) : List Str :=
  let w : Nat := if width > 3 then (width - 2).toNat else 1
  chunksAux w obj.length obj

/-- tools.py:159-168 `_wrap_str_repr`. -/
def wrapStrRepr (env : PyEnv) (obj : Str) (width : Int) : List Str := (wrapStr obj width).map (reprStr env)

/-- The loop of tools.py:172-186; `current` is the piece being built. -/
def wrapBytesAux (width : Int) : Bytes → Bytes → List Bytes
  | current, [] => if current ≠ [] then [current] else []
  | current, b :: rest =>
    let candidate := current ++ [b]
    if ((reprBytes candidate).length : Int) > width then
      if current ≠ [] then current :: wrapBytesAux width [b] rest
      else wrapBytesAux width [b] rest
    else wrapBytesAux width candidate rest

/-- The pieces `_wrap_bytes_repr` yields, before `repr` (tools.py:171-186). -/
def wrapBytes (obj : Bytes) (width : Int) : List Bytes := wrapBytesAux width [] obj

/-- tools.py:171-186 `_wrap_bytes_repr`. -/
def wrapBytesRepr (obj : Bytes) (width : Int) : List Str := (wrapBytes obj width).map reprBytes

/-- The loop of tools.py:132-137 and 148-153: pieces separated by newline and indentation. -/
def writePieces (indent : Nat) : Str → List Str → PpM Unit
  | _, [] => pure ()
  | delim, rep :: t => do
    ppWrite delim
    ppWrite rep
    writePieces indent (if delim = [] then 10 :: List.replicate indent 32 else delim) t

/-- tools.py:127-137 `_pprint_str`. -/
def pprintStr (env : PyEnv) (obj : Str) (indent : Nat) (width : Int) : PpM Unit :=
  if obj.length ≤ 1 then ppWrite (reprStr env obj)
  else writePieces indent [] (wrapStrRepr env obj (width - indent))

/-- tools.py:143-153 `_pprint_bytes`. -/
def pprintBytes (obj : Bytes) (indent : Nat) (width : Int) : PpM Unit :=
  if obj.length ≤ 1 then ppWrite (reprBytes obj)
  else writePieces indent [] (wrapBytesRepr obj (width - indent))

/-- tools.py:113-121: write the value, folded if it does not fit. -/
def ppValue (env : PyEnv) (obj : PpVal) (indent : Nat) (lineWidth : Int) : PpM Unit := do
  let rep : Str := match obj with
    | .str s => reprStr env s
    | .bytes b => reprBytes b
    | .dict _ _ => []      -- not reachable: `ppField` unpacks encoded entries
    | .other r => r
  if (rep.length + indent : Int) > lineWidth then
    match obj with
    | .str s => do
      pprintStr env s indent lineWidth
      ppWrite [10]
    | .bytes b => do
      pprintBytes b indent lineWidth
      ppWrite [10]
    | _ => ppWrite (rep ++ [10])
  else
    ppWrite (rep ++ [10])

/-- tools.py:79-121 `_pp_field`. -/
def ppField (env : PyEnv) (doc : PpDoc) (spec : Spec) (descWidth lineWidth : Int) (key : Str) : PpM Unit := do
  ppWrite (ljust 3 key)
  let indent : Nat ←
    if descWidth > 0 then do
      match spec.get? key with
      | none => PyM.raise (.keyError key)
      | some fs =>
        match fs.desc with
        | none => PyM.raise (.keyError py"desc")
        | some d =>
          ppWrite (py" " ++ ljust descWidth.toNat (d.take descWidth.toNat))
          pure (5 + (descWidth.toNat + 1))
    else pure 5
  ppWrite py": "
  match doc.get? (.str key) with
  | none => PyM.raise (.keyError key)
  | some (.dict len data) =>
    let l := len.getD []
    let indent ←
      if l.length > 0 then do
        ppWrite (reprBytes l ++ py" ")
        pure (indent + ((reprBytes l).length + 1))
      else pure indent
    ppValue env (.bytes (data.getD [])) indent lineWidth
  | some v => ppValue env v indent lineWidth

/-- The numeric string keys with their `int` values, in dictionary order (tools.py:73-75);
`ValueError` if `int` rejects one. -/
def ppNumericKeys (env : PyEnv) : List Key → Except PpRaise (List (Str × Int))
  | [] => .ok []
  | .obj _ :: t => ppNumericKeys env t
  | .str k :: t =>
    if isNumeric env k then
      match ppNumericKeys env t with
      | .error e => .error e
      | .ok r => match pyInt env k with
        | none => .error .valueError
        | some n => .ok ((k, n) :: r)
    else ppNumericKeys env t

/-- tools.py:73-76: print the given fields. -/
def ppFields (env : PyEnv) (doc : PpDoc) (spec : Spec) (descWidth lineWidth : Int) : List Str → PpM Unit
  | [] => pure ()
  | k :: t => do
    ppField env doc spec descWidth lineWidth k
    ppFields env doc spec descWidth lineWidth t

/-- Body of `pp` (tools.py:64-76). -/
def ppBody (env : PyEnv) (doc : PpDoc) (spec : Spec) (descWidth lineWidth : Int) : PpM Unit := do
  if doc.contains (.str py"h") then
    match spec.get? py"h" with
    | none => PyM.raise (.keyError py"h")
    | some fs =>
      if fs.maxLen > 0 then
        ppField env doc spec descWidth lineWidth py"h"
  if doc.contains (.str py"t") then
    ppField env doc spec descWidth lineWidth py"t"
  if doc.contains (.str py"p") then
    ppField env doc spec descWidth lineWidth py"p"
  let ks ← PyM.lift (ppNumericKeys env doc.keys)
  ppFields env doc spec descWidth lineWidth ((sortedBy Prod.snd ks).map Prod.fst)

/-- tools.py:11-76 `pp(doc, spec, desc_width, stream, line_width)`: the exception raised, if
any, and the text written to the stream. -/
def pp (env : PyEnv) (doc : PpDoc) (spec : Spec) (descWidth lineWidth : Int) : Except PpRaise Unit × Str :=
  ppBody env doc spec descWidth lineWidth []

end Iso8583
