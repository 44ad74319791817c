import Verif.Model.Partial
/-!
# `pp` on an arbitrary output stream

`Model/Tools.lean` gives `pp` a stream that stores whatever is written. This file transcribes
tools.py a second time for a stream that is any object with a `write` method: the method may
change the state of the world and may raise. It also covers the parts of `pp` in front of the
first write: `int(desc_width)`, `int(line_width)` and the choice of `sys.stdout`.

The formatting helpers without side effects (`ljust`, `reprStr`, `reprBytes`, `wrapStrRepr`,
`wrapBytesRepr`, `ppNumericKeys`) are those of `Model/Tools.lean`.
-/

namespace Iso8583

/-- The `write` method of a stream: given the text and the state of the world, it returns or
raises, and leaves the world in some state. Its return value is not used by tools.py. -/
abbrev Writer (ε σ : Type) := Str → σ → Except ε Unit × σ

/-- What `pp` can raise: something of its own, a `ValueError`, `TypeError` or `OverflowError` from
converting a width, or what the stream raises. -/
inductive StreamRaise (ε : Type)
  | pp (e : PpRaise)
  | widthValue
  | widthType
  | widthOverflow
  | stream (e : ε)
deriving DecidableEq, Repr

abbrev SM (ε σ : Type) := PyM (StreamRaise ε) σ

/-- A width argument: an `int`, a `str`, the `float` `m * 2 ^ e`, a `float` that is not a number,
an infinite `float`, or an object `int()` does not accept. -/
inductive PpWidth
  | int (n : Int)
  | str (s : Str)
  | float (m e : Int)
  | nan
  | inf
  | other
deriving DecidableEq, Repr

/-- `int(desc_width)`, `int(line_width)` (tools.py:58-59). A `float` is cut towards zero. -/
def ppWidth {ε : Type} (env : PyEnv) : PpWidth → Except (StreamRaise ε) Int
  | .int n => .ok n
  | .str s => match pyInt env s with
    | some n => .ok n
    | none => .error .widthValue
  | .float m e => .ok (if 0 ≤ e then m * 2 ^ e.toNat else m.tdiv (2 ^ (-e).toNat))
  | .nan => .error .widthValue
  | .inf => .error .widthOverflow
  | .other => .error .widthType

section
variable {ε σ : Type}

/-- `stream.write(t)`. -/
def streamWrite (w : Writer ε σ) (t : Str) : SM ε σ Unit := fun s =>
  match w t s with
  | (.ok _, s') => (.ok (), s')
  | (.error e, s') => (.error (.stream e), s')

/-- The loop of tools.py:132-137 and 148-153. -/
def writePiecesS (w : Writer ε σ) (indent : Nat) : Str → List Str → SM ε σ Unit
  | _, [] => pure ()
  | delim, rep :: t => do
    streamWrite w delim
    streamWrite w rep
    writePiecesS w indent (if delim = [] then 10 :: List.replicate indent 32 else delim) t

/-- tools.py:127-137 `_pprint_str`. -/
def pprintStrS (env : PyEnv) (w : Writer ε σ) (obj : Str) (indent : Nat) (width : Int) : SM ε σ Unit :=
  if obj.length ≤ 1 then streamWrite w (reprStr env obj)
  else writePiecesS w indent [] (wrapStrRepr env obj (width - indent))

/-- tools.py:143-153 `_pprint_bytes`. -/
def pprintBytesS (w : Writer ε σ) (obj : Bytes) (indent : Nat) (width : Int) : SM ε σ Unit :=
  if obj.length ≤ 1 then streamWrite w (reprBytes obj)
  else writePiecesS w indent [] (wrapBytesRepr obj (width - indent))

/-- tools.py:113-121: write the value, folded if it does not fit. -/
def ppValueS (env : PyEnv) (w : Writer ε σ) (obj : PpVal) (indent : Nat) (lineWidth : Int) : SM ε σ Unit := do
  let rep : Str := match obj with
    | .str s => reprStr env s
    | .bytes b => reprBytes b
    | .dict _ _ => []      -- not reachable: `ppFieldS` unpacks encoded entries
    | .other r => r
  if (rep.length + indent : Int) > lineWidth then
    match obj with
    | .str s => do
      pprintStrS env w s indent lineWidth
      streamWrite w [10]
    | .bytes b => do
      pprintBytesS w b indent lineWidth
      streamWrite w [10]
    | _ => streamWrite w (rep ++ [10])
  else
    streamWrite w (rep ++ [10])

/-- tools.py:79-121 `_pp_field`. -/
def ppFieldS (env : PyEnv) (w : Writer ε σ) (doc : PpDoc) (spec : Spec) (descWidth lineWidth : Int) (key : Str) :
    SM ε σ Unit := do
  streamWrite w (ljust 3 key)
  let indent : Nat ←
    if descWidth > 0 then do
      match spec.get? key with
      | none => PyM.raise (.pp (.keyError key))
      | some fs =>
        match fs.desc with
        | none => PyM.raise (.pp (.keyError py"desc"))
        | some d =>
          streamWrite w (py" " ++ ljust descWidth.toNat (d.take descWidth.toNat))
          pure (5 + (descWidth.toNat + 1))
    else pure 5
  streamWrite w py": "
  match doc.get? (.str key) with
  | none => PyM.raise (.pp (.keyError key))
  | some (.dict len data) =>
    let l := len.getD []
    let indent ←
      if l.length > 0 then do
        streamWrite w (reprBytes l ++ py" ")
        pure (indent + ((reprBytes l).length + 1))
      else pure indent
    ppValueS env w (.bytes (data.getD [])) indent lineWidth
  | some v => ppValueS env w v indent lineWidth

/-- tools.py:73-76: print the given fields. -/
def ppFieldsS (env : PyEnv) (w : Writer ε σ) (doc : PpDoc) (spec : Spec) (descWidth lineWidth : Int) : List Str → SM ε σ Unit
  | [] => pure ()
  | k :: t => do
    ppFieldS env w doc spec descWidth lineWidth k
    ppFieldsS env w doc spec descWidth lineWidth t

/-- Body of `pp` (tools.py:64-76). -/
def ppBodyS (env : PyEnv) (w : Writer ε σ) (doc : PpDoc) (spec : Spec) (descWidth lineWidth : Int) : SM ε σ Unit := do
  if doc.contains (.str py"h") then
    match spec.get? py"h" with
    | none => PyM.raise (.pp (.keyError py"h"))
    | some fs =>
      if fs.maxLen > 0 then
        ppFieldS env w doc spec descWidth lineWidth py"h"
  if doc.contains (.str py"t") then
    ppFieldS env w doc spec descWidth lineWidth py"t"
  if doc.contains (.str py"p") then
    ppFieldS env w doc spec descWidth lineWidth py"p"
  match ppNumericKeys env doc.keys with
  | .error e => PyM.raise (.pp e)
  | .ok ks => ppFieldsS env w doc spec descWidth lineWidth ((sortedBy Prod.snd ks).map Prod.fst)

/-- tools.py:11-76 `pp(doc, spec, desc_width, stream, line_width)`. `stdout` is what
`sys.stdout` refers to at the time of the call. -/
def ppStream (env : PyEnv) (stdout : Writer ε σ) (doc : PpDoc) (spec : Spec) (descWidth : PpWidth)
    (stream : Option (Writer ε σ)) (lineWidth : PpWidth) : SM ε σ Unit := do
  let dw ← PyM.lift (ppWidth env descWidth)
  let lw ← PyM.lift (ppWidth env lineWidth)
  let w := match stream with
    | none => stdout
    | some w => w
  ppBodyS env w doc spec dw lw

/-! ## Specifications with missing properties -/

/-- What `_pp_field` (tools.py:79-121) sees of a specification: it reads the descriptions only. -/
def PartialSpec.described (spec : PartialSpec) : Spec := spec.map fun p => (p.1, p.2.seen)

/-- Body of `pp` (tools.py:64-76): it reads `spec["h"]["max_len"]`, and the descriptions. -/
def ppBodySP (env : PyEnv) (w : Writer ε σ) (doc : PpDoc) (spec : PartialSpec) (descWidth lineWidth : Int) : SM ε σ Unit := do
  if doc.contains (.str py"h") then
    match spec.get? py"h" with
    | none => PyM.raise (.pp (.keyError py"h"))
    | some f =>
      match f.maxLen with
      | none => PyM.raise (.pp (.keyError py"max_len"))
      | some m =>
        if m > 0 then
          ppFieldS env w doc spec.described descWidth lineWidth py"h"
  if doc.contains (.str py"t") then
    ppFieldS env w doc spec.described descWidth lineWidth py"t"
  if doc.contains (.str py"p") then
    ppFieldS env w doc spec.described descWidth lineWidth py"p"
  match ppNumericKeys env doc.keys with
  | .error e => PyM.raise (.pp e)
  | .ok ks => ppFieldsS env w doc spec.described descWidth lineWidth ((sortedBy Prod.snd ks).map Prod.fst)

/-- tools.py:11-76 `pp` on a specification that may lack properties. -/
def ppStreamP (env : PyEnv) (stdout : Writer ε σ) (doc : PpDoc) (spec : PartialSpec) (descWidth : PpWidth)
    (stream : Option (Writer ε σ)) (lineWidth : PpWidth) : SM ε σ Unit := do
  let dw ← PyM.lift (ppWidth env descWidth)
  let lw ← PyM.lift (ppWidth env lineWidth)
  let w := match stream with
    | none => stdout
    | some w => w
  ppBodySP env w doc spec dw lw

end

end Iso8583
