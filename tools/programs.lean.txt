import Verif.Source.Parser
import Verif.Source.Semantics
import Verif.Model.Codecs
/-! Reads Python programs from standard input, separated by lines `====`, and prints what calling their
function `decode` gives, one line each.  Used by `check_semantics.py`. -/
open Iso8583 Iso8583.Src

def nums (l : List Nat) : String := "[" ++ ",".intercalate (l.map toString) ++ "]"
def bnums (b : Bytes) : String := nums (b.map UInt8.toNat)
def named (x : Ident) : String := match spellings.find? (·.2 = x) with
  | some (s, _) => String.ofList (s.map Char.ofNat)
  | none => "?"

partial def canon (h : List Obj) (d : Nat) : Src.Val → String
  | v => if d = 0 then "deep" else
    let c := canon h (d - 1)
    let items (l : List (Src.Val × Src.Val)) := "D{" ++ ",".intercalate (l.map fun p => c p.1 ++ ":" ++ c p.2) ++ "}"
    match v with
    | .none => "N"
    | .bool b => if b then "True" else "False"
    | .int n => "i" ++ toString n
    | .str s => "s" ++ nums s
    | .bytes b => "b" ++ bnums b
    | .barray b => "B" ++ bnums b
    | .list xs => "L[" ++ ",".intercalate (xs.map c) ++ "]"
    | .tuple xs => "T[" ++ ",".intercalate (xs.map c) ++ "]"
    | .dict l => items l
    | .glob x => "g" ++ named x
    | .cls s => "g" ++ String.ofList (s.map Char.ofNat)
    | .exn x _ => "X" ++ named x
    | .ref l => match h[l]? with
      | some (.dict l) => items l
      | some (.set xs) => "S" ++ "[" ++ ",".intercalate ((sortedBy id xs).map toString) ++ "]"
      | some (.barray b) => "B" ++ bnums b
      | some (.inst x as l) => "I" ++ named x ++ "(" ++ ",".intercalate (as.map c) ++ ")" ++
          "{" ++ ",".intercalate (l.map fun p => named p.1 ++ ":" ++ c p.2) ++ "}"
      | none => "?"
    | _ => "?"

def rt : Rt Unit Str := ⟨cpython, sortedBy id, fun _ _ => py"?detail?", fun _ => none, fun _ t w => (.ok (), w ++ t)⟩

def ctor : Item → List Def
  | .cls c _ ms => (ms.filter fun m => decide (m.name = .__init__)).map fun m => { m with name := c, isClass := true }
  | _ => []
def defn : Item → List Def
  | .fn d => [d]
  | _ => []

def run (ls : List String) : String :=
  match parse (ls.map fun l => l.toList.map Char.toNat) with
  | none => "noparse"
  | some is =>
    match program rt (is.flatMap defn ++ is.flatMap ctor) .decode [] [] { vars := fun _ => none, locals := [], ys := [], heap := [], world := [] } with
    | (.ok v, st) => canon st.heap 12 v
    | (.error (.std c _), _) => "!" ++ named c
    | (.error (.inst c l), st) => "!" ++ named c ++ canon st.heap 12 (.ref l)
    | (.error (.ext _), _) => "!ext"
    | (.error .stuck, _) => "stuck"

partial def main : IO Unit := do
  let i ← IO.getStdin
  let o ← IO.getStdout
  let rec loop (acc : List String) : IO Unit := do
    let l ← i.getLine
    if l.isEmpty then return
    let l := (l.dropEndWhile (· == '\n')).toString
    if l == "====" then
      o.putStrLn (run acc.reverse)
      o.flush
      loop []
    else loop (l :: acc)
  loop []
