import Verif
import Lean.Data.Json
/-! Runs the model on requests read from standard input, one JSON value per line; strings and byte
strings are lists of numbers.  Used by `check_tests.py`. -/
open Iso8583 Lean

abbrev P := Except String

def nums (j : Json) : P (List Nat) := do (← j.getArr?).toList.mapM (·.getNat?)
def bytesOf (j : Json) : P Bytes := do return (← nums j).map Nat.toUInt8
def opt {α} (j : Json) (k : String) (f : Json → P α) : P (Option α) :=
  match j.getObjVal? k with | .ok .null => pure none | .ok v => some <$> f v | .error _ => pure none

def fieldSpec (j : Json) : P FieldSpec := do
  return { dataEnc := ← nums (← j.getObjVal? "data_enc"), lenEnc := ← nums (← j.getObjVal? "len_enc"),
           lenType := ← (← j.getObjVal? "len_type").getNat?, maxLen := ← (← j.getObjVal? "max_len").getInt?,
           lenCount := ← opt j "len_count" nums, leftPad := ← opt j "left_pad" nums, rightPad := ← opt j "right_pad" nums,
           desc := ← opt j "desc" nums }
def pair {α β} (f : Json → P α) (g : Json → P β) (j : Json) : P (α × β) := do
  let a ← j.getArr?
  return (← f (a.getD 0 .null), ← g (a.getD 1 .null))
def listOf {α} (f : Json → P α) (j : Json) : P (List α) := do (← j.getArr?).toList.mapM f
def specOf : Json → P Spec := listOf (pair nums fieldSpec)
def tagged (j : Json) : P (String × Json) := pair (·.getStr?) pure j
def keyOf (j : Json) : P Key := do
  match ← tagged j with | ("str", t) => .str <$> nums t | (_, t) => .obj <$> nums t
def valOf (j : Json) : P Val := do
  match ← tagged j with
  | ("str", t) => .str <$> nums t | ("bytes", t) => .bytes <$> bytesOf t | ("sized", t) => .sized <$> t.getNat? | _ => pure .unsized
def ppValOf (j : Json) : P PpVal := do
  match ← tagged j with
  | ("str", t) => .str <$> nums t | ("bytes", t) => .bytes <$> bytesOf t
  | ("dict", t) => do return .dict (← opt t "len" bytesOf) (← opt t "data" bytesOf)
  | (_, t) => .other <$> nums t

def jn (l : List Nat) : Json := .arr (l.map (fun n : Nat => Lean.toJson n)).toArray
def jb (b : Bytes) : Json := jn (b.map UInt8.toNat)
def jl {α} (f : α → Json) (l : List α) : Json := .arr (l.map f).toArray
def jdec (d : DecDoc) : Json := jl (fun (k, v) => .arr #[jn k, jn v]) d
def jenc (d : EncDoc) : Json := jl (fun (k, e) => .arr #[jn k, jb e.len, jb e.data]) d
def jkey : Key → Json | .str s => .arr #["str", jn s] | .obj r => .arr #["obj", jn r]
def jval : Val → Json
  | .str s => .arr #["str", jn s] | .bytes b => .arr #["bytes", jb b] | .sized n => .arr #["sized", Lean.toJson n] | .unsized => .arr #["unsized", .null]
def jdoc (d : Doc) : Json := jl (fun (k, v) => .arr #[jkey k, jval v]) d

def run (j : Json) : P Json := do
  let spec ← specOf (← j.getObjVal? "spec")
  match ← (← j.getObjVal? "op").getStr? with
  | "decode" =>
    let arg : DecodeArg ← match ← tagged (← j.getObjVal? "s") with
      | ("bytes", t) => .bytes <$> bytesOf t | ("bytearray", t) => .bytearray <$> bytesOf t | (_, t) => .other <$> nums t
    match decodeApi cpython spec arg with
    | .ok (d, e) => pure (.mkObj [("ok", .arr #[jdec d, jenc e])])
    | .error (.decodeError e) => pure (.mkObj [("exc", "DecodeError"), ("msg", jn e.msg.text), ("text", jn e.text), ("field", jn e.field),
        ("pos", Lean.toJson e.pos), ("dec", jdec e.docDec), ("enc", jenc e.docEnc)])
    | .error (.keyError k) => pure (.mkObj [("exc", "KeyError"), ("text", jn k)])
    | .error (.typeError c) => pure (.mkObj [("exc", "TypeError"), ("text", jn c)])
  | "encode" =>
    let arg : EncodeArg ← match ← tagged (← j.getObjVal? "doc") with
      | ("dict", t) => .dict <$> listOf (pair keyOf valOf) t | (_, t) => .other <$> nums t
    let (r, a) := encodeApi cpython spec arg
    let doc := match a with | .dict d => jdoc d | .other _ => .null
    let exc (n : String) (t : Str) : Json := .mkObj [("exc", n), ("text", jn t), ("doc", doc)]
    match r with
    | .ok (s, e) => pure (.mkObj [("ok", .arr #[jb s, jenc e]), ("doc", doc)])
    | .error (.encodeError e) => pure (.mkObj [("exc", "EncodeError"), ("msg", jn e.msg.text), ("text", jn e.text), ("field", jn e.field),
        ("dec", jdoc e.docDec), ("enc", jenc e.docEnc), ("doc", doc)])
    | .error (.keyError k) => pure (exc "KeyError" k)
    | .error .valueError => pure (exc "ValueError" [])
    | .error .typeError => pure (exc "TypeError" [])
    | .error .unboundLocal => pure (exc "UnboundLocalError" [])
    | .error .indexError => pure (exc "IndexError" [])
    | .error (.notDict c) => pure (exc "TypeError" c)
  | "pp" =>
    let doc ← listOf (pair keyOf ppValOf) (← j.getObjVal? "doc")
    let (r, t) := pp cpython doc spec (← (← j.getObjVal? "desc_width").getInt?) (← (← j.getObjVal? "line_width").getInt?)
    match r with
    | .ok _ => pure (.mkObj [("ok", jn t)])
    | .error (.keyError k) => pure (.mkObj [("exc", "KeyError"), ("text", jn k), ("out", jn t)])
    | .error .valueError => pure (.mkObj [("exc", "ValueError"), ("text", jn []), ("out", jn t)])
  | "wrap" =>
    let w ← (← j.getObjVal? "width").getInt?
    match ← tagged (← j.getObjVal? "obj") with
    | ("str", t) => return .mkObj [("ok", jl jn (wrapStrRepr cpython (← nums t) w))]
    | (_, t) => return .mkObj [("ok", jl jn (wrapBytesRepr (← bytesOf t) w))]
  | o => throw o

partial def main : IO Unit := do
  let i ← IO.getStdin
  let o ← IO.getStdout
  let rec loop : IO Unit := do
    let l ← i.getLine
    if l.trimAscii.isEmpty then return
    match Json.parse l >>= run with
    | .ok r => o.putStrLn r.compress
    | .error e => o.putStrLn (Json.mkObj [("bad", e)]).compress
    o.flush
    loop
  loop
