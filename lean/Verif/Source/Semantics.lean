import Verif.Source.Syntax
import Verif.Model.Tools
import Verif.Model.Format
/-!
# What the syntax means

An evaluator for `Syntax.lean`.  Mutable objects live in a heap and have an identity, so two names
for one dict see each other's changes.  Exceptions leave variables and heap as they are.  What the
language reference calls built in (`len`, `dict.get`, `bytes.hex`, …) is defined here on values;
`env` is the part of the runtime that is a parameter of the whole development (codecs, Unicode
tables, digit limit).

Objects nobody changes may be values: `bytes`, `str`, `int`, but also lists, tuples, the specification,
the dictionary given to `pp` and the bytearray given to `decode` (`Source/Freeze.lean` is about what
happens when these are objects of the heap instead).  A program that tries to change one
of these, or does anything else this file does not know, is `stuck`: an exception no handler
catches, which is never raised by the source (`Source/Decode.lean` and following).
-/

namespace Iso8583.Src

/-- What is known of an object whose class does not matter: the bytes of a bytearray, the `len` of another
object, or that it has none. -/
inductive Thing
  | bytes (b : Bytes)
  | sized (n : Nat)
  | unsized

/-- Values. -/
inductive Val
  | none
  | bool (b : Bool)
  | int (n : Int)
  | str (s : Str)
  | bytes (b : Bytes)
  /-- a bytearray nobody changes -/
  | barray (b : Bytes)
  /-- the float `m * 2 ^ e` -/
  | float (m e : Int)
  | nan
  | inf
  /-- a list or range nobody changes -/
  | list (xs : List Val)
  | tuple (xs : List Val)
  /-- a dict nobody changes -/
  | dict (items : List (Val × Val))
  /-- an object in the heap -/
  | ref (l : Nat)
  /-- a function, class or module, by name -/
  | glob (x : Ident)
  /-- an attribute of one, such as `str.__repr__` -/
  | globAttr (x a : Ident)
  /-- an instance of a built-in exception class, with its argument -/
  | exn (cls : Ident) (arg : Val)
  /-- the output stream: `true` for `sys.stdout`, `false` for the one the caller passed -/
  | stream (std : Bool)
  /-- an instance of another class: class name, `repr`, `len` if it has one -/
  | obj (cls repr : Str) (len : Option Nat)
  /-- the class of such an instance -/
  | cls (name : Str)
  /-- an object nobody changes, neither a text nor `bytes`: where it is, and what is known of it -/
  | thing (l : Option Nat) (k : Thing)

/-- Objects in the heap. -/
inductive Obj
  | dict (items : List (Val × Val))
  | set (xs : List Int)
  | barray (b : Bytes)
  | inst (cls : Ident) (args : List Val) (attrs : List (Ident × Val))

/-- What `len`, `binascii.a2b_hex` and `.encode` tell of an object. -/
def thingOf : Obj → Thing
  | .dict items => .sized items.length
  | .set xs => .sized xs.length
  | .barray b => .bytes b
  | .inst .. => .unsized

/-- What is raised: a built-in exception, an instance (in the heap) of a class of the source,
whatever a foreign `write` method raises, or nothing Python would do. -/
inductive Exc (ε : Type)
  | std (cls : Ident) (arg : Val)
  | inst (cls : Ident) (l : Nat)
  | ext (e : ε)
  | stuck

/-- The variables of the running function. -/
abbrev Vars := Ident → Option Val

/-- `x = v`. -/
def Vars.set (vs : Vars) (x : Ident) (v : Val) : Vars := fun y => if y = x then some v else vs y

/-- The state of the interpreter: variables of the running function, names that are local to it,
what it has yielded so far, the heap, and the world output goes to. -/
structure St (σ : Type) where
  vars   : Vars
  locals : List Ident
  ys     : List Val
  heap   : List Obj
  world  : σ

/-- The runtime: the environment, the order in which a set is iterated, the text of codec errors,
the module's variables, and the two `write` methods. -/
structure Rt (ε σ : Type) where
  env     : PyEnv
  order   : List Int → List Int
  detail  : Str → Str → Str
  globals : Vars
  write   : Bool → Writer ε σ

abbrev M (ε σ α : Type) := PyM (Exc ε) (St σ) α

section
variable {ε σ : Type}

/-! ## Primitives -/

/-- Raise a built-in exception without (interesting) argument. -/
def fail {α : Type} (cls : Ident) : M ε σ α := PyM.raise (.std cls .none)

/-- Not Python. -/
def stuck {α : Type} : M ε σ α := PyM.raise .stuck

/-- Values that are compared with each other and can be keys of a dict: `Val.same` is about these. -/
def Val.plain : Val → Bool
  | .none | .bool _ | .int _ | .str _ | .bytes _ | .globAttr .. | .obj .. => true
  | _ => false

/-- `a == b`, on values that can be keys of a dict or are compared in the source. -/
def Val.same : Val → Val → Bool
  | .none, .none => true
  | .bool a, .bool b => a == b
  | .bool a, .int b => (if a then 1 else 0) == b
  | .int a, .bool b => a == (if b then 1 else 0)
  | .int a, .int b => a == b
  | .str a, .str b => a == b
  | .bytes a, .bytes b => a == b
  | .globAttr x a, .globAttr y b => x == y && a == b
  | .obj c r _, .obj c' r' _ => c == c' && r == r'
  | _, _ => false

/-- Use a value as a key.  (A list, dict or set is no key; the source uses no others than the plain ones.) -/
def keyed {α : Type} (k : Val) (m : M ε σ α) : M ε σ α := if k.plain then m else stuck

/-- `d[k]`. -/
def lookup : List (Val × Val) → Val → Option Val
  | [], _ => none
  | (k', v) :: t, k => if k'.same k then some v else lookup t k

/-- `d[k] = v`. -/
def insert : List (Val × Val) → Val → Val → List (Val × Val)
  | [], k, v => [(k, v)]
  | (k', v') :: t, k, v => if k'.same k then (k', v) :: t else (k', v') :: insert t k v

/-- `del d[k]`. -/
def delete : List (Val × Val) → Val → List (Val × Val)
  | [], _ => []
  | (k', v') :: t, k => if k'.same k then t else (k', v') :: delete t k

/-- An attribute of an instance. -/
def attrGet : List (Ident × Val) → Ident → Option Val
  | [], _ => none
  | (a', v) :: t, a => if a' = a then some v else attrGet t a

/-- `self.a = v`. -/
def attrSet : List (Ident × Val) → Ident → Val → List (Ident × Val)
  | [], a, v => [(a, v)]
  | (a', v') :: t, a, v => if a' = a then (a', v) :: t else (a', v') :: attrSet t a v

/-- A new object. -/
def alloc (o : Obj) : M ε σ Val := fun st => (.ok (.ref st.heap.length), { st with heap := st.heap ++ [o] })

/-- The object a reference points to. -/
def deref (l : Nat) : M ε σ Obj := fun st =>
  match st.heap[l]? with
  | some o => (.ok o, st)
  | none => (.error .stuck, st)

/-- Change an object. -/
def store (l : Nat) (o : Obj) : M ε σ Unit := PyM.modify fun st => { st with heap := st.heap.set l o }

/-- `x = v`. -/
def setVar (x : Ident) (v : Val) : M ε σ Unit := PyM.modify fun st => { st with vars := st.vars.set x v }

/-- The names of functions, classes and modules that occur in expressions (not in calls). -/
def namesGlobal : Ident → Bool
  | .str | .bytes | .bytearray | .dict | .set | .int | .ValueError | .TypeError | .DecodeError | .EncodeError
  | ._pprint_str | ._pprint_bytes | ._sys | .binascii => true
  | _ => false

/-- The value of a name: a local variable, a variable of the module, a function, class or module. -/
def getVar (rt : Rt ε σ) (x : Ident) : M ε σ Val := fun st =>
  match st.vars x with
  | some v => (.ok v, st)
  | none =>
    if x ∈ st.locals then (.error (.std .UnboundLocalError .none), st)
    else match rt.globals x with
      | some v => (.ok v, st)
      | none => if namesGlobal x then (.ok (.glob x), st) else (.error .stuck, st)

/-- `bool(v)`. -/
def truth : Val → M ε σ Bool
  | .none => pure false
  | .bool b => pure b
  | .int n => pure (n != 0)
  | .str s => pure (s != [])
  | .bytes b => pure (b != [])
  | .ref l => do
    match ← deref l with
    | .set xs => pure (xs != [])
    | .dict items => pure (!items.isEmpty)
    | .barray b => pure (b != [])
    | .inst .. => pure true
  | _ => stuck

/-- The elements of something that can be iterated. A set is iterated in the order `rt.order`. -/
def elements (rt : Rt ε σ) : Val → M ε σ (List Val)
  | .list xs => pure xs
  | .tuple xs => pure xs
  | .bytes b => pure (b.map fun x => .int x.toNat)
  | .barray b => pure (b.map fun x => .int x.toNat)
  | .ref l => do
    match ← deref l with
    | .set xs => pure ((rt.order xs).map .int)
    | .barray b => pure (b.map fun x => .int x.toNat)
    | _ => stuck
  | _ => stuck

/-- The ints in a list. -/
def ints : List Val → Option (List Int)
  | [] => some []
  | .int n :: t => (ints t).map (n :: ·)
  | _ => none

/-- `a & b` on two's complement numbers of unbounded width. -/
def intAnd : Int → Int → Int
  | .ofNat m, .ofNat n => .ofNat (m &&& n)
  | .ofNat m, .negSucc n => .ofNat (m - (m &&& n))
  | .negSucc m, .ofNat n => .ofNat (n - (n &&& m))
  | .negSucc m, .negSucc n => .negSucc (m ||| n)

/-- `a op b`. -/
def binop : BinOp → Val → Val → M ε σ Val
  | .add, .int a, .int b => pure (.int (a + b))
  | .add, .str a, .str b => pure (.str (a ++ b))
  | .add, .bytes a, .bytes b => pure (.bytes (a ++ b))
  | .add, .str _, _ => fail .TypeError
  | .add, _, .str _ => fail .TypeError
  | .sub, .int a, .int b => pure (.int (a - b))
  | .mul, .int a, .int b => pure (.int (a * b))
  | .mul, .str a, .int b => pure (.str (List.replicate b.toNat a).flatten)
  | .floordiv, .int a, .int b => if b = 0 then stuck else pure (.int (a.fdiv b))
  | .mod, .int a, .int b => if b = 0 then stuck else pure (.int (a.fmod b))
  | .shl, .int a, .int b => if b < 0 then fail .ValueError else pure (.int (a * 2 ^ b.toNat))
  | .shr, .int a, .int b => if b < 0 then fail .ValueError else pure (.int (a.fdiv (2 ^ b.toNat)))
  | .band, .int a, .int b => pure (.int (intAnd a b))
  | .bor, .int a, .int b => if a < 0 ∨ b < 0 then stuck else pure (.int (a.toNat ||| b.toNat : Nat))
  | _, _, _ => stuck

/-- `a op= b`: in place on a bytearray, otherwise as `a op b`.  (Lists are not changed in the fragment.) -/
def augop (op : BinOp) (a b : Val) : M ε σ Val :=
  match op, a, b with
  | .add, .ref l, .bytes y => do
    match ← deref l with
    | .barray x =>
      store l (.barray (x ++ y))
      pure (.ref l)
    | _ => stuck
  | _, .list _, _ => stuck
  | op, a, b => binop op a b

/-- `k in v`. -/
def contains (k v : Val) : M ε σ Bool :=
  match v with
  | .dict items => keyed k (pure (lookup items k).isSome)
  | .ref l => do
    match ← deref l with
    | .dict items => keyed k (pure (lookup items k).isSome)
    | .set xs => match k with
      | .int n => pure (decide (n ∈ xs))
      | _ => stuck
    | _ => stuck
  | _ => stuck

/-- `a op b` for a comparison. -/
def cmpop : CmpOp → Val → Val → M ε σ Bool
  | .eq, a, b => keyed a (keyed b (pure (a.same b)))
  | .ne, a, b => keyed a (keyed b (pure (!a.same b)))
  | .lt, .int a, .int b => pure (decide (a < b))
  | .le, .int a, .int b => pure (decide (a ≤ b))
  | .gt, .int a, .int b => pure (decide (a > b))
  | .ge, .int a, .int b => pure (decide (a ≥ b))
  | .mem, a, b => contains a b
  | .notMem, a, b => do pure (!(← contains a b))
  | .is, a, .none => pure (match a with | .none => true | _ => false)
  | .isNot, a, .none => pure (match a with | .none => false | _ => true)
  | _, _, _ => stuck

/-- A bound of a slice as an offset from the start: `None` is `dflt`, negative counts from the end. -/
def bound (len : Nat) (dflt : Nat) : Option Int → Nat
  | none => dflt
  | some n => if n < 0 then (n + len).toNat else n.toNat

/-- `xs[lo:hi]`. -/
def sliceOf {α : Type} (xs : List α) (lo hi : Option Int) : List α :=
  let i := bound xs.length 0 lo
  let j := bound xs.length xs.length hi
  (xs.drop i).take (j - i)

/-- A bound of a slice. -/
def asBound : Val → Option (Option Int)
  | .none => some none
  | .int n => some (some n)
  | _ => none

/-- `v[lo:hi]`. -/
def sliceVal (v lo hi : Val) : M ε σ Val :=
  match asBound lo, asBound hi with
  | some i, some j =>
    match v with
    | .str s => pure (.str (sliceOf s i j))
    | .bytes b => pure (.bytes (sliceOf b i j))
    | .barray b => pure (.barray (sliceOf b i j))
    | .ref l => do
      match ← deref l with
      | .barray b => pure (.barray (sliceOf b i j))
      | _ => stuck
    | _ => stuck
  | _, _ => stuck

/-- A position in a sequence, negative from the end; `none` = out of range. -/
def indexOf (len : Nat) (n : Int) : Option Nat :=
  let i := if n < 0 then n + len else n
  if 0 ≤ i ∧ i < len then some i.toNat else none

/-- `d[k]` for a dict. -/
def itemAt (items : List (Val × Val)) (k : Val) : M ε σ Val :=
  keyed k (match lookup items k with
    | some x => pure x
    | none => PyM.raise (.std .KeyError k))

/-- `v[k]`. -/
def subVal (v k : Val) : M ε σ Val :=
  match v with
  | .dict items => itemAt items k
  | .ref l => do
    match ← deref l with
    | .dict items => itemAt items k
    | .barray b => match k with
      | .int n => match indexOf b.length n with
        | some i => pure (.int ((b[i]?.getD 0).toNat))
        | none => fail .IndexError
      | _ => stuck
    | _ => stuck
  | _ => stuck

/-- `v[k] = x`. -/
def subSet (v k x : Val) : M ε σ Unit :=
  match v with
  | .ref l => do
    match ← deref l with
    | .dict items => keyed k (store l (.dict (insert items k x)))
    | .barray b => match k, x with
      | .int n, .int y => match indexOf b.length n with
        | some i => if 0 ≤ y ∧ y < 256 then store l (.barray (b.set i (UInt8.ofNat y.toNat))) else fail .ValueError
        | none => fail .IndexError
      | _, _ => stuck
    | _ => stuck
  | _ => stuck

/-- The class of a value.  (`.list` is a list or a range.) -/
def classOf : Val → Option Str
  | .none => some py"NoneType"
  | .bool _ => some py"bool"
  | .int _ => some py"int"
  | .float .. | .nan | .inf => some py"float"
  | .str _ => some py"str"
  | .bytes _ => some py"bytes"
  | .barray _ => some py"bytearray"
  | .tuple _ => some py"tuple"
  | .dict _ => some py"dict"
  | .obj c _ _ => some c
  | _ => none

/-- The name of a class of the source. -/
def className : Ident → Option Str
  | .DecodeError => some py"DecodeError"
  | .EncodeError => some py"EncodeError"
  | _ => none

/-- `type(o)` and `o.__class__`. -/
def classVal : Obj → Val
  | .dict _ => .cls py"dict"
  | .set _ => .cls py"set"
  | .barray _ => .cls py"bytearray"
  | .inst c _ _ => .glob c

/-- `v.a`. -/
def attrVal : Val → Ident → M ε σ Val
  | .glob ._sys, .stdout => pure (.stream true)
  | .glob x, .__repr__ => pure (.globAttr x .__repr__)
  | .glob c, .__name__ => match className c with
    | some s => pure (.str s)
    | none => stuck
  | .cls c, .__name__ => pure (.str c)
  | .cls _, .__repr__ => pure .none      -- a method of another class, in no dispatch table
  | .ref l, .__class__ => do pure (classVal (← deref l))
  | v, .__class__ => match classOf v with
    | some c => pure (.cls c)
    | none => stuck
  | .ref l, a => do
    match ← deref l with
    | .inst _ _ attrs => match attrGet attrs a with
      | some v => pure v
      | none => fail .AttributeError
    | _ => stuck
  | _, _ => stuck

/-- `v.a = x`. -/
def attrStore (v : Val) (a : Ident) (x : Val) : M ε σ Unit :=
  match v with
  | .ref l => do
    match ← deref l with
    | .inst c args attrs => store l (.inst c args (attrSet attrs a x))
    | _ => stuck
  | _ => stuck

/-! ## Text -/

/-- `str(n)` for an int, under the interpreter's digit limit. -/
def intText (rt : Rt ε σ) (n : Int) : M ε σ Str :=
  if formats rt.env n then pure (intStr n) else fail .ValueError

/-- `repr` of an element of a list. -/
def reprElem (rt : Rt ε σ) : Val → M ε σ Str
  | .int n => intText rt n
  | .none => pure py"None"
  | .bool b => pure (if b then py"True" else py"False")
  | .bytes b => pure (reprBytes b)
  | .obj _ r _ => pure r
  | _ => stuck

/-- `repr` of the elements of a list. -/
def reprElems (rt : Rt ε σ) : List Val → M ε σ (List Str)
  | [] => pure []
  | v :: t => do
    let x ← reprElem rt v
    let xs ← reprElems rt t
    pure (x :: xs)

/-- `f"{v}"`. -/
def textOf (rt : Rt ε σ) : Val → M ε σ Str
  | .str s => pure s
  | .int n => intText rt n
  | .exn .KeyError _ => stuck      -- `str` of a `KeyError` is the `repr` of the key
  | .exn _ (.str t) => pure t
  | .list xs => do
    let rs ← reprElems rt xs
    pure (py"[" ++ commaJoin rs ++ py"]")
  | _ => stuck

/-- `repr(v)`. -/
def reprVal (rt : Rt ε σ) : Val → M ε σ Str
  | .str s => pure (reprStr rt.env s)
  | .bytes b => pure (reprBytes b)
  | .none => pure py"None"
  | .bool b => pure (if b then py"True" else py"False")
  | .int n => intText rt n
  | .barray b => pure (py"bytearray(" ++ reprBytes b ++ py")")
  | .obj _ r _ => pure r
  | _ => stuck

/-- `template.format(args, kws)` for the templates that occur in the source.  (The number is the length of
data in memory, which the limit on digits does not reach.) -/
def formatVal (t : Str) (args : List Val) (kws : List (Ident × Val)) : M ε σ Val :=
  if t = py"{:0{len_type}d}" then
    match args, kws with
    | [.int n], [(.len_type, .int w)] =>
      if n < 0 ∨ w < 0 then stuck else pure (.str (zeroPad w.toNat n.toNat))
    | _, _ => stuck
  else if t = py"{index:3s}" then
    match args, kws with
    | [], [(.index, .str s)] => pure (.str (ljust 3 s))
    | _, _ => stuck
  else if t = py" {desc: <{desc_width}}" then
    match args, kws with
    | [], [(.desc, .str s), (.desc_width, .int w)] =>
      if w < 0 then stuck else pure (.str (py" " ++ ljust w.toNat s))
    | _, _ => stuck
  else if t = py"{} " then
    match args, kws with
    | [.str s], [] => pure (.str (s ++ py" "))
    | _, _ => stuck
  else if t = py"{}\n" then
    match args, kws with
    | [.str s], [] => pure (.str (s ++ py"\n"))
    | _, _ => stuck
  else stuck

/-- Raise what a codec raises. -/
def codecFail {α : Type} (rt : Rt ε σ) (name text : Str) : CodecFail → M ε σ α
  | .lookup => PyM.raise (.std .LookupError (.str (rt.detail name text)))
  | .invalid => PyM.raise (.std .UnicodeError (.str (rt.detail name text)))

/-- `text.encode(name)`. -/
def encodeVal (rt : Rt ε σ) (text name : Str) : M ε σ Val :=
  match strEncode rt.env name text with
  | .ok b => pure (.bytes b)
  | .error e => codecFail rt name text e

/-- `data.decode(name)`. -/
def decodeVal (rt : Rt ε σ) (data : Bytes) (name : Str) : M ε σ Val :=
  match bytesDecode rt.env name data with
  | .ok t => pure (.str t)
  | .error e => codecFail rt name (data.map UInt8.toNat) e

/-! ## Built-in functions and methods -/

/-- `isinstance(v, cls)`. -/
def instanceOf (v : Val) (cls : Ident) : M ε σ Bool :=
  match v with
  | .str _ => pure (cls == .str)
  | .bytes _ => pure (cls == .bytes)
  | .barray _ => pure (cls == .bytearray)
  | .dict _ => pure (cls == .dict)
  | .obj .. => pure false
  | .none | .bool _ | .int _ | .float .. | .nan | .inf | .list _ | .tuple _ =>
    if cls ∈ [Ident.str, .bytes, .bytearray, .dict, .set] then pure false else stuck
  | .ref l => do
    match ← deref l with
    | .dict _ => pure (cls == .dict)
    | .set _ => pure (cls == .set)
    | .barray _ => pure (cls == .bytearray)
    | .inst c _ _ => pure (cls == c)
  | _ => stuck

/-- `isinstance(v, (a, b, …))`. -/
def instanceOfAny (v : Val) : List Val → M ε σ Bool
  | [] => pure false
  | .glob c :: t => do
    if ← instanceOf v c then pure true else instanceOfAny v t
  | _ => stuck

/-- `len(v)` for an object. -/
def lenThing : Thing → M ε σ Val
  | .bytes b => pure (.int b.length)
  | .sized n => pure (.int n)
  | .unsized => fail .TypeError

/-- `len(v)`. -/
def lenVal : Val → M ε σ Val
  | .str s => pure (.int s.length)
  | .bytes b => pure (.int b.length)
  | .barray b => pure (.int b.length)
  | .list xs => pure (.int xs.length)
  | .tuple xs => pure (.int xs.length)
  | .dict items => pure (.int items.length)
  | .ref l => do lenThing (thingOf (← deref l))
  | .thing _ k => lenThing k
  | .obj _ _ (some n) => pure (.int n)
  | .obj _ _ none => fail .TypeError
  | .none | .bool _ | .int _ | .float .. | .nan | .inf => fail .TypeError
  | _ => stuck

/-- `int(v)`. -/
def intVal (rt : Rt ε σ) : Val → M ε σ Val
  | .int n => pure (.int n)
  | .str s => match pyInt rt.env s with
    | some n => pure (.int n)
    | none => fail .ValueError
  | .float m e => pure (.int (if 0 ≤ e then m * 2 ^ e.toNat else m.tdiv (2 ^ (-e).toNat)))
  | .nan => fail .ValueError
  | .inf => fail .OverflowError
  | .obj .. => fail .TypeError
  | _ => stuck

/-- `int(x)` for each `x`, in order. -/
def intVals (rt : Rt ε σ) : List Val → M ε σ (List Int)
  | [] => pure []
  | v :: t => do
    match ← intVal rt v with
    | .int n => do
      let ns ← intVals rt t
      pure (n :: ns)
    | _ => stuck

/-- `lo, lo + step, …` below `hi`; the first argument is fuel. -/
def rangeUp (step : Nat) : Nat → Int → Int → List Int
  | 0, _, _ => []
  | f + 1, lo, hi => if lo < hi then lo :: rangeUp step f (lo + step) hi else []

/-- `range(lo, hi, step)` for a positive step. -/
def rangeList (lo hi : Int) (step : Nat) : List Int := rangeUp step (hi - lo).toNat lo hi

/-- `enumerate(xs)`. -/
def number : Nat → List Val → List Val
  | _, [] => []
  | i, v :: t => .tuple [.int i, v] :: number (i + 1) t

/-- `set(xs)`, `s.update(xs)`: add ints to a set. -/
def addAll (s : List Int) (xs : List Int) : List Int := setUpdate s xs

/-- The type of a value. -/
def typeVal : Val → M ε σ Val
  | .str _ => pure (.glob .str)
  | .bytes _ => pure (.glob .bytes)
  | .ref l => do pure (classVal (← deref l))
  | v => match classOf v with
    | some c => pure (.cls c)
    | none => stuck

/-- A call of a built-in function or class. -/
def builtin (rt : Rt ε σ) : Ident → List Val → List (Ident × Val) → M ε σ Val
  | .len, [v], [] => lenVal v
  | .isinstance, [v, .glob c], [] => do pure (.bool (← instanceOf v c))
  | .isinstance, [v, .tuple cs], [] => do pure (.bool (← instanceOfAny v cs))
  | .str, [.str s], [] => pure (.str s)
  | .str, [.int n], [] => do pure (.str (← intText rt n))
  | .int, [v], [] => intVal rt v
  | .int, [.str s, .int b], [] => if b = 10 then intVal rt (.str s) else stuck
  | .repr, [v], [] => do pure (.str (← reprVal rt v))
  | .type, [v], [] => typeVal v
  | .bytes, [.bytes b], [] => pure (.bytes b)
  | .bytes, [.barray b], [] => pure (.bytes b)
  | .bytes, [.ref l], [] => do
    match ← deref l with
    | .barray b => pure (.bytes b)
    | _ => stuck
  | .bytes, [.str t, .str name], [] => encodeVal rt t name
  | .bytearray, [], [] => alloc (.barray [])
  | .bytearray, [.bytes b], [] => alloc (.barray b)
  | .set, [], [] => alloc (.set [])
  | .set, [.list xs], [] => match ints xs with
    | some ns => alloc (.set (addAll [] ns))
    | none => stuck
  | .sorted, [.ref l], [] => do
    match ← deref l with
    | .set xs => pure (.list ((sortedBy id (rt.order xs)).map .int))
    | _ => stuck
  | .sorted, [.list xs], [(.key, .glob .int)] => do
    let ns ← intVals rt xs
    pure (.list ((sortedBy Prod.snd (xs.zip ns)).map Prod.fst))
  | .range, [.int lo, .int hi], [] => pure (.list ((rangeList lo hi 1).map .int))
  | .range, [.int lo, .int hi, .int step], [] =>
    if step ≤ 0 then stuck else pure (.list ((rangeList lo hi step.toNat).map .int))
  | .enumerate, [v], [] => do pure (.list (number 0 (← elements rt v)))
  | .TypeError, [v], [] => pure (.exn .TypeError v)
  | _, _, _ => stuck

/-- A method of an object of no class the library knows, or one that no other object but a text has. -/
def otherMethod : Ident → M ε σ Val
  | .encode => fail .AttributeError
  | .isnumeric => fail .AttributeError
  | _ => stuck

/-- A method of a dict in the heap. -/
def dictMethod (l : Nat) (items : List (Val × Val)) : Ident → List Val → List (Ident × Val) → M ε σ Val
  | .get, [k, d], [] => keyed k (pure ((lookup items k).getD d))
  | .keys, [], [] => pure (.list (items.map Prod.fst))
  | .pop, [k, d], [] => keyed k do
    store l (.dict (delete items k))
    pure ((lookup items k).getD d)
  | m, _, _ => otherMethod m

/-- A method of a set. -/
def setMethod (l : Nat) (xs : List Int) : Ident → List Val → List (Ident × Val) → M ε σ Val
  | .update, [.list vs], [] => match ints vs with
    | some ns => do
      store l (.set (addAll xs ns))
      pure .none
    | none => stuck
  | .add, [.int n], [] => do
    store l (.set (setAdd xs n))
    pure .none
  | .remove, [.int n], [] =>
    if n ∈ xs then do
      store l (.set (setRemove xs n))
      pure .none
    else PyM.raise (.std .KeyError (.int n))
  | .intersection, [.list vs], [] => match ints vs with
    | some ns => alloc (.set (xs.filter (· ∈ ns)))
    | none => stuck
  | .difference, [.list vs], [] => match ints vs with
    | some ns => alloc (.set (xs.filter (· ∉ ns)))
    | none => stuck
  | .issubset, [.list vs], [] => match ints vs with
    | some ns => pure (.bool (xs.all (· ∈ ns)))
    | none => stuck
  | m, _, _ => otherMethod m

/-- A method of a bytearray. -/
def barrayMethod (b : Bytes) : Ident → List Val → List (Ident × Val) → M ε σ Val
  | .hex, [], [] => pure (.str (bytesHex b))
  | m, _, _ => otherMethod m

/-- A method of an object in the heap. -/
def objMethod (l : Nat) (m : Ident) (args : List Val) (kws : List (Ident × Val)) : M ε σ Val := do
  match ← deref l with
  | .dict items => dictMethod l items m args kws
  | .set xs => setMethod l xs m args kws
  | .barray b => barrayMethod b m args kws
  | .inst .. => otherMethod m

/-- `binascii.a2b_hex(v)` for an object. -/
def a2bThing : Thing → M ε σ Val
  | .bytes b => match a2bHex (b.map UInt8.toNat) with
    | some r => pure (.bytes r)
    | none => fail .ValueError
  | _ => fail .TypeError

/-- `binascii.a2b_hex(v)`. -/
def a2bVal : Val → M ε σ Val
  | .str s => match a2bHex s with
    | some b => pure (.bytes b)
    | none => fail .ValueError
  | .bytes b => a2bThing (.bytes b)
  | .barray b => a2bThing (.bytes b)
  | .ref l => do a2bThing (thingOf (← deref l))
  | .thing _ k => a2bThing k
  | .obj .. | .list _ | .tuple _ | .dict _ | .none | .bool _ | .int _ | .float .. | .nan | .inf => fail .TypeError
  | _ => stuck

/-- A method of a class, or a function of a module. -/
def classMethod : Ident → Ident → List Val → List (Ident × Val) → M ε σ Val
  | .bytes, .fromhex, [.str s], [] => match fromHex s with
    | some b => pure (.bytes b)
    | none => fail .ValueError
  | .int, .from_bytes, [.bytes b, .str o], [(.signed, .bool false)] =>
    if o = py"big" then pure (.int (fromBytesBE b)) else stuck
  | .int, .from_bytes, [.barray b, .str o], [(.signed, .bool false)] =>
    if o = py"big" then pure (.int (fromBytesBE b)) else stuck
  | .binascii, .a2b_hex, [v], [] => a2bVal v
  | .ValueError, .__init__, [.ref l, x], [] => do
    match ← deref l with
    | .inst c _ attrs =>
      store l (.inst c [x] attrs)
      pure .none
    | _ => stuck
  | _, _, _, _ => stuck

/-- Nothing but ASCII characters. -/
def asciiText (s : Str) : Bool := s.all fun c => decide (c < 128)

/-- A method of a text. -/
def strMethod (rt : Rt ε σ) (s : Str) : Ident → List Val → List (Ident × Val) → M ε σ Val
  | .upper, [], [] => if asciiText s then pure (.str (upperAscii s)) else stuck
  | .isnumeric, [], [] => pure (.bool (isNumeric rt.env s))
  | .encode, [.str name], [] => encodeVal rt s name
  | .format, args, kws => formatVal s args kws
  | _, _, _ => stuck

/-- A method of bytes, or of a bytearray nobody changes. -/
def bytesMethod (rt : Rt ε σ) (b : Bytes) : Ident → List Val → List (Ident × Val) → M ε σ Val
  | .hex, [], [] => pure (.str (bytesHex b))
  | .decode, [.str name], [] => decodeVal rt b name
  | m, _, _ => otherMethod m

/-- A method of an int. -/
def intMethod (n : Int) : Ident → List Val → List (Ident × Val) → M ε σ Val
  | .to_bytes, [.int w, .str o], [(.signed, .bool false)] =>
    if o = py"big" ∧ 0 ≤ n ∧ 0 ≤ w then
      match toBytesBE n.toNat w.toNat with
      | some b => pure (.bytes b)
      | none => fail .OverflowError
    else stuck
  | m, _, _ => otherMethod m

/-- A method of a dict nobody changes. -/
def itemsMethod (items : List (Val × Val)) : Ident → List Val → List (Ident × Val) → M ε σ Val
  | .get, [k, d], [] => keyed k (pure ((lookup items k).getD d))
  | .keys, [], [] => pure (.list (items.map Prod.fst))
  | m, _, _ => otherMethod m

/-- Write a text to a stream. -/
def writeText (rt : Rt ε σ) (b : Bool) (t : Str) : M ε σ Val := fun st =>
  match rt.write b t st.world with
  | (.ok _, w) => (.ok .none, { st with world := w })
  | (.error e, w) => (.error (.ext e), { st with world := w })

/-- A method of a stream. -/
def streamMethod (rt : Rt ε σ) (b : Bool) : Ident → List Val → List (Ident × Val) → M ε σ Val
  | .write, [.str t], [] => writeText rt b t
  | _, _, _ => stuck

/-- Look up a method that only a text has. -/
def textMethod : Val → M ε σ Unit
  | .bytes _ | .barray _ | .int _ | .obj .. | .thing .. | .list _ | .tuple _ | .none | .bool _ | .float .. | .nan | .inf | .dict _ =>
    fail .AttributeError
  | .ref l => do
    let _ ← deref l
    fail .AttributeError
  | _ => pure ()

/-- Look up a method, before the arguments are evaluated.  (Of the methods of the source these two are the ones that
may be missing; for the others see `guarded`.) -/
def findMethod (v : Val) : Ident → M ε σ Unit
  | .encode => textMethod v
  | .isnumeric => textMethod v
  | _ => pure ()

/-- The methods of the objects in the heap. -/
def objHas : Obj → Ident → Bool
  | .dict _, m => m == .get || m == .keys || m == .pop
  | .set _, m => m == .update || m == .add || m == .remove || m == .intersection || m == .difference || m == .issubset
  | .barray _, m => m == .hex
  | .inst .., _ => false

/-- The methods that are found in the fragment. -/
def hasMethod (h : List Obj) : Val → Ident → Bool
  | .str _, m => m == .upper || m == .isnumeric || m == .encode || m == .format
  | .bytes _, m => m == .hex || m == .decode
  | .barray _, m => m == .hex || m == .decode
  | .int _, m => m == .to_bytes
  | .dict _, m => m == .get || m == .keys
  | .stream _, m => m == .write
  | .glob .bytes, m => m == .fromhex
  | .glob .int, m => m == .from_bytes
  | .glob .binascii, m => m == .a2b_hex
  | .glob .ValueError, m => m == .__init__
  | .ref l, m => match h[l]? with
    | some o => objHas o m
    | none => false
  | _, _ => false

/-- Evaluate the arguments of a method.  When that fails, the method must be there: Python looks it up first. -/
def guarded {α : Type} (v : Val) (m : Ident) (c : M ε σ α) : M ε σ α := fun st =>
  match c st with
  | (.ok a, st') => (.ok a, st')
  | (.error e, st') => if hasMethod st.heap v m then (.error e, st') else (.error .stuck, st')

/-- A call of a method. -/
def method (rt : Rt ε σ) (v : Val) (m : Ident) (args : List Val) (kws : List (Ident × Val)) : M ε σ Val :=
  match v with
  | .glob c => classMethod c m args kws
  | .str s => strMethod rt s m args kws
  | .bytes b => bytesMethod rt b m args kws
  | .barray b => bytesMethod rt b m args kws
  | .int n => intMethod n m args kws
  | .obj .. | .thing .. | .list _ | .tuple _ | .none | .bool _ | .float .. | .nan | .inf => otherMethod m
  | .dict items => itemsMethod items m args kws
  | .stream b => streamMethod rt b m args kws
  | .ref l => objMethod l m args kws
  | _ => stuck

/-! ## Expressions -/

/-- How a function is called: name, arguments, keyword arguments. -/
abbrev Caller (ε σ : Type) := Ident → List Val → List (Ident × Val) → M ε σ Val

/-- Bind loop variables to an element: one name, or as many names as the tuple has elements. -/
def bindNames : List Ident → Val → M ε σ Unit
  | [x], v => setVar x v
  | [x, y], .tuple [v, w] => do
    setVar x v
    setVar y w
  | _, _ => stuck

/-- Run a comprehension body for each element and collect. -/
def gather (body : M ε σ (List Val)) (xs : List Ident) : List Val → M ε σ (List Val)
  | [] => pure []
  | v :: t => do
    bindNames xs v
    let a ← body
    let b ← gather body xs t
    pure (a ++ b)

/-- Run in a scope of its own: variables are put back afterwards. -/
def inScope {α : Type} (m : M ε σ α) : M ε σ α := fun st =>
  match m st with
  | (r, st') => (r, { st' with vars := st.vars })

/-- Bind a name, if there is one, while something runs, and unbind it. -/
def withName {α : Type} (x : Option Ident) (v : Val) (m : M ε σ α) : M ε σ α :=
  match x with
  | none => m
  | some x => fun st =>
    match m { st with vars := st.vars.set x v } with
    | (r, st') => (r, { st' with vars := fun y => if y = x then none else st'.vars y })

/-- The entries of a dict, each key before its value. -/
def inPairs : List (M ε σ Val) → List (M ε σ Val) → M ε σ (List (Val × Val))
  | k :: ks, v :: vs => do
    let k ← k
    let v ← v
    let t ← inPairs ks vs
    pure ((k, v) :: t)
  | _, _ => pure []

variable (rt : Rt ε σ) (call : Caller ε σ)

mutual
/-- The value of an expression. -/
def eval : Expr → M ε σ Val
  | .name x => getVar rt x
  | .none => pure .none
  | .bool b => pure (.bool b)
  | .int n => pure (.int n)
  | .str s => pure (.str s)
  | .bytes b => pure (.bytes b)
  | .fstr parts => do
    let vs ← evalTexts parts
    pure (.str vs)
  | .attr e a => do
    let v ← eval e
    attrVal v a
  | .sub e k => do
    let v ← eval e
    let k ← eval k
    subVal v k
  | .slice e lo hi => do
    let v ← eval e
    let lo ← eval lo
    let hi ← eval hi
    sliceVal v lo hi
  | .bin op a b => do
    let a ← eval a
    let b ← eval b
    binop op a b
  | .cmp op a b => do
    let a ← eval a
    let b ← eval b
    pure (.bool (← cmpop op a b))
  | .and a b => do
    let v ← eval a
    if ← truth v then eval b else pure v
  | .or a b => do
    let v ← eval a
    if ← truth v then pure v else eval b
  | .not a => do
    let v ← eval a
    pure (.bool (!(← truth v)))
  | .neg a => do
    match ← eval a with
    | .int n => pure (.int (-n))
    | _ => stuck
  | .ite c a b => do
    let v ← eval c
    if ← truth v then eval a else eval b
  | .call f args kns kvs => fun st =>
    match st.vars f with
    | some (.glob g) => (do
      let vs ← evals args
      let ks ← evals kvs
      call g vs (kns.zip ks) : M ε σ Val) st
    | some _ => (.error .stuck, st)
    | none => (do
      let vs ← evals args
      let ks ← evals kvs
      call f vs (kns.zip ks) : M ε σ Val) st
  | .meth e m args kns kvs => do
    let v ← eval e
    findMethod v m
    let vs ← guarded v m (evals args)
    let ks ← guarded v m (evals kvs)
    method rt v m vs (kns.zip ks)
  | .list xs => do
    let vs ← evals xs
    pure (.list vs)
  | .tuple xs => do
    let vs ← evals xs
    pure (.tuple vs)
  | .dict ks vs => do
    let items ← inPairs (evalEach ks) (evalEach vs)
    if items.all fun p => p.1.plain then alloc (.dict (items.foldl (fun d p => insert d p.1 p.2) [])) else stuck
  | .comp c => inScope do
    let vs ← evalComp c
    pure (.list vs)

/-- Arguments from left to right. -/
def evals : List Expr → M ε σ (List Val)
  | [] => pure []
  | e :: t => do
    let v ← eval e
    let vs ← evals t
    pure (v :: vs)

/-- What evaluates each of the expressions. -/
def evalEach : List Expr → List (M ε σ Val)
  | [] => []
  | e :: t => eval e :: evalEach t

/-- The pieces of an f-string, put together. -/
def evalTexts : List Expr → M ε σ Str
  | [] => pure []
  | e :: t => do
    let v ← eval e
    let x ← textOf rt v
    let xs ← evalTexts t
    pure (x ++ xs)

/-- The elements of a list comprehension. -/
def evalComp : Comp → M ε σ (List Val)
  | .yield e => do
    let v ← eval e
    pure [v]
  | .loop xs it body => do
    let v ← eval it
    let vs ← elements rt v
    gather (evalComp body) xs vs
  | .when c body => do
    let v ← eval c
    if ← truth v then evalComp body else pure []
end

/-! ## Statements -/

/-- How a statement ends: fall through, or return. -/
inductive Flow
  | next
  | ret (v : Val)

/-- Assign to one target. -/
def assignTo (v : Val) : Target → M ε σ Unit
  | .name x => setVar x v
  | .sub e k => do
    let b ← eval rt call e
    let k ← eval rt call k
    subSet b k v
  | .attr e a => do
    let b ← eval rt call e
    attrStore b a v

/-- Assign the elements of a tuple, from left to right. -/
def assignAll : List Target → List Val → M ε σ Unit
  | [], [] => pure ()
  | t :: ts, v :: vs => do
    assignTo rt call v t
    assignAll ts vs
  | _, _ => stuck

/-- The body of a loop for each element, until it returns. -/
def iterate (body : M ε σ Flow) (xs : List Ident) : List Val → M ε σ Flow
  | [] => pure .next
  | v :: t => do
    bindNames xs v
    match ← body with
    | .next => iterate body xs t
    | .ret v => pure (.ret v)

/-- An exception class and its superclasses. -/
def subclass (c d : Ident) : Bool :=
  c == d || d == .Exception || (d == .LookupError && (c == .KeyError || c == .IndexError)) ||
  (d == .ValueError && (c == .UnicodeError || c == .DecodeError || c == .EncodeError))

/-- `except cls` catches this exception. -/
def Exc.caughtBy (cls : Ident) : Exc ε → Bool
  | .std c _ => subclass c cls
  | .inst c _ => subclass c cls
  | .ext _ => cls == .Exception
  | .stuck => false

/-- The exception as a value, for `except … as e`. -/
def Exc.val : Exc ε → Val
  | .std c a => .exn c a
  | .inst _ l => .ref l
  | _ => .none

/-- `raise v`. -/
def raiseVal {α : Type} : Val → M ε σ α
  | .exn c a => PyM.raise (.std c a)
  | .ref l => do
    match ← deref l with
    | .inst c _ _ => PyM.raise (.inst c l)
    | _ => stuck
  | _ => stuck

mutual
/-- Run a statement. -/
def exec : Stmt → M ε σ Flow
  | .assign ts e => do
    let v ← eval rt call e
    match ts, v with
    | [t], v => assignTo rt call v t
    | ts, .tuple vs => assignAll rt call ts vs
    | _, _ => stuck
    pure .next
  | .aug t op e => do
    match t with
    | .name x => do
      let a ← getVar rt x
      let b ← eval rt call e
      setVar x (← augop op a b)
    | .sub c k => do
      let c ← eval rt call c
      let k ← eval rt call k
      let a ← subVal c k
      let b ← eval rt call e
      subSet c k (← augop op a b)
    | .attr .. => stuck
    pure .next
  | .expr e => do
    let _ ← eval rt call e
    pure .next
  | .ite c a b => do
    let v ← eval rt call c
    if ← truth v then execs a else execs b
  | .loop xs it body => do
    let v ← eval rt call it
    let vs ← elements rt v
    iterate (execs body) xs vs
  | .attempt body hs => fun st =>
    match execs body st with
    | (.ok r, st') => (.ok r, st')
    | (.error e, st') => handle e hs st'
  | .raise e => do
    let v ← eval rt call e
    raiseVal v
  | .ret e => do
    let v ← eval rt call e
    pure (.ret v)
  | .yield e => do
    let v ← eval rt call e
    PyM.modify fun st => { st with ys := st.ys ++ [v] }
    pure .next

/-- Run statements until one returns. -/
def execs : List Stmt → M ε σ Flow
  | [] => pure .next
  | s :: t => do
    match ← exec s with
    | .next => execs t
    | .ret v => pure (.ret v)

/-- The first handler that catches the exception, or raise it again. -/
def handle (e : Exc ε) : List Handler → M ε σ Flow
  | [] => PyM.raise e
  | .mk cls x body :: t =>
    if e.caughtBy cls then withName x e.val (execs body) else handle e t
end

/-! ## Functions -/

/-- Parameters and positional arguments; missing ones take their defaults from the right. -/
def bindParams (ps : List Ident) (vs ds : List Val) : Option Vars :=
  let vs := vs ++ ds.drop (ds.length - (ps.length - vs.length))
  if vs.length = ps.length then
    some ((ps.zip vs).foldl (fun e p => e.set p.1 p.2) fun _ => none)
  else none

/-- Parameters with their defaults, which belong to the last ones. -/
def withDefaults (ps : List Ident) (ds : List Val) : List (Ident × Option Val) :=
  ps.zip (List.replicate (ps.length - ds.length) none ++ ds.map some)

/-- Values for parameters: keyword arguments, else defaults. -/
def fillParams (kws : List (Ident × Val)) : List (Ident × Option Val) → Option (List Val)
  | [] => some []
  | (p, d) :: t => match (attrGet kws p).or d, fillParams kws t with
    | some v, some r => some (v :: r)
    | _, _ => none

/-- Positional and keyword arguments in the order of the parameters.  A keyword argument is for a parameter
that has no positional argument, and no two are for the same. -/
def placeArgs (ps : List Ident) (vs : List Val) (kws : List (Ident × Val)) (ds : List Val) : Option (List Val) :=
  if vs.length ≤ ps.length ∧ (kws.map Prod.fst).Nodup ∧ ∀ p ∈ kws, p.1 ∈ ps.drop vs.length then
    (fillParams kws ((withDefaults ps ds).drop vs.length)).map (vs ++ ·)
  else none

/-- Parameters and arguments. -/
def bindArgs (ps : List Ident) (vs : List Val) (kws : List (Ident × Val)) (ds : List Val) : Option Vars :=
  match kws with
  | [] => bindParams ps vs ds
  | _ => (placeArgs ps vs kws ds).bind (bindParams ps · [])

@[simp] theorem bindArgs_nil (ps : List Ident) (vs ds : List Val) : bindArgs ps vs [] ds = bindParams ps vs ds := rfl

/-- Run the body of a function with fresh variables. -/
def runBody (d : Def) (vs : Vars) : M ε σ Val := fun st =>
  match execs rt call d.body { st with vars := vs, locals := d.locals, ys := [] } with
  | (.ok f, st') =>
    let r := if d.isGen then .list st'.ys else match f with
      | .next => .none
      | .ret v => v
    (.ok r, { st' with vars := st.vars, locals := st.locals, ys := st.ys })
  | (.error e, st') => (.error e, { st' with vars := st.vars, locals := st.locals, ys := st.ys })

/-- Call a function; calling a class makes an instance and runs `__init__` on it.  A generator is run
to its end at the call: the two generators of the source write nothing and change nothing. -/
def invoke (d : Def) (args : List Val) (kws : List (Ident × Val)) : M ε σ Val := do
  let ds ← evals rt call d.defaults
  if d.isClass then
    let o ← alloc (.inst d.name [] [])
    match bindArgs d.params (o :: args) kws ds with
    | none => fail .TypeError
    | some vs =>
      let _ ← runBody rt call d vs
      pure o
  else
    match bindArgs d.params args kws ds with
    | none => fail .TypeError
    | some vs => runBody rt call d vs

/-- A program: each function may call the ones after it, and what is built in. -/
def program : List Def → Caller ε σ
  | [] => builtin rt
  | d :: ds => fun f args kws => if f = d.name then invoke rt (program ds) d args kws else program ds f args kws

end

end Iso8583.Src
