/-!
# Python primitives used by pyiso8583

Everything in this file models the *Python runtime* operations that the code in
`/repo/iso8583` calls (built-in `str`, `bytes`, `int`, `dict`, `binascii` behaviour of
CPython 3.x), not code of the repository itself.  Each definition cites the repository line
that uses the primitive.
-/

namespace Iso8583

/-- A Python `str`: the list of its code points (0 .. 0x10FFFF, surrogates included). -/
abbrev Str := List Nat

/-- A Python `bytes`/`bytearray` value. -/
abbrev Bytes := List UInt8

/-- `py"0200"` is the literal list of code points of a string: `[48, 50, 48, 48]`. -/
syntax:max (name := pyLit) "py" noWs str : term
macro_rules
  | `(py$s:str) => do
    let cs := s.getString.toList.map (fun c => Lean.Syntax.mkNumLit (toString c.toNat))
    let arr : Array (Lean.TSyntax `term) := (cs.map (fun x => (⟨x.raw⟩ : Lean.TSyntax `term))).toArray
    `(([$arr,*] : Iso8583.Str))

/-! ## Exceptions and mutable state -/

/-- A Python computation with mutable state `σ` that may raise: the state survives the
exception, exactly as mutations of a Python dict survive it. -/
def PyM (ε σ α : Type) : Type := σ → Except ε α × σ

namespace PyM
variable {ε σ α β : Type}

/-- Return a value, leaving the state alone. -/
@[inline] protected def pure (a : α) : PyM ε σ α := fun s => (.ok a, s)

/-- Sequencing: run the continuation unless an exception was raised. -/
@[inline] protected def bind (m : PyM ε σ α) (f : α → PyM ε σ β) : PyM ε σ β := fun s =>
  match m s with
  | (.ok a, s') => f a s'
  | (.error e, s') => (.error e, s')

instance : Monad (PyM ε σ) where
  pure := PyM.pure
  bind := PyM.bind

/-- Python `raise`. -/
@[inline] def raise (e : ε) : PyM ε σ α := fun s => (.error e, s)

/-- Read the mutable state. -/
@[inline] def get : PyM ε σ σ := fun s => (.ok s, s)

/-- Mutate the state. -/
@[inline] def modify (f : σ → σ) : PyM ε σ Unit := fun s => (.ok (), f s)

/-- Unwrap a pure computation that may raise. -/
@[inline] def lift (x : Except ε α) : PyM ε σ α := fun s => (x, s)

@[simp] theorem run_pure (a : α) (s : σ) : (pure a : PyM ε σ α) s = (.ok a, s) := rfl
@[simp] theorem run_raise (e : ε) (s : σ) : (raise e : PyM ε σ α) s = (.error e, s) := rfl
@[simp] theorem run_get (s : σ) : (get : PyM ε σ σ) s = (.ok s, s) := rfl
@[simp] theorem run_modify (f : σ → σ) (s : σ) : (modify f : PyM ε σ Unit) s = (.ok (), f s) := rfl
@[simp] theorem run_lift (x : Except ε α) (s : σ) : (lift x : PyM ε σ α) s = (x, s) := rfl

theorem run_bind (m : PyM ε σ α) (f : α → PyM ε σ β) (s : σ) :
    (m >>= f) s = match m s with
      | (.ok a, s') => f a s'
      | (.error e, s') => (.error e, s') := rfl

theorem run_ite (c : Prop) [Decidable c] (a b : PyM ε σ α) (s : σ) :
    (if c then a else b) s = if c then a s else b s := by split <;> rfl

end PyM

/-! ## Dictionaries -/

/-- A Python `dict`: its items in insertion order. Python dicts have pairwise distinct keys;
that invariant is `Dict.NoDup` and is carried as a hypothesis where it matters. -/
abbrev Dict (κ ν : Type) := List (κ × ν)

namespace Dict
variable {κ ν : Type} [DecidableEq κ]

/-- `d.get(k)` / the value `d[k]` would return (`none` = `KeyError`). -/
def get? : Dict κ ν → κ → Option ν
  | [], _ => none
  | (k', v) :: t, k => if k' = k then some v else get? t k

/-- `k in d`. -/
def contains (d : Dict κ ν) (k : κ) : Bool := (d.get? k).isSome

/-- `d[k] = v`: overwrite in place, or append at the end (insertion order). -/
def set : Dict κ ν → κ → ν → Dict κ ν
  | [], k, v => [(k, v)]
  | (k', v') :: t, k, v => if k' = k then (k', v) :: t else (k', v') :: set t k v

/-- `d.pop(k, None)`. -/
def pop : Dict κ ν → κ → Dict κ ν
  | [], _ => []
  | (k', v') :: t, k => if k' = k then t else (k', v') :: pop t k

/-- `list(d.keys())`. -/
def keys (d : Dict κ ν) : List κ := d.map Prod.fst

/-- Keys pairwise distinct: true of every Python dict. -/
def NoDup (d : Dict κ ν) : Prop := d.keys.Nodup

end Dict

/-! ## The runtime environment -/

/-- A Python text codec: `str.encode` and `bytes.decode` in strict mode (`none` = a
`UnicodeError`, i.e. any exception other than `LookupError`). -/
structure Codec where
  encode : Str → Option Bytes
  decode : Bytes → Option Str

/-- The parts of the Python runtime the code depends on but does not define: the codec
registry, the Unicode character database, and the `int()` digit limit.  All theorems quantify
over every environment (or every environment meeting stated laws). -/
structure PyEnv where
  /-- codec registry; `none` = `LookupError: unknown encoding` -/
  codec : Str → Option Codec
  /-- `chr(c).isnumeric()` -/
  isNumericCp : Nat → Bool
  /-- `unicodedata.decimal(chr(c))` -/
  decimalCp : Nat → Option Nat
  /-- `chr(c).isspace()` -/
  isSpaceCp : Nat → Bool
  /-- `chr(c).isprintable()` -/
  isPrintableCp : Nat → Bool
  /-- `sys.get_int_max_str_digits()`; `0` = no limit (also every Python before 3.11) -/
  maxStrDigits : Nat

/-- Why a `str.encode`/`bytes.decode` call failed. -/
inductive CodecFail
  | lookup   -- `LookupError`
  | invalid  -- any other exception
deriving DecidableEq, Repr

/-- `text.encode(name)` and `bytes(text, name)` (encoder.py:483-486, 656). -/
def strEncode (env : PyEnv) (name : Str) (text : Str) : Except CodecFail Bytes :=
  match env.codec name with
  | none => .error .lookup
  | some c => match c.encode text with
    | none => .error .invalid
    | some b => .ok b

/-- `data.decode(name)` (decoder.py:500, 700).  CPython returns `''` for empty input without
looking the codec up. -/
def bytesDecode (env : PyEnv) (name : Str) (data : Bytes) : Except CodecFail Str :=
  if data = [] then .ok [] else
  match env.codec name with
  | none => .error .lookup
  | some c => match c.decode data with
    | none => .error .invalid
    | some t => .ok t

/-! ## Slices -/

/-- `s[i:j]` for `0 <= i`; a negative `j` counts from the end (decoder.py:256, 338, 448, 559). -/
def slice (s : Bytes) (i : Nat) (j : Int) : Bytes :=
  let stop : Nat := if j < 0 then (j + s.length).toNat else j.toNat
  (s.drop i).take (stop - i)

/-! ## Integers and text -/

/-- Worker of `natStr`: decimal digits, most significant first; the first argument is fuel. -/
def decAux : Nat → Nat → Str
  | 0, _ => []
  | f + 1, n => if n < 10 then [48 + n] else decAux f (n / 10) ++ [48 + n % 10]

/-- `str(n)` for `n >= 0` (decoder.py:157, encoder.py:159). -/
def natStr (n : Nat) : Str := decAux (n + 1) n

/-- `str(n)` for any int (error messages). -/
def intStr : Int → Str
  | .ofNat n => natStr n
  | .negSucc n => 45 :: natStr (n + 1)

/-- `"{:0{w}d}".format(n)` for `n >= 0`, `w >= 1` (encoder.py:470, 484). -/
def zeroPad (w n : Nat) : Str := List.replicate (w - (natStr n).length) 48 ++ natStr n

/-- ASCII white space as C `isspace`: `\t \n \v \f \r` and space (CPython `Py_ISSPACE`). -/
def isAsciiSpace (c : Nat) : Bool := (9 ≤ c && c ≤ 13) || c == 32

/-- ASCII digit. -/
def isAsciiDigit (c : Nat) : Bool := 48 ≤ c && c ≤ 57

/-- CPython's `_PyUnicode_TransformDecimalAndSpaceToASCII`, the first step of `int(str)`. -/
def intNorm (env : PyEnv) (c : Nat) : Nat :=
  if c < 127 then c
  else if env.isSpaceCp c then 32
  else match env.decimalCp c with
    | some d => 48 + d
    | none => 63

/-- Digits after the first one: digits, or a single `_` followed by a digit.
Returns the value and the number of digits. -/
def digitsTail : Nat → Nat → Str → Option (Nat × Nat)
  | acc, cnt, [] => some (acc, cnt)
  | acc, cnt, [c] => if isAsciiDigit c then some (acc * 10 + (c - 48), cnt + 1) else none
  | acc, cnt, c :: d :: t =>
    if isAsciiDigit c then digitsTail (acc * 10 + (c - 48)) (cnt + 1) (d :: t)
    else if c = 95 && isAsciiDigit d then digitsTail (acc * 10 + (d - 48)) (cnt + 1) t
    else none

/-- The unsigned part of an `int()` literal: must start with a digit. -/
def digitsVal : Str → Option (Nat × Nat)
  | [] => none
  | c :: t => if isAsciiDigit c then digitsTail (c - 48) 1 t else none

/-- Remove ASCII white space at both ends. -/
def stripSpace (t : Str) : Str := ((t.dropWhile isAsciiSpace).reverse.dropWhile isAsciiSpace).reverse

/-- Split off an optional sign; `true` = negative. -/
def splitSign : Str → Bool × Str
  | [] => (false, [])
  | c :: r => if c = 43 then (false, r) else if c = 45 then (true, r) else (false, c :: r)

/-- `int(text)` / `int(text, 10)` (decoder.py:487, 521; encoder.py:97): optional surrounding
white space, optional sign, digits with single underscores; `none` = `ValueError`. -/
def pyInt (env : PyEnv) (text : Str) : Option Int :=
  let p := splitSign (stripSpace (text.map (intNorm env)))
  match digitsVal p.2 with
  | none => none
  | some (n, cnt) =>
    if env.maxStrDigits ≠ 0 ∧ cnt > env.maxStrDigits then none
    else some (if p.1 then -(n : Int) else n)

/-- `text.isnumeric()` (encoder.py:97, tools.py:74). -/
def isNumeric (env : PyEnv) (text : Str) : Bool := text ≠ [] && text.all env.isNumericCp

/-! ## Hexadecimal -/

/-- Value of one hex digit, either case. -/
def hexVal? (c : Nat) : Option Nat :=
  if 48 ≤ c ∧ c ≤ 57 then some (c - 48)
  else if 65 ≤ c ∧ c ≤ 70 then some (c - 55)
  else if 97 ≤ c ∧ c ≤ 102 then some (c - 87)
  else none

/-- One lower-case hex digit. -/
def hexDigitLower (n : Nat) : Nat := if n < 10 then 48 + n else 87 + n

/-- `data.hex()` (decoder.py:271, 359, 487, 576; encoder.py:339). -/
def bytesHex (b : Bytes) : Str :=
  b.flatMap fun x => [hexDigitLower (x.toNat / 16), hexDigitLower (x.toNat % 16)]

/-- `text.upper()`, restricted to the ASCII text it is applied to (the output of `.hex()`). -/
def upperAscii (text : Str) : Str := text.map fun c => if 97 ≤ c ∧ c ≤ 122 then c - 32 else c

/-- `binascii.a2b_hex(text)` (encoder.py:480, 556): even number of hex digits, nothing else. -/
def a2bHex : Str → Option Bytes
  | [] => some []
  | [_] => none
  | a :: b :: t =>
    match hexVal? a, hexVal? b, a2bHex t with
    | some x, some y, some r => some (UInt8.ofNat (x * 16 + y) :: r)
    | _, _, _ => none

/-- `bytes.fromhex(text)` (decoder.py:383): as `a2b_hex` but ASCII white space is skipped
between bytes. -/
def fromHex : Str → Option Bytes
  | [] => some []
  | [a] => if isAsciiSpace a then some [] else none
  | a :: b :: t =>
    if isAsciiSpace a then fromHex (b :: t)
    else match hexVal? a, hexVal? b, fromHex t with
    | some x, some y, some r => some (UInt8.ofNat (x * 16 + y) :: r)
    | _, _, _ => none

/-! ## Binary integers -/

/-- `int.from_bytes(b, "big", signed=False)` (decoder.py:469). -/
def fromBytesBE (b : Bytes) : Nat := b.foldl (fun acc x => acc * 256 + x.toNat) 0

/-- Worker of `toBytesBE`: the low `w` bytes of `n`, big endian. -/
def toBytesAux : Nat → Nat → Bytes
  | 0, _ => []
  | w + 1, n => toBytesAux w (n / 256) ++ [UInt8.ofNat (n % 256)]

/-- `n.to_bytes(w, "big", signed=False)` (encoder.py:453); `none` = `OverflowError`. -/
def toBytesBE (n w : Nat) : Option Bytes :=
  if n < 256 ^ w then some (toBytesAux w n) else none

/-! ## Sorting and sets -/

/-- Insert into a list sorted by `key`, before any element with an equal key. -/
def insertBy {α : Type} (key : α → Int) (x : α) : List α → List α
  | [] => [x]
  | y :: t => if key x ≤ key y then x :: y :: t else y :: insertBy key x t

/-- `sorted(xs, key=key)`, stable (tools.py:73-75). -/
def sortedBy {α : Type} (key : α → Int) : List α → List α
  | [] => []
  | x :: t => insertBy key x (sortedBy key t)

/-- `sorted(xs)` on field numbers (decoder.py:157; encoder.py:159). -/
def sortedNat (xs : List Nat) : List Nat := sortedBy (fun n => (n : Int)) xs

/-- `set.add`, on a set represented as a duplicate-free list in insertion order.  The
iteration order of a real Python set is unspecified; `encodeBitmap_perm` (property C23) proves the
only place where the code iterates over a set does not depend on it. -/
def setAdd {α : Type} [DecidableEq α] (s : List α) (x : α) : List α := if x ∈ s then s else s ++ [x]

/-- `s.update(xs)`; `set(xs)` when started from `[]` (decoder.py:394, encoder.py:97). -/
def setUpdate {α : Type} [DecidableEq α] (s xs : List α) : List α := xs.foldl setAdd s

/-- `s.remove(x)`; the code only removes elements it has just tested for
(decoder.py:140, 155; encoder.py:145, 157). -/
def setRemove {α : Type} [DecidableEq α] (s : List α) (x : α) : List α := s.filter (fun y => y ≠ x)

/-- `s.intersection(range(lo, hi))` (encoder.py:116, 121, 132). -/
def setInter (s : List Nat) (lo hi : Nat) : List Nat := s.filter fun x => lo ≤ x ∧ x < hi

end Iso8583
