import Verif.Spec.PrettyPrint
/-!
# What Python makes of the text `pp` prints for a value

A reader for string and bytes literals, after "String and Bytes literals" in the lexical analysis
chapter of the Python reference: quotes of either kind, all escapes except named characters, and
adjacent literals, which are one.  Literals with other prefixes than `b` and triple quotes are not
read.
-/

namespace Iso8583

/-- `w` hex digits of either case, and what follows them. -/
def hexRun (w : Nat) (t : Str) : Option (Nat × Str) :=
  if w ≤ t.length ∧ (t.take w).all (fun c => (48 ≤ c && c ≤ 57) || (65 ≤ c && c ≤ 70) || (97 ≤ c && c ≤ 102)) then
    some ((t.take w).foldl (fun a c => a * 16 + hexDigitValue c) 0, t.drop w)
  else none

/-- Up to `w` octal digits, continuing the number `a`, and what follows them. -/
def octRun : Nat → Nat → Str → Nat × Str
  | 0, a, t => (a, t)
  | _ + 1, a, [] => (a, [])
  | w + 1, a, c :: t => if 48 ≤ c ∧ c ≤ 55 then octRun w (a * 8 + (c - 48)) t else (a, c :: t)

/-- The characters an escape stands for: `x` follows the backslash, `r` follows `x`. -/
def escaped (bytes : Bool) (x : Nat) (r : Str) : Option (Str × Str) :=
  if x = 10 then some ([], r)                                   -- a continued line
  else if x = 92 ∨ x = 39 ∨ x = 34 then some ([x], r)
  else if x = 97 then some ([7], r)                             -- \a
  else if x = 98 then some ([8], r)                             -- \b
  else if x = 102 then some ([12], r)                           -- \f
  else if x = 110 then some ([10], r)                           -- \n
  else if x = 114 then some ([13], r)                           -- \r
  else if x = 116 then some ([9], r)                            -- \t
  else if x = 118 then some ([11], r)                           -- \v
  else if 48 ≤ x ∧ x ≤ 55 then
    some ([if bytes then (octRun 3 0 (x :: r)).1 % 256 else (octRun 3 0 (x :: r)).1], (octRun 3 0 (x :: r)).2)
  else if x = 120 then (hexRun 2 r).map fun p => ([p.1], p.2)   -- \xhh
  else if x = 117 ∧ bytes = false then (hexRun 4 r).map fun p => ([p.1], p.2)     -- \uhhhh
  else if x = 85 ∧ bytes = false then                           -- \Uhhhhhhhh
    (hexRun 8 r).bind fun p => if p.1 < 0x110000 then some ([p.1], p.2) else none
  else if x = 78 ∧ bytes = false then none                      -- \N{name} is not read
  else if bytes = true ∧ 128 ≤ x then none
  else some ([92, x], r)                                        -- not an escape

/-- The next characters of a literal, and what follows. -/
def litElem (bytes : Bool) : Str → Option (Str × Str)
  | [] => none
  | c :: r =>
    if c = 92 then
      match r with
      | [] => none
      | x :: r => escaped bytes x r
    else if c = 0 ∨ c = 10 ∨ c = 13 ∨ (bytes = true ∧ 128 ≤ c) then none
    else some ([c], r)

/-- The characters up to the closing quote `q`, and what follows it; the number is fuel. -/
def litBody (bytes : Bool) (q : Nat) : Nat → Str → Option (Str × Str)
  | 0, _ => none
  | n + 1, t =>
    match t with
    | [] => none
    | c :: r =>
      if c = q then some ([], r)
      else (litElem bytes (c :: r)).bind fun p => (litBody bytes q n p.2).map fun p' => (p.1 ++ p'.1, p'.2)

/-- After the optional prefix: a quote, but not three of them. -/
def quoted (bytes : Bool) : Str → Option (Str × Str)
  | [] => none
  | q :: t =>
    if (q = 39 ∨ q = 34) ∧ ¬ t.take 2 = [q, q] then litBody bytes q (t.length + 1) t else none

/-- One literal, and what follows it. -/
def readLiteral : Str → Option (PpVal × Str)
  | 98 :: t => (quoted true t).map fun p => (.bytes (p.1.map UInt8.ofNat), p.2)
  | t => (quoted false t).map fun p => (.str p.1, p.2)

/-- Literals with blanks and newlines between them; the number is fuel. -/
def readLiterals : Nat → Str → Option (List PpVal)
  | 0, _ => none
  | n + 1, t =>
    match t.dropWhile (fun c => c = 32 || c = 10) with
    | [] => some []
    | c :: r => (readLiteral (c :: r)).bind fun p => (readLiterals n p.2).map (p.1 :: ·)

/-- Adjacent literals of one kind are one literal. -/
def glueLiterals : List PpVal → Option PpVal
  | [] => none
  | [v] => some v
  | v :: t =>
    match v, glueLiterals t with
    | .str a, some (.str b) => some (.str (a ++ b))
    | .bytes a, some (.bytes b) => some (.bytes (a ++ b))
    | _, _ => none

/-- The value of a text in parentheses: `eval("(" + t + ")")`, for a text of literals. -/
def evalLiterals (t : Str) : Option PpVal := (readLiterals (t.length + 1) t).bind glueLiterals

/-- What the value of a dict given to `pp` amounts to: an encoded field is the bytes sent for it. -/
def PpVal.flat : PpVal → PpVal
  | .dict len data => .bytes (len.getD [] ++ data.getD [])
  | v => v

/-- The output consists of one group per key, in order: the key, its description, a colon, the text
`value k`, and a newline. -/
def LaidOut (spec : Spec) (descWidth : Int) (ks : List Str) (value : Str → Str) (out : Str) : Prop :=
  ∃ desc : Str → Str, (∀ k ∈ ks, DescText spec descWidth k (desc k)) ∧
    out = ks.flatMap fun k => padded 3 k ++ desc k ++ py": " ++ value k ++ [10]

/-! ## Lines -/

/-- The lines of a text; each ends with a newline, except perhaps the last. -/
def linesOf : Str → List Str
  | [] => []
  | c :: t =>
    if c = 10 then [] :: linesOf t
    else match linesOf t with
      | [] => [[c]]
      | l :: ls => (c :: l) :: ls

/-- A character a terminal shows as it is: printable ASCII, or what `str.isprintable` accepts. -/
def Printable (env : PyEnv) (c : Nat) : Prop := (32 ≤ c ∧ c ≤ 126) ∨ (127 < c ∧ env.isPrintableCp c = true)

/-- An object of another type has a `repr` of such characters (`True` of texts, bytes and encoded
entries, whatever they hold). -/
def PpVal.Tame (P : Nat → Prop) : PpVal → Prop
  | .other r => ∀ c ∈ r, P c
  | _ => True

/-- Descriptions, when they are shown, consist of such characters. -/
def TameDescs (spec : Spec) (dw : Int) (P : Nat → Prop) : Prop :=
  dw ≤ 0 ∨ ∀ k fs d, spec.get? k = some fs → fs.desc = some d → ∀ c ∈ d, P c

end Iso8583
