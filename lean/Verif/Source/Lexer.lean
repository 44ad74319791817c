import Verif.Source.Syntax
/-!
# From text to tokens

The tokens of a Python file, read from its lines: names, numbers, strings, operators, and the
`newline`, `indent` and `dedent` tokens that stand for its layout (the Python language reference,
chapter 2).  What the sources do not use gives `bad`, which no rule of `Parser.lean` accepts:
tabs, line continuations, numbers that are not decimal integers, prefixes other than `r`, `b`, `f`,
escapes other than those of `unescape`, triple-quoted strings that are not doc strings.
-/

namespace Iso8583.Src

/-- Tokens. -/
inductive Tok
  | name (s : Str)
  | num (n : Nat)
  | str (s : Str)
  | bytes (b : Bytes)
  /-- an f-string, as it is between its quotes -/
  | fstr (s : Str)
  /-- a string in triple quotes -/
  | doc
  /-- a string in triple quotes that goes on in the next line -/
  | docOpen
  | op (s : Str)
  | newline
  | indent
  | dedent
  | bad
deriving DecidableEq, Repr

/-- Equality of texts. -/
def same : Str → Str → Bool
  | [], [] => true
  | a :: as, b :: bs => Nat.beq a b && same as bs
  | _, _ => false

/-- Letters and the underscore. -/
def isNameStart (c : Nat) : Bool :=
  (Nat.ble 97 c && Nat.ble c 122) || (Nat.ble 65 c && Nat.ble c 90) || Nat.beq c 95

/-- Decimal digits. -/
def isDigit (c : Nat) : Bool := Nat.ble 48 c && Nat.ble c 57

/-- What a name goes on with. -/
def isNameRest (c : Nat) : Bool := isNameStart c || isDigit c

/-- The number written by decimal digits. -/
def numeral (s : Str) : Nat := s.foldl (fun n c => 10 * n + (c - 48)) 0

/-- The value of a hexadecimal digit. -/
def hexDigitOf (c : Nat) : Option Nat :=
  if isDigit c then some (c - 48)
  else if Nat.ble 97 c && Nat.ble c 102 then some (c - 87)
  else if Nat.ble 65 c && Nat.ble c 70 then some (c - 55)
  else none

/-- What stands before the first quote `q` that no backslash precedes, and what follows it. -/
def quoted (q : Nat) : Str → Option (Str × Str)
  | [] => none
  | [c] => if Nat.beq c q then some ([], []) else none
  | c :: d :: cs =>
    if Nat.beq c q then some ([], d :: cs)
    else if Nat.beq c 92 then
      match quoted q cs with
      | some (s, r) => some (c :: d :: s, r)
      | none => none
    else
      match quoted q (d :: cs) with
      | some (s, r) => some (c :: s, r)
      | none => none

/-- What follows the first `"""` that no backslash precedes. -/
def afterTriple : Str → Option Str
  | a :: b :: c :: cs =>
    if Nat.beq a 92 then afterTriple (c :: cs)
    else if Nat.beq a 34 && Nat.beq b 34 && Nat.beq c 34 then some cs
    else afterTriple (b :: c :: cs)
  | _ => none

/-- The text a string literal stands for: the escapes `\n`, `\\`, `\'`, `\"` and `\xhh`. -/
def unescape : Str → Option Str
  | [] => some []
  | 92 :: 110 :: cs => (unescape cs).map (10 :: ·)
  | 92 :: 92 :: cs => (unescape cs).map (92 :: ·)
  | 92 :: 39 :: cs => (unescape cs).map (39 :: ·)
  | 92 :: 34 :: cs => (unescape cs).map (34 :: ·)
  | 92 :: 120 :: a :: b :: cs =>
    match hexDigitOf a, hexDigitOf b, unescape cs with
    | some x, some y, some s => some ((16 * x + y) :: s)
    | _, _, _ => none
  | 92 :: _ => none
  | c :: cs => (unescape cs).map (c :: ·)

/-- The bytes of a bytes literal. -/
def byteText (s : Str) : Bytes := s.map UInt8.ofNat

/-- The token of a string literal with the prefix `p`, written `s` between its quotes. -/
def strTok (p s : Str) : Tok :=
  if same p [] then
    match unescape s with
    | some t => .str t
    | none => .bad
  else if same p py"r" then .str s
  else if same p py"b" then
    if s.all (fun c => Nat.ble c 127) then
      match unescape s with
      | some t => .bytes (byteText t)
      | none => .bad
    else .bad
  else if same p py"f" then
    if s.any (fun c => Nat.beq c 92) then .bad else .fstr s
  else .bad

/-- The operators and delimiters of two characters. -/
def twoOps : List Str :=
  [py"->", py"==", py"!=", py"<=", py">=", py"<<", py">>", py"//", py"+=", py"-=", py"*=", py"%=",
   py"|=", py"&=", py"^=", py"/=", py"@=", py":=", py"**"]

/-- Those of three. -/
def threeOps : List Str := [py"<<=", py">>=", py"//=", py"**=", py"..."]

/-- Those of one. -/
def oneOps : List Nat := py"()[]{},:.;=<>+-*/%&|^~@"

/-- The operator a text begins with, the longest there is, and what follows it. -/
def opOf (cs : Str) : Option (Str × Str) :=
  if threeOps.any (same (cs.take 3)) then some (cs.take 3, cs.drop 3)
  else if twoOps.any (same (cs.take 2)) then some (cs.take 2, cs.drop 2)
  else if oneOps.any (fun c => same (cs.take 1) [c]) then some (cs.take 1, cs.drop 1)
  else none

/-- The tokens of a line, or of what is left of it; `n` bounds their number. -/
def lex : Nat → Str → List Tok
  | 0, _ => [.bad]
  | _ + 1, [] => []
  | n + 1, c :: cs =>
    if Nat.beq c 32 then lex n cs
    else if Nat.beq c 35 then []
    else if isNameStart c then
      let w := c :: cs.takeWhile isNameRest
      match cs.dropWhile isNameRest with
      | 34 :: 34 :: 34 :: r =>
        if same w py"r" then
          match afterTriple r with
          | some r' => .doc :: lex n r'
          | none => [.docOpen]
        else [.bad]
      | 34 :: r =>
        match quoted 34 r with
        | some (s, r') => strTok w s :: lex n r'
        | none => [.bad]
      | 39 :: _ => [.bad]
      | r => .name w :: lex n r
    else if isDigit c then
      match cs.dropWhile isDigit with
      | [] => [.num (numeral (c :: cs))]
      | d :: r =>
        if isNameStart d || Nat.beq d 46 then [.bad]
        else .num (numeral (c :: cs.takeWhile isDigit)) :: lex n (d :: r)
    else if Nat.beq c 34 then
      match cs with
      | 34 :: 34 :: r =>
        match afterTriple r with
        | some r' => .doc :: lex n r'
        | none => [.docOpen]
      | _ =>
        match quoted 34 cs with
        | some (s, r) => strTok [] s :: lex n r
        | none => [.bad]
    else if Nat.beq c 39 then
      match cs with
      | 39 :: 39 :: _ => [.bad]
      | _ =>
        match quoted 39 cs with
        | some (s, r) => strTok [] s :: lex n r
        | none => [.bad]
    else
      match opOf (c :: cs) with
      | some (o, r) => .op o :: lex n r
      | none => [.bad]

/-- The tokens of a line. -/
def lexLine (l : Str) : List Tok := lex (l.length + 1) l

/-- How many brackets are open after a line that began with `d` open ones, and whether it ended
in a doc string. -/
def openAfter : Nat → List Tok → Option (Nat × Bool)
  | d, [] => some (d, false)
  | d, [.docOpen] => some (d, true)
  | d, .op o :: ts =>
    if same o py"(" || same o py"[" || same o py"{" then openAfter (d + 1) ts
    else if same o py")" || same o py"]" || same o py"}" then
      match d with
      | 0 => none
      | d' + 1 => openAfter d' ts
    else openAfter d ts
  | d, _ :: ts => openAfter d ts

/-- The tokens for a line indented by `k` that is indented less than the one before, and the
indentations that are left; the innermost stands first. -/
def popTo (k : Nat) : List Nat → List Tok × List Nat
  | [] => ([.bad], [])
  | s :: ss =>
    if Nat.beq s k then ([], s :: ss)
    else if Nat.ble k s then
      let (ts, r) := popTo k ss
      (.dedent :: ts, r)
    else ([.bad], s :: ss)

/-- The tokens for the indentation of a line. -/
def reindent (k : Nat) : List Nat → List Tok × List Nat
  | [] => ([.bad], [])
  | s :: ss => if Nat.ble k s then popTo k (s :: ss) else ([.indent], k :: s :: ss)

/-- The tokens of the lines that follow, with `d` open brackets, inside a doc string or not, and
the indentations of the blocks that are open. -/
def layout : Nat → Bool → List Nat → List Str → List Tok
  | d, b, ks, [] => if b || !(Nat.beq d 0) then [.bad] else ks.dropLast.map fun _ => .dedent
  | d, true, ks, l :: ls =>
    match afterTriple l with
    | none => layout d true ks ls
    | some r =>
      match openAfter d (lexLine r) with
      | none => [.bad]
      | some (_, true) => [.bad]
      | some (0, false) => .doc :: lexLine r ++ .newline :: layout 0 false ks ls
      | some (d' + 1, false) => .doc :: lexLine r ++ layout (d' + 1) false ks ls
  | 0, false, ks, l :: ls =>
    match l.dropWhile (Nat.beq 32) with
    | [] => layout 0 false ks ls
    | 35 :: _ => layout 0 false ks ls
    | _ =>
      let (ts, ks') := reindent (l.takeWhile (Nat.beq 32)).length ks
      match openAfter 0 (lexLine l) with
      | none => [.bad]
      | some (d', true) => ts ++ (lexLine l).dropLast ++ layout d' true ks' ls
      | some (0, false) => ts ++ lexLine l ++ .newline :: layout 0 false ks' ls
      | some (d' + 1, false) => ts ++ lexLine l ++ layout (d' + 1) false ks' ls
  | d + 1, false, ks, l :: ls =>
    match openAfter (d + 1) (lexLine l) with
    | none => [.bad]
    | some (d', true) => (lexLine l).dropLast ++ layout d' true ks ls
    | some (0, false) => lexLine l ++ .newline :: layout 0 false ks ls
    | some (d' + 1, false) => lexLine l ++ layout (d' + 1) false ks ls

/-- The tokens of a file. -/
def tokens (ls : List Str) : List Tok := layout 0 false [0] ls

end Iso8583.Src
