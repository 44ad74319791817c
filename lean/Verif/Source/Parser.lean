import Verif.Source.Lexer
import Verif.Source.Spellings
/-!
# From tokens to syntax

The part of the Python grammar the sources use (the Python language reference, chapters 6 to 8 and
10), by recursive descent; the first argument of the mutually recursive functions bounds the depth
of the recursion.  A text outside this part has no parse: chained comparisons, sets, lambdas,
starred arguments, blocks on the line of their `:`, `while`, `with`, `else` of a loop, `finally`,
nested functions, and everything else no rule below mentions.

Left out, as in `Code.lean`: doc strings, type annotations, and the `from None` of a `raise`.
-/

namespace Iso8583.Src

/-- The words that cannot be names. -/
def reserved : List Str :=
  [py"False", py"None", py"True", py"and", py"as", py"assert", py"async", py"await", py"break", py"class",
   py"continue", py"def", py"del", py"elif", py"else", py"except", py"finally", py"for", py"from", py"global",
   py"if", py"import", py"in", py"is", py"lambda", py"nonlocal", py"not", py"or", py"pass", py"raise",
   py"return", py"try", py"while", py"with", py"yield"]

/-- The identifier with the spelling `w`. -/
def lookupIdent (w : Str) : List (Str × Ident) → Option Ident
  | [] => none
  | (s, x) :: t => if same w s then some x else lookupIdent w t

/-- The identifier a word is. -/
def identOf (w : Str) : Option Ident :=
  if reserved.any (same w) then none else lookupIdent w spellings

/-- The words of a list of names, that all are identifiers. -/
def identsOf : List Str → Option (List Ident)
  | [] => some []
  | w :: ws =>
    match identOf w, identsOf ws with
    | some x, some xs => some (x :: xs)
    | _, _ => none

/-- The token is the word `w`. -/
def isWord (w : Str) : Tok → Bool
  | .name s => same s w
  | _ => false

/-- The token is the operator `o`. -/
def isOp (o : Str) : Tok → Bool
  | .op s => same s o
  | _ => false

/-- The next token is the word `w`; what follows it. -/
def word (w : Str) : List Tok → Option (List Tok)
  | t :: ts => if isWord w t then some ts else none
  | [] => none

/-- The next token is the operator `o`; what follows it. -/
def oper (o : Str) : List Tok → Option (List Tok)
  | t :: ts => if isOp o t then some ts else none
  | [] => none

/-- The next token ends the line; what follows it. -/
def eol : List Tok → Option (List Tok)
  | .newline :: ts => some ts
  | _ => none

/-! ## Operators -/

/-- The binary operators. -/
inductive Oper
  | arith (o : BinOp)
  | compare (o : CmpOp)
  | conj
  | disj

/-- How tightly an operator binds: `or` 1, `and` 2, `not` 3, comparisons 4, `|` 5, `&` 7, shifts 8,
`+` and `-` 9, `*`, `//` and `%` 10, unary minus 11. -/
def Oper.level : Oper → Nat
  | .disj => 1
  | .conj => 2
  | .compare _ => 4
  | .arith .bor => 5
  | .arith .band => 7
  | .arith .shl => 8
  | .arith .shr => 8
  | .arith .add => 9
  | .arith .sub => 9
  | .arith .mul => 10
  | .arith .floordiv => 10
  | .arith .mod => 10

/-- The expression an operator builds. -/
def Oper.build : Oper → Expr → Expr → Expr
  | .disj, a, b => .or a b
  | .conj, a, b => .and a b
  | .compare o, a, b => .cmp o a b
  | .arith o, a, b => .bin o a b

/-- Arithmetic operators as they are written. -/
def arithOps : List (Str × BinOp) :=
  [(py"+", .add), (py"-", .sub), (py"*", .mul), (py"//", .floordiv), (py"%", .mod), (py"<<", .shl),
   (py">>", .shr), (py"&", .band), (py"|", .bor)]

/-- Comparison operators as they are written. -/
def compareOps : List (Str × CmpOp) :=
  [(py"==", .eq), (py"!=", .ne), (py"<", .lt), (py"<=", .le), (py">", .gt), (py">=", .ge)]

/-- The entry for `w` in a table. -/
def entry {α : Type} (w : Str) : List (Str × α) → Option α
  | [] => none
  | (s, a) :: t => if same w s then some a else entry w t

/-- The binary operator the tokens begin with, and what follows it. -/
def binaryOf : List Tok → Option (Oper × List Tok)
  | .op o :: ts =>
    match entry o arithOps, entry o compareOps with
    | some b, _ => some (.arith b, ts)
    | none, some c => some (.compare c, ts)
    | none, none => none
  | .name w :: ts =>
    if same w py"and" then some (.conj, ts)
    else if same w py"or" then some (.disj, ts)
    else if same w py"in" then some (.compare .mem, ts)
    else if same w py"is" then
      match word py"not" ts with
      | some ts' => some (.compare .isNot, ts')
      | none => some (.compare .is, ts)
    else if same w py"not" then
      match word py"in" ts with
      | some ts' => some (.compare .notMem, ts')
      | none => none
    else none
  | _ => none

/-- The tokens begin with a comparison operator. -/
def comparesNext (ts : List Tok) : Bool :=
  match binaryOf ts with
  | some (.compare _, _) => true
  | _ => false

/-! ## Expressions -/

/-- Names separated by commas, up to the word `in`. -/
def loopNames : List Tok → Option (List Str × List Tok)
  | .name w :: .op o :: ts =>
    if same o py"," then
      match loopNames ts with
      | some (ws, r) => some (w :: ws, r)
      | none => none
    else none
  | .name w :: .name i :: ts => if same i py"in" then some ([w], ts) else none
  | _ => none

/-- String literals that follow a string literal belong to it. -/
def strRest : List Tok → Str × List Tok
  | .str s :: ts =>
    let (t, r) := strRest ts
    (s ++ t, r)
  | ts => ([], ts)

/-- The tokens begin with a string or bytes literal. -/
def litNext : List Tok → Bool
  | .str _ :: _ => true
  | .bytes _ :: _ => true
  | .fstr _ :: _ => true
  | .doc :: _ => true
  | _ => false

/-- A brace. -/
def isBrace (c : Nat) : Bool := Nat.beq c 123 || Nat.beq c 125

/-- A piece of text in an f-string, unless it is empty. -/
def textPiece (s : Str) : List Expr :=
  match s with
  | [] => []
  | _ => [.str s]

mutual
/-- An expression: `a if c else b`, or an operation. -/
def pExpr : Nat → List Tok → Option (Expr × List Tok)
  | 0, _ => none
  | n + 1, ts =>
    match pBinary n 1 ts with
    | none => none
    | some (a, r) =>
      match word py"if" r with
      | none => some (a, r)
      | some r =>
        match pBinary n 1 r with
        | none => none
        | some (c, r) =>
          match word py"else" r with
          | none => none
          | some r =>
            match pExpr n r with
            | none => none
            | some (b, r) => some (.ite c a b, r)

/-- Operations that bind at least as tightly as `p`. -/
def pBinary : Nat → Nat → List Tok → Option (Expr × List Tok)
  | 0, _, _ => none
  | n + 1, p, ts =>
    match pUnary n p ts with
    | none => none
    | some (a, r) => pOperators n p a r

/-- The operators, at least as tight as `p`, that follow the operand `a`. -/
def pOperators : Nat → Nat → Expr → List Tok → Option (Expr × List Tok)
  | 0, _, _, _ => none
  | n + 1, p, a, ts =>
    match binaryOf ts with
    | none => some (a, ts)
    | some (o, r) =>
      if Nat.ble p o.level then
        match pBinary n (o.level + 1) r with
        | none => none
        | some (b, r) =>
          if Nat.beq o.level 4 && comparesNext r then none else pOperators n p (o.build a b) r
      else some (a, ts)

/-- `not a`, `-a`, or an operand. -/
def pUnary : Nat → Nat → List Tok → Option (Expr × List Tok)
  | 0, _, _ => none
  | n + 1, p, ts =>
    match word py"not" ts with
    | some r =>
      if Nat.ble p 3 then
        match pBinary n 3 r with
        | some (a, r) => some (.not a, r)
        | none => none
      else none
    | none =>
      match oper py"-" ts with
      | some r =>
        match pUnary n 11 r with
        | some (a, r) => some (.neg a, r)
        | none => none
      | none =>
        match pAtom n ts with
        | some (a, r) => pTrailers n a r
        | none => none

/-- Names, literals, and what stands in brackets. -/
def pAtom : Nat → List Tok → Option (Expr × List Tok)
  | 0, _ => none
  | n + 1, ts =>
    match ts with
    | .num k :: r => some (.int k, r)
    | .str s :: r =>
      let (t, r) := strRest r
      if litNext r then none else some (.str (s ++ t), r)
    | .bytes b :: r => if litNext r then none else some (.bytes b, r)
    | .fstr s :: r =>
      if litNext r then none
      else
        match pPieces n s with
        | some ps => some (.fstr ps, r)
        | none => none
    | .name w :: r =>
      if same w py"None" then some (.none, r)
      else if same w py"True" then some (.bool true, r)
      else if same w py"False" then some (.bool false, r)
      else
        match identOf w with
        | some x => some (.name x, r)
        | none => none
    | .op o :: r =>
      if same o py"(" then
        match pItems n py")" r with
        | some ([e], false, r) => some (e, r)
        | some (es, _, r) => some (.tuple es, r)
        | none => none
      else if same o py"[" then
        match pExpr n r with
        | none =>
          match oper py"]" r with
          | some r => some (.list [], r)
          | none => none
        | some (e, r') =>
          match word py"for" r' with
          | some _ =>
            match pClauses n e r' with
            | some (c, r) =>
              match oper py"]" r with
              | some r => some (.comp c, r)
              | none => none
            | none => none
          | none =>
            match pItems n py"]" r with
            | some (es, _, r) => some (.list es, r)
            | none => none
      else if same o py"{" then
        match pPairs n r with
        | some (ks, vs, r) => some (.dict ks vs, r)
        | none => none
      else none
    | _ => none

/-- Expressions separated by commas up to the closing bracket, and whether a comma ends them. -/
def pItems : Nat → Str → List Tok → Option (List Expr × Bool × List Tok)
  | 0, _, _ => none
  | n + 1, close, ts =>
    match oper close ts with
    | some r => some ([], true, r)
    | none =>
      match pExpr n ts with
      | none => none
      | some (e, r) =>
        match oper close r with
        | some r => some ([e], false, r)
        | none =>
          match oper py"," r with
          | none => none
          | some r =>
            match pItems n close r with
            | some (es, b, r) => some (e :: es, b, r)
            | none => none

/-- The entries of a dict up to the closing brace. -/
def pPairs : Nat → List Tok → Option (List Expr × List Expr × List Tok)
  | 0, _ => none
  | n + 1, ts =>
    match oper py"}" ts with
    | some r => some ([], [], r)
    | none =>
      match pExpr n ts with
      | none => none
      | some (k, r) =>
        match oper py":" r with
        | none => none
        | some r =>
          match pExpr n r with
          | none => none
          | some (v, r) =>
            match oper py"}" r with
            | some r => some ([k], [v], r)
            | none =>
              match oper py"," r with
              | none => none
              | some r =>
                match pPairs n r with
                | some (ks, vs, r) => some (k :: ks, v :: vs, r)
                | none => none

/-- The arguments of a call up to the closing parenthesis: those by position, then those by name. -/
def pArgs : Nat → List Tok → Option (List Expr × List Ident × List Expr × List Tok)
  | 0, _ => none
  | n + 1, ts =>
    match oper py")" ts with
    | some r => some ([], [], [], r)
    | none =>
      match ts with
      | .name w :: .op o :: r =>
        if same o py"=" then
          match identOf w, pExpr n r with
          | some x, some (e, r) =>
            match oper py")" r with
            | some r => some ([], [x], [e], r)
            | none =>
              match oper py"," r with
              | none => none
              | some r =>
                match pArgs n r with
                | some ([], xs, es, r) => some ([], x :: xs, e :: es, r)
                | _ => none
          | _, _ => none
        else pArg n ts
      | _ => pArg n ts

/-- An argument by position and those after it. -/
def pArg : Nat → List Tok → Option (List Expr × List Ident × List Expr × List Tok)
  | 0, _ => none
  | n + 1, ts =>
    match pExpr n ts with
    | none => none
    | some (e, r) =>
      match oper py")" r with
      | some r => some ([e], [], [], r)
      | none =>
        match oper py"," r with
        | none => none
        | some r =>
          match pArgs n r with
          | some (as, xs, es, r) => some (e :: as, xs, es, r)
          | none => none

/-- What follows an operand: `.a`, `.m(…)`, `(…)`, `[…]`. -/
def pTrailers : Nat → Expr → List Tok → Option (Expr × List Tok)
  | 0, _, _ => none
  | n + 1, e, ts =>
    match ts with
    | .op o :: r =>
      if same o py"." then
        match r with
        | .name w :: r =>
          match identOf w with
          | none => none
          | some x =>
            match oper py"(" r with
            | none => pTrailers n (.attr e x) r
            | some r =>
              match pArgs n r with
              | some (as, xs, es, r) => pTrailers n (.meth e x as xs es) r
              | none => none
        | _ => none
      else if same o py"(" then
        match e, pArgs n r with
        | .name f, some (as, xs, es, r) => pTrailers n (.call f as xs es) r
        | _, _ => none
      else if same o py"[" then
        match oper py":" r with
        | some r =>
          match pBound n r with
          | some (hi, r) => pTrailers n (.slice e .none hi) r
          | none => none
        | none =>
          match pExpr n r with
          | none => none
          | some (k, r) =>
            match oper py":" r with
            | some r =>
              match pBound n r with
              | some (hi, r) => pTrailers n (.slice e k hi) r
              | none => none
            | none =>
              match oper py"]" r with
              | some r => pTrailers n (.sub e k) r
              | none => none
      else some (e, ts)
    | _ => some (e, ts)

/-- The upper bound of a slice and its closing bracket. -/
def pBound : Nat → List Tok → Option (Expr × List Tok)
  | 0, _ => none
  | n + 1, ts =>
    match oper py"]" ts with
    | some r => some (.none, r)
    | none =>
      match pExpr n ts with
      | none => none
      | some (e, r) =>
        match oper py"]" r with
        | some r => some (e, r)
        | none => none

/-- The clauses of a comprehension that collects `e`. -/
def pClauses : Nat → Expr → List Tok → Option (Comp × List Tok)
  | 0, _, _ => none
  | n + 1, e, ts =>
    match word py"for" ts with
    | some r =>
      match loopNames r with
      | none => none
      | some (ws, r) =>
        match identsOf ws, pBinary n 1 r with
        | some xs, some (it, r) =>
          match pClauses n e r with
          | some (c, r) => some (.loop xs it c, r)
          | none => none
        | _, _ => none
    | none =>
      match word py"if" ts with
      | some r =>
        match pBinary n 1 r with
        | none => none
        | some (c, r) =>
          match pClauses n e r with
          | some (b, r) => some (.when c b, r)
          | none => none
      | none => some (.yield e, ts)

/-- The pieces of an f-string. -/
def pPieces : Nat → Str → Option (List Expr)
  | 0, _ => none
  | n + 1, s =>
    let text := textPiece (s.takeWhile fun c => !(isBrace c))
    match s.dropWhile fun c => !(isBrace c) with
    | [] => some text
    | c :: r =>
      if Nat.beq c 123 then
        match r.dropWhile fun c => !(isBrace c) with
        | 125 :: r' =>
          match pExpr n (lexLine (r.takeWhile fun c => !(isBrace c))) with
          | some (e, []) =>
            match pPieces n r' with
            | some ps => some (text ++ e :: ps)
            | none => none
          | _ => none
        | _ => none
      else none
end

/-- Expressions separated by commas, with or without parentheses: more than one make a tuple. -/
def pExprList (n : Nat) (ts : List Tok) : Option (Expr × List Tok) :=
  match pExpr n ts with
  | none => none
  | some (e, r) =>
    match oper py"," r with
    | none => some (e, r)
    | some r =>
      let rec more : Nat → List Tok → Option (List Expr × List Tok)
        | 0, _ => none
        | k + 1, ts =>
          match pExpr n ts with
          | none => none
          | some (e, r) =>
            match oper py"," r with
            | none => some ([e], r)
            | some r =>
              match more k r with
              | some (es, r) => some (e :: es, r)
              | none => none
      match more n r with
      | some (es, r) => some (.tuple (e :: es), r)
      | none => none

/-! ## Statements -/

/-- Skip an annotation: up to `=`, `,`, `)` or `:` outside its brackets; `d` are open. -/
def skipAnnotation : Nat → List Tok → List Tok
  | _, [] => []
  | d, .newline :: ts => .newline :: (if Nat.beq d 0 then ts else [.bad])
  | d, .op o :: ts =>
    if same o py"[" || same o py"(" then skipAnnotation (d + 1) ts
    else if same o py"]" then
      match d with
      | 0 => .op o :: ts
      | d' + 1 => skipAnnotation d' ts
    else
      match d with
      | 0 => if same o py"=" || same o py"," || same o py")" || same o py":" then .op o :: ts else skipAnnotation 0 ts
      | d' + 1 => if same o py")" then skipAnnotation d' ts else skipAnnotation (d' + 1) ts
  | d, _ :: ts => skipAnnotation d ts

/-- An expression as the left side of an assignment. -/
def targetOf : Expr → Option Target
  | .name x => some (.name x)
  | .sub e k => some (.sub e k)
  | .attr e a => some (.attr e a)
  | _ => none

/-- The left sides of an assignment. -/
def targetsOf : List Expr → Option (List Target)
  | [] => some []
  | e :: es =>
    match targetOf e, targetsOf es with
    | some t, some ts => some (t :: ts)
    | _, _ => none

/-- Augmented assignments as they are written. -/
def augOps : List (Str × BinOp) :=
  [(py"+=", .add), (py"-=", .sub), (py"*=", .mul), (py"//=", .floordiv), (py"%=", .mod), (py"<<=", .shl),
   (py">>=", .shr), (py"&=", .band), (py"|=", .bor)]

/-- An assignment, or an expression by itself. -/
def pSimple (n : Nat) (ts : List Tok) : Option (Stmt × List Tok) :=
  match pExprList n ts with
  | none => none
  | some (e, r) =>
    match r with
    | .newline :: r => some (.expr e, r)
    | .op o :: r =>
      if same o py"=" then
        match pExprList n r with
        | none => none
        | some (v, r) =>
          match eol r, (match e with | .tuple [_] => none | .tuple es => targetsOf es | _ => targetsOf [e]) with
          | some r, some ts => some (.assign ts v, r)
          | _, _ => none
      else if same o py":" then
        match oper py"=" (skipAnnotation 0 r) with
        | none => none
        | some r =>
          match pExprList n r with
          | none => none
          | some (v, r) =>
            match eol r, targetOf e with
            | some r, some t => some (.assign [t] v, r)
            | _, _ => none
      else
        match entry o augOps with
        | none => none
        | some b =>
          match pExprList n r with
          | none => none
          | some (v, r) =>
            match eol r, targetOf e with
            | some r, some t => some (.aug t b v, r)
            | _, _ => none
    | _ => none

mutual
/-- A statement. -/
def pStmt : Nat → List Tok → Option (Stmt × List Tok)
  | 0, _ => none
  | n + 1, ts =>
    match ts with
    | .name w :: r =>
      if same w py"if" then pIf n r
      else if same w py"for" then
        match loopNames r with
        | none => none
        | some (ws, r) =>
          match identsOf ws, pExpr n r with
          | some xs, some (it, r) =>
            match pBlock n r with
            | some (b, r) => some (.loop xs it b, r)
            | none => none
          | _, _ => none
      else if same w py"try" then
        match pBlock n r with
        | none => none
        | some (b, r) =>
          match pHandlers n r with
          | some (h :: hs, r) => some (.attempt b (h :: hs), r)
          | _ => none
      else if same w py"raise" then
        match pExpr n r with
        | none => none
        | some (e, r) =>
          match (match word py"from" r with | some r => (word py"None" r).bind eol | none => eol r) with
          | some r => some (.raise e, r)
          | none => none
      else if same w py"return" then
        match eol r with
        | some r => some (.ret .none, r)
        | none =>
          match pExprList n r with
          | none => none
          | some (e, r) =>
            match eol r with
            | some r => some (.ret e, r)
            | none => none
      else if same w py"yield" then
        match pExpr n r with
        | none => none
        | some (e, r) =>
          match eol r with
          | some r => some (.yield e, r)
          | none => none
      else pSimple n ts
    | _ => pSimple n ts

/-- What follows `if` or `elif`. -/
def pIf : Nat → List Tok → Option (Stmt × List Tok)
  | 0, _ => none
  | n + 1, ts =>
    match pExpr n ts with
    | none => none
    | some (c, r) =>
      match pBlock n r with
      | none => none
      | some (a, r) =>
        match word py"elif" r with
        | some r =>
          match pIf n r with
          | some (b, r) => some (.ite c a [b], r)
          | none => none
        | none =>
          match word py"else" r with
          | some r =>
            match pBlock n r with
            | some (b, r) => some (.ite c a b, r)
            | none => none
          | none => some (.ite c a [], r)

/-- The `except` clauses. -/
def pHandlers : Nat → List Tok → Option (List Handler × List Tok)
  | 0, _ => none
  | n + 1, ts =>
    match word py"except" ts with
    | none => some ([], ts)
    | some (.name w :: r) =>
      match word py"as" r with
      | some (.name v :: r) =>
        match identOf w, identOf v, pBlock n r with
        | some c, some x, some (b, r) =>
          match pHandlers n r with
          | some (hs, r) => some (.mk c (some x) b :: hs, r)
          | none => none
        | _, _, _ => none
      | some _ => none
      | none =>
        match identOf w, pBlock n r with
        | some c, some (b, r) =>
          match pHandlers n r with
          | some (hs, r) => some (.mk c none b :: hs, r)
          | none => none
        | _, _ => none
    | some _ => none

/-- `:` and an indented block. -/
def pBlock : Nat → List Tok → Option (List Stmt × List Tok)
  | 0, _ => none
  | n + 1, ts =>
    match oper py":" ts with
    | some (.newline :: .indent :: r) => pStmts n r
    | _ => none

/-- Statements up to the end of the block; doc strings are left out. -/
def pStmts : Nat → List Tok → Option (List Stmt × List Tok)
  | 0, _ => none
  | n + 1, ts =>
    match ts with
    | .dedent :: r => some ([], r)
    | .doc :: .newline :: r => pStmts n r
    | _ =>
      match pStmt n ts with
      | none => none
      | some (s, r) =>
        match pStmts n r with
        | some (ss, r) => some (s :: ss, r)
        | none => none
end

/-! ## Functions, classes, files -/

/-- The names among targets. -/
def targetNames : List Target → List Ident
  | [] => []
  | .name x :: ts => x :: targetNames ts
  | _ :: ts => targetNames ts

mutual
/-- The names a statement assigns to. -/
def assigned : Stmt → List Ident
  | .assign ts _ => targetNames ts
  | .aug t _ _ => targetNames [t]
  | .expr _ => []
  | .ite _ a b => assignedAll a ++ assignedAll b
  | .loop xs _ b => xs ++ assignedAll b
  | .attempt b hs => assignedAll b ++ assignedBy hs
  | .raise _ => []
  | .ret _ => []
  | .yield _ => []

/-- The names statements assign to. -/
def assignedAll : List Stmt → List Ident
  | [] => []
  | s :: ss => assigned s ++ assignedAll ss

/-- The names `except` clauses assign to. -/
def assignedBy : List Handler → List Ident
  | [] => []
  | .mk _ x b :: hs => x.toList ++ assignedAll b ++ assignedBy hs
end

/-- Each name once, where it first stands, without those of `seen`. -/
def firsts (seen : List Ident) : List Ident → List Ident
  | [] => []
  | x :: xs => if x ∈ seen then firsts seen xs else x :: firsts (x :: seen) xs

mutual
/-- A statement yields. -/
def yields : Stmt → Bool
  | .yield _ => true
  | .ite _ a b => yieldsAny a || yieldsAny b
  | .loop _ _ b => yieldsAny b
  | .attempt b hs => yieldsAny b || yieldsIn hs
  | _ => false

/-- Some statement yields. -/
def yieldsAny : List Stmt → Bool
  | [] => false
  | s :: ss => yields s || yieldsAny ss

/-- Some `except` clause yields. -/
def yieldsIn : List Handler → Bool
  | [] => false
  | .mk _ _ b :: hs => yieldsAny b || yieldsIn hs
end

/-- The parameters of a function up to the closing parenthesis, and the defaults of the last ones. -/
def pParams : Nat → List Tok → Option (List Ident × List Expr × List Tok)
  | 0, _ => none
  | n + 1, ts =>
    match oper py")" ts with
    | some r => some ([], [], r)
    | none =>
      match ts with
      | .name w :: r =>
        match identOf w with
        | none => none
        | some x =>
          let r := match oper py":" r with | some r => skipAnnotation 0 r | none => r
          match oper py"=" r with
          | none =>
            match oper py")" r with
            | some r => some ([x], [], r)
            | none =>
              match oper py"," r with
              | none => none
              | some r =>
                match pParams n r with
                | some (xs, ds, r) => some (x :: xs, ds, r)
                | none => none
          | some r =>
            match pExpr n r with
            | none => none
            | some (d, r) =>
              match oper py")" r with
              | some r => some ([x], [d], r)
              | none =>
                match oper py"," r with
                | none => none
                | some r =>
                  match pParams n r with
                  | some (xs, ds, r) => if Nat.beq xs.length ds.length then some (x :: xs, d :: ds, r) else none
                  | none => none
      | _ => none

/-- What follows `def`. -/
def pDef (n : Nat) : List Tok → Option (Def × List Tok)
  | .name w :: ts =>
    match identOf w, oper py"(" ts with
    | some f, some r =>
      match pParams n r with
      | none => none
      | some (ps, ds, r) =>
        let r := match oper py"->" r with | some r => skipAnnotation 0 r | none => r
        match pBlock n r with
        | none => none
        | some (b, r) =>
          some ({ name := f, isClass := false, isGen := yieldsAny b, params := ps, defaults := ds,
                  locals := firsts ps (assignedAll b), body := b }, r)
    | _, _ => none
  | _ => none

/-- The methods of a class up to the end of its block; doc strings are left out. -/
def pMethods : Nat → List Tok → Option (List Def × List Tok)
  | 0, _ => none
  | n + 1, ts =>
    match ts with
    | .dedent :: r => some ([], r)
    | .doc :: .newline :: r => pMethods n r
    | _ =>
      match word py"def" ts with
      | none => none
      | some r =>
        match pDef n r with
        | none => none
        | some (d, r) =>
          match pMethods n r with
          | some (ds, r) => some (d :: ds, r)
          | none => none

/-- What a file consists of. -/
inductive Item
  /-- an import, with the tokens that follow its first word -/
  | imports (ts : List Tok)
  /-- an assignment to a name that no function refers to -/
  | unused (x : Str)
  | stmt (s : Stmt)
  | fn (d : Def)
  /-- `class c(b):` and its methods -/
  | cls (c b : Ident) (ms : List Def)

/-- The tokens up to the end of the line, and those after it. -/
def restOfLine : List Tok → List Tok × List Tok
  | [] => ([], [])
  | .newline :: ts => ([], ts)
  | t :: ts =>
    let (l, r) := restOfLine ts
    (t :: l, r)

/-- The next item of a file. -/
def pItem (n : Nat) : List Tok → Option (Item × List Tok)
  | .name w :: ts =>
    if same w py"import" || same w py"from" then
      let (l, r) := restOfLine ts
      some (.imports l, r)
    else if same w py"def" then
      match pDef n ts with
      | some (d, r) => some (.fn d, r)
      | none => none
    else if same w py"class" then
      match ts with
      | .name c :: .op o :: .name b :: .op p :: .op q :: .newline :: .indent :: r =>
        if same o py"(" && same p py")" && same q py":" then
          match identOf c, identOf b, pMethods n r with
          | some c, some b, some (ms, r) => some (.cls c b ms, r)
          | _, _, _ => none
        else none
      | _ => none
    else
      match identOf w, oper py"=" ts with
      | none, some r => if reserved.any (same w) then none else some (.unused w, (restOfLine r).2)
      | _, _ =>
        match pStmt n (.name w :: ts) with
        | some (s, r) => some (.stmt s, r)
        | none => none
  | _ => none

/-- The items of a file; doc strings are left out.  `n` bounds their number. -/
def pFile : Nat → List Tok → Option (List Item)
  | 0, _ => none
  | _ + 1, [] => some []
  | n + 1, .doc :: .newline :: ts => pFile n ts
  | n + 1, ts =>
    match pItem n ts with
    | none => none
    | some (i, r) =>
      match pFile n r with
      | some is => some (i :: is)
      | none => none

/-- The syntax of a file given by its lines. -/
def parse (ls : List Str) : Option (List Item) := pFile 2000 (tokens ls)

end Iso8583.Src
