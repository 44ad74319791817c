import Verif.Source.Names
import Verif.Model.Stream
/-!
# The part of Python the source is written in

Abstract syntax, as `ast.parse` gives it.  `tools/gen_source.py` prints the functions of
`/repo/iso8583` in this form (`Code.lean`); `Semantics.lean` says what it means.
-/

namespace Iso8583.Src

/-- Arithmetic operators. -/
inductive BinOp
  | add | sub | mul | floordiv | mod | shl | shr | band | bor
deriving DecidableEq, Repr

/-- Comparison operators. -/
inductive CmpOp
  | eq | ne | lt | le | gt | ge | mem | notMem | is | isNot
deriving DecidableEq, Repr

mutual
/-- Expressions. -/
inductive Expr
  | name (x : Ident)
  | none
  | bool (b : Bool)
  | int (n : Int)
  | str (s : Str)
  | bytes (b : Bytes)
  /-- an f-string: its literal pieces (as `str`) and `{…}` pieces in order -/
  | fstr (parts : List Expr)
  /-- `e.a` -/
  | attr (e : Expr) (a : Ident)
  /-- `e[k]` -/
  | sub (e k : Expr)
  /-- `e[lo:hi]`; an absent bound is `none` -/
  | slice (e lo hi : Expr)
  | bin (op : BinOp) (a b : Expr)
  | cmp (op : CmpOp) (a b : Expr)
  | and (a b : Expr)
  | or (a b : Expr)
  | not (a : Expr)
  | neg (a : Expr)
  /-- `a if c else b` -/
  | ite (c a b : Expr)
  /-- `f(args, kns[0]=kvs[0], …)` for a name `f` -/
  | call (f : Ident) (args : List Expr) (kns : List Ident) (kvs : List Expr)
  /-- `e.m(args, kns[0]=kvs[0], …)` -/
  | meth (e : Expr) (m : Ident) (args : List Expr) (kns : List Ident) (kvs : List Expr)
  | list (xs : List Expr)
  | tuple (xs : List Expr)
  | dict (ks vs : List Expr)
  /-- a list comprehension -/
  | comp (c : Comp)

/-- `[e for xs in it if c …]`, clauses outermost first. -/
inductive Comp
  | yield (e : Expr)
  | loop (xs : List Ident) (it : Expr) (body : Comp)
  | when (c : Expr) (body : Comp)
end

/-- What can stand on the left of `=`. -/
inductive Target
  | name (x : Ident)
  | sub (e k : Expr)
  | attr (e : Expr) (a : Ident)

mutual
/-- Statements. -/
inductive Stmt
  /-- `ts[0] = e`, or `ts[0], ts[1], … = e` -/
  | assign (ts : List Target) (e : Expr)
  /-- `t op= e` -/
  | aug (t : Target) (op : BinOp) (e : Expr)
  | expr (e : Expr)
  | ite (c : Expr) (a b : List Stmt)
  | loop (xs : List Ident) (it : Expr) (body : List Stmt)
  | attempt (body : List Stmt) (handlers : List Handler)
  | raise (e : Expr)
  | ret (e : Expr)
  | yield (e : Expr)

/-- `except cls as x: body`. -/
inductive Handler
  | mk (cls : Ident) (x : Option Ident) (body : List Stmt)
end

/-- A function, or the `__init__` of a class. -/
structure Def where
  name     : Ident
  isClass  : Bool
  isGen    : Bool
  params   : List Ident
  defaults : List Expr
  /-- the variables assigned in the body -/
  locals   : List Ident
  body     : List Stmt

end Iso8583.Src
