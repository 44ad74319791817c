import Verif.Source.Parser
/-!
# Equality of syntax

`Expr`, `Stmt` and `Def` contain lists of themselves, for which Lean derives no decision of
equality.  These are tests of equality, and that a test that succeeds proves equality.
-/

namespace Iso8583.Src

mutual
/-- Equality of expressions. -/
def eqExpr : Expr → Expr → Bool
  | .name x, .name y => decide (x = y)
  | .none, .none => true
  | .bool a, .bool b => decide (a = b)
  | .int m, .int n => decide (m = n)
  | .str s, .str t => same s t
  | .bytes s, .bytes t => decide (s = t)
  | .fstr ps, .fstr qs => eqExprs ps qs
  | .attr e a, .attr f b => decide (a = b) && eqExpr e f
  | .sub e k, .sub f l => eqExpr e f && eqExpr k l
  | .slice e a b, .slice f c d => eqExpr e f && eqExpr a c && eqExpr b d
  | .bin o a b, .bin p c d => decide (o = p) && eqExpr a c && eqExpr b d
  | .cmp o a b, .cmp p c d => decide (o = p) && eqExpr a c && eqExpr b d
  | .and a b, .and c d => eqExpr a c && eqExpr b d
  | .or a b, .or c d => eqExpr a c && eqExpr b d
  | .not a, .not b => eqExpr a b
  | .neg a, .neg b => eqExpr a b
  | .ite c a b, .ite d e f => eqExpr c d && eqExpr a e && eqExpr b f
  | .call f as xs es, .call g bs ys fs => decide (f = g) && eqExprs as bs && decide (xs = ys) && eqExprs es fs
  | .meth e m as xs es, .meth f n bs ys fs =>
    eqExpr e f && decide (m = n) && eqExprs as bs && decide (xs = ys) && eqExprs es fs
  | .list as, .list bs => eqExprs as bs
  | .tuple as, .tuple bs => eqExprs as bs
  | .dict ks vs, .dict ls ws => eqExprs ks ls && eqExprs vs ws
  | .comp c, .comp d => eqComp c d
  | _, _ => false

/-- Equality of lists of expressions. -/
def eqExprs : List Expr → List Expr → Bool
  | [], [] => true
  | a :: as, b :: bs => eqExpr a b && eqExprs as bs
  | _, _ => false

/-- Equality of comprehensions. -/
def eqComp : Comp → Comp → Bool
  | .yield e, .yield f => eqExpr e f
  | .loop xs e c, .loop ys f d => decide (xs = ys) && eqExpr e f && eqComp c d
  | .when e c, .when f d => eqExpr e f && eqComp c d
  | _, _ => false
end

/-- Equality of targets. -/
def eqTarget : Target → Target → Bool
  | .name x, .name y => decide (x = y)
  | .sub e k, .sub f l => eqExpr e f && eqExpr k l
  | .attr e a, .attr f b => decide (a = b) && eqExpr e f
  | _, _ => false

/-- Equality of lists of targets. -/
def eqTargets : List Target → List Target → Bool
  | [], [] => true
  | a :: as, b :: bs => eqTarget a b && eqTargets as bs
  | _, _ => false

mutual
/-- Equality of statements. -/
def eqStmt : Stmt → Stmt → Bool
  | .assign ts e, .assign us f => eqTargets ts us && eqExpr e f
  | .aug t o e, .aug u p f => eqTarget t u && decide (o = p) && eqExpr e f
  | .expr e, .expr f => eqExpr e f
  | .ite c a b, .ite d e f => eqExpr c d && eqStmts a e && eqStmts b f
  | .loop xs e b, .loop ys f c => decide (xs = ys) && eqExpr e f && eqStmts b c
  | .attempt b hs, .attempt c is => eqStmts b c && eqHandlers hs is
  | .raise e, .raise f => eqExpr e f
  | .ret e, .ret f => eqExpr e f
  | .yield e, .yield f => eqExpr e f
  | _, _ => false

/-- Equality of lists of statements. -/
def eqStmts : List Stmt → List Stmt → Bool
  | [], [] => true
  | a :: as, b :: bs => eqStmt a b && eqStmts as bs
  | _, _ => false

/-- Equality of `except` clauses. -/
def eqHandlers : List Handler → List Handler → Bool
  | [], [] => true
  | .mk c x b :: hs, .mk d y e :: is => decide (c = d) && decide (x = y) && eqStmts b e && eqHandlers hs is
  | _, _ => false
end

/-- Equality of functions. -/
def eqDef (a b : Def) : Bool :=
  decide (a.name = b.name) && decide (a.isClass = b.isClass) && decide (a.isGen = b.isGen) &&
    decide (a.params = b.params) && eqExprs a.defaults b.defaults && decide (a.locals = b.locals) &&
    eqStmts a.body b.body

/-- Equality of lists of functions. -/
def eqDefs : List Def → List Def → Bool
  | [], [] => true
  | a :: as, b :: bs => eqDef a b && eqDefs as bs
  | _, _ => false

/-- Equality of the items of a file. -/
def eqItem : Item → Item → Bool
  | .imports s, .imports t => decide (s = t)
  | .unused x, .unused y => same x y
  | .stmt s, .stmt t => eqStmt s t
  | .fn d, .fn e => eqDef d e
  | .cls c b ms, .cls d e ns => decide (c = d) && decide (b = e) && eqDefs ms ns
  | _, _ => false

/-- Equality of lists of items. -/
def eqItems : List Item → List Item → Bool
  | [], [] => true
  | a :: as, b :: bs => eqItem a b && eqItems as bs
  | _, _ => false

theorem same_eq : ∀ {s t : Str}, same s t = true → s = t
  | [], [], _ => rfl
  | [], _ :: _, h => by simp [same] at h
  | _ :: _, [], h => by simp [same] at h
  | a :: as, b :: bs, h => by
    simp only [same, Bool.and_eq_true] at h
    rw [Nat.eq_of_beq_eq_true h.1, same_eq h.2]

mutual
theorem eqExpr_eq (a b : Expr) (h : eqExpr a b = true) : a = b := by
  cases a <;> cases b <;>
    simp only [eqExpr, Bool.and_eq_true, decide_eq_true_eq, reduceCtorEq, Bool.false_eq_true] at h ⊢
  case name.name => rw [h]
  case bool.bool => rw [h]
  case int.int => rw [h]
  case str.str => rw [same_eq h]
  case bytes.bytes => rw [h]
  case fstr.fstr => rw [eqExprs_eq _ _ h]
  case attr.attr => rw [h.1, eqExpr_eq _ _ h.2]
  case sub.sub => rw [eqExpr_eq _ _ h.1, eqExpr_eq _ _ h.2]
  case slice.slice => rw [eqExpr_eq _ _ h.1.1, eqExpr_eq _ _ h.1.2, eqExpr_eq _ _ h.2]
  case bin.bin => rw [h.1.1, eqExpr_eq _ _ h.1.2, eqExpr_eq _ _ h.2]
  case cmp.cmp => rw [h.1.1, eqExpr_eq _ _ h.1.2, eqExpr_eq _ _ h.2]
  case and.and => rw [eqExpr_eq _ _ h.1, eqExpr_eq _ _ h.2]
  case or.or => rw [eqExpr_eq _ _ h.1, eqExpr_eq _ _ h.2]
  case not.not => rw [eqExpr_eq _ _ h]
  case neg.neg => rw [eqExpr_eq _ _ h]
  case ite.ite => rw [eqExpr_eq _ _ h.1.1, eqExpr_eq _ _ h.1.2, eqExpr_eq _ _ h.2]
  case call.call => rw [h.1.1.1, eqExprs_eq _ _ h.1.1.2, h.1.2, eqExprs_eq _ _ h.2]
  case meth.meth => rw [eqExpr_eq _ _ h.1.1.1.1, h.1.1.1.2, eqExprs_eq _ _ h.1.1.2, h.1.2, eqExprs_eq _ _ h.2]
  case list.list => rw [eqExprs_eq _ _ h]
  case tuple.tuple => rw [eqExprs_eq _ _ h]
  case dict.dict => rw [eqExprs_eq _ _ h.1, eqExprs_eq _ _ h.2]
  case comp.comp => rw [eqComp_eq _ _ h]

theorem eqExprs_eq (a b : List Expr) (h : eqExprs a b = true) : a = b := by
  cases a <;> cases b <;> simp only [eqExprs, Bool.and_eq_true, reduceCtorEq, Bool.false_eq_true] at h ⊢
  case cons.cons => rw [eqExpr_eq _ _ h.1, eqExprs_eq _ _ h.2]

theorem eqComp_eq (a b : Comp) (h : eqComp a b = true) : a = b := by
  cases a <;> cases b <;>
    simp only [eqComp, Bool.and_eq_true, decide_eq_true_eq, reduceCtorEq, Bool.false_eq_true] at h ⊢
  case yield.yield => rw [eqExpr_eq _ _ h]
  case loop.loop => rw [h.1.1, eqExpr_eq _ _ h.1.2, eqComp_eq _ _ h.2]
  case when.when => rw [eqExpr_eq _ _ h.1, eqComp_eq _ _ h.2]
end

theorem eqTarget_eq (a b : Target) (h : eqTarget a b = true) : a = b := by
  cases a <;> cases b <;>
    simp only [eqTarget, Bool.and_eq_true, decide_eq_true_eq, reduceCtorEq, Bool.false_eq_true] at h ⊢
  case name.name => rw [h]
  case sub.sub => rw [eqExpr_eq _ _ h.1, eqExpr_eq _ _ h.2]
  case attr.attr => rw [h.1, eqExpr_eq _ _ h.2]

theorem eqTargets_eq : ∀ (a b : List Target), eqTargets a b = true → a = b
  | [], [], _ => rfl
  | [], _ :: _, h => by simp [eqTargets] at h
  | _ :: _, [], h => by simp [eqTargets] at h
  | x :: xs, y :: ys, h => by
    simp only [eqTargets, Bool.and_eq_true] at h
    rw [eqTarget_eq _ _ h.1, eqTargets_eq _ _ h.2]

mutual
theorem eqStmt_eq (a b : Stmt) (h : eqStmt a b = true) : a = b := by
  cases a <;> cases b <;>
    simp only [eqStmt, Bool.and_eq_true, decide_eq_true_eq, reduceCtorEq, Bool.false_eq_true] at h ⊢
  case assign.assign => rw [eqTargets_eq _ _ h.1, eqExpr_eq _ _ h.2]
  case aug.aug => rw [eqTarget_eq _ _ h.1.1, h.1.2, eqExpr_eq _ _ h.2]
  case expr.expr => rw [eqExpr_eq _ _ h]
  case ite.ite => rw [eqExpr_eq _ _ h.1.1, eqStmts_eq _ _ h.1.2, eqStmts_eq _ _ h.2]
  case loop.loop => rw [h.1.1, eqExpr_eq _ _ h.1.2, eqStmts_eq _ _ h.2]
  case attempt.attempt => rw [eqStmts_eq _ _ h.1, eqHandlers_eq _ _ h.2]
  case raise.raise => rw [eqExpr_eq _ _ h]
  case ret.ret => rw [eqExpr_eq _ _ h]
  case yield.yield => rw [eqExpr_eq _ _ h]

theorem eqStmts_eq (a b : List Stmt) (h : eqStmts a b = true) : a = b := by
  cases a <;> cases b <;> simp only [eqStmts, Bool.and_eq_true, reduceCtorEq, Bool.false_eq_true] at h ⊢
  case cons.cons => rw [eqStmt_eq _ _ h.1, eqStmts_eq _ _ h.2]

theorem eqHandlers_eq (a b : List Handler) (h : eqHandlers a b = true) : a = b := by
  rcases a with _ | ⟨⟨c, x, s⟩, hs⟩ <;> rcases b with _ | ⟨⟨d, y, t⟩, is⟩ <;>
    simp only [eqHandlers, Bool.and_eq_true, decide_eq_true_eq, reduceCtorEq, Bool.false_eq_true] at h ⊢
  case cons.cons => rw [h.1.1.1, h.1.1.2, eqStmts_eq _ _ h.1.2, eqHandlers_eq _ _ h.2]
end

theorem eqDef_eq (a b : Def) (h : eqDef a b = true) : a = b := by
  cases a; cases b
  simp only [eqDef, Bool.and_eq_true, decide_eq_true_eq] at h
  obtain ⟨⟨⟨⟨⟨⟨h1, h2⟩, h3⟩, h4⟩, h5⟩, h6⟩, h7⟩ := h
  rw [h1, h2, h3, h4, eqExprs_eq _ _ h5, h6, eqStmts_eq _ _ h7]

theorem eqDefs_eq : ∀ (a b : List Def), eqDefs a b = true → a = b
  | [], [], _ => rfl
  | [], _ :: _, h => by simp [eqDefs] at h
  | _ :: _, [], h => by simp [eqDefs] at h
  | x :: xs, y :: ys, h => by
    simp only [eqDefs, Bool.and_eq_true] at h
    rw [eqDef_eq _ _ h.1, eqDefs_eq _ _ h.2]

theorem eqItem_eq (a b : Item) (h : eqItem a b = true) : a = b := by
  cases a <;> cases b <;>
    simp only [eqItem, Bool.and_eq_true, decide_eq_true_eq, reduceCtorEq, Bool.false_eq_true] at h ⊢
  case imports.imports => rw [h]
  case unused.unused => rw [same_eq h]
  case stmt.stmt => rw [eqStmt_eq _ _ h]
  case fn.fn => rw [eqDef_eq _ _ h]
  case cls.cls => rw [h.1.1, h.1.2, eqDefs_eq _ _ h.2]

theorem eqItems_eq : ∀ (a b : List Item), eqItems a b = true → a = b
  | [], [], _ => rfl
  | [], _ :: _, h => by simp [eqItems] at h
  | _ :: _, [], h => by simp [eqItems] at h
  | x :: xs, y :: ys, h => by
    simp only [eqItems, Bool.and_eq_true] at h
    rw [eqItem_eq _ _ h.1, eqItems_eq _ _ h.2]

/-- A file parses to the given items. -/
def parsesTo (ls : List Str) (is : List Item) : Bool :=
  match parse ls with
  | some js => eqItems js is
  | none => false

theorem parsesTo_eq {ls : List Str} {is : List Item} (h : parsesTo ls is = true) : parse ls = some is := by
  unfold parsesTo at h
  rcases hp : parse ls with _ | js
  · rw [hp] at h; cases h
  · rw [hp] at h; rw [eqItems_eq _ _ h]

end Iso8583.Src
