import Verif.Source.FreezeOps
/-!
# Objects nobody changes may be taken for values: programs

Part of the argument of `Freeze.lean`: expressions, statements, functions and whole programs.
-/

namespace Iso8583.Src

variable {ε σ : Type} {K : Nat → Option Val} {h₀ : List Obj} {rt : Rt ε σ} {call call' : Caller ε σ}

/-- Callers that agree. -/
def AgreeC (K : Nat → Option Val) (h₀ : List Obj) (call call' : Caller ε σ) : Prop := ∀ f args kws,
  Agree K h₀ (fz K) (call f args kws) (call' f (fzs K args) (fzKws K kws))

theorem getVar_agree (x : Ident) : Agree K h₀ (fz K) (getVar rt x) (getVar (fzRt K rt) x) := by
  intro st hs
  simp only [getVar, fzSt, fzVars, fzRt]
  cases st.vars x with
  | some v => exact .inr ⟨rfl, hs⟩
  | none =>
    by_cases h : x ∈ st.locals
    · simp only [Option.map_none, h, if_true]
      exact .inr ⟨rfl, hs⟩
    · simp only [Option.map_none, h, if_false]
      cases rt.globals x with
      | some v => exact .inr ⟨rfl, hs⟩
      | none =>
        simp only [Option.map_none]
        split
        · exact .inr ⟨rfl, hs⟩
        · exact .inl rfl

theorem withName_agree {α : Type} {f : α → α} (x : Option Ident) (v : Val) {m m' : M ε σ α} (h : Agree K h₀ f m m') :
    Agree K h₀ f (withName x v m) (withName x (fz K v) m') := by
  rcases x with _ | x
  · exact h
  intro st hs
  simp only [withName]
  have hv : { fzSt K st with vars := (fzSt K st).vars.set x (fz K v) } = fzSt K { st with vars := st.vars.set x v } := by
    simp only [fzSt]
    congr 1
    funext y
    simp only [fzVars, Vars.set]
    split <;> rfl
  rw [hv]
  rcases h { st with vars := st.vars.set x v } hs with h1 | ⟨h1, h2⟩
  · left; exact h1
  · right
    rw [h1]
    refine ⟨?_, h2⟩
    simp only [fzSt, Prod.mk.injEq, true_and]
    congr 1
    funext y
    simp only [fzVars]
    split <;> rfl

theorem inScope_agree {α : Type} {f : α → α} {m m' : M ε σ α} (h : Agree K h₀ f m m') : Agree K h₀ f (inScope m) (inScope m') := by
  intro st hs
  simp only [inScope]
  rcases h st hs with h1 | ⟨h1, h2⟩
  · left; exact h1
  · right
    rw [h1]
    exact ⟨rfl, h2⟩

theorem ite_agree {α : Type} {f : α → α} {b : Bool} {m n m' n' : M ε σ α} (h1 : Agree K h₀ f m m') (h2 : Agree K h₀ f n n') :
    Agree K h₀ f (if b then m else n) (if b then m' else n') := by
  cases b
  · exact h2
  · exact h1

/-- Pairs of keyword names and values. -/
theorem zip_fz (ks : List Ident) (vs : List Val) : ks.zip (fzs K vs) = fzKws K (ks.zip vs) := by
  induction ks generalizing vs with
  | nil => rfl
  | cons a t ih =>
    cases vs with
    | nil => rfl
    | cons v u => simp only [fzs, List.zip_cons_cons, ih]; rfl

section
variable (hK : Frozen K h₀ h₀)
include hK

theorem bindNames_agree (xs : List Ident) (v : Val) : Agree K h₀ id (bindNames xs v : M ε σ Unit) (bindNames xs (fz K v)) := by
  generalize hv : fz K v = v'
  generalize hm : (bindNames xs v : M ε σ Unit) = c
  unfold bindNames
  split
  · subst hv hm; exact agree_setVar _ _
  · obtain ⟨ys, rfl, h⟩ := fz_tuple hK hv
    obtain ⟨a, b, rfl, rfl, rfl⟩ := fzs_two h.symm
    subst hm
    exact agree_bind (agree_setVar _ _) fun _ => agree_setVar _ _
  · exact agree_stuck _

theorem gather_agree {body body' : M ε σ (List Val)} (h : Agree K h₀ (fzs K) body body') (xs : List Ident) : ∀ vs : List Val,
    Agree K h₀ (fzs K) (gather body xs vs) (gather body' xs (fzs K vs))
  | [] => agree_pure rfl
  | v :: t => agree_bind (bindNames_agree hK xs v) fun _ => agree_bind h fun a => agree_bind (gather_agree h xs t) fun b =>
    agree_pure (by simp only [fzs_map, List.map_append])

/-- A dict display. -/
theorem display_fz (d : List (Val × Val)) : ∀ items : List (Val × Val), (fzItems K items).foldl (fun d p => insert d p.1 p.2) (fzItems K d) =
    fzItems K (items.foldl (fun d p => insert d p.1 p.2) d) := by
  intro items
  induction items generalizing d with
  | nil => rfl
  | cons p t ih => obtain ⟨k, v⟩ := p; simp only [fzItems, fzPair, List.foldl_cons, insert_fz hK]; exact ih _

theorem plainKeys_fz : ∀ items : List (Val × Val), ((fzItems K items).all fun p => p.1.plain) = items.all fun p => p.1.plain
  | [] => rfl
  | (k, v) :: t => by simp only [fzItems, fzPair, List.all_cons, plain_fz hK, plainKeys_fz t]

omit hK in
/-- Computations that agree one by one. -/
def AgreeE (K : Nat → Option Val) (h₀ : List Obj) : List (M ε σ Val) → List (M ε σ Val) → Prop
  | [], [] => True
  | m :: t, m' :: t' => Agree K h₀ (fz K) m m' ∧ AgreeE K h₀ t t'
  | _, _ => False

omit hK in
theorem inPairs_agree : ∀ {ks vs ks' vs' : List (M ε σ Val)}, AgreeE K h₀ ks ks' → AgreeE K h₀ vs vs' →
    Agree K h₀ (fzItems K) (inPairs ks vs) (inPairs ks' vs')
  | [], _, [], _, _, _ => agree_pure rfl
  | _ :: _, [], _ :: _, [], _, _ => agree_pure rfl
  | _ :: _, _ :: _, _ :: _, _ :: _, h, h' => agree_bind h.1 fun _ => agree_bind h'.1 fun _ => agree_bind (inPairs_agree h.2 h'.2) fun _ =>
    agree_pure rfl

variable (hc : AgreeC K h₀ call call')
include hc

set_option linter.unusedSectionVars false in
mutual
theorem eval_agree : ∀ e : Expr, Agree K h₀ (fz K) (eval rt call e) (eval (fzRt K rt) call' e)
  | .name x => getVar_agree x
  | .none => agree_pure rfl
  | .bool _ => agree_pure rfl
  | .int _ => agree_pure rfl
  | .str _ => agree_pure rfl
  | .bytes _ => agree_pure rfl
  | .fstr parts => agree_bind (evalTexts_agree parts) fun _ => agree_pure rfl
  | .attr e a => agree_bind (eval_agree e) fun v => attrVal_agree hK v a
  | .sub e k => agree_bind (eval_agree e) fun v => agree_bind (eval_agree k) fun w => subVal_agree hK v w
  | .slice e lo hi => agree_bind (eval_agree e) fun v => agree_bind (eval_agree lo) fun w => agree_bind (eval_agree hi) fun u => sliceVal_agree hK v w u
  | .bin op a b => agree_bind (eval_agree a) fun v => agree_bind (eval_agree b) fun w => binop_agree hK op v w
  | .cmp op a b => agree_bind (eval_agree a) fun v => agree_bind (eval_agree b) fun w => agree_bind (cmpop_agree hK op v w) fun _ => agree_pure rfl
  | .and a b => agree_bind (eval_agree a) fun v => agree_bind (truth_agree hK v) fun _ => ite_agree (eval_agree b) (agree_pure rfl)
  | .or a b => agree_bind (eval_agree a) fun v => agree_bind (truth_agree hK v) fun _ => ite_agree (agree_pure rfl) (eval_agree b)
  | .not a => agree_bind (eval_agree a) fun v => agree_bind (truth_agree hK v) fun _ => agree_pure rfl
  | .neg a => agree_bind (eval_agree a) fun v => by
    generalize hv : fz K v = v'
    cases v' with
    | int n => cases fz_int hK hv; exact agree_pure rfl
    | _ => exact agree_stuck _
  | .ite c a b => agree_bind (eval_agree c) fun v => agree_bind (truth_agree hK v) fun _ => ite_agree (eval_agree a) (eval_agree b)
  | .call f args kns kvs => by
    have h : ∀ g, Agree K h₀ (fz K)
        (do let vs ← evals rt call args; let ks ← evals rt call kvs; call g vs (kns.zip ks) : M ε σ Val)
        (do let vs ← evals (fzRt K rt) call' args; let ks ← evals (fzRt K rt) call' kvs; call' g vs (kns.zip ks)) := fun g =>
      agree_bind (evals_agree args) fun vs => agree_bind (evals_agree kvs) fun ks => by rw [zip_fz]; exact hc g vs _
    intro st hs
    simp only [eval]
    rw [show (fzSt K st).vars f = (st.vars f).map (fz K) from rfl]
    generalize st.vars f = o
    cases o with
    | none => exact h f st hs
    | some v =>
      simp only [Option.map_some]
      generalize hv : fz K v = v'
      cases v' with
      | glob g => cases fz_glob hK hv; exact h g st hs
      | _ => exact .inl rfl
  | .meth e m args kns kvs => agree_bind (eval_agree e) fun v => agree_bind (findMethod_agree hK v m) fun _ => agree_bind (guarded_agree hK v m (evals_agree args)) fun vs => agree_bind (guarded_agree hK v m (evals_agree kvs)) fun ks => by
    rw [zip_fz]; exact method_agree hK v m vs _
  | .list xs => agree_bind (evals_agree xs) fun _ => agree_pure rfl
  | .tuple xs => agree_bind (evals_agree xs) fun _ => agree_pure rfl
  | .dict ks vs => agree_bind (inPairs_agree (evalEach_agree ks) (evalEach_agree vs)) fun items => by
    rw [show ([] : List (Val × Val)) = fzItems K [] from rfl, display_fz hK, plainKeys_fz hK]
    exact ite_agree (agree_alloc _) (agree_stuck _)
  | .comp c => inScope_agree (agree_bind (evalComp_agree c) fun _ => agree_pure rfl)

theorem evals_agree : ∀ es : List Expr, Agree K h₀ (fzs K) (evals rt call es) (evals (fzRt K rt) call' es)
  | [] => agree_pure rfl
  | e :: t => agree_bind (eval_agree e) fun _ => agree_bind (evals_agree t) fun _ => agree_pure rfl

theorem evalEach_agree : ∀ es : List Expr, AgreeE K h₀ (evalEach rt call es) (evalEach (fzRt K rt) call' es)
  | [] => trivial
  | e :: t => ⟨eval_agree e, evalEach_agree t⟩

theorem evalTexts_agree : ∀ es : List Expr, Agree K h₀ id (evalTexts rt call es) (evalTexts (fzRt K rt) call' es)
  | [] => agree_pure rfl
  | e :: t => agree_bind (eval_agree e) fun v => agree_bind (textOf_agree hK v) fun _ => agree_bind (evalTexts_agree t) fun _ => agree_pure rfl

theorem evalComp_agree : ∀ c : Comp, Agree K h₀ (fzs K) (evalComp rt call c) (evalComp (fzRt K rt) call' c)
  | .yield e => agree_bind (eval_agree e) fun _ => agree_pure rfl
  | .loop xs it body => agree_bind (eval_agree it) fun v => agree_bind (elements_agree hK v) fun vs => gather_agree hK (evalComp_agree body) xs vs
  | .when c body => agree_bind (eval_agree c) fun v => agree_bind (truth_agree hK v) fun _ => ite_agree (evalComp_agree body) (agree_pure rfl)
end

theorem assignTo_agree (v : Val) : ∀ t : Target, Agree K h₀ id (assignTo rt call v t) (assignTo (fzRt K rt) call' (fz K v) t)
  | .name x => agree_setVar x v
  | .sub e k => agree_bind (eval_agree hK hc e) fun b => agree_bind (eval_agree hK hc k) fun k => subSet_agree hK b k v
  | .attr e a => agree_bind (eval_agree hK hc e) fun b => attrStore_agree hK b a v

theorem assignAll_agree : ∀ (ts : List Target) (vs : List Val), Agree K h₀ id (assignAll rt call ts vs) (assignAll (fzRt K rt) call' ts (fzs K vs))
  | [], [] => agree_pure rfl
  | t :: ts, v :: vs => agree_bind (assignTo_agree hK hc v t) fun _ => assignAll_agree ts vs
  | [], _ :: _ => agree_stuck _
  | _ :: _, [] => agree_stuck _

end

/-- In the value a function returns. -/
def fzFlow (K : Nat → Option Val) : Flow → Flow
  | .next => .next
  | .ret v => .ret (fz K v)

section
variable (hK : Frozen K h₀ h₀)
include hK

theorem iterate_agree {body body' : M ε σ Flow} (h : Agree K h₀ (fzFlow K) body body') (xs : List Ident) : ∀ vs : List Val,
    Agree K h₀ (fzFlow K) (iterate body xs vs) (iterate body' xs (fzs K vs))
  | [] => agree_pure rfl
  | v :: t => agree_bind (bindNames_agree hK xs v) fun _ => agree_bind h fun a => by
    cases a with
    | next => exact iterate_agree h xs t
    | ret v => exact agree_pure rfl

theorem raiseVal_agree {α : Type} {f : α → α} (v : Val) : Agree K h₀ f (raiseVal v : M ε σ α) (raiseVal (fz K v)) := by
  cases v with
  | exn c a => exact agree_raise rfl
  | ref l =>
    refine ref_cases hK (P := fun v => Agree K h₀ f (raiseVal (.ref l) : M ε σ α) (raiseVal v)) l (fun hl => ?_) (fun _ _ _ => agree_stuck _) fun _ _ _ => agree_stuck _
    refine agree_bind (agree_deref hl) fun o => ?_
    cases o with
    | inst c args attrs => exact agree_raise (by simp [fzExc, hl])
    | _ => exact agree_stuck _
  | _ => exact agree_stuck _

omit hK in
/-- A frozen exception is caught like the exception, unless it is no exception at all. -/
theorem fzExc_cases (e : Exc ε) : fzExc K e = .stuck ∨ ((∀ c, (fzExc K e).caughtBy c = e.caughtBy c) ∧ (fzExc K e).val = fz K e.val) := by
  cases e with
  | inst c l =>
    cases hl : K l with
    | none => right; exact ⟨fun _ => by simp [fzExc, hl, Exc.caughtBy], by simp [fzExc, hl, Exc.val, fz]⟩
    | some v => left; simp [fzExc, hl]
  | stuck => exact .inl rfl
  | _ => exact .inr ⟨fun _ => rfl, rfl⟩

omit hK in
/-- Nothing catches a computation that is stuck. -/
theorem handle_stuck (st : St σ) : ∀ hs : List Handler, (handle rt call .stuck hs st).1 = .error .stuck
  | [] => by rw [handle]; rfl
  | .mk cls x body :: t => by rw [handle]; exact handle_stuck st t

variable (hc : AgreeC K h₀ call call')
include hc

set_option linter.unusedSectionVars false in
mutual
theorem exec_agree : ∀ s : Stmt, Agree K h₀ (fzFlow K) (exec rt call s) (exec (fzRt K rt) call' s)
  | .assign ts e => by
    rw [exec, exec]
    refine agree_bind (eval_agree hK hc e) fun v => ?_
    have h : ∀ ts, Agree K h₀ (fzFlow K) (match v with | .tuple vs => (do assignAll rt call ts vs; pure .next) | _ => (do stuck; pure .next) : M ε σ Flow)
        (match fz K v with | .tuple vs => (do assignAll (fzRt K rt) call' ts vs; pure .next) | _ => (do stuck; pure .next)) := by
      intro ts
      generalize hv : fz K v = v'
      cases v' with
      | tuple vs =>
        obtain ⟨ys, rfl, rfl⟩ := fz_tuple hK hv
        exact agree_bind (assignAll_agree hK hc ts ys) fun _ => agree_pure rfl
      | _ => exact fun _ _ => .inl rfl
    cases ts with
    | nil =>
      refine cast (congr (congrArg _ ?_) ?_) (h [])
      · cases v <;> rfl
      · cases fz K v <;> rfl
    | cons t u =>
      cases u with
      | nil => exact agree_bind (assignTo_agree hK hc v t) fun _ => agree_pure rfl
      | cons t' u =>
        refine cast (congr (congrArg _ ?_) ?_) (h (t :: t' :: u))
        · cases v <;> rfl
        · cases fz K v <;> rfl
  | .aug t op e => by
    cases t with
    | name x =>
      rw [exec, exec]
      exact agree_bind (getVar_agree x) fun a => agree_bind (eval_agree hK hc e) fun b => agree_bind (augop_agree hK op a b) fun v =>
        agree_bind (agree_setVar x v) fun _ => agree_pure rfl
    | sub c k =>
      rw [exec, exec]
      exact agree_bind (eval_agree hK hc c) fun c => agree_bind (eval_agree hK hc k) fun k => agree_bind (subVal_agree hK c k) fun a =>
        agree_bind (eval_agree hK hc e) fun b => agree_bind (augop_agree hK op a b) fun v => agree_bind (subSet_agree hK c k v) fun _ => agree_pure rfl
    | attr a b => rw [exec, exec]; exact fun _ _ => .inl rfl
  | .expr e => by rw [exec, exec]; exact agree_bind (eval_agree hK hc e) fun _ => agree_pure rfl
  | .ite c a b => by
    rw [exec, exec]
    exact agree_bind (eval_agree hK hc c) fun v => agree_bind (truth_agree hK v) fun _ => ite_agree (execs_agree a) (execs_agree b)
  | .loop xs it body => by
    rw [exec, exec]
    exact agree_bind (eval_agree hK hc it) fun v => agree_bind (elements_agree hK v) fun vs => iterate_agree hK (execs_agree body) xs vs
  | .attempt body hs => by
    intro st hst
    simp only [exec]
    rcases execs_agree body st hst with h | ⟨h, h'⟩
    · left
      rcases hm : execs (fzRt K rt) call' body (fzSt K st) with ⟨r, st'⟩
      rw [hm] at h; simp only at h; subst h
      exact handle_stuck st' hs
    · rcases hm : execs rt call body st with ⟨r, st'⟩
      rw [hm] at h h'
      rw [h]
      cases r with
      | ok r => exact .inr ⟨rfl, h'⟩
      | error e => exact handle_agree e hs st' h'
  | .raise e => by rw [exec, exec]; exact agree_bind (eval_agree hK hc e) fun v => raiseVal_agree hK v
  | .ret e => by rw [exec, exec]; exact agree_bind (eval_agree hK hc e) fun _ => agree_pure rfl
  | .yield e => by
    rw [exec, exec]
    refine agree_bind (eval_agree hK hc e) fun v => agree_bind (f := id) ?_ fun _ => agree_pure rfl
    intro st hs
    refine .inr ⟨?_, hs⟩
    simp [PyM.run_modify, fzSt, fzs_map, Except.map, Except.mapError]

theorem execs_agree : ∀ ss : List Stmt, Agree K h₀ (fzFlow K) (execs rt call ss) (execs (fzRt K rt) call' ss)
  | [] => by rw [execs, execs]; exact agree_pure rfl
  | s :: t => by
    rw [execs, execs]
    refine agree_bind (exec_agree s) fun r => ?_
    cases r with
    | next => exact execs_agree t
    | ret v => exact agree_pure rfl

theorem handle_agree (e : Exc ε) : ∀ hs : List Handler, Agree K h₀ (fzFlow K) (handle rt call e hs) (handle (fzRt K rt) call' (fzExc K e) hs)
  | [] => by rw [handle, handle]; exact agree_raise rfl
  | .mk cls x body :: t => by
    rcases fzExc_cases (K := K) e with h | ⟨h1, h2⟩
    · rw [h]; intro st _; exact .inl (handle_stuck _ _)
    · rw [handle, handle, h1]
      rw [h2]
      exact ite_agree (withName_agree x _ (execs_agree body)) (handle_agree e t)
end

omit hK hc in
theorem bindParams_fz (ps : List Ident) (vs ds : List Val) : bindParams ps (fzs K vs) (fzs K ds) = (bindParams ps vs ds).map (fzVars K) := by
  have hf : ∀ (ps : List Ident) (vs : List Val) (e : Vars), (ps.zip (fzs K vs)).foldl (fun e p => e.set p.1 p.2) (fzVars K e) =
      fzVars K ((ps.zip vs).foldl (fun e p => e.set p.1 p.2) e) := by
    intro ps
    induction ps with
    | nil => intro vs e; rfl
    | cons a t ih =>
      intro vs e
      cases vs with
      | nil => rfl
      | cons v u =>
        simp only [fzs, List.zip_cons_cons, List.foldl_cons]
        rw [← ih]
        congr 1
        funext y
        simp only [fzVars, Vars.set]
        split <;> rfl
  have hl : (fzs K vs ++ (fzs K ds).drop ((fzs K ds).length - (ps.length - (fzs K vs).length))) =
      fzs K (vs ++ ds.drop (ds.length - (ps.length - vs.length))) := by
    simp only [fzs_map, List.length_map, List.map_append, List.map_drop]
  simp only [bindParams, hl]
  rw [show (fzs K (vs ++ ds.drop (ds.length - (ps.length - vs.length)))).length = (vs ++ ds.drop (ds.length - (ps.length - vs.length))).length by simp [fzs_map]]
  split
  · simp only [Option.map_some, Option.some.injEq]
    exact hf ps _ fun _ => none
  · rfl

theorem runBody_agree (d : Def) (vs : Vars) : Agree K h₀ (fz K) (runBody rt call d vs) (runBody (fzRt K rt) call' d (fzVars K vs)) := by
  intro st hs
  simp only [runBody]
  rcases execs_agree hK hc d.body { st with vars := vs, locals := d.locals, ys := [] } hs with h | ⟨h, h'⟩
  · left
    rw [show ({ fzSt K st with vars := fzVars K vs, locals := d.locals, ys := [] } : St σ) = fzSt K { st with vars := vs, locals := d.locals, ys := [] } from rfl]
    rcases hm : execs (fzRt K rt) call' d.body (fzSt K { st with vars := vs, locals := d.locals, ys := [] }) with ⟨r, st'⟩
    rw [hm] at h; simp only at h; subst h; rfl
  · rw [show ({ fzSt K st with vars := fzVars K vs, locals := d.locals, ys := [] } : St σ) = fzSt K { st with vars := vs, locals := d.locals, ys := [] } from rfl, h]
    rcases hm : execs rt call d.body { st with vars := vs, locals := d.locals, ys := [] } with ⟨r, st'⟩
    rw [hm] at h'
    cases r with
    | error e => exact .inr ⟨rfl, h'⟩
    | ok f =>
      refine .inr ⟨?_, h'⟩
      cases f <;> cases d.isGen <;> rfl

omit hK hc in
theorem fillParams_fz (kws : List (Ident × Val)) : ∀ ps : List (Ident × Option Val),
    fillParams (fzKws K kws) (ps.map fun p => (p.1, p.2.map (fz K))) = (fillParams kws ps).map (fzs K)
  | [] => rfl
  | (p, d) :: t => by
    have ha : ∀ kws : List (Ident × Val), attrGet (fzKws K kws) p = (attrGet kws p).map (fz K) := by
      intro kws
      induction kws with
      | nil => rfl
      | cons q r ih =>
        show (if q.1 = p then some (fz K q.2) else attrGet (fzKws K r) p) = ((if q.1 = p then some q.2 else attrGet r p) : Option Val).map (fz K)
        split
        · rfl
        · exact ih
    simp only [List.map_cons, fillParams, fillParams_fz kws t, ha]
    cases attrGet kws p <;> cases d <;> cases fillParams kws t <;> rfl

omit hK hc in
theorem bindArgs_fz (ps : List Ident) (vs : List Val) (kws : List (Ident × Val)) (ds : List Val) :
    bindArgs ps (fzs K vs) (fzKws K kws) (fzs K ds) = (bindArgs ps vs kws ds).map (fzVars K) := by
  cases kws with
  | nil => exact bindParams_fz ps vs ds
  | cons q r =>
    show (placeArgs ps (fzs K vs) (fzKws K (q :: r)) (fzs K ds)).bind (bindParams ps · []) = ((placeArgs ps vs (q :: r) ds).bind (bindParams ps · [])).map (fzVars K)
    have hp : placeArgs ps (fzs K vs) (fzKws K (q :: r)) (fzs K ds) = (placeArgs ps vs (q :: r) ds).map (fzs K) := by
      have hn : (fzKws K (q :: r)).map Prod.fst = (q :: r).map Prod.fst := by simp [fzKws]
      have hk : (∀ p ∈ fzKws K (q :: r), p.1 ∈ ps.drop vs.length) ↔ ∀ p ∈ q :: r, p.1 ∈ ps.drop vs.length := by
        simp only [fzKws, List.forall_mem_map]
      have hw : withDefaults ps (fzs K ds) = (withDefaults ps ds).map fun p => (p.1, p.2.map (fz K)) := by
        have hz : ∀ (ps : List Ident) (xs : List (Option Val)), ps.zip (xs.map (Option.map (fz K))) = (ps.zip xs).map fun p => (p.1, p.2.map (fz K)) := by
          intro ps
          induction ps with
          | nil => intro xs; rfl
          | cons a t ih =>
            intro xs
            cases xs with
            | nil => rfl
            | cons x u => simp only [List.map_cons, List.zip_cons_cons, ih]
        rw [withDefaults, withDefaults, ← hz]
        simp [fzs_map, Function.comp_def]
      rw [placeArgs, placeArgs, show (fzs K vs).length = vs.length by simp [fzs_map], hn]
      simp only [hk]
      split
      · rw [hw, ← List.map_drop, fillParams_fz]
        cases fillParams (q :: r) ((withDefaults ps ds).drop vs.length) with
        | none => rfl
        | some xs => simp [fzs_map]
      · rfl
    rw [hp]
    cases placeArgs ps vs (q :: r) ds with
    | none => rfl
    | some xs => exact bindParams_fz ps xs []

theorem invoke_agree (d : Def) (args : List Val) (kws : List (Ident × Val)) :
    Agree K h₀ (fz K) (invoke rt call d args kws) (invoke (fzRt K rt) call' d (fzs K args) (fzKws K kws)) := by
  rw [invoke, invoke]
  refine agree_bind (evals_agree hK hc d.defaults) fun ds => ?_
  cases d.isClass with
  | true =>
    refine agree_bind (agree_alloc (.inst d.name [] [])) fun o => ?_
    rw [show fz K o :: fzs K args = fzs K (o :: args) from rfl, bindArgs_fz]
    cases bindArgs d.params (o :: args) kws ds with
    | none => exact agree_fail _
    | some vs => exact agree_bind (runBody_agree hK hc d vs) fun _ => agree_pure rfl
  | false =>
    show Agree K h₀ (fz K) (match bindArgs d.params args kws ds with | none => fail .TypeError | some vs => runBody rt call d vs)
      (match bindArgs d.params (fzs K args) (fzKws K kws) (fzs K ds) with | none => fail .TypeError | some vs => runBody (fzRt K rt) call' d vs)
    rw [bindArgs_fz]
    cases bindArgs d.params args kws ds with
    | none => exact agree_fail _
    | some vs => exact runBody_agree hK hc d vs

end

/-- Objects nobody changes may be taken for values. -/
theorem program_agree (hK : Frozen K h₀ h₀) : ∀ ds : List Def, AgreeC K h₀ (program rt ds) (program (fzRt K rt) ds)
  | [] => fun f args kws => builtin_agree hK f args kws
  | d :: ds => fun f args kws => by
    by_cases h : f = d.name
    · subst h
      rw [program, program]; simp only [if_true]
      exact invoke_agree hK (program_agree hK ds) d args kws
    · rw [program, program]; simp only [h, if_false]
      exact program_agree hK ds f args kws

end Iso8583.Src
