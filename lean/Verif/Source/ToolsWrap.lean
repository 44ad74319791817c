import Verif.Source.Encode
import Verif.Model.Stream
/-!
# tools.py: writing, and the two generators
-/

namespace Iso8583.Src

variable {ε σ : Type} {rt : Rt ε σ} {call : Caller ε σ}

/-! ## Outcomes -/

/-- The exception the model's `StreamRaise` stands for. -/
def excS : StreamRaise ε → Exc ε
  | .pp (.keyError k) => .std .KeyError (.str k)
  | .pp .valueError => .std .ValueError .none
  | .widthValue => .std .ValueError .none
  | .widthType => .std .TypeError .none
  | .widthOverflow => .std .OverflowError .none
  | .stream e => .ext e

/-- A call that does to the world what `m` does, and nothing else. -/
def callS (m : SM ε σ Unit) : M ε σ Val := fun st =>
  match m st.world with
  | (.ok _, w) => (.ok .none, { st with world := w })
  | (.error e, w) => (.error (excS e), { st with world := w })

/-- `out` is what the model's result `res` looks like in a function body that returns nothing. -/
def SimP (res : Except (StreamRaise ε) Unit × σ) (st0 : St σ) (out : Except (Exc ε) Flow × St σ) : Prop :=
  ∃ x V, out = (x, { st0 with vars := V, world := res.2 }) ∧
    match res.1 with
    | .ok _ => x = .ok .next ∨ x = .ok (.ret .none)
    | .error e => x = .error (excS e)

theorem callS_of_body {m : SM ε σ Unit} {st : St σ} {d : Def} {args : List Val} {ds : List Val} {vs : Vars}
    (h1 : d.isClass = false) (h2 : d.isGen = false) (h3 : evals rt call d.defaults = pure ds) (hp : bindParams d.params args ds = some vs)
    (h : SimP (m st.world) { st with vars := vs, locals := d.locals, ys := [] }
      (execs rt call d.body { st with vars := vs, locals := d.locals, ys := [] })) :
    invoke rt call d args [] st = callS m st := by
  obtain ⟨x, V, ho, hx⟩ := h
  rcases hres : m st.world with ⟨e | u, w⟩
  · rw [hres] at hx ho
    simp only at hx
    subst hx
    simp [invoke, h1, h3, hp, runBody, ho, PyM.run_bind, PyM.run_pure, callS, hres]
  · rw [hres] at hx ho
    simp only at hx
    rcases hx with rfl | rfl <;>
      simp [invoke, h1, h2, h3, hp, runBody, ho, PyM.run_bind, PyM.run_pure, callS, hres]

theorem simP_next {res : Except (StreamRaise ε) Unit × σ} {st st0 : St σ} {s : Stmt} {t : List Stmt} {V : Vars}
    (h1 : exec rt call s st = (.ok .next, { st with vars := V })) (h2 : SimP res st0 (execs rt call t { st with vars := V })) :
    SimP res st0 (execs rt call (s :: t) st) := by
  rw [execs_cons, h1]; exact h2

theorem simP_err {e : StreamRaise ε} {st st0 : St σ} {s : Stmt} {t : List Stmt}
    (h1 : exec rt call s st = (.error (excS e), st)) (h0 : { st with vars := st0.vars, world := st0.world } = st0) :
    SimP (.error e, st.world) st0 (execs rt call (s :: t) st) := by
  refine ⟨_, st.vars, ?_, rfl⟩
  rw [execs_cons, h1, ← h0]

/-- A statement that does what `m` does, and then the others. -/
theorem simP_bind {m : SM ε σ Unit} {k : Unit → SM ε σ Unit} {st st0 : St σ} {s : Stmt} {t : List Stmt}
    (h1 : exec rt call s st = match m st.world with
      | (.ok _, w) => (.ok .next, { st with world := w })
      | (.error e, w) => (.error (excS e), { st with world := w }))
    (h2 : ∀ w, SimP (k () w) st0 (execs rt call t { st with world := w }))
    (h0 : { st with vars := st0.vars, world := st0.world } = st0) :
    SimP ((m >>= k) st.world) st0 (execs rt call (s :: t) st) := by
  rw [execs_cons, h1, PyM.run_bind]
  rcases m st.world with ⟨e | u, w⟩
  · exact ⟨_, st.vars, by rw [← h0], rfl⟩
  · exact h2 w

/-! ## `stream.write(t)` -/

theorem method_write (b : Bool) (t : Str) (st : St σ) : method rt (.stream b) .write [.str t] [] st = callS (streamWrite (rt.write b) t) st := by
  have : method rt (.stream b) .write [.str t] [] st = match rt.write b t st.world with
    | (.ok _, w) => (.ok .none, { st with world := w })
    | (.error e, w) => (.error (.ext e), { st with world := w }) := rfl
  rw [this]
  simp only [callS, streamWrite]
  rcases rt.write b t st.world with ⟨e | u, w⟩ <;> rfl

theorem exec_write {b : Bool} {st : St σ} (hs : st.vars .stream = some (.stream b)) {e : Expr} {t : Str} (he : eval rt call e st = (.ok (.str t), st)) :
    exec rt call (.expr (.meth (.name .stream) .write [e] [] [])) st = match streamWrite (rt.write b) t st.world with
      | (.ok _, w) => (.ok .next, { st with world := w })
      | (.error e, w) => (.error (excS e), { st with world := w }) := by
  have h : eval rt call (.meth (.name .stream) .write [e] [] []) st = callS (streamWrite (rt.write b) t) st := by
    simp [src, getVar, hs, he, method_write]
  simp only [exec_expr, PyM.run_bind, h, callS]
  rcases streamWrite (rt.write b) t st.world with ⟨e | u, w⟩ <;> rfl

/-! ## Builtins -/

@[src] theorem builtin_repr (v : Val) : builtin rt .repr [v] [] = (do pure (.str (← reprVal rt v))) := rfl
@[src] theorem reprVal_str (s : Str) : reprVal rt (.str s) = pure (reprStr rt.env s) := rfl
@[src] theorem reprVal_bytes (b : Bytes) : reprVal rt (.bytes b) = pure (reprBytes b) := rfl
@[src] theorem reprVal_obj (c r : Str) (n : Option Nat) : reprVal rt (.obj c r n) = pure r := rfl
@[src] theorem builtin_str_str (s : Str) : builtin rt .str [.str s] [] = pure (.str s) := rfl
@[src] theorem builtin_range3 (lo hi step : Int) : builtin rt .range [.int lo, .int hi, .int step] [] =
    if step ≤ 0 then stuck else pure (.list ((rangeList lo hi step.toNat).map .int)) := rfl

theorem sliceOf_nat {α : Type} (xs : List α) {i j : Int} (a w : Nat) (hi : i = a) (hj : j = a + w) : sliceOf xs (some i) (some j) = (xs.drop a).take w := by
  subst hi hj
  simp only [sliceOf, bound]
  have h1 : ¬ (a : Int) < 0 := by omega
  have h2 : ¬ (a + w : Int) < 0 := by omega
  rw [if_neg h1, if_neg h2]
  congr 1
  omega

/-! ## `_wrap_str_repr` -/

/-- tools.py:167-168. -/
theorem wrapStr_loop (hc : call .repr = builtin rt .repr) {obj : Str} {w : Nat} (hw : 0 < w) : ∀ (f i : Nat) (st : St σ), st.vars .obj = some (.str obj) →
    st.vars .width = some (.int w) → st.vars .repr = none → ∃ V,
      iterate (execs rt call [.yield (.call .repr [(.slice (.name .obj) (.name .i) (.bin .add (.name .i) (.name .width)))] [] [])]) [.i]
        ((rangeUp w f i obj.length).map .int) st =
        (.ok .next, { st with vars := V, ys := st.ys ++ ((chunksAux w f (obj.drop i)).map (reprStr rt.env)).map .str })
  | 0, i, st, _, _, _ => ⟨st.vars, by simp [rangeUp, iterate, chunksAux, PyM.run_pure]⟩
  | f + 1, i, st, h1, h2, h3 => by
    by_cases hi : i < obj.length
    · have hi' : (i : Int) < obj.length := by omega
      obtain ⟨c, t, hct⟩ : ∃ c t, obj.drop i = c :: t := by
        cases hd : obj.drop i with
        | nil => rw [List.drop_eq_nil_iff] at hd; omega
        | cons c t => exact ⟨c, t, rfl⟩
      obtain ⟨V, hV⟩ := wrapStr_loop hc (obj := obj) hw f (i + w) { st with vars := st.vars.set .i (.int i), ys := st.ys ++ [.str (reprStr rt.env ((obj.drop i).take w))] }
        (by simp [src, h1]) (by simp [src, h2]) (by simp [src, h3])
      refine ⟨V, ?_⟩
      have he : execs rt call [.yield (.call .repr [(.slice (.name .obj) (.name .i) (.bin .add (.name .i) (.name .width)))] [] [])]
          { st with vars := st.vars.set .i (.int i) } =
          (.ok .next, { st with vars := st.vars.set .i (.int i), ys := st.ys ++ [.str (reprStr rt.env ((obj.drop i).take w))] }) := by
        simp [src, getVar, h1, h2, h3, hc, sliceOf_nat obj i w rfl rfl]
      have hr : rangeUp w (f + 1) i obj.length = (i : Int) :: rangeUp w f ((i + w : Nat) : Int) obj.length := by
        simp [rangeUp, hi']
      rw [hr]
      simp only [List.map_cons, iterate, bindNames, PyM.run_bind, setVar_run, he, hV]
      rw [hct, chunksAux, ← hct, List.drop_drop]
      simp only [List.map_cons, List.append_assoc, List.singleton_append]
    · have hi' : ¬ (i : Int) < obj.length := by omega
      have hd : obj.drop i = [] := List.drop_eq_nil_iff.2 (by omega)
      exact ⟨st.vars, by simp [rangeUp, hi', hd, iterate, chunksAux, PyM.run_pure]⟩

/-- tools.py:159-168 `_wrap_str_repr`. -/
theorem wrapStrRepr_call (h1 : call .repr = builtin rt .repr) (h2 : call .range = builtin rt .range) (h3 : call .len = builtin rt .len)
    (obj : Str) (width : Int) (st : St σ) :
    invoke rt call wrapStrReprDef [.str obj, .int width] [] st = (.ok (.list ((wrapStrRepr rt.env obj width).map .str)), st) := by
  have hp : bindParams wrapStrReprDef.params [.str obj, .int width] [] = some (Vars.set (Vars.set (fun _ => none) .obj (.str obj)) .width (.int width)) := rfl
  generalize hv : Vars.set (Vars.set (fun _ => none) .obj (.str obj)) .width (.int width) = V0 at hp
  have v1 : V0 .obj = some (.str obj) := by subst hv; simp [src]
  have v2 : V0 .width = some (.int width) := by subst hv; simp [src]
  have v3 : ∀ x, x ≠ .obj → x ≠ .width → V0 x = none := by intro x a b; subst hv; simp [src, a, b]
  clear hv
  let w : Nat := if width > 3 then (width - 2).toNat else 1
  have hw : 0 < w := by simp only [w]; split <;> omega
  have e1 : exec rt call wrapStrRepr1 { st with vars := V0, locals := [.i], ys := [] } =
      (.ok .next, { st with vars := V0.set .width (.int w), locals := [.i], ys := [] }) := by
    by_cases hgt : width > 3
    · have : (w : Int) = width - 2 := by simp only [w, if_pos hgt]; omega
      simp [wrapStrRepr1, src, getVar, v2, hgt, this]
    · have : (w : Int) = 1 := by simp only [w, if_neg hgt]; rfl
      simp [wrapStrRepr1, src, getVar, v2, hgt, this]
  obtain ⟨V, hV⟩ := wrapStr_loop (rt := rt) h1 (obj := obj) hw obj.length 0 { st with vars := V0.set .width (.int w), locals := [.i], ys := [] }
    (by simp [src, v1]) (by simp [src]) (by simp [src, v3])
  have e2 : exec rt call wrapStrRepr2 { st with vars := V0.set .width (.int w), locals := [.i], ys := [] } =
      (.ok .next, { st with vars := V, locals := [.i], ys := ((chunksAux w obj.length obj).map (reprStr rt.env)).map .str }) := by
    have hw' : ¬ (w : Int) ≤ 0 := by omega
    have hrl : rangeList 0 obj.length (w : Int).toNat = rangeUp w obj.length ((0 : Nat) : Int) obj.length := by simp [rangeList]
    simp only [List.drop_zero, List.nil_append] at hV
    have hlen : eval rt call (.call .range [(.int 0), (.call .len [(.name .obj)] [] []), (.name .width)] [] []) { st with vars := V0.set .width (.int w), locals := [.i], ys := [] } =
        (.ok (.list ((rangeUp w obj.length ((0 : Nat) : Int) obj.length).map .int)), { st with vars := V0.set .width (.int w), locals := [.i], ys := [] }) := by
      rw [← hrl]
      simp only [src, getVar, v1, v3, h2, h3, if_true, reduceCtorEq, not_false_eq_true, if_false, ne_eq, hw', List.zip_nil_right, List.zip_nil_left]
    rw [wrapStrRepr2, exec_loop]
    simp only [PyM.run_bind, hlen, elements_list, PyM.run_pure, hV]
  have hb : execs rt call wrapStrReprDef.body { st with vars := V0, locals := [.i], ys := [] } =
      (.ok .next, { st with vars := V, locals := [.i], ys := ((chunksAux w obj.length obj).map (reprStr rt.env)).map .str }) := by
    simp only [wrapStrReprDef, execs_cons, e1, e2]; rfl
  have hd : wrapStrReprDef.locals = [.i] := rfl
  have hcl : wrapStrReprDef.isClass = false := rfl
  have hgen : wrapStrReprDef.isGen = true := rfl
  have hdef : wrapStrReprDef.defaults = [] := rfl
  simp [invoke, hcl, hgen, hdef, hp, runBody, hd, hb, evals, PyM.run_bind, PyM.run_pure, wrapStrRepr, wrapStr, w]

/-! ## `_wrap_bytes_repr` -/

/-- tools.py:175-183. -/
def wrapBytesBody : List Stmt :=
  [.assign [(.name .part)] (.slice (.name .obj) (.name .i) (.bin .add (.name .i) (.int 1))),
   .assign [(.name .candidate)] (.bin .add (.name .current) (.name .part)),
   .ite (.cmp .gt (.call .len [(.call .repr [(.name .candidate)] [] [])] [] []) (.name .width)) [
     .ite (.name .current) [
       .yield (.call .repr [(.name .current)] [] [])] [],
     .assign [(.name .current)] (.name .part)] [
     .assign [(.name .current)] (.name .candidate)]]

/-- tools.py:174-183. -/
theorem wrapBytes_loop (h1 : call .repr = builtin rt .repr) (h2 : call .len = builtin rt .len) {obj : Bytes} {width : Int} :
    ∀ (f i : Nat) (cur : Bytes) (st : St σ), obj.length ≤ i + f → st.vars .obj = some (.bytes obj) → st.vars .width = some (.int width) →
    st.vars .repr = none → st.vars .len = none → st.vars .current = some (.bytes cur) → ∃ V pre last,
      iterate (execs rt call wrapBytesBody) [.i]
        ((rangeUp 1 f i obj.length).map .int) st =
        (.ok .next, { st with vars := V, ys := st.ys ++ (pre.map reprBytes).map .str }) ∧
      V .current = some (.bytes last) ∧ V .repr = none ∧ wrapBytesAux width cur (obj.drop i) = pre ++ if last ≠ [] then [last] else []
  | 0, i, cur, st, hf, v1, v2, v3, v4, v5 => by
    have hd : obj.drop i = [] := List.drop_eq_nil_iff.2 (by omega)
    exact ⟨st.vars, [], cur, by simp [rangeUp, iterate, PyM.run_pure], v5, v3, by simp [hd, wrapBytesAux]⟩
  | f + 1, i, cur, st, hf, v1, v2, v3, v4, v5 => by
    by_cases hi : i < obj.length
    · have hi' : (i : Int) < obj.length := by omega
      obtain ⟨b, t, hct⟩ : ∃ c t, obj.drop i = c :: t := by
        cases hd : obj.drop i with
        | nil => rw [List.drop_eq_nil_iff] at hd; omega
        | cons c t => exact ⟨c, t, rfl⟩
      have ht : obj.drop (i + 1) = t := by rw [← List.drop_drop, hct]; rfl
      have hs : sliceOf obj (some (i : Int)) (some ((i : Int) + 1)) = [b] := by
        rw [sliceOf_nat obj i 1 rfl (by omega), hct]; rfl
      have hr : rangeUp 1 (f + 1) i obj.length = (i : Int) :: rangeUp 1 f ((i + 1 : Nat) : Int) obj.length := by
        simp [rangeUp, hi']
      rw [hr, hct, wrapBytesAux]
      simp only [List.map_cons, iterate, bindNames, PyM.run_bind, setVar_run]
      by_cases hgt : ((reprBytes (cur ++ [b])).length : Int) > width
      · obtain ⟨V, pre, last, hV, hl, hrp, hw⟩ := wrapBytes_loop h1 h2 (obj := obj) (width := width) f (i + 1) [b]
          { st with vars := (((st.vars.set .i (.int i)).set .part (.bytes [b])).set .candidate (.bytes (cur ++ [b]))).set .current (.bytes [b])
                    ys := st.ys ++ if cur ≠ [] then [.str (reprBytes cur)] else [] }
          (by omega) (by simp [src, v1]) (by simp [src, v2]) (by simp [src, v3]) (by simp [src, v4]) (by simp [src])
        rw [ht] at hw
        refine ⟨V, (if cur ≠ [] then [cur] else []) ++ pre, last, ?_, hl, hrp, ?_⟩
        · have he : execs rt call wrapBytesBody { st with vars := st.vars.set .i (.int i) } =
              (.ok .next, { st with
                vars := (((st.vars.set .i (.int i)).set .part (.bytes [b])).set .candidate (.bytes (cur ++ [b]))).set .current (.bytes [b])
                ys := st.ys ++ if cur ≠ [] then [.str (reprBytes cur)] else [] }) := by
            by_cases hcur : cur = []
            · simp only [hcur, List.nil_append] at hgt v5 ⊢
              simp [wrapBytesBody, src, getVar, v1, v2, v3, v4, v5, h1, h2, hs, hgt]
            · simp [wrapBytesBody, src, getVar, v1, v2, v3, v4, v5, h1, h2, hs, hgt, hcur]
          simp only [he, hV]
          by_cases hcur : cur = [] <;> simp [hcur]
        · simp only [hgt, if_true, hw]
          by_cases hcur : cur = [] <;> simp [hcur]
      · obtain ⟨V, pre, last, hV, hl, hrp, hw⟩ := wrapBytes_loop h1 h2 (obj := obj) (width := width) f (i + 1) (cur ++ [b])
          { st with vars := (((st.vars.set .i (.int i)).set .part (.bytes [b])).set .candidate (.bytes (cur ++ [b]))).set .current (.bytes (cur ++ [b])) }
          (by omega) (by simp [src, v1]) (by simp [src, v2]) (by simp [src, v3]) (by simp [src, v4]) (by simp [src])
        rw [ht] at hw
        refine ⟨V, pre, last, ?_, hl, hrp, ?_⟩
        · have he : execs rt call wrapBytesBody { st with vars := st.vars.set .i (.int i) } =
              (.ok .next, { st with
                vars := (((st.vars.set .i (.int i)).set .part (.bytes [b])).set .candidate (.bytes (cur ++ [b]))).set .current (.bytes (cur ++ [b])) }) := by
            simp [wrapBytesBody, src, getVar, v1, v2, v3, v4, v5, h1, h2, hs, hgt]
          simp only [he, hV]
        · simp only [hgt, if_false, hw]
    · have hi' : ¬ (i : Int) < obj.length := by omega
      have hd : obj.drop i = [] := List.drop_eq_nil_iff.2 (by omega)
      exact ⟨st.vars, [], cur, by simp [rangeUp, hi', iterate, PyM.run_pure], v5, v3, by simp [hd, wrapBytesAux]⟩

/-- tools.py:171-186 `_wrap_bytes_repr`. -/
theorem wrapBytesRepr_call (h1 : call .repr = builtin rt .repr) (h2 : call .range = builtin rt .range) (h3 : call .len = builtin rt .len)
    (obj : Bytes) (width : Int) (st : St σ) :
    invoke rt call wrapBytesReprDef [.bytes obj, .int width] [] st = (.ok (.list ((wrapBytesRepr obj width).map .str)), st) := by
  have hp : bindParams wrapBytesReprDef.params [.bytes obj, .int width] [] = some (Vars.set (Vars.set (fun _ => none) .obj (.bytes obj)) .width (.int width)) := rfl
  generalize hv : Vars.set (Vars.set (fun _ => none) .obj (.bytes obj)) .width (.int width) = V0 at hp
  have v1 : V0 .obj = some (.bytes obj) := by subst hv; simp [src]
  have v2 : V0 .width = some (.int width) := by subst hv; simp [src]
  have v3 : ∀ x, x ≠ .obj → x ≠ .width → V0 x = none := by intro x a b; subst hv; simp [src, a, b]
  clear hv
  let L : List Ident := wrapBytesReprDef.locals
  obtain ⟨V, pre, last, hV, hl, hrp, hw⟩ := wrapBytes_loop (rt := rt) h1 h3 (obj := obj) (width := width) obj.length 0 []
    { st with vars := V0.set .current (.bytes []), locals := L, ys := [] }
    (by omega) (by simp [src, v1]) (by simp [src, v2]) (by simp [src, v3]) (by simp [src, v3]) (by simp [src])
  have e1 : exec rt call wrapBytesRepr1 { st with vars := V0, locals := L, ys := [] } =
      (.ok .next, { st with vars := V0.set .current (.bytes []), locals := L, ys := [] }) := by
    simp [wrapBytesRepr1, src]
  have e2 : exec rt call wrapBytesRepr2 { st with vars := V0.set .current (.bytes []), locals := L, ys := [] } =
      (.ok .next, { st with vars := V, locals := L, ys := (pre.map reprBytes).map .str }) := by
    have hrl : rangeList 0 obj.length 1 = rangeUp 1 obj.length ((0 : Nat) : Int) obj.length := by simp [rangeList]
    simp only [List.nil_append] at hV
    have hlen : eval rt call (.call .range [(.int 0), (.call .len [(.name .obj)] [] [])] [] []) { st with vars := V0.set .current (.bytes []), locals := L, ys := [] } =
        (.ok (.list ((rangeUp 1 obj.length ((0 : Nat) : Int) obj.length).map .int)), { st with vars := V0.set .current (.bytes []), locals := L, ys := [] }) := by
      simp [src, getVar, v1, v3, h2, h3, hrl]
    rw [wrapBytesRepr2, exec_loop, ← wrapBytesBody]
    simp only [PyM.run_bind, hlen, elements_list, PyM.run_pure, hV]
  have e3 : exec rt call wrapBytesRepr3 { st with vars := V, locals := L, ys := (pre.map reprBytes).map .str } =
      (.ok .next, { st with vars := V, locals := L, ys := ((wrapBytes obj width).map reprBytes).map .str }) := by
    simp only [List.drop_zero] at hw
    rw [wrapBytes, hw]
    by_cases hn : last = []
    · simp [wrapBytesRepr3, src, getVar, hl, hn]
    · simp [wrapBytesRepr3, src, getVar, hl, hn, hrp, h1]
  have hb : execs rt call wrapBytesReprDef.body { st with vars := V0, locals := L, ys := [] } =
      (.ok .next, { st with vars := V, locals := L, ys := ((wrapBytes obj width).map reprBytes).map .str }) := by
    simp only [wrapBytesReprDef, execs_cons, e1, e2, e3]; rfl
  have hcl : wrapBytesReprDef.isClass = false := rfl
  have hgen : wrapBytesReprDef.isGen = true := rfl
  have hdef : wrapBytesReprDef.defaults = [] := rfl
  simp only [L] at hb
  simp [invoke, hcl, hgen, hdef, hp, runBody, hb, evals, PyM.run_bind, PyM.run_pure, wrapBytesRepr]

end Iso8583.Src
