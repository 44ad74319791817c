import Verif.Source.DecodeField
import Verif.Model.Encoder
/-!
# encoder.py: `EncodeError`, and how its outcomes correspond to those of the model
-/

namespace Iso8583.Src

variable {ε σ : Type} {rt : Rt ε σ} {call : Caller ε σ} {dd de : Nat} {F : List (Nat × Obj)}

/-- Short numbers can be converted to text. -/
theorem formats_small {env : PyEnv} (h : env.maxStrDigits = 0 ∨ 640 ≤ env.maxStrDigits) {n : Nat} (hn : n < 10 ^ 200) : formats env (n : Int) := by
  have : (natStr n).length ≤ 200 := (natStr_length_le (by decide)).2 hn
  rcases h with h | h
  · simp [Iso8583.formats, h]
  · simp [Iso8583.formats]; right; omega

theorem formats_abs {env : PyEnv} (h : env.maxStrDigits = 0 ∨ 640 ≤ env.maxStrDigits) {n : Int} (hn : n.natAbs < 10 ^ 200) : formats env n = true :=
  formats_small h hn

/-! ## The caller's dict -/

/-- The key of a dict the model speaks of.  (A number this short has a `repr` under any limit.) -/
def keyOf : Val → Option Key
  | .str s => some (.str s)
  | .none => some (.obj py"None")
  | .bool b => some (.obj (if b then py"True" else py"False"))
  | .int n => if n.natAbs < 10 ^ 200 then some (.obj (intStr n)) else none
  | .bytes b => some (.obj (reprBytes b))
  | .obj _ r _ => some (.obj r)
  | _ => none

/-- An object as a value in a dict the model speaks of. -/
def thingVal : Thing → Iso8583.Val
  | .bytes b => .bytes b
  | .sized n => .sized n
  | .unsized => .unsized

/-- The value in a dict the model speaks of. -/
def valOf : Val → Option Iso8583.Val
  | .str s => some (.str s)
  | .bytes b => some (.bytes b)
  | .barray b => some (.bytes b)
  | .none | .bool _ | .int _ | .float .. | .nan | .inf => some .unsized
  | .obj _ _ (some n) => some (.sized n)
  | .obj _ _ none => some .unsized
  | .thing (some _) k => some (thingVal k)
  | _ => none

/-- `items` are the items of the dict `doc`. -/
def DocIs : List (Val × Val) → Doc → Prop
  | [], [] => True
  | p :: t, q :: t' => keyOf p.1 = some q.1 ∧ valOf p.2 = some q.2 ∧ DocIs t t'
  | _, _ => False

/-- Keys that are not `str`. -/
theorem keyOf_cases {v : Val} {q : Key} (h : keyOf v = some q) : (∃ s, v = .str s ∧ q = .str s) ∨
    ∃ r, q = .obj r ∧ (textMethod v : M ε σ Unit) = fail .AttributeError ∧
      builtin rt .isinstance [v, .glob .str] [] = pure (.bool false) ∧
      ((∀ n : Int, n.natAbs < 10 ^ 200 → formats rt.env n = true) → ∀ st : St σ, reprElem rt v st = (.ok r, st)) := by
  cases v
  case str s => cases h; exact .inl ⟨s, rfl, rfl⟩
  case int n =>
    rw [keyOf] at h
    split at h
    · cases h
      refine .inr ⟨_, rfl, rfl, rfl, fun hf st => ?_⟩
      show intText rt n st = _
      rw [intText_run, if_pos (hf n (by assumption))]
    · cases h
  case none | bool | bytes | obj => cases h; exact .inr ⟨_, rfl, rfl, rfl, fun _ _ => rfl⟩
  all_goals cases h

theorem same_key {v : Val} {q : Key} (h : keyOf v = some q) (k : Str) : v.same (.str k) = decide (q = .str k) := by
  cases v
  case str => cases h; rw [Bool.eq_iff_iff]; simp [Val.same]
  case int n =>
    rw [keyOf] at h
    split at h <;> cases h
    simp [Val.same]
  all_goals (cases h; try simp [Val.same])

theorem DocIs.get {k : Str} : ∀ {items : List (Val × Val)} {doc : Doc}, DocIs items doc →
    match doc.get? (.str k) with
    | none => lookup items (.str k) = none
    | some v => ∃ x, lookup items (.str k) = some x ∧ valOf x = some v
  | [], [], _ => rfl
  | p :: t, q :: t', h => by
    obtain ⟨h1, h2, h3⟩ := h
    simp only [Dict.get?, lookup, same_key h1, decide_eq_true_eq]
    by_cases hk : q.1 = .str k
    · simp only [hk, if_true]
      exact ⟨_, rfl, h2⟩
    · simp only [hk, if_false]
      exact h3.get

theorem DocIs.set {k v : Str} : ∀ {items : List (Val × Val)} {doc : Doc}, DocIs items doc →
    DocIs (insert items (.str k) (.str v)) (doc.set (.str k) (.str v))
  | [], [], _ => ⟨rfl, rfl, trivial⟩
  | p :: t, q :: t', h => by
    obtain ⟨h1, h2, h3⟩ := h
    simp only [Dict.set, insert, same_key h1, decide_eq_true_eq]
    by_cases hk : q.1 = .str k
    · simp only [hk, if_true]
      exact ⟨hk ▸ h1, rfl, h3⟩
    · simp only [hk, if_false]
      exact ⟨h1, h2, h3.set⟩

theorem DocIs.pop {k : Str} : ∀ {items : List (Val × Val)} {doc : Doc}, DocIs items doc →
    DocIs (delete items (.str k)) (doc.pop (.str k))
  | [], [], _ => trivial
  | p :: t, q :: t', h => by
    obtain ⟨h1, h2, h3⟩ := h
    simp only [Dict.pop, delete, same_key h1, decide_eq_true_eq]
    by_cases hk : q.1 = .str k
    · simp only [hk, if_true]; exact h3
    · simp only [hk, if_false]; exact ⟨h1, h2, h3.pop⟩

/-- Keys other than `"p"`, `"1"` and `"65"` have the values they had. -/
def Keeps (items items' : List (Val × Val)) : Prop :=
  ∀ k : Val, k.same (.str py"p") = false → k.same (.str py"1") = false → k.same (.str py"65") = false → lookup items' k = lookup items k

theorem Keeps.refl (items : List (Val × Val)) : Keeps items items := fun _ _ _ _ => rfl

theorem Keeps.trans {a b c : List (Val × Val)} (h1 : Keeps a b) (h2 : Keeps b c) : Keeps a c :=
  fun k x y z => (h2 k x y z).trans (h1 k x y z)

/-! ## Exceptions -/

/-- The `EncodeError` object encoder.py:26-34 makes. -/
def encErrObj (msg : Str) (dd de : Nat) (f : Str) : Obj :=
  .inst .EncodeError [.str (msg ++ py": field " ++ f)]
    [(.msg, .str msg), (.doc_dec, .ref dd), (.doc_enc, .ref de), (.field, .str f)]

/-- encoder.py:26-34: `EncodeError(msg, doc_dec, doc_enc, field)`. -/
theorem new_encodeError (hg : ∀ x, rt.globals x = none) (msg : Str) (dd de : Nat) (f : Str) (st : St σ) :
    invoke rt (builtin rt) encodeErrorInitDef [.str msg, .ref dd, .ref de, .str f] [] st =
      (.ok (.ref st.heap.length), { st with heap := st.heap ++ [encErrObj msg dd de f] }) := by
  simp [invoke, encodeErrorInitDef, bindParams, runBody, encodeErrorInit1, encodeErrorInit2, encodeErrorInit3, encodeErrorInit4,
      encodeErrorInit5, encodeErrorInit6, src, getVar, hg, deref, attrStore, attrSet, encErrObj]

/-- What raising the model's message `m` does to a heap, and what is raised; `d` is the text the model
leaves out. -/
def raisesE (rt : Rt ε σ) (h : List Obj) (dd de : Nat) (m : EncMsg) (d f : Str) : Exc ε × List Obj :=
  if m.numbers.all (formats rt.env) then (.inst .EncodeError h.length, h ++ [encErrObj (m.text ++ d) dd de f])
  else (.std .ValueError .none, h)

/-- The exception `x` is the model's `e`, or the `ValueError` that takes its place. -/
def ErrIsE (rt : Rt ε σ) (h : List Obj) (dd de : Nat) (e : EncRaise) (x : Exc ε) : Prop :=
  match e with
  | .err m f =>
    if m.numbers.all (formats rt.env) then
      ∃ l d, (m ≠ .lenInvalid → d = []) ∧ x = .inst .EncodeError l ∧ h[l]? = some (encErrObj (m.text ++ d) dd de f)
    else x = .std .ValueError .none
  | .keyError k => x = .std .KeyError (.str k)
  | .valueError => x = .std .ValueError .none
  | .typeError => x = .std .TypeError .none
  | .unboundLocal => x = .std .UnboundLocalError .none
  | .indexError => x = .std .IndexError .none

theorem raisesE_is (h : List Obj) (dd de : Nat) (m : EncMsg) (d f : Str) (hd : m ≠ .lenInvalid → d = []) :
    ErrIsE rt (raisesE rt h dd de m d f).2 dd de (.err m f) (raisesE rt h dd de m d f).1 ∧
      ∃ t, (raisesE rt h dd de m d f).2 = h ++ t := by
  by_cases h1 : m.numbers.all (formats rt.env)
  · simp only [raisesE, ErrIsE, h1, if_true]
    exact ⟨⟨_, d, hd, rfl, by simp⟩, _, rfl⟩
  · simp only [raisesE, ErrIsE, h1]
    exact ⟨rfl, [], by simp⟩

/-- `raise EncodeError(e, doc_dec, doc_enc, key)`; evaluating `e` may have made objects. -/
theorem exec_raiseE (hg : ∀ x, rt.globals x = none) (hc : call .EncodeError = invoke rt (builtin rt) encodeErrorInitDef)
    (m : EncMsg) (d : Str) (f : Str) (e key : Expr) (st st1 : St σ)
    (hm : eval rt call e st = if m.numbers.all (formats rt.env) then (.ok (.str (m.text ++ d)), st1) else (.error (.std .ValueError .none), st1))
    (hk : eval rt call key st1 = (.ok (.str f), st1))
    (hd : st.vars .EncodeError = none) (h2 : st1.vars .doc_dec = some (.ref dd)) (h3 : st1.vars .doc_enc = some (.ref de)) :
    exec rt call (.raise (.call .EncodeError [e, .name .doc_dec, .name .doc_enc, key] [] [])) st =
      (.error (raisesE rt st1.heap dd de m d f).1, { st1 with heap := (raisesE rt st1.heap dd de m d f).2 }) := by
  by_cases ha : m.numbers.all (formats rt.env)
  · rw [if_pos ha] at hm
    simp [src, exec_raise_eq, hm, hk, hd, getVar, h2, h3, hc, new_encodeError hg, ha, raisesE, raiseVal, deref, encErrObj]
  · rw [if_neg ha] at hm
    simp [src, exec_raise_eq, hm, hd, raisesE, ha]

/-- The same with a message that is a literal. -/
theorem exec_raiseE_lit (hg : ∀ x, rt.globals x = none) (hc : call .EncodeError = invoke rt (builtin rt) encodeErrorInitDef)
    (m : EncMsg) {t : Str} (ht : m.text = t) (hn : m.numbers = []) (f : Str) (key : Expr) (st : St σ)
    (hk : eval rt call key st = (.ok (.str f), st))
    (hd : st.vars .EncodeError = none) (h2 : st.vars .doc_dec = some (.ref dd)) (h3 : st.vars .doc_enc = some (.ref de)) :
    exec rt call (.raise (.call .EncodeError [.str t, .name .doc_dec, .name .doc_enc, key] [] [])) st =
      (.error (raisesE rt st.heap dd de m [] f).1, { st with heap := (raisesE rt st.heap dd de m [] f).2 }) := by
  subst ht
  exact exec_raiseE hg hc m [] f _ key st st (by rw [hn]; simp [src]) hk hd h2 h3

/-! ## Simulation -/

/-- `out` is what the model's result `res` looks like when a function is called in state `st` with the
caller's dict holding `items`: only the heap changes, it has the two dicts of the model's state and the
objects `F`, and the value or exception corresponds. -/
def SimE {α : Type} (rt : Rt ε σ) (dd de : Nat) (items : List (Val × Val)) (F : Except EncRaise α → List (Nat × Obj)) (toV : α → Val)
    (res : Except EncRaise α × EncState) (st : St σ) (out : Except (Exc ε) Val × St σ) : Prop :=
  ∃ h' x items', out = (x, { st with heap := h' }) ∧ Rep h' dd de items' res.2.enc (F res.1) ∧ DocIs items' res.2.dec ∧ Keeps items items' ∧
    match res.1 with
    | .ok a => x = .ok (toV a)
    | .error e => ∃ exc, x = .error exc ∧ ErrIsE rt h' dd de e exc

/-- As `SimE`, for a function body. -/
def SimEX {α : Type} (rt : Rt ε σ) (dd de : Nat) (items : List (Val × Val)) (F : Except EncRaise α → List (Nat × Obj)) (toV : α → Val)
    (res : Except EncRaise α × EncState) (st : St σ) (out : Except (Exc ε) Flow × St σ) : Prop :=
  ∃ h' x vs items', out = (x, { st with vars := vs, heap := h' }) ∧ Rep h' dd de items' res.2.enc (F res.1) ∧ DocIs items' res.2.dec ∧
    Keeps items items' ∧
    match res.1 with
    | .ok a => x = .ok (.ret (toV a))
    | .error e => ∃ exc, x = .error exc ∧ ErrIsE rt h' dd de e exc

variable {α : Type} {items items' : List (Val × Val)} {G : Except EncRaise α → List (Nat × Obj)} {toV : α → Val}

/-- From the body to the call. -/
theorem simE_of_body {res : Except EncRaise α × EncState} {st : St σ} {d : Def} {args : List Val} {vs : Vars}
    (h1 : d.isClass = false) (h2 : d.isGen = false) (h3 : d.defaults = []) (hp : bindParams d.params args [] = some vs)
    (h : SimEX rt dd de items G toV res { st with vars := vs, locals := d.locals, ys := [] }
      (execs rt call d.body { st with vars := vs, locals := d.locals, ys := [] })) :
    SimE rt dd de items G toV res st (invoke rt call d args [] st) := by
  obtain ⟨h', x, vs', items', ho, hr, hd, hk, hx⟩ := h
  rcases hres : res.1 with e | a
  · rw [hres] at hx
    obtain ⟨exc, rfl, he⟩ := hx
    refine ⟨h', .error exc, items', ?_, hr, hd, hk, ?_⟩
    · simp [invoke, h1, h3, hp, runBody, ho, evals, PyM.run_bind, PyM.run_pure]
    · rw [hres]; exact ⟨exc, rfl, he⟩
  · rw [hres] at hx
    subst hx
    refine ⟨h', .ok (toV a), items', ?_, hr, hd, hk, ?_⟩
    · simp [invoke, h1, h2, h3, hp, runBody, ho, evals, PyM.run_bind, PyM.run_pure]
    · rw [hres]

/-- Run the first statement. -/
theorem simEX_cons {res : Except EncRaise α × EncState} {st st0 : St σ} {s : Stmt} {t : List Stmt}
    {vs : Vars} {h : List Obj} (h1 : exec rt call s st = (.ok .next, { st with vars := vs, heap := h }))
    (h2 : SimEX rt dd de items G toV res st0 (execs rt call t { st with vars := vs, heap := h })) :
    SimEX rt dd de items G toV res st0 (execs rt call (s :: t) st) := by
  rw [execs_cons, h1]; exact h2

theorem simEX_raises {es : EncState} {m : EncMsg} {d f : Str} (hd : m ≠ .lenInvalid → d = []) {st st0 : St σ} {s : Stmt} {t : List Stmt}
    {vs : Vars} {h : List Obj} (r : Rep h dd de items' es.enc (G (.error (.err m f)))) (di : DocIs items' es.dec) (hk : Keeps items items')
    (h1 : exec rt call s st = (.error (raisesE rt h dd de m d f).1, { st with vars := vs, heap := (raisesE rt h dd de m d f).2 }))
    (h0 : { st with vars := st0.vars, heap := st0.heap } = st0) :
    SimEX rt dd de items G toV (.error (.err m f), es) st0 (execs rt call (s :: t) st) := by
  obtain ⟨h2, t, h3⟩ := raisesE_is (rt := rt) h dd de m d f hd
  refine ⟨_, _, vs, items', ?_, by rw [h3]; exact r.append t, di, hk, _, rfl, h2⟩
  rw [execs_cons, h1]
  rw [← h0]

theorem simEX_err {es : EncState} {e : EncRaise} {exc : Exc ε} {st st0 : St σ} {s : Stmt} {t : List Stmt}
    {vs : Vars} {h : List Obj} (r : Rep h dd de items' es.enc (G (.error e))) (di : DocIs items' es.dec) (hk : Keeps items items')
    (h1 : exec rt call s st = (.error exc, { st with vars := vs, heap := h })) (h2 : ErrIsE rt h dd de e exc)
    (h0 : { st with vars := st0.vars, heap := st0.heap } = st0) :
    SimEX rt dd de items G toV (.error e, es) st0 (execs rt call (s :: t) st) := by
  refine ⟨h, _, vs, items', ?_, r, di, hk, _, rfl, h2⟩
  rw [execs_cons, h1]
  rw [← h0]

theorem simEX_ret {es : EncState} {a : α} {st st0 : St σ} {s : Stmt} {t : List Stmt}
    {vs : Vars} {h : List Obj} (r : Rep h dd de items' es.enc (G (.ok a))) (di : DocIs items' es.dec) (hk : Keeps items items')
    (h1 : exec rt call s st = (.ok (.ret (toV a)), { st with vars := vs, heap := h }))
    (h0 : { st with vars := st0.vars, heap := st0.heap } = st0) :
    SimEX rt dd de items G toV (.ok a, es) st0 (execs rt call (s :: t) st) := by
  refine ⟨h, _, vs, items', ?_, r, di, hk, rfl⟩
  rw [execs_cons, h1]
  rw [← h0]

end Iso8583.Src
