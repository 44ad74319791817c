import Verif.Source.Rep
/-!
# decoder.py: `DecodeError`, and how its outcomes correspond to those of the model
-/

namespace Iso8583.Src

variable {ε σ : Type} {rt : Rt ε σ}

/-- The `DecodeError` object decoder.py:29-45 makes. -/
def errObj (msg : Str) (sv : Val) (dd de : Nat) (pos : Int) (f : Str) : Obj :=
  .inst .DecodeError [.str (msg ++ py": field " ++ f ++ py" pos " ++ intStr pos)]
    [(.msg, .str msg), (.s, sv), (.doc_dec, .ref dd), (.doc_enc, .ref de), (.field, .str f), (.pos, .int pos)]

/-- decoder.py:29-45: `DecodeError(msg, s, doc_dec, doc_enc, pos, field)`. -/
theorem new_decodeError (hg : ∀ x, rt.globals x = none) (msg : Str) (sv : Val) (dd de : Nat) (pos : Int) (f : Str) (st : St σ) :
    invoke rt (builtin rt) decodeErrorInitDef [.str msg, sv, .ref dd, .ref de, .int pos, .str f] [] st =
      if formats rt.env pos then (.ok (.ref st.heap.length), { st with heap := st.heap ++ [errObj msg sv dd de pos f] })
      else (.error (.std .ValueError .none), { st with heap := st.heap ++ [.inst .DecodeError [] []] }) := by
  by_cases hf : formats rt.env pos
  · simp [invoke, decodeErrorInitDef, bindParams, runBody, decodeErrorInit1, decodeErrorInit2, decodeErrorInit3, decodeErrorInit4,
      decodeErrorInit5, decodeErrorInit6, decodeErrorInit7, decodeErrorInit8, src, getVar, hf, hg, deref, attrStore, attrSet, errObj]
  · simp [invoke, decodeErrorInitDef, bindParams, runBody, decodeErrorInit1, src, getVar, hf]

/-- What raising the model's message `m` does to a heap, and what is raised. -/
def raises (rt : Rt ε σ) (h : List Obj) (sv : Val) (dd de : Nat) (m : DecMsg) (pos : Nat) (f : Str) : Exc ε × List Obj :=
  if m.numbers.all (formats rt.env) then
    if formats rt.env pos then (.inst .DecodeError h.length, h ++ [errObj m.text sv dd de pos f])
    else (.std .ValueError .none, h ++ [.inst .DecodeError [] []])
  else (.std .ValueError .none, h)

/-- The exception `x` is the model's `e`, or the `ValueError` that takes its place. -/
def ErrIs (rt : Rt ε σ) (h : List Obj) (sv : Val) (dd de : Nat) (e : DecRaise) (x : Exc ε) : Prop :=
  match e with
  | .err m pos f =>
    if (m.numbers ++ [(pos : Int)]).all (formats rt.env) then
      ∃ l, x = .inst .DecodeError l ∧ h[l]? = some (errObj m.text sv dd de pos f)
    else x = .std .ValueError .none
  | .keyError k => x = .std .KeyError (.str k)

/-- `out` is what the model's result `res` looks like when a function is called in state `st`: only the
heap changes, it has the two dicts of the model's state and the objects `F`, and the value or exception
corresponds. -/
def Sim {α : Type} (rt : Rt ε σ) (sv : Val) (dd de : Nat) (F : Except DecRaise α → List (Nat × Obj)) (toV : α → Val)
    (res : Except DecRaise α × DecState) (st : St σ) (out : Except (Exc ε) Val × St σ) : Prop :=
  ∃ h' x, out = (x, { st with heap := h' }) ∧ Rep h' dd de (decItems res.2.dec) res.2.enc (F res.1) ∧
    match res.1 with
    | .ok a => x = .ok (toV a)
    | .error e => ∃ exc, x = .error exc ∧ ErrIs rt h' sv dd de e exc

theorem raises_is (h : List Obj) (sv : Val) (dd de : Nat) (m : DecMsg) (pos : Nat) (f : Str) :
    ErrIs rt (raises rt h sv dd de m pos f).2 sv dd de (.err m pos f) (raises rt h sv dd de m pos f).1 ∧
      ∃ t, (raises rt h sv dd de m pos f).2 = h ++ t := by
  by_cases h1 : m.numbers.all (formats rt.env) <;> by_cases h2 : formats rt.env pos <;> simp [raises, ErrIs, h1, h2]

/-- A function that ends with `raise DecodeError(...)`. -/
theorem sim_raises {α : Type} {sv : Val} {dd de : Nat} {F : Except DecRaise α → List (Nat × Obj)} {toV : α → Val} {ds : DecState} {m : DecMsg} {pos : Nat}
    {f : Str} {st : St σ} {h : List Obj} (r : Rep h dd de (decItems ds.dec) ds.enc (F (.error (.err m pos f)))) :
    Sim rt sv dd de F toV (.error (.err m pos f), ds) st
      (.error (raises rt h sv dd de m pos f).1, { st with heap := (raises rt h sv dd de m pos f).2 }) := by
  obtain ⟨h1, t, h2⟩ := raises_is (rt := rt) h sv dd de m pos f
  exact ⟨_, _, rfl, by rw [h2]; exact r.append t, _, rfl, h1⟩

theorem sim_keyError {α : Type} {sv : Val} {dd de : Nat} {F : Except DecRaise α → List (Nat × Obj)} {toV : α → Val} {ds : DecState} {k : Str} {st : St σ}
    {h : List Obj} (r : Rep h dd de (decItems ds.dec) ds.enc (F (.error (.keyError k)))) :
    Sim rt sv dd de F toV (.error (.keyError k), ds) st (.error (.std .KeyError (.str k)), { st with heap := h }) :=
  ⟨_, _, rfl, r, _, rfl, rfl⟩

theorem sim_ok {α : Type} {sv : Val} {dd de : Nat} {F : Except DecRaise α → List (Nat × Obj)} {toV : α → Val} {ds : DecState} {a : α} {st : St σ}
    {h : List Obj} (r : Rep h dd de (decItems ds.dec) ds.enc (F (.ok a))) :
    Sim rt sv dd de F toV (.ok a, ds) st (.ok (toV a), { st with heap := h }) := ⟨_, _, rfl, r, rfl⟩

/-- `raise DecodeError(msg, s, doc_dec, doc_enc, idx, key)`. -/
theorem exec_raise (hg : ∀ x, rt.globals x = none) {call : Caller ε σ} (hc : call .DecodeError = invoke rt (builtin rt) decodeErrorInitDef)
    (m : DecMsg) (sv : Val) (dd de pos : Nat) (f : Str) (e key : Expr) (st : St σ)
    (hm : eval rt call e st = if m.numbers.all (formats rt.env) then (.ok (.str m.text), st) else (.error (.std .ValueError .none), st))
    (hk : eval rt call key st = (.ok (.str f), st))
    (hd : st.vars .DecodeError = none) (h1 : st.vars .s = some sv) (h2 : st.vars .doc_dec = some (.ref dd))
    (h3 : st.vars .doc_enc = some (.ref de)) (h4 : st.vars .idx = some (.int pos)) :
    exec rt call (.raise (.call .DecodeError [e, .name .s, .name .doc_dec, .name .doc_enc, .name .idx, key] [] [])) st =
      (.error (raises rt st.heap sv dd de m pos f).1, { st with heap := (raises rt st.heap sv dd de m pos f).2 }) := by
  by_cases ha : m.numbers.all (formats rt.env)
  · rw [if_pos ha] at hm
    by_cases hp : formats rt.env pos
    · simp [src, exec_raise_eq, hm, hk, hd, getVar, h1, h2, h3, h4, hc, new_decodeError hg, hp, ha, raises, raiseVal, deref, errObj]
    · simp [src, exec_raise_eq, hm, hk, hd, getVar, h1, h2, h3, h4, hc, new_decodeError hg, hp, ha, raises]
  · rw [if_neg ha] at hm
    simp [src, exec_raise_eq, hm, hd, raises, ha]

/-- The same with a message that is a literal. -/
theorem exec_raise_lit (hg : ∀ x, rt.globals x = none) {call : Caller ε σ} (hc : call .DecodeError = invoke rt (builtin rt) decodeErrorInitDef)
    (m : DecMsg) {t : Str} (ht : m.text = t) (hn : m.numbers = []) (sv : Val) (dd de pos : Nat) (f : Str) (key : Expr) (st : St σ)
    (hk : eval rt call key st = (.ok (.str f), st))
    (hd : st.vars .DecodeError = none) (h1 : st.vars .s = some sv) (h2 : st.vars .doc_dec = some (.ref dd))
    (h3 : st.vars .doc_enc = some (.ref de)) (h4 : st.vars .idx = some (.int pos)) :
    exec rt call (.raise (.call .DecodeError [.str t, .name .s, .name .doc_dec, .name .doc_enc, .name .idx, key] [] [])) st =
      (.error (raises rt st.heap sv dd de m pos f).1, { st with heap := (raises rt st.heap sv dd de m pos f).2 }) := by
  subst ht
  exact exec_raise hg hc m sv dd de pos f _ key st (by rw [hn]; rfl) hk hd h1 h2 h3 h4

/-- Functions in front of the one called do not matter. -/
theorem program_ne (d : Def) (ds : List Def) {f : Ident} (h : f ≠ d.name) : program rt (d :: ds) f = program rt ds f := by
  funext args kws
  simp [program, h]

theorem program_eq (d : Def) (ds : List Def) {f : Ident} (h : f = d.name) :
    program rt (d :: ds) f = invoke rt (program rt ds) d := by
  funext args kws
  simp [program, h]

end Iso8583.Src
