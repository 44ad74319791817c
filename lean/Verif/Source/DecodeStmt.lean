import Verif.Source.DecodeText
/-!
# decoder.py: the statements its functions share
-/

namespace Iso8583.Src

variable {ε σ : Type} {rt : Rt ε σ} {sv : Val} {dd de : Nat} {F : List (Nat × Obj)} {call : Caller ε σ}

/-- As `Sim`, for a function body. -/
def SimX {α : Type} (rt : Rt ε σ) (sv : Val) (dd de : Nat) (F : Except DecRaise α → List (Nat × Obj)) (toV : α → Val)
    (res : Except DecRaise α × DecState) (st : St σ) (out : Except (Exc ε) Flow × St σ) : Prop :=
  ∃ h' x vs, out = (x, { st with vars := vs, heap := h' }) ∧ Rep h' dd de (decItems res.2.dec) res.2.enc (F res.1) ∧
    match res.1 with
    | .ok a => x = .ok (.ret (toV a))
    | .error e => ∃ exc, x = .error exc ∧ ErrIs rt h' sv dd de e exc

/-- From the body to the call. -/
theorem sim_of_body {α : Type} {F : Except DecRaise α → List (Nat × Obj)} {toV : α → Val} {res : Except DecRaise α × DecState} {st : St σ} {d : Def} {args : List Val} {vs : Vars}
    (h1 : d.isClass = false) (h2 : d.isGen = false) (h3 : d.defaults = []) (hp : bindParams d.params args [] = some vs)
    (h : SimX rt sv dd de F toV res { st with vars := vs, locals := d.locals, ys := [] }
      (execs rt call d.body { st with vars := vs, locals := d.locals, ys := [] })) :
    Sim rt sv dd de F toV res st (invoke rt call d args [] st) := by
  obtain ⟨h', x, vs', ho, hr, hx⟩ := h
  rcases hres : res.1 with e | a
  · rw [hres] at hx
    obtain ⟨exc, rfl, he⟩ := hx
    refine ⟨h', .error exc, ?_, hr, ?_⟩
    · simp [invoke, h1, h3, hp, runBody, ho, evals, PyM.run_bind, PyM.run_pure]
    · rw [hres]; exact ⟨exc, rfl, he⟩
  · rw [hres] at hx
    subst hx
    refine ⟨h', .ok (toV a), ?_, hr, ?_⟩
    · simp [invoke, h1, h2, h3, hp, runBody, ho, evals, PyM.run_bind, PyM.run_pure]
    · rw [hres]

/-- Run the first statement. -/
theorem simX_cons {α : Type} {F : Except DecRaise α → List (Nat × Obj)} {toV : α → Val} {res : Except DecRaise α × DecState} {st st0 : St σ} {s : Stmt} {t : List Stmt}
    {vs : Vars} {h : List Obj} (h1 : exec rt call s st = (.ok .next, { st with vars := vs, heap := h }))
    (h2 : SimX rt sv dd de F toV res st0 (execs rt call t { st with vars := vs, heap := h })) :
    SimX rt sv dd de F toV res st0 (execs rt call (s :: t) st) := by
  rw [execs_cons, h1]; exact h2

theorem simX_raises {α : Type} {F : Except DecRaise α → List (Nat × Obj)} {toV : α → Val} {ds : DecState} {m : DecMsg} {pos : Nat} {f : Str} {st st0 : St σ} {s : Stmt} {t : List Stmt}
    {vs : Vars} (r : Rep st.heap dd de (decItems ds.dec) ds.enc (F (.error (.err m pos f))))
    (h1 : exec rt call s st = (.error (raises rt st.heap sv dd de m pos f).1, { st with vars := vs, heap := (raises rt st.heap sv dd de m pos f).2 }))
    (h0 : { st with vars := st0.vars, heap := st0.heap } = st0) :
    SimX rt sv dd de F toV (.error (.err m pos f), ds) st0 (execs rt call (s :: t) st) := by
  obtain ⟨h2, t, h3⟩ := raises_is (rt := rt) st.heap sv dd de m pos f
  refine ⟨_, _, vs, ?_, by rw [h3]; exact r.append t, _, rfl, h2⟩
  rw [execs_cons, h1]
  rw [← h0]

theorem simX_err {α : Type} {F : Except DecRaise α → List (Nat × Obj)} {toV : α → Val} {ds : DecState} {e : DecRaise} {exc : Exc ε} {st st0 : St σ} {s : Stmt} {t : List Stmt}
    {vs : Vars} {h : List Obj} (r : Rep h dd de (decItems ds.dec) ds.enc (F (.error e)))
    (h1 : exec rt call s st = (.error exc, { st with vars := vs, heap := h })) (h2 : ErrIs rt h sv dd de e exc)
    (h0 : { st with vars := st0.vars, heap := st0.heap } = st0) :
    SimX rt sv dd de F toV (.error e, ds) st0 (execs rt call (s :: t) st) := by
  refine ⟨h, _, vs, ?_, r, _, rfl, h2⟩
  rw [execs_cons, h1]
  rw [← h0]

theorem simX_ret {α : Type} {F : Except DecRaise α → List (Nat × Obj)} {toV : α → Val} {ds : DecState} {a : α} {st st0 : St σ} {s : Stmt} {t : List Stmt}
    {vs : Vars} {h : List Obj} (r : Rep h dd de (decItems ds.dec) ds.enc (F (.ok a)))
    (h1 : exec rt call s st = (.ok (.ret (toV a)), { st with vars := vs, heap := h }))
    (h0 : { st with vars := st0.vars, heap := st0.heap } = st0) :
    SimX rt sv dd de F toV (.ok a, ds) st0 (execs rt call (s :: t) st) := by
  refine ⟨h, _, vs, ?_, r, rfl⟩
  rw [execs_cons, h1]
  rw [← h0]

/-! ## Bytes -/

theorem sliceOf_slice (s : Bytes) (i : Nat) (j : Int) : sliceOf s (some (i : Int)) (some j) = slice s i j := by
  have : ¬ ((i : Int) < 0) := by omega
  simp [sliceOf, slice, bound, this]

/-- `s[i:j]`. -/
theorem sliceVal_run {sv : Val} {s : Bytes} {st : St σ} (hb : BytesIn st.heap sv s) (i : Nat) (j : Int) :
    ∃ dv, BytesVal dv (slice s i j) ∧ (sliceVal sv (.int i) (.int j) : M ε σ Val) st = (.ok dv, st) := by
  rcases hb with (rfl | rfl) | ⟨l, rfl, hl⟩
  · exact ⟨_, .inl rfl, by simp [src, sliceOf_slice]⟩
  · exact ⟨_, .inr rfl, by simp [src, sliceOf_slice]⟩
  · refine ⟨.barray (slice s i j), .inr rfl, ?_⟩
    simp only [sliceVal, asBound, PyM.run_bind, deref_run hl, sliceOf_slice, PyM.run_pure]

/-- `len(s)`. -/
theorem lenVal_run {sv : Val} {s : Bytes} {st : St σ} (hb : BytesIn st.heap sv s) : (lenVal sv : M ε σ Val) st = (.ok (.int s.length), st) := by
  rcases hb with (rfl | rfl) | ⟨l, rfl, hl⟩
  · rfl
  · rfl
  · simp only [lenVal, PyM.run_bind, deref_run hl]; rfl

theorem len_bytesVal {v : Val} {b : Bytes} (hb : BytesVal v b) : builtin rt .len [v] [] = pure (.int b.length) := by
  rcases hb with rfl | rfl <;> rfl
theorem bytes_bytesVal {v : Val} {b : Bytes} (hb : BytesVal v b) : builtin rt .bytes [v] [] = pure (.bytes b) := by
  rcases hb with rfl | rfl <;> rfl
theorem hex_bytesVal {v : Val} {b : Bytes} (hb : BytesVal v b) : method rt v .hex [] [] = pure (.str (bytesHex b)) := by
  rcases hb with rfl | rfl <;> rfl
theorem decode_bytesVal {v : Val} {b : Bytes} (hb : BytesVal v b) (n : Str) : method rt v .decode [.str n] [] = decodeVal rt b n := by
  rcases hb with rfl | rfl <;> rfl
theorem from_bytes_bytesVal {v : Val} {b : Bytes} (hb : BytesVal v b) :
    method rt (.glob .int) .from_bytes [v, .str py"big"] [(.signed, .bool false)] = pure (.int (fromBytesBE b)) := by
  rcases hb with rfl | rfl <;> rfl

/-! ## The documents -/

/-- `doc_dec[key] = v`. -/
theorem exec_setDec {st st1 : St σ} {dec : DecDoc} {enc : EncDoc} {key : Expr} {e : Expr} {k v : Str}
    (h1 : eval rt call e st = (.ok (.str v), st1)) (r : Rep st1.heap dd de (decItems dec) enc F) (hv : st1.vars .doc_dec = some (.ref dd))
    (h2 : eval rt call key st1 = (.ok (.str k), st1)) :
    exec rt call (.assign [(.sub (.name .doc_dec) key)] e) st =
      (.ok .next, { st1 with heap := st1.heap.set dd (.dict (decItems (dec.set k v))) }) := by
  simp [src, h1, getVar_some hv, h2, subSet_ref_dict _ _ r.hdec, decItems_set]

/-- `doc_enc[key] = {"len": l, "data": d}`. -/
theorem exec_newEnc {st : St σ} {dec : List (Val × Val)} {enc : EncDoc} {key a b : Expr} {k : Str} {l d : Bytes}
    (r : Rep st.heap dd de dec enc F) (hv : st.vars .doc_enc = some (.ref de)) (h1 : eval rt call a st = (.ok (.bytes l), st))
    (h2 : eval rt call b st = (.ok (.bytes d), st)) (h3 : ∀ h, eval rt call key { st with heap := h } = (.ok (.str k), { st with heap := h })) :
    ∃ h', exec rt call (.assign [(.sub (.name .doc_enc) key)] (.dict [(.str py"len"), (.str py"data")] [a, b])) st =
      (.ok .next, { st with heap := h' }) ∧ Rep h' dd de dec (enc.set k ⟨l, d⟩) F := by
  obtain ⟨items, hi, hr⟩ := r.newEnc k ⟨l, d⟩
  refine ⟨_, ?_, hr⟩
  have h0 : (st.heap ++ [Obj.dict (entryItems ⟨l, d⟩)])[de]? = some (.dict items) := getElem?_append_of hi _
  have hg : ∀ h, getVar rt .doc_enc { st with heap := h } = (.ok (.ref de), { st with heap := h }) := fun h => getVar_some hv
  simp only [entryItems] at h0
  have hs := fun k x => subSet_ref_dict (ε := ε) (st := { st with heap := _ }) k x h0
  simp [src, h1, h2, insert, hg, h3, hs, entryItems]

/-- `doc_enc[key]["data"]`. -/
theorem eval_encData {st : St σ} {dec : List (Val × Val)} {enc : EncDoc} {key : Expr} {k : Str} {e : EncEntry}
    (r : Rep st.heap dd de dec enc F) (hv : st.vars .doc_enc = some (.ref de)) (h1 : eval rt call key st = (.ok (.str k), st))
    (he : enc.get? k = some e) : eval rt call (.sub (.sub (.name .doc_enc) key) (.str py"data")) st = (.ok (.bytes e.data), st) := by
  obtain ⟨items, l, hi, hl, ho, -⟩ := r.entry he
  simp [src, getVar_some hv, h1, subVal_ref_dict _ hi, hl, subVal_ref_dict _ ho, entryItems, lookup]

/-- `doc_enc[key]["data"] = v`. -/
theorem exec_setData {st : St σ} {dec : List (Val × Val)} {enc : EncDoc} {key v : Expr} {k : Str} {e : EncEntry} {b : Bytes}
    (r : Rep st.heap dd de dec enc F) (hv : st.vars .doc_enc = some (.ref de)) (h1 : eval rt call key st = (.ok (.str k), st))
    (he : enc.get? k = some e) (h2 : eval rt call v st = (.ok (.bytes b), st)) :
    ∃ h', exec rt call (.assign [(.sub (.sub (.name .doc_enc) key) (.str py"data"))] v) st = (.ok .next, { st with heap := h' }) ∧
      Rep h' dd de dec (enc.set k ⟨e.len, b⟩) F := by
  obtain ⟨items, l, hi, hl, ho, hr⟩ := r.entry he
  refine ⟨_, ?_, hr ⟨e.len, b⟩⟩
  simp [src, getVar_some hv, h1, h2, subVal_ref_dict _ hi, hl, subSet_ref_dict _ _ ho, entryItems, insert]

end Iso8583.Src
