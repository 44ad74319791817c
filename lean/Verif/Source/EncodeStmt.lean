import Verif.Source.EncodeBinary
/-!
# encoder.py: the statements its functions share
-/

namespace Iso8583.Src

variable {ε σ : Type} {rt : Rt ε σ} {call : Caller ε σ} {dd de : Nat} {F : List (Nat × Obj)} {items : List (Val × Val)}

/-- The names the functions of encoder.py call. -/
structure EncCalls (rt : Rt ε σ) (call : Caller ε σ) : Prop where
  err : call .EncodeError = invoke rt (builtin rt) encodeErrorInitDef
  len : call .len = builtin rt .len
  bytes : call .bytes = builtin rt .bytes
  bytearray : call .bytearray = builtin rt .bytearray
  text : call ._encode_text_field = invoke rt (program rt [encodeErrorInitDef]) encodeTextFieldDef
  binary : call ._encode_bindary_field =
    invoke rt (program rt [addPadFieldDef, encodeTextFieldDef, encodeErrorInitDef]) encodeBindaryFieldDef

/-- `doc_enc[key]["len"]`. -/
theorem eval_encLen {st : St σ} {dec : List (Val × Val)} {enc : EncDoc} {key : Expr} {k : Str} {e : EncEntry}
    (r : Rep st.heap dd de dec enc F) (hv : st.vars .doc_enc = some (.ref de)) (h1 : eval rt call key st = (.ok (.str k), st))
    (he : enc.get? k = some e) : eval rt call (.sub (.sub (.name .doc_enc) key) (.str py"len")) st = (.ok (.bytes e.len), st) := by
  obtain ⟨items, l, hi, hl, ho, -⟩ := r.entry he
  simp [src, getVar_some hv, h1, subVal_ref_dict _ hi, hl, subVal_ref_dict _ ho, entryItems, lookup]

/-- `doc_enc[key]["len"] = v`. -/
theorem exec_setLen {st : St σ} {dec : List (Val × Val)} {enc : EncDoc} {key v : Expr} {k : Str} {e : EncEntry} {b : Bytes}
    (r : Rep st.heap dd de dec enc F) (hv : st.vars .doc_enc = some (.ref de)) (h1 : eval rt call key st = (.ok (.str k), st))
    (he : enc.get? k = some e) (h2 : eval rt call v st = (.ok (.bytes b), st)) :
    ∃ h', exec rt call (.assign [(.sub (.sub (.name .doc_enc) key) (.str py"len"))] v) st = (.ok .next, { st with heap := h' }) ∧
      Rep h' dd de dec (enc.set k ⟨b, e.data⟩) F := by
  obtain ⟨items, l, hi, hl, ho, hr⟩ := r.entry he
  refine ⟨_, ?_, hr ⟨b, e.data⟩⟩
  simp [src, getVar_some hv, h1, h2, subVal_ref_dict _ hi, hl, subSet_ref_dict _ _ ho, entryItems, insert]

/-- `doc_enc[key]["data"], enc_field_len = v`. -/
theorem exec_setPair {st : St σ} {dec : List (Val × Val)} {enc : EncDoc} {key v : Expr} {k : Str} {e : EncEntry} {p : Bytes × Nat} {h : List Obj}
    (r : Rep h dd de dec enc F) (hv : st.vars .doc_enc = some (.ref de)) (h1 : eval rt call key { st with heap := h } = (.ok (.str k), { st with heap := h }))
    (he : enc.get? k = some e) (h2 : eval rt call v st = (.ok (pairVal p), { st with heap := h })) :
    ∃ h', exec rt call (.assign [(.sub (.sub (.name .doc_enc) key) (.str py"data")), (.name .enc_field_len)] v) st =
      (.ok .next, { st with heap := h', vars := st.vars.set .enc_field_len (.int p.2) }) ∧
      Rep h' dd de dec (enc.set k ⟨e.len, p.1⟩) F := by
  obtain ⟨items, l, hi, hl, ho, hr⟩ := r.entry he
  refine ⟨_, ?_, hr ⟨e.len, p.1⟩⟩
  have hg : getVar rt .doc_enc { st with heap := h } = (.ok (.ref de), { st with heap := h }) := getVar_some hv
  have ha : ∀ (ts : Target) (vs : Val), exec rt call (.assign [ts, .name .enc_field_len] v) st = (do
    let v ← eval rt call v
    match v with
    | .tuple vs => assignAll rt call [ts, .name .enc_field_len] vs
    | _ => stuck
    pure .next : M ε σ Flow) st := by
    intro ts vs
    simp only [exec, PyM.run_bind]
    rcases eval rt call v st with ⟨_ | y, st'⟩
    · rfl
    · cases y <;> rfl
  rw [ha _ .none]
  have s1 := subVal_ref_dict (ε := ε) (st := { st with heap := h }) (.str k) hi
  have s2 := fun x => subSet_ref_dict (ε := ε) (st := { st with heap := h }) (.str py"data") x ho
  simp [src, hg, h1, h2, s1, hl, s2, entryItems, insert, pairVal]

/-- `doc_dec[key]`. -/
theorem eval_docGet {st : St σ} {doc : Doc} {enc : EncDoc} {key : Expr} {k : Str} (r : Rep st.heap dd de items enc F) (di : DocIs items doc)
    (hv : st.vars .doc_dec = some (.ref dd)) (h1 : eval rt call key st = (.ok (.str k), st)) :
    (doc.get? (.str k) = none ∧ eval rt call (.sub (.name .doc_dec) key) st = (.error (.std .KeyError (.str k)), st)) ∨
    (∃ x v, doc.get? (.str k) = some v ∧ valOf x = some v ∧ eval rt call (.sub (.name .doc_dec) key) st = (.ok x, st)) := by
  have h := di.get (k := k)
  cases hd : doc.get? (.str k) with
  | none =>
    rw [hd] at h
    left
    simp [src, getVar_some hv, h1, subVal_ref_dict _ r.hdec, h]
  | some v =>
    rw [hd] at h
    obtain ⟨x, hx, hv'⟩ := h
    right
    exact ⟨x, v, rfl, hv', by simp [src, getVar_some hv, h1, subVal_ref_dict _ r.hdec, hx]⟩

/-- `"k" not in doc_dec`. -/
theorem eval_docHas {st : St σ} {doc : Doc} {enc : EncDoc} {k : Str} (r : Rep st.heap dd de items enc F) (di : DocIs items doc)
    (hv : st.vars .doc_dec = some (.ref dd)) :
    eval rt call (.cmp .notMem (.str k) (.name .doc_dec)) st = (.ok (.bool (!doc.contains (.str k))), st) := by
  have h := di.get (k := k)
  have hc : doc.contains (.str k) = (lookup items (.str k)).isSome := by
    simp only [Dict.contains]
    cases hd : doc.get? (.str k) with
    | none => rw [hd] at h; simp [h]
    | some v => rw [hd] at h; obtain ⟨x, hx, -⟩ := h; simp [hx]
  simp [src, getVar_some hv, contains_ref_dict _ r.hdec, hc]

/-- The model of the data of a field: encoder.py:405-423, 253-270. -/
def dataOf (env : PyEnv) (key : Str) (fs : FieldSpec) (count : Str) : EncM (Bytes × Nat) := do
  let v ← docGet key
  PyM.lift <|
    if fs.dataEnc = py"b" then encodeBinaryField v key fs count
    else encodeTextField env v key fs count

theorem dataOf_run (env : PyEnv) (key : Str) (fs : FieldSpec) (count : Str) (es : EncState) : dataOf env key fs count es =
    match es.dec.get? (.str key) with
    | none => (.error (.keyError key), es)
    | some v => (if fs.dataEnc = py"b" then encodeBinaryField v key fs count else encodeTextField env v key fs count, es) := by
  simp only [dataOf, docGet, PyM.run_bind, PyM.run_get]
  cases es.dec.get? (.str key) with
  | none => rfl
  | some v => rfl

/-- encoder.py:405-423, 253-270. -/
theorem dataStmt_run (hg : ∀ x, rt.globals x = none) (hc : EncCalls rt call) {fv : Val} {fs : FieldSpec} {key count : Str} {keyE specE countE : Expr}
    {es : EncState} {st : St σ} {e : EncEntry} (hde : PropVal fv py"data_enc" (some (.str fs.dataEnc)))
    (hlp : PropVal fv py"left_pad" (fs.leftPad.map .str)) (hrp : PropVal fv py"right_pad" (fs.rightPad.map .str)) (r : Rep st.heap dd de items es.enc F) (di : DocIs items es.dec)
    (w1 : st.vars .doc_dec = some (.ref dd)) (w2 : st.vars .doc_enc = some (.ref de))
    (w3 : st.vars ._encode_bindary_field = none) (w4 : st.vars ._encode_text_field = none)
    (h1 : ∀ h, eval rt call keyE { st with heap := h } = (.ok (.str key), { st with heap := h }))
    (h2 : eval rt call specE st = (.ok fv, st)) (h3 : eval rt call countE st = (.ok (.str count), st))
    (he : es.enc.get? key = some e) :
    let s : Stmt := .ite (.cmp .eq (.sub specE (.str py"data_enc")) (.str py"b")) [
      .assign [(.sub (.sub (.name .doc_enc) keyE) (.str py"data")), (.name .enc_field_len)] (.call ._encode_bindary_field [(.name .doc_dec), (.name .doc_enc), (.sub (.name .doc_dec) keyE), keyE, specE, countE] [] [])] [
      .assign [(.sub (.sub (.name .doc_enc) keyE) (.str py"data")), (.name .enc_field_len)] (.call ._encode_text_field [(.name .doc_dec), (.name .doc_enc), (.sub (.name .doc_dec) keyE), keyE, specE, countE] [] [])]
    (∃ p h' items', dataOf rt.env key fs count es = (.ok p, es) ∧
      exec rt call s st = (.ok .next, { st with heap := h', vars := st.vars.set .enc_field_len (.int p.2) }) ∧
      Rep h' dd de items' (es.enc.set key ⟨e.len, p.1⟩) F ∧ DocIs items' es.dec ∧ Keeps items items') ∨
    (∃ x exc h' items', dataOf rt.env key fs count es = (.error x, es) ∧
      exec rt call s st = (.error exc, { st with heap := h' }) ∧
      Rep h' dd de items' es.enc F ∧ DocIs items' es.dec ∧ Keeps items items' ∧ ErrIsE rt h' dd de x exc) := by
  intro s
  have hde0 := hde
  obtain ⟨its, rfl, g1⟩ := hde
  have hk : eval rt call keyE st = (.ok (.str key), st) := h1 st.heap
  have n1 : eval rt call (.name .doc_dec) st = (.ok (.ref dd), st) := by simp [src, getVar_some w1]
  have n2 : eval rt call (.name .doc_enc) st = (.ok (.ref de), st) := by simp [src, getVar_some w2]
  rcases eval_docGet (rt := rt) (call := call) r di w1 hk with ⟨hd, hev⟩ | ⟨x, v, hd, hx, hev⟩
  · right
    refine ⟨.keyError key, .std .KeyError (.str key), st.heap, items, ?_, ?_, r, di, Keeps.refl _, rfl⟩
    · rw [dataOf_run, hd]
    · by_cases hb : fs.dataEnc = py"b" <;> simp [s, src, exec, h2, g1, hb, w3, w4, n1, n2, hev]
  · by_cases hb : fs.dataEnc = py"b"
    · have hm : dataOf rt.env key fs count es = (encodeBinaryField v key fs count, es) := by
        rw [dataOf_run, hd]; simp only [hb, if_true, if_false]
      have hsim := encodeBinaryField_sim (rt := rt) (key := key) (count := count) hg hlp hrp hx r di
      rw [← hc.binary] at hsim
      obtain ⟨h', y, items', ho, hr, hdi, hkp, hy⟩ := hsim
      have hcall : eval rt call (.call ._encode_bindary_field [(.name .doc_dec), (.name .doc_enc), (.sub (.name .doc_dec) keyE), keyE, specE, countE] [] []) st = (y, { st with heap := h' }) := by
        simp [eval_call w3, src, n1, n2, hev, hk, h2, h3, ho]
      have hs : exec rt call s st = exec rt call (.assign [(.sub (.sub (.name .doc_enc) keyE) (.str py"data")), (.name .enc_field_len)] (.call ._encode_bindary_field [(.name .doc_dec), (.name .doc_enc), (.sub (.name .doc_dec) keyE), keyE, specE, countE] [] [])) st := by
        rw [exec_ite]
        simp only [src, h2, g1, hb, beq_self_eq_true, if_true]
        rcases exec rt call (.assign [(.sub (.sub (.name .doc_enc) keyE) (.str py"data")), (.name .enc_field_len)] (.call ._encode_bindary_field [(.name .doc_dec), (.name .doc_enc), (.sub (.name .doc_dec) keyE), keyE, specE, countE] [] [])) st with ⟨_ | f, st'⟩
        · rfl
        · cases f <;> rfl
      rw [hm, hs]
      rcases hres : encodeBinaryField v key fs count with x | p
      · rw [hres] at hy
        obtain ⟨exc, rfl, herr⟩ := hy
        right
        exact ⟨x, exc, h', items', rfl, by simp [exec, PyM.run_bind, hcall], hr, hdi, hkp, herr⟩
      · rw [hres] at hy
        left
        simp only [] at hy
        subst hy
        obtain ⟨h'', hx1, hx2⟩ := exec_setPair (rt := rt) (call := call) hr w2 (h1 h') he hcall
        exact ⟨p, h'', items', rfl, hx1, hx2, hdi, hkp⟩
    · have hm : dataOf rt.env key fs count es = (encodeTextField rt.env v key fs count, es) := by
        rw [dataOf_run, hd]; simp only [hb, if_true, if_false]
      have hsim := encodeTextField_sim (rt := rt) (key := key) (count := count) hg hde0 hx r di
      rw [← hc.text] at hsim
      obtain ⟨h', y, items', ho, hr, hdi, hkp, hy⟩ := hsim
      have hcall : eval rt call (.call ._encode_text_field [(.name .doc_dec), (.name .doc_enc), (.sub (.name .doc_dec) keyE), keyE, specE, countE] [] []) st = (y, { st with heap := h' }) := by
        simp [eval_call w4, src, n1, n2, hev, hk, h2, h3, ho]
      have hs : exec rt call s st = exec rt call (.assign [(.sub (.sub (.name .doc_enc) keyE) (.str py"data")), (.name .enc_field_len)] (.call ._encode_text_field [(.name .doc_dec), (.name .doc_enc), (.sub (.name .doc_dec) keyE), keyE, specE, countE] [] [])) st := by
        rw [exec_ite]
        have hb' : (fs.dataEnc == py"b") = false := by simp [hb]
        simp only [src, h2, g1, hb']
        simp only [Bool.false_eq_true, if_false]
        rcases exec rt call (.assign [(.sub (.sub (.name .doc_enc) keyE) (.str py"data")), (.name .enc_field_len)] (.call ._encode_text_field [(.name .doc_dec), (.name .doc_enc), (.sub (.name .doc_dec) keyE), keyE, specE, countE] [] [])) st with ⟨_ | f, st'⟩
        · rfl
        · cases f <;> rfl
      rw [hm, hs]
      rcases hres : encodeTextField rt.env v key fs count with x | p
      · rw [hres] at hy
        obtain ⟨exc, rfl, herr⟩ := hy
        right
        exact ⟨x, exc, h', items', rfl, by simp [exec, PyM.run_bind, hcall], hr, hdi, hkp, herr⟩
      · rw [hres] at hy
        left
        simp only [] at hy
        subst hy
        obtain ⟨h'', hx1, hx2⟩ := exec_setPair (rt := rt) (call := call) hr w2 (h1 h') he hcall
        exact ⟨p, h'', items', rfl, hx1, hx2, hdi, hkp⟩

/-- The same without `data_enc`: the condition raises `KeyError`. -/
theorem dataStmt_missing {fv : Val} {specE : Expr} {t e : List Stmt} {st : St σ} (hde : PropVal fv py"data_enc" none)
    (h2 : eval rt call specE st = (.ok fv, st)) :
    exec rt call (.ite (.cmp .eq (.sub specE (.str py"data_enc")) (.str py"b")) t e) st = (.error (.std .KeyError (.str py"data_enc")), st) := by
  obtain ⟨its, rfl, g1⟩ := hde
  simp [src, exec, h2, g1]

end Iso8583.Src
