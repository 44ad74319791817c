import Verif.Source.EncodeField
import Verif.Source.DecodeType
/-!
# encoder.py: `_encode_header` and `_encode_type`
-/

namespace Iso8583.Src

variable {ε σ : Type} {rt : Rt ε σ} {call : Caller ε σ} {dd de : Nat} {F : List (Nat × Obj)} {items : List (Val × Val)} {pv : Val} {spec : PartialSpec}

theorem encCalls_base : EncCalls rt (program rt [encodeBindaryFieldDef, addPadFieldDef, encodeTextFieldDef, encodeErrorInitDef]) where
  err := by
    rw [program_ne _ _ (by decide), program_ne _ _ (by decide), program_ne _ _ (by decide)]; exact program_eq _ _ rfl
  len := by
    rw [program_ne _ _ (by decide), program_ne _ _ (by decide), program_ne _ _ (by decide), program_ne _ _ (by decide)]; rfl
  bytes := by
    rw [program_ne _ _ (by decide), program_ne _ _ (by decide), program_ne _ _ (by decide), program_ne _ _ (by decide)]; rfl
  bytearray := by
    rw [program_ne _ _ (by decide), program_ne _ _ (by decide), program_ne _ _ (by decide), program_ne _ _ (by decide)]; rfl
  text := by
    rw [program_ne _ _ (by decide), program_ne _ _ (by decide)]; exact program_eq _ _ rfl
  binary := program_eq _ _ rfl

theorem EncCalls.cons {d : Def} {ds : List Def} (h : EncCalls rt (program rt ds))
    (hd : d.name ∉ [Ident.EncodeError, .len, .bytes, .bytearray, ._encode_text_field, ._encode_bindary_field]) :
    EncCalls rt (program rt (d :: ds)) := by
  simp only [List.mem_cons, List.not_mem_nil, or_false, not_or] at hd
  obtain ⟨h1, h2, h3, h4, h5, h6⟩ := hd
  exact {
    err := by rw [program_ne _ _ (Ne.symm h1)]; exact h.err
    len := by rw [program_ne _ _ (Ne.symm h2)]; exact h.len
    bytes := by rw [program_ne _ _ (Ne.symm h3)]; exact h.bytes
    bytearray := by rw [program_ne _ _ (Ne.symm h4)]; exact h.bytearray
    text := by rw [program_ne _ _ (Ne.symm h5)]; exact h.text
    binary := by rw [program_ne _ _ (Ne.symm h6)]; exact h.binary }

/-- As `EncCalls`, with `_encode_field`. -/
structure EncCallsF (rt : Rt ε σ) (call : Caller ε σ) : Prop extends EncCalls rt call where
  field : call ._encode_field =
    invoke rt (program rt [encodeBindaryFieldDef, addPadFieldDef, encodeTextFieldDef, encodeErrorInitDef]) encodeFieldDef

/-- encoder.py:172-210 `_encode_header`. -/
theorem encodeHeader_sim (hg : ∀ x, rt.globals x = none) (hc : EncCallsF rt call) (hp : PSpecVal pv spec)
    {es : EncState} {st : St σ} (r : Rep st.heap dd de items es.enc F) (di : DocIs items es.dec) :
    SimE rt dd de items (fun _ => F) (fun b => .bytes b) (encodeHeaderP rt.env spec es) st
      (invoke rt call encodeHeaderDef [.ref dd, .ref de, pv] [] st) := by
  refine simE_of_body rfl rfl rfl rfl ?_
  generalize hst0 : ({ st with vars := _, locals := _, ys := _ } : St σ) = st0
  have hheap : st0.heap = st.heap := by subst hst0; rfl
  have v1 : st0.vars .doc_dec = some (.ref dd) := by subst hst0; simp [src, encodeHeaderDef]
  have v2 : st0.vars .doc_enc = some (.ref de) := by subst hst0; simp [src, encodeHeaderDef]
  have v3 : st0.vars .spec = some pv := by subst hst0; simp [src, encodeHeaderDef]
  have v4 : st0.vars .EncodeError = none := by subst hst0; simp [src, encodeHeaderDef]
  have v5 : st0.vars ._encode_field = none := by subst hst0; simp [src, encodeHeaderDef]
  clear hst0
  rw [← hheap] at r
  rcases subVal_spec (ε := ε) hp py"h" st0 with ⟨hs, hev⟩ | ⟨fs, fv, hs, hv, hev⟩
  · have hm : encodeHeaderP rt.env spec es = (.error (.keyError py"h"), es) := by
      simp only [encodeHeaderP, partialSpec, need, hs, PyM.run_bind, PyM.run_raise]
    rw [hm]
    refine simEX_err (exc := .std .KeyError (.str py"h")) (vs := st0.vars) (h := st0.heap) (G := fun _ => F) r di (Keeps.refl _) ?_ rfl rfl
    simp [encodeHeader1, src, getVar, v3, hev]
  · have hv0 := hv
    obtain ⟨its, rfl, -, -, -, g4, -⟩ := hv
    cases hml0 : fs.maxLen with
    | none =>
      have hm : encodeHeaderP rt.env spec es = (.error (.keyError py"max_len"), es) := by
        simp [encodeHeaderP, PyM.run_bind, partialSpec, need, hs, hml0]
      rw [hm]
      rw [hml0] at g4
      refine simEX_err (exc := .std .KeyError (.str py"max_len")) (vs := st0.vars) (h := st0.heap) (G := fun _ => F) r di (Keeps.refl _) ?_ rfl rfl
      simp [encodeHeader1, src, getVar, v3, hev, g4]
    | some ml =>
    rw [hml0] at g4
    by_cases hml : ml ≤ 0
    · have hm : encodeHeaderP rt.env spec es = (.ok [], es) := by
        simp [encodeHeaderP, PyM.run_bind, partialSpec, need, hs, hml0, hml]
      rw [hm]
      refine simEX_ret (vs := st0.vars) (h := st0.heap) (G := fun _ => F) r di (Keeps.refl _) ?_ rfl
      simp [encodeHeader1, src, getVar, v3, hev, g4, hml]
    · refine simEX_cons (vs := st0.vars) (h := st0.heap) (by simp [encodeHeader1, src, getVar, v3, hev, g4, hml]) ?_
      have hhas := eval_docHas (rt := rt) (call := call) (k := py"h") r di v1
      by_cases hin : es.dec.contains (.str py"h")
      · have hm : encodeHeaderP rt.env spec es = encodeFieldP rt.env py"h" fs es := by
          simp [encodeHeaderP, PyM.run_bind, partialSpec, need, hs, hml0, hml, hin]
        rw [hm]
        simp only [hin, Bool.not_true] at hhas
        refine simEX_cons (vs := st0.vars) (h := st0.heap) (by simp [encodeHeader2, src, hhas]) ?_
        have hsim := encodeField_sim (rt := rt) (key := py"h") hg encCalls_base hv0 r di
        rw [← hc.field] at hsim
        obtain ⟨h', x, items', ho, hr, hdi, hk, hx⟩ := hsim
        have he : exec rt call encodeHeader3 st0 = match x with
            | .ok v => (.ok (.ret v), { st0 with heap := h' })
            | .error e => (.error e, { st0 with heap := h' }) := by
          simp only [encodeHeader3]
          simp only [src, eval_call v5, getVar, v1, v2, v3, hev, List.zip_nil_left, ho]
          cases x <;> rfl
        rcases hres : encodeFieldP rt.env py"h" fs es with ⟨e | b, es'⟩
        · rw [hres] at hx hr hdi
          obtain ⟨exc, rfl, hxx⟩ := hx
          exact simEX_err (vs := st0.vars) (h := h') (G := fun _ => F) hr hdi hk he hxx rfl
        · rw [hres] at hx hr hdi
          simp only [] at hx
          subst hx
          exact simEX_ret (vs := st0.vars) (h := h') (G := fun _ => F) hr hdi hk he rfl
      · have hm : encodeHeaderP rt.env spec es = (.error (.err .requiredBySpec py"h"), es) := by
          simp [encodeHeaderP, PyM.run_bind, partialSpec, need, hs, hml0, hml, hin, encFail]
        rw [hm]
        simp only [hin] at hhas
        have hr := exec_raiseE_lit (dd := dd) (de := de) hg hc.err .requiredBySpec rfl rfl py"h" (.str py"h") st0 (by simp [src]) v4 v1 v2
        simp only [EncMsg.text] at hr
        refine simEX_raises (d := []) (by simp) (h := st0.heap) (vs := st0.vars) (G := fun _ => F) r di (Keeps.refl _) ?_ rfl
        simp [encodeHeader2, src, hhas, hr]

/-- encoder.py:272-280 of the model. -/
def typeTail (expected : Nat) (p : Bytes × Nat) : EncM Bytes := do
  if p.2 ≠ expected then
    encFail (.typeLen p.2 expected) py"t"
  return p.1

theorem encodeType_split (env : PyEnv) (spec : PartialSpec) (f : PartialField) (es : EncState) (hin : es.dec.contains (.str py"t") = true)
    (hs : spec.get? py"t" = some f) {den : Str} (hd : f.dataEnc = some den) :
    encodeTypeP env spec es =
      match dataOf env py"t" f.seen py"bytes" { es with enc := es.enc.set py"t" ⟨[], []⟩ } with
      | (.error e, s) => (.error e, s)
      | (.ok p, s) => typeTail (if den = py"b" then 2 else 4) p { s with enc := s.enc.set py"t" ⟨[], p.1⟩ } := by
  have hsn : f.seen.dataEnc = den := seen_dataEnc hd
  unfold encodeTypeP dataOf typeTail
  simp only [PyM.run_bind, PyM.run_get, hin, not_true_eq_false, if_false, PyM.run_pure, partialSpec, need, hs, hd, hsn, encSet, PyM.run_modify]
  rcases docGet py"t" { es with enc := es.enc.set py"t" ⟨[], []⟩ } with ⟨_ | v, s⟩
  · rfl
  · simp only []
    rcases (PyM.lift (if den = py"b" then encodeBinaryField v py"t" f.seen py"bytes" else encodeTextField env v py"t" f.seen py"bytes") : EncM _) s with ⟨_ | p, s'⟩
    · rfl
    · rfl

/-- encoder.py:213-280 `_encode_type`. -/
theorem encodeType_sim (hg : ∀ x, rt.globals x = none) (hc : EncCalls rt call) (hp : PSpecVal pv spec)
    {es : EncState} {st : St σ} (r : Rep st.heap dd de items es.enc F) (di : DocIs items es.dec) :
    SimE rt dd de items (fun _ => F) (fun b => .bytes b) (encodeTypeP rt.env spec es) st
      (invoke rt call encodeTypeDef [.ref dd, .ref de, pv] [] st) := by
  refine simE_of_body rfl rfl rfl rfl ?_
  generalize hst0 : ({ st with vars := _, locals := _, ys := _ } : St σ) = st0
  have hheap : st0.heap = st.heap := by subst hst0; rfl
  have v1 : st0.vars .doc_dec = some (.ref dd) := by subst hst0; simp [src, encodeTypeDef]
  have v2 : st0.vars .doc_enc = some (.ref de) := by subst hst0; simp [src, encodeTypeDef]
  have v3 : st0.vars .spec = some pv := by subst hst0; simp [src, encodeTypeDef]
  have v4 : st0.vars .EncodeError = none := by subst hst0; simp [src, encodeTypeDef]
  have v5 : st0.vars ._encode_bindary_field = none := by subst hst0; simp [src, encodeTypeDef]
  have v6 : st0.vars ._encode_text_field = none := by subst hst0; simp [src, encodeTypeDef]
  clear hst0
  rw [← hheap] at r
  have hhas := eval_docHas (rt := rt) (call := call) (k := py"t") r di v1
  by_cases hin : es.dec.contains (.str py"t")
  rotate_left
  · have hm : encodeTypeP rt.env spec es = (.error (.err .required py"t"), es) := by
      simp [encodeTypeP, PyM.run_bind, hin, encFail]
    rw [hm]
    simp only [hin] at hhas
    have hr := exec_raiseE_lit (dd := dd) (de := de) hg hc.err .required rfl rfl py"t" (.str py"t") st0 (by simp [src]) v4 v1 v2
    simp only [EncMsg.text] at hr
    refine simEX_raises (d := []) (by simp) (h := st0.heap) (vs := st0.vars) (G := fun _ => F) r di (Keeps.refl _) ?_ rfl
    simp [encodeType1, src, hhas, hr]
  simp only [hin, Bool.not_true] at hhas
  refine simEX_cons (vs := st0.vars) (h := st0.heap) (by simp [encodeType1, src, hhas]) ?_
  rcases subVal_spec (ε := ε) hp py"t" st0 with ⟨hs, hev⟩ | ⟨fs, fv, hs, hv, hev⟩
  · have hm : encodeTypeP rt.env spec es = (.error (.keyError py"t"), es) := by
      simp [encodeTypeP, PyM.run_bind, hin, partialSpec, need, hs]
    rw [hm]
    refine simEX_err (exc := .std .KeyError (.str py"t")) (vs := st0.vars) (h := st0.heap) (G := fun _ => F) r di (Keeps.refl _) ?_ rfl rfl
    simp [encodeType2, src, getVar, v3, hev]
  obtain ⟨its, rfl, g1, -, -, -, -, g6, g7, -⟩ := hv
  cases hde : fs.dataEnc with
  | none =>
    have hm : encodeTypeP rt.env spec es = (.error (.keyError py"data_enc"), es) := by
      simp [encodeTypeP, PyM.run_bind, hin, partialSpec, need, hs, hde]
    rw [hm]
    rw [hde] at g1
    refine simEX_err (exc := .std .KeyError (.str py"data_enc")) (vs := st0.vars) (h := st0.heap) (G := fun _ => F) r di (Keeps.refl _) ?_ rfl rfl
    simp [encodeType2, src, getVar, v3, hev, g1]
  | some den =>
  have g1' : lookup its (.str py"data_enc") = some (.str fs.seen.dataEnc) := by rw [g1, seen_dataEnc hde, hde]; rfl
  rw [hde] at g1
  rw [encodeType_split _ _ _ _ hin hs hde]
  generalize hexp : (if den = py"b" then 2 else 4 : Nat) = ex
  -- encoder.py:246-249
  refine simEX_cons (vs := st0.vars.set .expected_field_len (.int ex)) (h := st0.heap) ?_ ?_
  · subst hexp
    by_cases hb : den = py"b" <;> simp [encodeType2, src, getVar, v3, hev, g1, hb]
  have w1 : (st0.vars.set .expected_field_len (.int ex)) .doc_dec = some (.ref dd) := by simp [src, v1]
  have w2 : (st0.vars.set .expected_field_len (.int ex)) .doc_enc = some (.ref de) := by simp [src, v2]
  have w3 : (st0.vars.set .expected_field_len (.int ex)) .spec = some pv := by simp [src, v3]
  have w4 : (st0.vars.set .expected_field_len (.int ex)) .EncodeError = none := by simp [src, v4]
  have w5 : (st0.vars.set .expected_field_len (.int ex)) ._encode_bindary_field = none := by simp [src, v5]
  have w6 : (st0.vars.set .expected_field_len (.int ex)) ._encode_text_field = none := by simp [src, v6]
  have w7 : (st0.vars.set .expected_field_len (.int ex)) .expected_field_len = some (.int ex) := by simp [src]
  generalize st0.vars.set .expected_field_len (.int ex) = V1 at w1 w2 w3 w4 w5 w6 w7 ⊢
  -- encoder.py:251
  obtain ⟨h1, hx1, r1⟩ := exec_newEnc (rt := rt) (call := call) (st := { st0 with vars := V1 }) (key := .str py"t") (a := .bytes []) (b := .bytes []) (k := py"t") (l := []) (d := [])
    r w2 (by simp [src]) (by simp [src]) (fun h => by simp [src])
  refine simEX_cons (s := encodeType3) (vs := V1) (h := h1) hx1 ?_
  -- encoder.py:253-270
  have hd := dataStmt_run (rt := rt) (call := call) (st := { st0 with vars := V1, heap := h1 }) (es := { es with enc := es.enc.set py"t" ⟨[], []⟩ })
    (e := ⟨[], []⟩) (keyE := .str py"t") (specE := .sub (.name .spec) (.str py"t")) (countE := .str py"bytes") (key := py"t") (count := py"bytes")
    hg hc ⟨its, rfl, g1'⟩ ⟨its, rfl, g6⟩ ⟨its, rfl, g7⟩ r1 di w1 w2 w5 w6 (fun h => by simp [src])
    (by simp [src, getVar, w3, hev]) (by simp [src]) (Dict.get?_set_same _ _ _)
  rcases hd with ⟨p, h2, items2, hm, hx, r2, d2, k2⟩ | ⟨x, exc, h2, items2, hm, hx, r2, d2, k2, he⟩
  rotate_left
  · rw [hm]
    exact simEX_err (st0 := st0) (st := { st0 with vars := V1, heap := h1 }) (s := encodeType4) (vs := V1) (h := h2) (G := fun _ => F) r2 d2 k2 hx he rfl
  rw [hm]
  refine simEX_cons (s := encodeType4) (vs := V1.set .enc_field_len (.int p.2)) (h := h2) hx ?_
  simp only [Dict.set_set] at r2 ⊢
  have hget : (es.enc.set py"t" ⟨[], p.1⟩).get? py"t" = some ⟨[], p.1⟩ := Dict.get?_set_same _ _ _
  have y1 : (V1.set .enc_field_len (.int p.2)) .doc_dec = some (.ref dd) := by simp [src, w1]
  have y2 : (V1.set .enc_field_len (.int p.2)) .doc_enc = some (.ref de) := by simp [src, w2]
  have y3 : (V1.set .enc_field_len (.int p.2)) .EncodeError = none := by simp [src, w4]
  have y4 : (V1.set .enc_field_len (.int p.2)) .enc_field_len = some (.int p.2) := by simp [src]
  have y5 : (V1.set .enc_field_len (.int p.2)) .expected_field_len = some (.int ex) := by simp [src, w7]
  generalize V1.set .enc_field_len (.int p.2) = V2 at y1 y2 y3 y4 y5 ⊢
  by_cases hl : p.2 = ex
  · have hmod : typeTail ex p { es with enc := es.enc.set py"t" ⟨[], p.1⟩ } = (.ok p.1, { es with enc := es.enc.set py"t" ⟨[], p.1⟩ }) := by
      simp [typeTail, hl]
    rw [hmod]
    refine simEX_cons (vs := V2) (h := h2) (by simp [encodeType5, src, getVar, y4, y5, hl]) ?_
    have hdat := eval_encData (rt := rt) (call := call) (st := { st0 with vars := V2, heap := h2 }) (key := .str py"t") (k := py"t") r2 y2
      (by simp [src]) hget
    refine simEX_ret (vs := V2) (h := h2) (G := fun _ => F) r2 d2 k2 ?_ rfl
    simp [encodeType6, src, hdat]
  · have hl' : ¬ ((p.2 : Int) = ex) := by omega
    have hmod : typeTail ex p { es with enc := es.enc.set py"t" ⟨[], p.1⟩ } =
        (.error (.err (.typeLen p.2 ex) py"t"), { es with enc := es.enc.set py"t" ⟨[], p.1⟩ }) := by
      simp [typeTail, hl, encFail, PyM.run_bind]
    rw [hmod]
    have hr1 := exec_raiseE (dd := dd) (de := de) (st := { st0 with vars := V2, heap := h2 }) (st1 := { st0 with vars := V2, heap := h2 }) hg hc.err
      (.typeLen p.2 ex) [] py"t" (.fstr [(.str py"Field data is "), (.name .enc_field_len), (.str py" bytes, expecting "), (.name .expected_field_len)]) (.str py"t")
      (by by_cases f1 : formats rt.env (p.2 : Int) <;> by_cases f2 : formats rt.env (ex : Int) <;>
            simp [src, getVar, y4, y5, f1, f2, EncMsg.numbers, EncMsg.text, natStr_int])
      (by simp [src]) y3 y1 y2
    refine simEX_raises (d := []) (by simp) (h := h2) (vs := V2) (G := fun _ => F) r2 d2 k2 ?_ rfl
    simp [encodeType5, src, getVar, y4, y5, hr1]
    exact hl'

end Iso8583.Src
