import Verif.Source.DecodeBitmap
/-!
# decoder.py: `_decode_header`, `_decode_type`
-/

namespace Iso8583.Src

variable {ε σ : Type} {rt : Rt ε σ} {sv : Val} {dd de : Nat} {F : List (Nat × Obj)} {call : Caller ε σ}

/-- `spec[k]`. -/
theorem subVal_spec {pv : Val} {spec : PartialSpec} (hp : PSpecVal pv spec) (k : Str) (st : St σ) :
    (spec.get? k = none ∧ (subVal pv (.str k) : M ε σ Val) st = (.error (.std .KeyError (.str k)), st)) ∨
    (∃ fs fv, spec.get? k = some fs ∧ PFieldVal fv fs ∧ ∀ st : St σ, (subVal pv (.str k) : M ε σ Val) st = (.ok fv, st)) := by
  obtain ⟨items, rfl, h⟩ := hp
  have := h k
  cases hs : spec.get? k with
  | none =>
    rw [hs] at this
    exact .inl ⟨rfl, by simp [src, this]⟩
  | some fs =>
    rw [hs] at this
    obtain ⟨fv, h1, h2⟩ := this
    exact .inr ⟨fs, fv, rfl, h2, fun st => by simp [src, h1]⟩

/-- decoder.py:175-213 `_decode_header`. -/
theorem decodeHeader_sim (hg : ∀ x, rt.globals x = none)
    (hcall : call ._decode_field = invoke rt (program rt [removePadFieldDef, decodeTextDataDef, decodeErrorInitDef]) decodeFieldDef)
    {spec : PartialSpec} {pv : Val} (hp : PSpecVal pv spec) {s : Bytes} (hb : BytesAt F sv s) {idx : Nat}
    {ds : DecState} {st : St σ} (r : Rep st.heap dd de (decItems ds.dec) ds.enc F) :
    Sim rt sv dd de (fun _ => F) (fun n : Nat => .int n) (decodeHeaderP rt.env spec s idx ds) st
      (invoke rt call decodeHeaderDef [sv, .ref dd, .ref de, .int idx, pv] [] st) := by
  refine sim_of_body rfl rfl rfl rfl ?_
  generalize hst0 : ({ st with vars := _, locals := _, ys := _ } : St σ) = st0
  have v1 : st0.vars .s = some sv := by subst hst0; simp [src, decodeHeaderDef]
  have v2 : st0.vars .doc_dec = some (.ref dd) := by subst hst0; simp [src, decodeHeaderDef]
  have v3 : st0.vars .doc_enc = some (.ref de) := by subst hst0; simp [src, decodeHeaderDef]
  have v4 : st0.vars .idx = some (.int idx) := by subst hst0; simp [src, decodeHeaderDef]
  have v5 : st0.vars .spec = some pv := by subst hst0; simp [src, decodeHeaderDef]
  have v6 : st0.vars ._decode_field = none := by subst hst0; simp [src, decodeHeaderDef]
  have r0 : Rep st0.heap dd de (decItems ds.dec) ds.enc F := by subst hst0; exact r
  clear hst0 r
  rcases subVal_spec (ε := ε) hp py"h" st0 with ⟨h1, h2⟩ | ⟨fs, fv, h1, hv, h2⟩
  · have hm : decodeHeaderP rt.env spec s idx ds = (.error (.keyError py"h"), ds) := by simp [decodeHeaderP, partialSpec, need, h1, PyM.run_bind]
    rw [hm]
    refine simX_err (sv := sv) (e := .keyError py"h") (st := st0) (vs := st0.vars) (h := st0.heap) (F := fun _ => F) r0 ?_ rfl rfl
    simp [decodeHeader1, src, getVar, v5, h2]
  · have hv0 := hv
    obtain ⟨items, rfl, -, -, -, g3, -⟩ := hv
    cases hmax : fs.maxLen with
    | none =>
      have hm : decodeHeaderP rt.env spec s idx ds = (.error (.keyError py"max_len"), ds) := by simp [decodeHeaderP, partialSpec, need, h1, PyM.run_bind, hmax]
      rw [hm]
      rw [hmax] at g3
      refine simX_err (sv := sv) (e := .keyError py"max_len") (st := st0) (vs := st0.vars) (h := st0.heap) (F := fun _ => F) r0 ?_ rfl rfl
      simp [decodeHeader1, src, getVar, v5, h2, g3]
    | some mx =>
    rw [hmax] at g3
    replace g3 : lookup items (.str py"max_len") = some (.int mx) := g3
    have hm : decodeHeaderP rt.env spec s idx ds = if mx ≤ 0 then (.ok idx, ds) else decodeFieldP rt.env s idx py"h" fs ds := by
      by_cases h : mx ≤ 0 <;> simp [decodeHeaderP, partialSpec, need, h1, PyM.run_bind, h, hmax]
    rw [hm]
    by_cases h : mx ≤ 0
    · rw [if_pos h]
      refine simX_ret (st := st0) (vs := st0.vars) (h := st0.heap) (F := fun _ => F) r0 ?_ rfl
      simp [decodeHeader1, src, getVar, v4, v5, h2, g3, h]
    · rw [if_neg h]
      refine simX_cons (vs := st0.vars) (h := st0.heap) (by simp [decodeHeader1, src, getVar, v5, h2, g3, h]) ?_
      obtain ⟨h', x, ho, hr, hx⟩ := decodeField_sim (rt := rt) (sv := sv) hg (st := st0) (idx := idx) (key := py"h") hb hv0 r0
      rcases hres : decodeFieldP rt.env s idx py"h" fs ds with ⟨e | t, ds4⟩
      · rw [hres] at hr hx
        obtain ⟨exc, rfl, he⟩ := hx
        refine simX_err (F := fun _ => F) (st := st0) (vs := st0.vars) hr ?_ he rfl
        simp [decodeHeader2, src, getVar, v1, v2, v3, v4, v5, v6, hcall, h2, ho]
      · rw [hres] at hr hx
        subst hx
        refine simX_ret (F := fun _ => F) (st := st0) (vs := st0.vars) hr ?_ rfl
        simp [decodeHeader2, src, getVar, v1, v2, v3, v4, v5, v6, hcall, h2, ho]

/-- decoder.py:256-283 of the model; `data` should have `expected` bytes. -/
def typeRest (env : PyEnv) (idx : Nat) (fs : FieldSpec) (expected : Nat) (data : Bytes) : DecM Nat := do
  setDec py"t" []
  setEnc py"t" ⟨[], data⟩
  if data.length ≠ expected then
    decFail (.fieldDataBytes data.length expected) idx py"t"
  if fs.dataEnc = py"b" then
    setDec py"t" (upperAscii (bytesHex data))
  else
    setDec py"t" (← decodeTextData env data idx py"t" fs)
  return idx + expected

/-- The variables of `_decode_type`. -/
structure TypeVars (V : Vars) (sv : Val) (dd de idx : Nat) (pv : Val) : Prop where
  DecodeError : V .DecodeError = none
  len : V .len = none
  bytes : V .bytes = none
  text : V ._decode_text_data = none
  s : V .s = some sv
  doc_dec : V .doc_dec = some (.ref dd)
  doc_enc : V .doc_enc = some (.ref de)
  idx : V .idx = some (.int idx)
  spec : V .spec = some pv

/-- decoder.py:216-283 `_decode_type`. -/
theorem decodeType_sim (hg : ∀ x, rt.globals x = none) (hc : DecCalls rt call)
    {spec : PartialSpec} {pv : Val} (hp : PSpecVal pv spec) {s : Bytes} (hb : BytesAt F sv s) {idx : Nat}
    {ds : DecState} {st : St σ} (r : Rep st.heap dd de (decItems ds.dec) ds.enc F) :
    Sim rt sv dd de (fun _ => F) (fun n : Nat => .int n) (decodeTypeP rt.env spec s idx ds) st
      (invoke rt call decodeTypeDef [sv, .ref dd, .ref de, .int idx, pv] [] st) := by
  refine sim_of_body rfl rfl rfl rfl ?_
  generalize hst0 : ({ st with vars := _, locals := _, ys := _ } : St σ) = st0
  have vs : TypeVars st0.vars sv dd de idx pv := by subst hst0; constructor <;> simp [src, decodeTypeDef]
  have r0 : Rep st0.heap dd de (decItems ds.dec) ds.enc F := by subst hst0; exact r
  clear hst0 r
  rcases subVal_spec (ε := ε) hp py"t" st0 with ⟨h1, h2⟩ | ⟨fs, fv, h1, hv, h2⟩
  · have hm : decodeTypeP rt.env spec s idx ds = (.error (.keyError py"t"), ds) := by simp [decodeTypeP, partialSpec, need, h1, PyM.run_bind]
    rw [hm]
    refine simX_err (sv := sv) (e := .keyError py"t") (st := st0) (vs := st0.vars) (h := st0.heap) (F := fun _ => F) r0 ?_ rfl rfl
    simp [decodeType1, src, getVar, vs.spec, h2]
  have hv0 := hv
  obtain ⟨items, rfl, g0, -⟩ := hv
  cases hde : fs.dataEnc with
  | none =>
    have hm : decodeTypeP rt.env spec s idx ds = (.error (.keyError py"data_enc"), ds) := by simp [decodeTypeP, partialSpec, need, h1, PyM.run_bind, hde]
    rw [hm]
    rw [hde] at g0
    refine simX_err (sv := sv) (e := .keyError py"data_enc") (st := st0) (vs := st0.vars) (h := st0.heap) (F := fun _ => F) r0 ?_ rfl rfl
    simp [decodeType1, src, getVar, vs.spec, h2, g0]
  | some den =>
  have g0' : lookup items (.str py"data_enc") = some (.str fs.seen.dataEnc) := by rw [g0, seen_dataEnc hde, hde]; rfl
  have g0 := g0'
  have hdn : den = fs.seen.dataEnc := (seen_dataEnc hde).symm
  subst hdn
  have hm : decodeTypeP rt.env spec s idx ds = typeRest rt.env idx fs.seen (if fs.seen.dataEnc = py"b" then 2 else 4)
      (slice s idx (idx + (if fs.seen.dataEnc = py"b" then 2 else 4 : Nat))) ds := by
    simp only [decodeTypeP, partialSpec, need, h1, hde, PyM.run_bind, PyM.run_pure]
    rfl
  rw [hm]
  generalize hn : (if fs.seen.dataEnc = py"b" then 2 else 4 : Nat) = n
  have e1 : exec rt call decodeType1 st0 = (.ok .next, { st0 with vars := st0.vars.set .expected_field_len (.int n) }) := by
    by_cases h : fs.seen.dataEnc = py"b"
    · rw [if_pos h] at hn; subst hn
      simp [decodeType1, src, getVar, vs.spec, h2, g0, h]
    · rw [if_neg h] at hn; subst hn
      simp [decodeType1, src, getVar, vs.spec, h2, g0, h]
  refine simX_cons (h := st0.heap) e1 ?_
  obtain ⟨dv, hd, hs⟩ := eval_slice_run (rt := rt) (call := call) (x := .expected_field_len) (n := (n : Int)) (idx := idx)
    (st := { st0 with vars := st0.vars.set .expected_field_len (.int n) }) (r0.bytes hb) (by simp [src, vs.s]) (by simp [src, vs.idx]) (by simp [src])
  have e2 : exec rt call decodeType2 { st0 with vars := st0.vars.set .expected_field_len (.int n) } =
      (.ok .next, { st0 with vars := (st0.vars.set .expected_field_len (.int n)).set .encoded_field_data dv }) := by
    simp [decodeType2, src, hs]
  refine simX_cons (h := st0.heap) e2 ?_
  generalize slice s idx (idx + (n : Int)) = data at hd ⊢
  clear hs e1 e2
  have vs2 : TypeVars ((st0.vars.set .expected_field_len (.int n)).set .encoded_field_data dv) sv dd de idx pv := by
    obtain ⟨a1, a2, a3, a4, a5, a6, a7, a8, a9⟩ := vs
    constructor <;> simp [src, *]
  have w1 : ((st0.vars.set .expected_field_len (.int n)).set .encoded_field_data dv) .expected_field_len = some (.int n) := by simp [src]
  have w2 : ((st0.vars.set .expected_field_len (.int n)).set .encoded_field_data dv) .encoded_field_data = some dv := by simp [src]
  generalize (st0.vars.set .expected_field_len (.int n)).set .encoded_field_data dv = V at vs2 w1 w2 ⊢
  have hb : ∀ h, eval rt call (.call .bytes [(.name .encoded_field_data)] [] []) { st0 with vars := V, heap := h } =
      (.ok (.bytes data), { st0 with vars := V, heap := h }) := by
    intro h
    simp [src, getVar, vs2.bytes, w2, hc.bytes, bytes_bytesVal hd]
  have e3 := exec_setDec (rt := rt) (call := call) (key := .str py"t") (e := .str py"") (st := { st0 with vars := V }) (v := []) rfl r0 vs2.doc_dec rfl
  refine simX_cons e3 ?_
  obtain ⟨h4, e4, r4⟩ := exec_newEnc (rt := rt) (call := call) (key := .str py"t") (a := .bytes []) (l := [])
    (b := .call .bytes [(.name .encoded_field_data)] [] []) (d := data)
    (st := { st0 with vars := V, heap := st0.heap.set dd (.dict (decItems (ds.dec.set py"t" []))) })
    (r0.setDec _) vs2.doc_enc rfl (hb _) (fun h => rfl)
  refine simX_cons e4 ?_
  have hlen := len_bytesVal (rt := rt) hd
  simp only [builtin_len] at hlen
  generalize hds : ({ dec := ds.dec.set py"t" [], enc := ds.enc.set py"t" ⟨[], data⟩ } : DecState) = ds4
  have r5 : Rep h4 dd de (decItems ds4.dec) ds4.enc F := by subst hds; exact r4
  have hret : ∀ (ds' : DecState) (h : List Obj), Rep h dd de (decItems ds'.dec) ds'.enc F →
      SimX rt sv dd de (fun _ => F) (fun n : Nat => .int n) (.ok (idx + n), ds') st0
        (execs rt call [decodeType7] { st0 with vars := V, heap := h }) := fun ds' h r =>
    simX_ret (st := { st0 with vars := V, heap := h }) (F := fun _ => F) (vs := V) (h := h) r (by simp [decodeType7, src, getVar, vs2.idx, w1]) rfl
  by_cases hl : data.length = n
  · have hrun : typeRest rt.env idx fs.seen n data ds = (do
        if fs.seen.dataEnc = py"b" then
          setDec py"t" (upperAscii (bytesHex data))
        else
          setDec py"t" (← decodeTextData rt.env data idx py"t" fs.seen)
        return idx + n : DecM Nat) ds4 := by
      simp [typeRest, setDec, setEnc, PyM.run_bind, hl, hds]
    rw [hrun]
    have e5 : exec rt call decodeType5 { st0 with vars := V, heap := h4 } = (.ok .next, { st0 with vars := V, heap := h4 }) := by
      simp [decodeType5, src, getVar, vs2.len, hc.len, hlen, w1, w2, hl]
    refine simX_cons e5 ?_
    by_cases henc : fs.seen.dataEnc = py"b"
    · have e6 := exec_setDec (rt := rt) (call := call) (key := .str py"t")
        (e := .meth (.meth (.name .encoded_field_data) .hex [] [] []) .upper [] [] []) (st := { st0 with vars := V, heap := h4 })
        (st1 := { st0 with vars := V, heap := h4 }) (v := upperAscii (bytesHex data)) (by simp [src, getVar, w2, hex_bytesVal hd]) r5 vs2.doc_dec rfl
      simp only [henc, if_true, PyM.run_bind, setDec, PyM.run_modify, PyM.run_pure]
      refine simX_cons (vs := V) ?_ (hret _ _ (r5.setDec _))
      simp [decodeType6, src, getVar, vs2.spec, h2, g0, henc, e6]
    · obtain ⟨h', x, ho, hr, hx⟩ := decodeTextData_sim (sv := sv) hg (st := { st0 with vars := V, heap := h4 }) (idx := idx) (key := py"t") (fs := fs.seen) ⟨items, rfl, g0⟩ hd r5
      simp only [henc, if_false, PyM.run_bind, PyM.run_pure]
      rcases hres : decodeTextData rt.env data idx py"t" fs.seen ds4 with ⟨e | t, ds5⟩
      · rw [hres] at hr hx
        obtain ⟨exc, rfl, he⟩ := hx
        refine simX_err (F := fun _ => F) (st := { st0 with vars := V, heap := h4 }) hr (vs := V) ?_ he rfl
        simp [decodeType6, src, getVar, vs2.spec, h2, g0, henc, vs2.text, vs2.s, vs2.doc_dec, vs2.doc_enc, vs2.idx, w2, hc.text, ho]
      · rw [hres] at hr hx
        subst hx
        have e6 := exec_setDec (rt := rt) (call := call) (key := .str py"t")
          (e := .call ._decode_text_data [(.name .s), (.name .encoded_field_data), (.name .idx), (.name .doc_dec), (.name .doc_enc), (.str py"t"), (.sub (.name .spec) (.str py"t"))] [] [])
          (st := { st0 with vars := V, heap := h4 }) (st1 := { st0 with vars := V, heap := h' }) (v := t)
          (by simp [src, getVar, vs2.spec, h2, vs2.text, vs2.s, vs2.doc_dec, vs2.doc_enc, vs2.idx, w2, hc.text, ho]) hr vs2.doc_dec rfl
        simp only [setDec, PyM.run_modify]
        refine simX_cons (vs := V) ?_ (hret _ _ (hr.setDec _))
        simp [decodeType6, src, getVar, vs2.spec, h2, g0, henc, e6]
  · have hl' : ¬ (data.length : Int) = n := by omega
    have hrun : typeRest rt.env idx fs.seen n data ds = (.error (.err (.fieldDataBytes data.length n) idx py"t"), ds4) := by
      simp [typeRest, setDec, setEnc, PyM.run_bind, hl, hds, decFail]
    rw [hrun]
    have hraise := exec_raise (rt := rt) (call := call) hg hc.err (.fieldDataBytes data.length n) sv dd de idx py"t"
      (.fstr [(.str py"Field data is "), (.call .len [(.name .encoded_field_data)] [] []), (.str py" bytes, expecting "), (.name .expected_field_len)])
      (.str py"t") { st0 with vars := V, heap := h4 } (by
        by_cases ha : formats rt.env data.length <;> by_cases hb : formats rt.env n <;>
          simp [src, getVar, vs2.len, w1, w2, hc.len, hlen, ha, hb, DecMsg.numbers, DecMsg.text, natStr_int])
      rfl vs2.DecodeError vs2.s vs2.doc_dec vs2.doc_enc vs2.idx
    refine simX_raises (F := fun _ => F) (st := { st0 with vars := V, heap := h4 }) (vs := V) r5 ?_ rfl
    simp [decodeType5, src, getVar, vs2.len, hc.len, hlen, w1, w2, hl', hraise]

end Iso8583.Src
