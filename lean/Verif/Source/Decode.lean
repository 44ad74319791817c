import Verif.Source.DecodeType
import Verif.Lemmas.EncodeCongr
import Verif.Lemmas.DecodeBitmap
/-!
# decoder.py: `decode`
-/

namespace Iso8583.Src

variable {ε σ : Type} {rt : Rt ε σ} {sv pv : Val} {dd de fl : Nat} {F : List (Nat × Obj)} {call : Caller ε σ} {spec : PartialSpec} {s : Bytes}

/-! ## The model in pieces -/

/-- decoder.py:157-163. -/
def bodyFields (env : PyEnv) (spec : PartialSpec) (s : Bytes) (idx : Nat) (field : Str) (fields : List Nat) : DecM Unit := do
  let p ← decodeFieldsP env spec s idx field (sortedNat fields)
  if p.1 ≠ s.length then decFail .extraData p.1 p.2

/-- `_decode_bitmap(s, …, spec[field], …)`. -/
def bodyBitmap (env : PyEnv) (spec : PartialSpec) (s : Bytes) (idx : Nat) (field : Str) (off : Nat) (ext : Bool) (fields : List Nat) :
    DecM (Nat × List Nat) := do
  let fs ← partialSpec .keyError spec field
  decodeBitmapP env s idx field fs off ext fields

/-- decoder.py:142-163. -/
def bodyThird (env : PyEnv) (spec : PartialSpec) (s : Bytes) (idx : Nat) (field : Str) (fields : List Nat) : DecM Unit :=
  if 65 ∈ fields then do
    let p ← bodyBitmap env spec s idx field 128 true fields
    bodyFields env spec s p.1 field (setRemove p.2 65)
  else bodyFields env spec s idx field fields

/-- decoder.py:127-163. -/
def bodySecond (env : PyEnv) (spec : PartialSpec) (s : Bytes) (idx : Nat) (fields : List Nat) : DecM Unit :=
  if 1 ∈ fields then do
    let p ← bodyBitmap env spec s idx py"1" 64 false fields
    bodyThird env spec s p.1 py"1" (setRemove p.2 1)
  else bodyThird env spec s idx py"p" fields

theorem decodeBody_split (env : PyEnv) (spec : PartialSpec) (s : Bytes) : decodeBodyP env spec s = (do
    let idx ← decodeHeaderP env spec s 0
    let idx ← decodeTypeP env spec s idx
    let p ← bodyBitmap env spec s idx py"p" 0 false []
    bodySecond env spec s p.1 p.2) := by
  funext ds
  simp only [decodeBodyP, PyM.run_bind, bodyBitmap]
  rcases decodeHeaderP env spec s 0 ds with ⟨e | i0, ds0⟩
  · rfl
  simp only
  rcases decodeTypeP env spec s i0 ds0 with ⟨e | i1, ds1⟩
  · rfl
  simp only
  rcases (partialSpec .keyError spec py"p" : DecM PartialField) ds1 with ⟨e | fs, ds2⟩
  · rfl
  simp only
  rcases decodeBitmapP env s i1 py"p" fs 0 false [] ds2 with ⟨e | ⟨i2, f2⟩, ds3⟩
  · rfl
  simp only [bodySecond]
  have third : ∀ (i : Nat) (k : Str) (f : List Nat) (d : DecState), (do
      let (idx, fields) ←
        if 65 ∈ f then do
          let (idx, fields) ← decodeBitmapP env s i k (← partialSpec .keyError spec k) 128 true f
          pure (idx, setRemove fields 65)
        else pure (i, f)
      let (idx, field) ← decodeFieldsP env spec s idx k (sortedNat fields)
      if idx ≠ s.length then
        decFail .extraData idx field : DecM Unit) d = bodyThird env spec s i k f d := by
    intro i k f d
    by_cases h : 65 ∈ f
    · simp only [bodyThird, h, if_true, PyM.run_bind, bodyBitmap]
      rcases (partialSpec .keyError spec k : DecM PartialField) d with ⟨e | fs, d'⟩
      · rfl
      simp only
      rcases decodeBitmapP env s i k fs 128 true f d' with ⟨e | ⟨i2, f2⟩, d''⟩
      · rfl
      rfl
    · simp only [bodyThird, h, if_false, PyM.run_bind, PyM.run_pure]
      rfl
  by_cases h : 1 ∈ f2
  · simp only [h, if_true, PyM.run_bind, bodyBitmap]
    rcases (partialSpec .keyError spec py"1" : DecM PartialField) ds3 with ⟨e | fs, d'⟩
    · rfl
    simp only
    rcases decodeBitmapP env s i2 py"1" fs 64 false f2 d' with ⟨e | ⟨i3, f3⟩, d''⟩
    · rfl
    exact third i3 py"1" (setRemove f3 1) d''
  · simp only [h, if_false, PyM.run_bind, PyM.run_pure]
    exact third i2 py"p" f2 ds3

/-! ## Calls -/

/-- What the names called in `decode` are. -/
structure MainCalls (rt : Rt ε σ) (call : Caller ε σ) : Prop where
  err : call .DecodeError = invoke rt (builtin rt) decodeErrorInitDef
  len : call .len = builtin rt .len
  set : call .set = builtin rt .set
  str : call .str = builtin rt .str
  sorted : call .sorted = builtin rt .sorted
  isinstance : call .isinstance = builtin rt .isinstance
  TypeError : call .TypeError = builtin rt .TypeError
  field : call ._decode_field = invoke rt (program rt [removePadFieldDef, decodeTextDataDef, decodeErrorInitDef]) decodeFieldDef
  bitmap : call ._decode_bitmap =
    invoke rt (program rt [decodeFieldDef, removePadFieldDef, decodeTextDataDef, decodeErrorInitDef]) decodeBitmapDef
  type : ∃ call', DecCalls rt call' ∧ call ._decode_type = invoke rt call' decodeTypeDef
  header : ∃ call', call' ._decode_field = invoke rt (program rt [removePadFieldDef, decodeTextDataDef, decodeErrorInitDef]) decodeFieldDef ∧
    call ._decode_header = invoke rt call' decodeHeaderDef

theorem program_nil_eq (f : Ident) : program rt [] f = builtin rt f := rfl

theorem mainCalls : MainCalls rt (program rt [decodeHeaderDef, decodeTypeDef, decodeBitmapDef, decodeFieldDef, removePadFieldDef,
    decodeTextDataDef, decodeErrorInitDef]) where
  err := by
    rw [program_ne _ _ (by decide), program_ne _ _ (by decide), program_ne _ _ (by decide), program_ne _ _ (by decide),
      program_ne _ _ (by decide), program_ne _ _ (by decide), program_eq _ _ (by decide)]
    rfl
  len := by iterate 7 rw [program_ne _ _ (by decide)]
            rfl
  set := by iterate 7 rw [program_ne _ _ (by decide)]
            rfl
  str := by iterate 7 rw [program_ne _ _ (by decide)]
            rfl
  sorted := by iterate 7 rw [program_ne _ _ (by decide)]
               rfl
  isinstance := by iterate 7 rw [program_ne _ _ (by decide)]
                   rfl
  TypeError := by iterate 7 rw [program_ne _ _ (by decide)]
                  rfl
  field := by
    rw [program_ne _ _ (by decide), program_ne _ _ (by decide), program_ne _ _ (by decide), program_eq _ _ (by decide)]
  bitmap := by rw [program_ne _ _ (by decide), program_ne _ _ (by decide), program_eq _ _ (by decide)]
  type := ⟨_, ((decCalls_base (rt := rt)).cons decodeFieldDef (by decide)).cons decodeBitmapDef (by decide), by
    rw [program_ne _ _ (by decide), program_eq _ _ (by decide)]⟩
  header := ⟨program rt [decodeTypeDef, decodeBitmapDef, decodeFieldDef, removePadFieldDef, decodeTextDataDef, decodeErrorInitDef], by
    rw [program_ne _ _ (by decide), program_ne _ _ (by decide), program_eq _ _ (by decide)], by rw [program_eq _ _ (by decide)]⟩

/-- The variables of `decode` that do not change once they are set. -/
structure MainVars (V : Vars) (sv pv : Val) (dd de fl : Nat) : Prop where
  DecodeError : V .DecodeError = none
  len : V .len = none
  str : V .str = none
  sorted : V .sorted = none
  header : V ._decode_header = none
  type : V ._decode_type = none
  bitmap : V ._decode_bitmap = none
  decode_field : V ._decode_field = none
  s : V .s = some sv
  spec : V .spec = some pv
  doc_dec : V .doc_dec = some (.ref dd)
  doc_enc : V .doc_enc = some (.ref de)
  fields : V .fields = some (.ref fl)

theorem MainVars.set {V : Vars} (h : MainVars V sv pv dd de fl) {x : Ident} (v : Val) (hx : x = .idx ∨ x = .field ∨ x = .i) :
    MainVars (V.set x v) sv pv dd de fl := by
  obtain ⟨a1, a2, a3, a4, a5, a6, a7, a8, a9, a10, a11, a12, a13⟩ := h
  rcases hx with rfl | rfl | rfl <;> constructor <;> simp [src, *]

theorem Rep.weaken {h : List Obj} {dec : List (Val × Val)} {enc : EncDoc} {p : Nat × Obj} (r : Rep h dd de dec enc (p :: F)) :
    Rep h dd de dec enc F where
  hdec := r.hdec
  henc := by
    obtain ⟨loc, h1, h2, h3⟩ := r.henc
    exact ⟨loc, h1, fun k e hk => ⟨(h2 k e hk).1, (h2 k e hk).2.1, (h2 k e hk).2.2.1, fun q hq => (h2 k e hk).2.2.2 q (List.mem_cons_of_mem _ hq)⟩, h3⟩
  ne := r.ne
  nodup := r.nodup
  frame q hq := r.frame q (List.mem_cons_of_mem _ hq)

/-- `x = f(…)`. -/
theorem assign_sim {α : Type} {G : Except DecRaise α → List (Nat × Obj)} {toV : α → Val} {res : Except DecRaise α × DecState} {st : St σ} {x : Ident}
    {e : Expr} (h : Sim rt sv dd de G toV res st (eval rt call e st)) :
    (∃ h' a ds', res = (.ok a, ds') ∧
      exec rt call (.assign [(.name x)] e) st = (.ok .next, { st with vars := st.vars.set x (toV a), heap := h' }) ∧
      Rep h' dd de (decItems ds'.dec) ds'.enc (G (.ok a))) ∨
    (∃ h' er exc ds', res = (.error er, ds') ∧ exec rt call (.assign [(.name x)] e) st = (.error exc, { st with heap := h' }) ∧
      Rep h' dd de (decItems ds'.dec) ds'.enc (G (.error er)) ∧ ErrIs rt h' sv dd de er exc) := by
  obtain ⟨h', v, ho, hr, hx⟩ := h
  rcases hres : res with ⟨er | a, ds'⟩
  · rw [hres] at hr hx
    obtain ⟨exc, rfl, he⟩ := hx
    exact .inr ⟨h', er, exc, ds', rfl, by simp [src, ho], hr, he⟩
  · rw [hres] at hr hx
    subst hx
    exact .inl ⟨h', a, ds', rfl, by simp [src, ho], hr⟩

section
variable (hg : ∀ x, rt.globals x = none) (hc : MainCalls rt call) (hp : PSpecVal pv spec) (hb : BytesAt F sv s)
include hg hc hp hb

theorem header_call {st : St σ} (vs : MainVars st.vars sv pv dd de fl) {idx : Nat} (v1 : st.vars .idx = some (.int idx)) {ds : DecState}
    (r : Rep st.heap dd de (decItems ds.dec) ds.enc F) :
    Sim rt sv dd de (fun _ => F) (fun n : Nat => .int n) (decodeHeaderP rt.env spec s idx ds) st
      (eval rt call (.call ._decode_header [(.name .s), (.name .doc_dec), (.name .doc_enc), (.name .idx), (.name .spec)] [] []) st) := by
  obtain ⟨call', h1, h2⟩ := hc.header
  have := decodeHeader_sim (call := call') hg h1 hp hb (idx := idx) r
  simpa [src, getVar, vs.s, vs.spec, vs.doc_dec, vs.doc_enc, v1, vs.header, h2] using this

theorem type_call {st : St σ} (vs : MainVars st.vars sv pv dd de fl) {idx : Nat} (v1 : st.vars .idx = some (.int idx)) {ds : DecState}
    (r : Rep st.heap dd de (decItems ds.dec) ds.enc F) :
    Sim rt sv dd de (fun _ => F) (fun n : Nat => .int n) (decodeTypeP rt.env spec s idx ds) st
      (eval rt call (.call ._decode_type [(.name .s), (.name .doc_dec), (.name .doc_enc), (.name .idx), (.name .spec)] [] []) st) := by
  obtain ⟨call', h1, h2⟩ := hc.type
  have := decodeType_sim (call := call') hg h1 hp hb (idx := idx) r
  simpa [src, getVar, vs.s, vs.spec, vs.doc_dec, vs.doc_enc, v1, vs.type, h2] using this

theorem bitmap_call {st : St σ} (vs : MainVars st.vars sv pv dd de fl) {idx : Nat} (v1 : st.vars .idx = some (.int idx)) {key : Str}
    (v2 : st.vars .field = some (.str key)) {ds : DecState} {fields : List Nat}
    (r : Rep st.heap dd de (decItems ds.dec) ds.enc ((fl, fieldSet fields) :: F)) (hF : ∀ p ∈ F, p.1 ≠ fl) (off : Nat) (n : Int) (hn : n = off) (ext : Bool) :
    Sim rt sv dd de (fieldsAfter fl fields F) (fun p : Nat × List Nat => .int p.1) (bodyBitmap rt.env spec s idx key off ext fields ds) st
      (eval rt call (.call ._decode_bitmap [(.name .s), (.name .doc_dec), (.name .doc_enc), (.name .idx), (.name .field), (.sub (.name .spec) (.name .field)),
        (.int n), (.bool ext), (.name .fields)] [] []) st) := by
  subst hn
  rcases subVal_spec (ε := ε) hp key st with ⟨h1, h2⟩ | ⟨fs, fv, h1, hv, h2⟩
  · have hm : bodyBitmap rt.env spec s idx key off ext fields ds = (.error (.keyError key), ds) := by
      simp [bodyBitmap, partialSpec, need, h1, PyM.run_bind]
    rw [hm]
    have := sim_keyError (rt := rt) (sv := sv) (F := fieldsAfter fl fields F) (toV := fun p : Nat × List Nat => .int p.1) (k := key) (st := st) r
    simpa [src, getVar, vs.s, vs.spec, vs.doc_dec, vs.doc_enc, vs.fields, v1, v2, vs.bitmap, h2] using this
  · cases hde : fs.dataEnc with
    | none =>
      have hm : bodyBitmap rt.env spec s idx key off ext fields ds = (.error (.keyError py"data_enc"), ds) := by
        simp [bodyBitmap, partialSpec, need, h1, PyM.run_bind, decodeBitmapP, hde]
      rw [hm]
      have := decodeBitmap_missing (rt := rt) (sv := sv) hg (idx := idx) (key := key) (off := off) (ext := ext) hv hde r
      simpa [src, getVar, vs.s, vs.spec, vs.doc_dec, vs.doc_enc, vs.fields, v1, v2, vs.bitmap, h2, hc.bitmap] using this
    | some den =>
    have hm : bodyBitmap rt.env spec s idx key off ext fields ds = decodeBitmap rt.env s idx key fs.seen off ext fields ds := by
      simp [bodyBitmap, partialSpec, need, h1, PyM.run_bind, decodeBitmapP, hde]
    rw [hm]
    obtain ⟨items, rfl, g0, -⟩ := hv
    have g0' : lookup items (.str py"data_enc") = some (.str fs.seen.dataEnc) := by rw [g0, seen_dataEnc hde, hde]; rfl
    have := decodeBitmap_sim (rt := rt) hg hb (idx := idx) (key := key) (off := off) (ext := ext) (fs := fs.seen) ⟨items, rfl, g0'⟩ r hF
    simpa [src, getVar, vs.s, vs.spec, vs.doc_dec, vs.doc_enc, vs.fields, v1, v2, vs.bitmap, h2, hc.bitmap] using this

/-- decoder.py:158. -/
theorem field_call {st : St σ} (vs : MainVars st.vars sv pv dd de fl) {idx : Nat} (v1 : st.vars .idx = some (.int idx)) {key : Str}
    (v2 : st.vars .field = some (.str key)) {ds : DecState} (r : Rep st.heap dd de (decItems ds.dec) ds.enc F) :
    Sim rt sv dd de (fun _ => F) (fun n : Nat => .int n) ((do let fs ← partialSpec .keyError spec key; decodeFieldP rt.env s idx key fs : DecM Nat) ds) st
      (eval rt call (.call ._decode_field [(.name .s), (.name .doc_dec), (.name .doc_enc), (.name .idx), (.name .field), (.sub (.name .spec) (.name .field))] [] []) st) := by
  rcases subVal_spec (ε := ε) hp key st with ⟨h1, h2⟩ | ⟨fs, fv, h1, hv, h2⟩
  · have hm : (do let fs ← partialSpec .keyError spec key; decodeFieldP rt.env s idx key fs : DecM Nat) ds = (.error (.keyError key), ds) := by
      simp [partialSpec, need, h1, PyM.run_bind]
    rw [hm]
    have := sim_keyError (rt := rt) (sv := sv) (F := fun _ => F) (toV := fun n : Nat => .int n) (k := key) (st := st) r
    simpa [src, getVar, vs.s, vs.spec, vs.doc_dec, vs.doc_enc, v1, v2, vs.decode_field, h2] using this
  · have hm : (do let fs ← partialSpec .keyError spec key; decodeFieldP rt.env s idx key fs : DecM Nat) ds = decodeFieldP rt.env s idx key fs ds := by
      simp [partialSpec, need, h1, PyM.run_bind]
    rw [hm]
    have := decodeField_sim (rt := rt) hg hb (idx := idx) (key := key) hv r
    simpa [src, getVar, vs.s, vs.spec, vs.doc_dec, vs.doc_enc, v1, v2, vs.decode_field, h2, hc.field] using this

/-- decoder.py:158. -/
def fieldStmt : Stmt :=
  .assign [(.name .idx)] (.call ._decode_field [(.name .s), (.name .doc_dec), (.name .doc_enc), (.name .idx), (.name .field), (.sub (.name .spec) (.name .field))] [] [])

/-- decoder.py:157-158 once the list of keys is known. -/
theorem fields_loop : ∀ (ns : List Nat) (st : St σ), MainVars st.vars sv pv dd de fl → ∀ (idx : Nat) (last : Str), st.vars .idx = some (.int idx) →
    st.vars .field = some (.str last) → ∀ (ds : DecState), Rep st.heap dd de (decItems ds.dec) ds.enc F →
    (∃ h' V idx' last' ds', decodeFieldsP rt.env spec s idx last ns ds = (.ok (idx', last'), ds') ∧
      iterate (execs rt call [fieldStmt])
        [.field] (ns.map fun n => .str (natStr n)) st = (.ok .next, { st with vars := V, heap := h' }) ∧
      Rep h' dd de (decItems ds'.dec) ds'.enc F ∧ MainVars V sv pv dd de fl ∧ V .idx = some (.int idx') ∧ V .field = some (.str last')) ∨
    (∃ h' V er exc ds', decodeFieldsP rt.env spec s idx last ns ds = (.error er, ds') ∧
      iterate (execs rt call [fieldStmt])
        [.field] (ns.map fun n => .str (natStr n)) st = (.error exc, { st with vars := V, heap := h' }) ∧
      Rep h' dd de (decItems ds'.dec) ds'.enc F ∧ ErrIs rt h' sv dd de er exc)
  | [], st, vs, idx, last, v1, v2, ds, r => .inl ⟨st.heap, st.vars, idx, last, ds, rfl, rfl, r, vs, v1, v2⟩
  | n :: ns, st, vs, idx, last, v1, v2, ds, r => by
    have hs := field_call hg hc hp hb (st := { st with vars := st.vars.set .field (.str (natStr n)) }) (vs.set _ (by simp)) (idx := idx)
      (by simp [src, v1]) (key := natStr n) (by simp [src]) r
    have hdef : decodeFieldsP rt.env spec s idx last (n :: ns) ds =
        ((do let fs ← partialSpec .keyError spec (natStr n); decodeFieldP rt.env s idx (natStr n) fs : DecM Nat) >>= fun i => decodeFieldsP rt.env spec s i (natStr n) ns) ds := by
      simp only [decodeFieldsP, PyM.run_bind]
      rcases (partialSpec .keyError spec (natStr n) : DecM PartialField) ds with ⟨e | fs, d⟩ <;> rfl
    rw [hdef, PyM.run_bind]
    rcases assign_sim (x := .idx) hs with ⟨h', a, ds', h1, h2, h3⟩ | ⟨h', er, exc, ds', h1, h2, h3, h4⟩
    · rw [h1]
      simp only
      have key := fields_loop ns { st with vars := (st.vars.set .field (.str (natStr n))).set .idx (.int a), heap := h' }
        ((vs.set _ (by simp)).set _ (by simp)) a (natStr n) (by simp [src]) (by simp [src]) ds' h3
      have hi : iterate (execs rt call [fieldStmt])
          [.field] ((n :: ns).map fun n => .str (natStr n)) st =
          iterate (execs rt call [fieldStmt])
          [.field] (ns.map fun n => .str (natStr n)) { st with vars := (st.vars.set .field (.str (natStr n))).set .idx (.int a), heap := h' } := by
        have hx : execs rt call [fieldStmt] { st with vars := st.vars.set .field (.str (natStr n)) } =
            (.ok .next, { st with vars := (st.vars.set .field (.str (natStr n))).set .idx (.int a), heap := h' }) := by
          rw [execs_cons, fieldStmt, h2]; rfl
        simp only [List.map_cons, iterate, bindNames, PyM.run_bind, setVar_run, hx]
      rw [hi]
      exact key
    · right
      rw [h1]
      refine ⟨h', st.vars.set .field (.str (natStr n)), er, exc, ds', rfl, ?_, h3, h4⟩
      have hx : execs rt call [fieldStmt] { st with vars := st.vars.set .field (.str (natStr n)) } =
          (.error exc, { st with vars := st.vars.set .field (.str (natStr n)), heap := h' }) := by
        rw [execs_cons, fieldStmt, h2]
      simp only [List.map_cons, iterate, bindNames, PyM.run_bind, setVar_run, hx]

end

/-! ## The fields -/

theorem insertBy_map {α : Type} (f : α → Int) (x : α) : ∀ l : List α, insertBy id (f x) (l.map f) = (insertBy f x l).map f
  | [] => rfl
  | y :: t => by
    simp only [List.map_cons, insertBy, id]
    split
    · rfl
    · rw [insertBy_map f x t, List.map_cons]

theorem sortedBy_map {α : Type} (f : α → Int) : ∀ l : List α, sortedBy id (l.map f) = (sortedBy f l).map f
  | [] => rfl
  | x :: t => by rw [List.map_cons, sortedBy, sortedBy, sortedBy_map f t, insertBy_map]

/-- `sorted(fields)`. -/
theorem sorted_run (ho : ∀ xs, (rt.order xs).Perm xs) {st : St σ} {fields : List Nat} (h : st.heap[fl]? = some (fieldSet fields)) :
    builtin rt .sorted [.ref fl] [] st = (.ok (.list (natVals (sortedNat fields))), st) := by
  have h1 : builtin rt .sorted [.ref fl] [] st =
      (.ok (.list ((sortedBy id (rt.order (fields.map fun n : Nat => (n : Int)))).map .int)), st) := by
    simp only [builtin, PyM.run_bind, deref_run h]
    rfl
  rw [h1, sortedBy_id_perm (ho _), sortedBy_map]
  simp [natVals, sortedNat]

/-- `[str(i) for i in …]`. -/
theorem keys_run (hc : call .str = builtin rt .str) : ∀ (ns : List Nat) (st : St σ), (∀ n ∈ ns, formats rt.env (n : Int)) → st.vars .str = none →
    ∃ V, gather (evalComp rt call (.yield (.call .str [(.name .i)] [] []))) [.i] (natVals ns) st =
      (.ok (ns.map fun n => .str (natStr n)), { st with vars := V })
  | [], st, _, _ => ⟨st.vars, rfl⟩
  | n :: ns, st, h, v => by
    obtain ⟨V, hV⟩ := keys_run hc ns { st with vars := st.vars.set .i (.int n) } (fun m hm => h m (List.mem_cons_of_mem _ hm)) (by simp [src, v])
    refine ⟨V, ?_⟩
    have he : evalComp rt call (.yield (.call .str [(.name .i)] [] [])) { st with vars := st.vars.set .i (.int n) } =
        (.ok [.str (natStr n)], { st with vars := st.vars.set .i (.int n) }) := by
      have := h n List.mem_cons_self
      simp [evalComp, src, getVar, v, hc, this, natStr_int]
    simp only [natVals, List.map_cons, gather, bindNames, PyM.run_bind, setVar_run] at he hV ⊢
    simp only [he, hV, PyM.run_pure, List.singleton_append]

theorem eval_keys (hc : MainCalls rt call) (ho : ∀ xs, (rt.order xs).Perm xs) {st : St σ} (vs : MainVars st.vars sv pv dd de fl)
    {fields : List Nat} (h : st.heap[fl]? = some (fieldSet fields)) (hn : ∀ n ∈ fields, formats rt.env (n : Int)) :
    eval rt call (.comp (.loop [.i] (.call .sorted [(.name .fields)] [] []) (.yield (.call .str [(.name .i)] [] [])))) st =
      (.ok (.list ((sortedNat fields).map fun n => .str (natStr n))), st) := by
  obtain ⟨V, hV⟩ := keys_run (rt := rt) hc.str (sortedNat fields) st (fun n hm => hn n (mem_sortedNat.1 hm)) vs.str
  rw [eval_comp, evalComp]
  simp [src, getVar, vs.sorted, vs.fields, hc.sorted, sorted_run ho h, hV]

/-! ## Field numbers -/

/-- What CPython guarantees and `PyEnv` leaves open: the limit on digits is off or at least 640, and 16
bytes do not decode to more than 10^100 characters. -/
structure Sane (env : PyEnv) : Prop where
  digits : env.maxStrDigits = 0 ∨ 640 ≤ env.maxStrDigits
  codec  : ∀ name b t, b.length = 16 → bytesDecode env name b = .ok t → t.length ≤ 10 ^ 100

/-- All these numbers can be converted to text. -/
def Small (env : PyEnv) (fields : List Nat) : Prop := ∀ n ∈ fields, formats env (n : Int)

theorem Sane.formats {env : PyEnv} (h : Sane env) {n : Nat} (hn : n < 10 ^ 200) : formats env (n : Int) := by
  have : (natStr n).length ≤ 200 := (natStr_length_le (by decide)).2 hn
  rcases h.digits with h | h
  · simp [Iso8583.formats, h]
  · simp [Iso8583.formats]; right; omega

theorem bitmapData_length {env : PyEnv} (hs : Sane env) {idx : Nat} {key : Str} {fs : FieldSpec} {data : Bytes} {ext : Bool} {ds ds' : DecState} {bm : Bytes}
    (hl : data.length = if fs.dataEnc = py"b" then 8 else 16) (h : bitmapData env idx key fs data ext ds = (.ok bm, ds')) :
    bm.length ≤ 10 ^ 100 := by
  unfold bitmapData at h
  by_cases hb : fs.dataEnc = py"b"
  · simp only [hb, if_true, PyM.run_bind] at h hl
    rcases hx : bitmapText key (upperAscii (bytesHex data)) ext ds with ⟨e | u, d⟩
    · rw [hx] at h; simp at h
    · rw [hx] at h
      simp only [PyM.run_pure, Prod.mk.injEq, Except.ok.injEq] at h
      rw [← h.1, hl]; decide
  · simp only [hb, if_false, PyM.run_bind] at h hl
    cases hd : bytesDecode env fs.dataEnc data with
    | error e => cases e <;> simp [decodeTextData, hd, decFail] at h
    | ok t =>
      have ht := hs.codec _ _ _ hl hd
      simp only [decodeTextData, hd, PyM.run_pure] at h
      rcases hx : bitmapText key t ext ds with ⟨e | u, d⟩
      · rw [hx] at h; simp at h
      · rw [hx] at h
        cases hf : fromHex t with
        | none => simp [hf, decFail] at h
        | some b =>
          simp only [hf, PyM.run_pure, Prod.mk.injEq, Except.ok.injEq] at h
          have := fromHex_length_le hf
          rw [← h.1]; omega

/-- The set after `_decode_bitmap`. -/
theorem bodyBitmap_fields {env : PyEnv} (hs : Sane env) {idx : Nat} {key : Str} {off : Nat} (ho : off ≤ 128) {ext : Bool} {fields : List Nat}
    {ds ds' : DecState} {p : Nat × List Nat} (h : bodyBitmap env spec s idx key off ext fields ds = (.ok p, ds')) (hn : Small env fields) :
    Small env p.2 ∧ ∀ n ∈ fields, n ∈ p.2 := by
  unfold bodyBitmap at h
  rw [PyM.run_bind] at h
  rcases hx : (partialSpec .keyError spec key : DecM PartialField) ds with ⟨e | fs, d⟩
  · rw [hx] at h; simp at h
  rw [hx] at h
  cases hde : fs.dataEnc with
  | none => simp [decodeBitmapP, hde, need, PyM.run_bind] at h
  | some den =>
  have hbm : decodeBitmapP env s idx key fs off ext fields = decodeBitmap env s idx key fs.seen off ext fields := by
    unfold decodeBitmapP; rw [hde]; rfl
  simp only [hbm] at h
  generalize fs.seen = fs at h
  simp only [decodeBitmap_split] at h
  simp only [bitmapRest, PyM.run_bind] at h
  rcases hy : bitmapStore key (slice s idx (idx + (if fs.dataEnc = py"b" then 8 else 16 : Nat))) ext d with ⟨e | u, d1⟩
  · rw [hy] at h; simp at h
  rw [hy] at h
  simp only at h
  generalize slice s idx (idx + (if fs.dataEnc = py"b" then 8 else 16 : Nat)) = data at h
  by_cases hl : data.length = if fs.dataEnc = py"b" then 8 else 16
  · simp only [hl, ne_eq, not_true, if_false, PyM.run_pure] at h
    rw [PyM.run_bind] at h
    rcases hz : bitmapData env idx key fs data ext d1 with ⟨e | bm, d2⟩
    · rw [hz] at h; simp at h
    rw [hz] at h
    simp only [PyM.run_pure, Prod.mk.injEq, Except.ok.injEq] at h
    have hb := bitmapData_length hs hl hz
    rw [← h.1]
    refine ⟨fun n hm => ?_, fun n hm => mem_setUpdate.2 (.inl hm)⟩
    rcases mem_setUpdate.1 hm with hm | hm
    · exact hn n hm
    · obtain ⟨i, hi, rfl, hbit⟩ := mem_bitmapFields.1 hm
      have := bitOn_le hi hbit
      exact hs.formats (by omega)
  · simp only [hl, ne_eq, not_false_eq_true, if_true, PyM.run_bind] at h
    rcases hz : getEnc key d1 with ⟨e | e, d2⟩
    · rw [hz] at h; simp at h
    · rw [hz] at h; simp [decFail] at h

/-- decoder.py:157-165. -/
theorem bodyFields_sim (hg : ∀ x, rt.globals x = none) (hc : MainCalls rt call) (hp : PSpecVal pv spec) (hb : BytesAt F sv s)
    (ho : ∀ xs, (rt.order xs).Perm xs) {st st0 : St σ} (h0 : { st with vars := st0.vars, heap := st0.heap } = st0)
    (vs : MainVars st.vars sv pv dd de fl) {idx : Nat} {field : Str}
    (v1 : st.vars .idx = some (.int idx)) (v2 : st.vars .field = some (.str field)) {ds : DecState} {fields : List Nat}
    (hn : Small rt.env fields) (r : Rep st.heap dd de (decItems ds.dec) ds.enc ((fl, fieldSet fields) :: F)) :
    SimX rt sv dd de (fun _ => F) (fun _ : Unit => .tuple [.ref dd, .ref de]) (bodyFields rt.env spec s idx field fields ds) st0
      (execs rt call [decode12, decode13, decode14] st) := by
  have hk := eval_keys (rt := rt) hc ho vs r.frame_get hn
  have hl := fields_loop hg hc hp hb (sortedNat fields) st vs idx field v1 v2 ds r.weaken
  have h12 : exec rt call decode12 st = iterate (execs rt call [fieldStmt]) [.field] ((sortedNat fields).map fun n => .str (natStr n)) st := by
    simp [decode12, src, hk, fieldStmt]
  simp only [bodyFields, PyM.run_bind]
  rcases hl with ⟨h', V, idx', last', ds', h1, h2, h3, h4, h5, h6⟩ | ⟨h', V, er, exc, ds', h1, h2, h3, h4⟩
  · rw [h1]
    simp only
    refine simX_cons (h12.trans h2) ?_
    have hlen := lenVal_run (ε := ε) (st := { st with vars := V, heap := h' }) (h3.bytes hb)
    by_cases he : idx' = s.length
    · have h13 : exec rt call decode13 { st with vars := V, heap := h' } = (.ok .next, { st with vars := V, heap := h' }) := by
        simp [decode13, src, getVar, h4.len, h4.s, h5, hc.len, hlen, he]
      refine simX_cons h13 ?_
      have hres : (if idx' ≠ s.length then decFail .extraData idx' last' else pure () : DecM Unit) ds' = (.ok (), ds') := by simp [he]
      rw [hres]
      refine simX_ret (st := { st with vars := V, heap := h' }) (vs := V) (h := h') (F := fun _ => F) h3 ?_ h0
      simp [decode14, src, getVar, h4.doc_dec, h4.doc_enc]
    · have he' : ¬ (idx' : Int) = s.length := by omega
      have hres : (if idx' ≠ s.length then decFail .extraData idx' last' else pure () : DecM Unit) ds' = (.error (.err .extraData idx' last'), ds') := by
        simp [he, decFail]
      rw [hres]
      have hr := exec_raise_lit hg hc.err .extraData rfl rfl sv dd de idx' last' (.name .field) { st with vars := V, heap := h' }
        (by simp [src, getVar, h6]) h4.DecodeError h4.s h4.doc_dec h4.doc_enc h5
      simp only [DecMsg.text] at hr
      refine simX_raises (F := fun _ => F) (st := { st with vars := V, heap := h' }) (vs := V) h3 ?_ h0
      simp [decode13, src, getVar, h4.len, h4.s, h5, hc.len, hlen, he', hr]
  · rw [h1]
    exact simX_err (F := fun _ => F) h3 (h12.trans h2) h4 h0

theorem fields_mem {st : St σ} {fields : List Nat} (h : st.heap[fl]? = some (fieldSet fields)) (n : Nat) :
    (contains (.int n) (.ref fl) : M ε σ Bool) st = (.ok (decide (n ∈ fields)), st) := by
  rw [contains_ref_set _ h]
  simp only [mem_intList]

theorem fields_remove {st : St σ} {fields : List Nat} (h : st.heap[fl]? = some (fieldSet fields)) {n : Nat} (hn : n ∈ fields) :
    (objMethod fl .remove [.int n] [] : M ε σ Val) st = (.ok .none, { st with heap := st.heap.set fl (fieldSet (setRemove fields n)) }) := by
  rw [objMethod_set h]
  simp [src, mem_intList.2 hn, fieldSet, setRemove_int]

/-- decoder.py:142-165. -/
theorem bodyThird_sim (hg : ∀ x, rt.globals x = none) (hc : MainCalls rt call) (hp : PSpecVal pv spec) (hb : BytesAt F sv s) (hs : Sane rt.env)
    (ho : ∀ xs, (rt.order xs).Perm xs) {st st0 : St σ} (h0 : { st with vars := st0.vars, heap := st0.heap } = st0)
    (vs : MainVars st.vars sv pv dd de fl) {idx : Nat} {field : Str}
    (v1 : st.vars .idx = some (.int idx)) (v2 : st.vars .field = some (.str field)) {ds : DecState} {fields : List Nat}
    (hn : Small rt.env fields) (r : Rep st.heap dd de (decItems ds.dec) ds.enc ((fl, fieldSet fields) :: F)) (hF : ∀ p ∈ F, p.1 ≠ fl) :
    SimX rt sv dd de (fun _ => F) (fun _ : Unit => .tuple [.ref dd, .ref de]) (bodyThird rt.env spec s idx field fields ds) st0
      (execs rt call [decode11, decode12, decode13, decode14] st) := by
  have hm : (contains (.int 65) (.ref fl) : M ε σ Bool) st = (.ok (decide (65 ∈ fields)), st) := fields_mem r.frame_get 65
  by_cases h65 : 65 ∈ fields
  · simp only [h65, decide_true] at hm
    simp only [bodyThird, h65, if_true, PyM.run_bind]
    rcases assign_sim (x := .idx) (bitmap_call hg hc hp hb vs v1 v2 r hF 128 128 rfl true) with ⟨h', a, ds', h1, h2, h3⟩ | ⟨h', er, exc, ds', h1, h2, h3, h4⟩
    · rw [h1]
      simp only
      obtain ⟨hn', hsub⟩ := bodyBitmap_fields hs (by decide) h1 hn
      have hrem : (objMethod fl .remove [.int 65] [] : M ε σ Val) { st with vars := st.vars.set .idx (.int a.1), heap := h' } =
          (.ok .none, { st with vars := st.vars.set .idx (.int a.1), heap := h'.set fl (fieldSet (setRemove a.2 65)) }) :=
        fields_remove (st := { st with vars := st.vars.set .idx (.int a.1), heap := h' }) h3.frame_get (hsub 65 h65)
      have h11 : exec rt call decode11 st = (.ok .next, { st with vars := st.vars.set .idx (.int a.1), heap := h'.set fl (fieldSet (setRemove a.2 65)) }) := by
        simp [decode11, src, getVar, vs.fields, hm, h2, hrem]
      refine simX_cons h11 ?_
      exact bodyFields_sim hg hc hp hb ho (st := { st with vars := st.vars.set .idx (.int a.1), heap := h'.set fl (fieldSet (setRemove a.2 65)) }) (idx := a.1) (field := field) h0 (vs.set _ (by simp)) (by simp [src]) (by simp [src, v2])
        (fun n hm => hn' n (mem_setRemove.1 hm).1) (h3.setFrame hF _)
    · rw [h1]
      refine simX_err (F := fun _ => F) (vs := st.vars) h3.weaken (h := h') ?_ h4 h0
      simp [decode11, src, getVar, vs.fields, hm, h2]
  · simp only [h65, decide_false] at hm
    simp only [bodyThird, h65, if_false]
    have h11 : exec rt call decode11 st = (.ok .next, st) := by
      simp [decode11, src, getVar, vs.fields, hm]
    exact simX_cons h11 (bodyFields_sim hg hc hp hb ho h0 vs v1 v2 hn r)

/-- decoder.py:127-165. -/
theorem bodySecond_sim (hg : ∀ x, rt.globals x = none) (hc : MainCalls rt call) (hp : PSpecVal pv spec) (hb : BytesAt F sv s) (hs : Sane rt.env)
    (ho : ∀ xs, (rt.order xs).Perm xs) {st st0 : St σ} (h0 : { st with vars := st0.vars, heap := st0.heap } = st0)
    (vs : MainVars st.vars sv pv dd de fl) {idx : Nat}
    (v1 : st.vars .idx = some (.int idx)) (v2 : st.vars .field = some (.str py"p")) {ds : DecState} {fields : List Nat}
    (hn : Small rt.env fields) (r : Rep st.heap dd de (decItems ds.dec) ds.enc ((fl, fieldSet fields) :: F)) (hF : ∀ p ∈ F, p.1 ≠ fl) :
    SimX rt sv dd de (fun _ => F) (fun _ : Unit => .tuple [.ref dd, .ref de]) (bodySecond rt.env spec s idx fields ds) st0
      (execs rt call [decode10, decode11, decode12, decode13, decode14] st) := by
  have hm : (contains (.int 1) (.ref fl) : M ε σ Bool) st = (.ok (decide (1 ∈ fields)), st) := fields_mem r.frame_get 1
  by_cases h1m : 1 ∈ fields
  · simp only [h1m, decide_true] at hm
    simp only [bodySecond, h1m, if_true, PyM.run_bind]
    have hset : exec rt call (.assign [(.name .field)] (.str py"1")) st = (.ok .next, { st with vars := st.vars.set .field (.str py"1") }) := by simp [src]
    rcases assign_sim (x := .idx) (bitmap_call hg hc hp hb (st := { st with vars := st.vars.set .field (.str py"1") }) (vs.set _ (by simp))
      (idx := idx) (by simp [src, v1]) (key := py"1") (by simp [src]) r hF 64 64 rfl false) with ⟨h', a, ds', h1, h2, h3⟩ | ⟨h', er, exc, ds', h1, h2, h3, h4⟩
    · rw [h1]
      simp only
      obtain ⟨hn', hsub⟩ := bodyBitmap_fields hs (by decide) h1 hn
      have hrem : (objMethod fl .remove [.int 1] [] : M ε σ Val) { st with vars := (st.vars.set .field (.str py"1")).set .idx (.int a.1), heap := h' } =
          (.ok .none, { st with vars := (st.vars.set .field (.str py"1")).set .idx (.int a.1), heap := h'.set fl (fieldSet (setRemove a.2 1)) }) :=
        fields_remove (st := { st with vars := (st.vars.set .field (.str py"1")).set .idx (.int a.1), heap := h' }) h3.frame_get (hsub 1 h1m)
      have h10 : exec rt call decode10 st = (.ok .next, { st with vars := (st.vars.set .field (.str py"1")).set .idx (.int a.1), heap := h'.set fl (fieldSet (setRemove a.2 1)) }) := by
        simp [decode10, src, getVar, vs.fields, hm, h2, hset, hrem]
      refine simX_cons h10 ?_
      exact bodyThird_sim hg hc hp hb hs ho (st := { st with vars := (st.vars.set .field (.str py"1")).set .idx (.int a.1), heap := h'.set fl (fieldSet (setRemove a.2 1)) }) (idx := a.1) (field := py"1") h0 ((vs.set _ (by simp)).set _ (by simp)) (by simp [src]) (by simp [src])
        (fun n hm => hn' n (mem_setRemove.1 hm).1) (h3.setFrame hF _) hF
    · rw [h1]
      refine simX_err (F := fun _ => F) (vs := st.vars.set .field (.str py"1")) h3.weaken (h := h') ?_ h4 h0
      simp [decode10, src, getVar, vs.fields, hm, h2, hset]
  · simp only [h1m, decide_false] at hm
    simp only [bodySecond, h1m, if_false]
    have h10 : exec rt call decode10 st = (.ok .next, st) := by
      simp [decode10, src, getVar, vs.fields, hm]
    exact simX_cons h10 (bodyThird_sim hg hc hp hb hs ho h0 vs v1 v2 hn r hF)

/-! ## `decode` -/

/-- The objects of a heap. -/
def objs (h : List Obj) : List (Nat × Obj) := h.zipIdx.map Prod.swap

theorem mem_objs {h : List Obj} {p : Nat × Obj} : p ∈ objs h ↔ h[p.1]? = some p.2 := by
  obtain ⟨l, o⟩ := p
  simp only [objs, List.mem_map, List.mem_zipIdx_iff_getElem?]
  constructor
  · rintro ⟨⟨a, b⟩, h1, h2⟩
    simp only [Prod.swap, Prod.mk.injEq] at h1 h2
    rw [← h2.1, ← h2.2]; exact h1
  · exact fun h => ⟨(o, l), h, rfl⟩

theorem rep_new (h : List Obj) : Rep (h ++ [.dict []] ++ [.dict []] ++ [.set []]) h.length (h.length + 1) (decItems []) []
    ((h.length + 2, fieldSet []) :: objs h) where
  hdec := by simp [decItems]
  henc := ⟨fun _ => 0, by simp [encItems], by simp [Dict.get?], by simp [Dict.get?]⟩
  ne := by omega
  nodup := by simp [Dict.NoDup, Dict.keys]
  frame := by
    intro p hp
    rcases List.mem_cons.1 hp with rfl | hp
    · simp [fieldSet]
    · have h1 := mem_objs.1 hp
      have := lt_of_getElem? h1
      exact ⟨by rw [List.append_assoc, List.append_assoc]; exact getElem?_append_of h1 _, by omega, by omega⟩

theorem isinstance_tuple (v : Val) (cs : List Val) :
    builtin rt .isinstance [v, .tuple cs] [] = (do pure (.bool (← instanceOfAny v cs))) := rfl

theorem isinstance_bytes {st : St σ} (hb : BytesIn st.heap sv s) :
    builtin rt .isinstance [sv, .tuple [.glob .bytes, .glob .bytearray]] [] st = (.ok (.bool true), st) := by
  rcases hb with (rfl | rfl) | ⟨l, rfl, hl⟩
  · rfl
  · rfl
  · simp [isinstance_tuple, instanceOfAny, instanceOf, deref, hl, PyM.run_bind]

/-- decoder.py:59-165 `decode`, called in any state of the interpreter. -/
theorem decode_sim (hg : ∀ x, rt.globals x = none) (hp : PSpecVal pv spec) (hs : Sane rt.env)
    (ho : ∀ xs, (rt.order xs).Perm xs) (st : St σ) (hb : BytesIn st.heap sv s) :
    Sim rt sv st.heap.length (st.heap.length + 1) (fun _ => objs st.heap)
      (fun _ : Unit => .tuple [.ref st.heap.length, .ref (st.heap.length + 1)]) (decodeBodyP rt.env spec s ⟨[], []⟩) st
      (program rt decoderDefs .decode [sv, pv] [] st) := by
  have hprog : program rt decoderDefs .decode = invoke rt (program rt [decodeHeaderDef, decodeTypeDef, decodeBitmapDef, decodeFieldDef, removePadFieldDef,
    decodeTextDataDef, decodeErrorInitDef]) decodeDef := program_eq _ _ rfl
  rw [hprog]
  have hc := mainCalls (rt := rt)
  generalize program rt [decodeHeaderDef, decodeTypeDef, decodeBitmapDef, decodeFieldDef, removePadFieldDef, decodeTextDataDef, decodeErrorInitDef] = call at hc ⊢
  refine sim_of_body rfl rfl rfl rfl ?_
  generalize hst0 : ({ st with vars := _, locals := _, ys := _ } : St σ) = st0
  have hheap : st0.heap = st.heap := by subst hst0; rfl
  have hloc : st0.locals = decodeDef.locals := by subst hst0; rfl
  have v1 : st0.vars .s = some sv := by subst hst0; simp [src, decodeDef]
  have v2 : st0.vars .spec = some pv := by subst hst0; simp [src, decodeDef]
  have v3 : ∀ x, x ≠ .s → x ≠ .spec → st0.vars x = none := by intro x h1 h2; subst hst0; simp [src, decodeDef, h1, h2]
  clear hst0
  rw [← hheap] at hb ⊢
  have e1 : exec rt call decode1 st0 = (.ok .next, st0) := by
    simp [decode1, src, getVar, v1, v3, hg, hloc, decodeDef, hc.isinstance, isinstance_bytes hb]
  refine simX_cons (vs := st0.vars) (h := st0.heap) e1 ?_
  refine simX_cons (vs := st0.vars.set .doc_dec (.ref st0.heap.length)) (h := st0.heap ++ [.dict []]) (by simp [decode2, src]) ?_
  refine simX_cons (vs := (st0.vars.set .doc_dec (.ref st0.heap.length)).set .doc_enc (.ref (st0.heap.length + 1)))
    (h := st0.heap ++ [.dict []] ++ [.dict []]) (by simp [decode3, src]) ?_
  refine simX_cons (vs := ((st0.vars.set .doc_dec (.ref st0.heap.length)).set .doc_enc (.ref (st0.heap.length + 1))).set .fields (.ref (st0.heap.length + 2)))
    (h := st0.heap ++ [.dict []] ++ [.dict []] ++ [.set []]) (by simp [decode4, src, v3, hc.set]) ?_
  refine simX_cons (vs := (((st0.vars.set .doc_dec (.ref st0.heap.length)).set .doc_enc (.ref (st0.heap.length + 1))).set .fields (.ref (st0.heap.length + 2))).set .idx (.int 0))
    (h := st0.heap ++ [.dict []] ++ [.dict []] ++ [.set []]) (by simp [decode5, src]) ?_
  have vs : MainVars ((((st0.vars.set .doc_dec (.ref st0.heap.length)).set .doc_enc (.ref (st0.heap.length + 1))).set .fields (.ref (st0.heap.length + 2))).set .idx (.int 0))
      sv pv st0.heap.length (st0.heap.length + 1) (st0.heap.length + 2) := by
    constructor <;> simp [src, v1, v2, v3]
  have w1 : ((((st0.vars.set .doc_dec (.ref st0.heap.length)).set .doc_enc (.ref (st0.heap.length + 1))).set .fields (.ref (st0.heap.length + 2))).set .idx (.int 0))
      .idx = some (.int (0 : Nat)) := by simp [src]
  have r := rep_new st0.heap
  have hF : ∀ p ∈ objs st0.heap, p.1 ≠ st0.heap.length + 2 := by
    intro p hp
    have := lt_of_getElem? (mem_objs.1 hp)
    omega
  replace hb : BytesAt (objs st0.heap) sv s := hb.imp id fun ⟨l, h1, h2⟩ => ⟨l, h1, mem_objs.2 h2⟩
  generalize (((st0.vars.set .doc_dec (.ref st0.heap.length)).set .doc_enc (.ref (st0.heap.length + 1))).set .fields (.ref (st0.heap.length + 2))).set .idx (.int 0) = V at vs w1 ⊢
  generalize st0.heap ++ [.dict []] ++ [.dict []] ++ [.set []] = H at r ⊢
  generalize objs st0.heap = F at r hF hb ⊢
  generalize st0.heap.length + 2 = fl at vs r hF ⊢
  generalize st0.heap.length + 1 = de at vs r ⊢
  generalize st0.heap.length = dd at vs r ⊢
  rw [decodeBody_split, PyM.run_bind]
  rcases assign_sim (x := .idx) (header_call hg hc hp (hb.cons _) (st := { st0 with vars := V, heap := H }) (ds := ⟨[], []⟩) vs w1 r) with
    ⟨h', a, ds', h1, h2, h3⟩ | ⟨h', er, exc, ds', h1, h2, h3, h4⟩
  rotate_left
  · rw [h1]
    exact simX_err (F := fun _ => F) h3.weaken h2 h4 rfl
  rw [h1]
  simp only [PyM.run_bind]
  refine simX_cons h2 ?_
  clear h1 h2
  rcases assign_sim (x := .idx) (type_call hg hc hp (hb.cons _) (st := { st0 with vars := V.set .idx (.int a), heap := h' }) (idx := a) (vs.set _ (by simp)) (by simp [src]) h3) with
    ⟨h'', b, ds'', h1, h2, h3⟩ | ⟨h'', er, exc, ds'', h1, h2, h3, h4⟩
  rotate_left
  · rw [h1]
    exact simX_err (F := fun _ => F) h3.weaken h2 h4 rfl
  rw [h1]
  simp only
  refine simX_cons h2 ?_
  clear h1 h2
  refine simX_cons (vs := ((V.set .idx (.int a)).set .idx (.int b)).set .field (.str py"p")) (h := h'') (by simp [decode8, src]) ?_
  have vs' := ((vs.set (x := .idx) (.int a) (by simp)).set (x := .idx) (.int b) (by simp)).set (x := .field) (.str py"p") (by simp)
  have x1 : (((V.set .idx (.int a)).set .idx (.int b)).set .field (.str py"p")) .idx = some (.int b) := by simp [src]
  have x2 : (((V.set .idx (.int a)).set .idx (.int b)).set .field (.str py"p")) .field = some (.str py"p") := by simp [src]
  generalize ((V.set .idx (.int a)).set .idx (.int b)).set .field (.str py"p") = W at vs' x1 x2 ⊢
  rcases assign_sim (x := .idx) (bitmap_call hg hc hp hb (st := { st0 with vars := W, heap := h'' }) vs' x1 x2 h3 hF 0 0 rfl false) with
    ⟨h3', c, ds3, h1, h2, h3⟩ | ⟨h3', er, exc, ds3, h1, h2, h3, h4⟩
  rotate_left
  · rw [h1]
    exact simX_err (F := fun _ => F) h3.weaken h2 h4 rfl
  rw [h1]
  simp only
  refine simX_cons h2 ?_
  exact bodySecond_sim hg hc hp hb hs ho (st := { st0 with vars := W.set .idx (.int c.1), heap := h3' }) rfl (vs'.set _ (by simp)) (idx := c.1) (by simp [src]) (by simp [src, x2])
    (bodyBitmap_fields hs (by decide) h1 (by simp [Small])).1 h3 hF

end Iso8583.Src
