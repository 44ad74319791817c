import Verif.Source.ToolsWrap
/-!
# tools.py: `_pprint_str`, `_pprint_bytes` and `_pp_field`
-/

namespace Iso8583.Src

variable {ε σ : Type} {rt : Rt ε σ} {call : Caller ε σ} {b : Bool}

/-! ## Folded values -/

/-- tools.py:134-137 and 150-153. -/
def piecesBody : List Stmt :=
  [.expr (.meth (.name .stream) .write [(.name .delim)] [] []),
   .expr (.meth (.name .stream) .write [(.name .rep)] [] []),
   .ite (.not (.name .delim)) [
     .assign [(.name .delim)] (.bin .add (.str py"\n") (.bin .mul (.str py" ") (.name .indent)))] []]

theorem flatten_spaces (n : Nat) : (List.replicate n [32]).flatten = List.replicate n 32 := by
  induction n with
  | zero => rfl
  | succ n ih => simp [List.replicate_succ, ih]

/-- tools.py:133-137 and 149-153. -/
theorem pieces_loop {indent : Nat} : ∀ (ps : List Str) (d : Str) (st : St σ), st.vars .stream = some (.stream b) →
    st.vars .indent = some (.int indent) → st.vars .delim = some (.str d) → ∃ V,
      iterate (execs rt call piecesBody) [.rep] (ps.map .str) st =
        match writePiecesS (rt.write b) indent d ps st.world with
        | (.ok _, w) => (.ok .next, { st with vars := V, world := w })
        | (.error e, w) => (.error (excS e), { st with vars := V, world := w })
  | [], d, st, _, _, _ => ⟨st.vars, rfl⟩
  | p :: ps, d, st, h1, h2, h3 => by
    have e1 := exec_write (rt := rt) (call := call) (st := { st with vars := st.vars.set .rep (.str p) }) (b := b) (by simp [src, h1])
      (e := .name .delim) (t := d) (by simp [src, getVar, h3])
    simp only [List.map_cons, iterate, bindNames, PyM.run_bind, setVar_run, piecesBody, execs_cons, e1, writePiecesS]
    rcases streamWrite (rt.write b) d st.world with ⟨e | u, w⟩
    · exact ⟨st.vars.set .rep (.str p), rfl⟩
    simp only
    have e2 := exec_write (rt := rt) (call := call) (st := { st with vars := st.vars.set .rep (.str p), world := w }) (b := b) (by simp [src, h1])
      (e := .name .rep) (t := p) (by simp [src, getVar])
    simp only [e2]
    rcases streamWrite (rt.write b) p w with ⟨e | u, w'⟩
    · exact ⟨st.vars.set .rep (.str p), rfl⟩
    simp only
    by_cases hd : d = []
    · obtain ⟨V, hV⟩ := pieces_loop (indent := indent) ps (10 :: List.replicate indent 32)
        { st with vars := (st.vars.set .rep (.str p)).set .delim (.str (10 :: List.replicate indent 32)), world := w' }
        (by simp [src, h1]) (by simp [src, h2]) (by simp [src])
      refine ⟨V, ?_⟩
      have e3 : exec rt call (.ite (.not (.name .delim)) [
          .assign [(.name .delim)] (.bin .add (.str py"\n") (.bin .mul (.str py" ") (.name .indent)))] [])
          { st with vars := st.vars.set .rep (.str p), world := w' } =
          (.ok .next, { st with vars := (st.vars.set .rep (.str p)).set .delim (.str (10 :: List.replicate indent 32)), world := w' }) := by
        simp [src, getVar, h3, h2, hd, flatten_spaces]
      simp only [e3, hd, if_true]
      exact hV
    · obtain ⟨V, hV⟩ := pieces_loop (indent := indent) ps d { st with vars := st.vars.set .rep (.str p), world := w' }
        (by simp [src, h1]) (by simp [src, h2]) (by simp [src, h3])
      refine ⟨V, ?_⟩
      have e3 : exec rt call (.ite (.not (.name .delim)) [
          .assign [(.name .delim)] (.bin .add (.str py"\n") (.bin .mul (.str py" ") (.name .indent)))] [])
          { st with vars := st.vars.set .rep (.str p), world := w' } = (.ok .next, { st with vars := st.vars.set .rep (.str p), world := w' }) := by
        simp [src, getVar, h3, hd]
      simp only [e3, hd, if_false]
      exact hV

/-- A loop at the end of a function. -/
theorem simP_last {res : Except (StreamRaise ε) Unit × σ} {st st0 : St σ} {s : Stmt} (V : Vars)
    (h : exec rt call s st = match res with
      | (.ok _, w) => (.ok .next, { st with vars := V, world := w })
      | (.error e, w) => (.error (excS e), { st with vars := V, world := w }))
    (h0 : { st with vars := st0.vars, world := st0.world } = st0) : SimP res st0 (execs rt call [s] st) := by
  rw [execs_cons, h]
  rcases res with ⟨e | u, w⟩
  · exact ⟨_, V, by rw [← h0], rfl⟩
  · exact ⟨_, V, by simp only [execs, PyM.run_pure]; rw [← h0], .inl rfl⟩

/-- What the names called in tools.py's printing functions are. -/
structure WrapCalls (rt : Rt ε σ) (call : Caller ε σ) : Prop where
  repr : call .repr = builtin rt .repr
  len : call .len = builtin rt .len
  str : ∀ (obj : Str) (width : Int) (st : St σ),
    call ._wrap_str_repr [.str obj, .int width] [] st = (.ok (.list ((wrapStrRepr rt.env obj width).map .str)), st)
  bytes : ∀ (obj : Bytes) (width : Int) (st : St σ),
    call ._wrap_bytes_repr [.bytes obj, .int width] [] st = (.ok (.list ((wrapBytesRepr obj width).map .str)), st)

/-- tools.py:127-137 `_pprint_str`. -/
theorem pprintStr_call (hc : WrapCalls rt call) (obj : Str) (indent : Nat) (width : Int) (st : St σ) :
    invoke rt call pprintStrDef [.str obj, .stream b, .int indent, .int width] [] st =
      callS (pprintStrS rt.env (rt.write b) obj indent width) st := by
  refine callS_of_body rfl rfl rfl rfl ?_
  generalize hst0 : ({ st with vars := _, locals := _, ys := _ } : St σ) = st0
  have hw : st0.world = st.world := by subst hst0; rfl
  have v1 : st0.vars .obj = some (.str obj) := by subst hst0; simp [src, pprintStrDef]
  have v2 : st0.vars .stream = some (.stream b) := by subst hst0; simp [src, pprintStrDef]
  have v3 : st0.vars .indent = some (.int indent) := by subst hst0; simp [src, pprintStrDef]
  have v4 : st0.vars .width = some (.int width) := by subst hst0; simp [src, pprintStrDef]
  have v5 : ∀ x ∉ [Ident.obj, .stream, .indent, .width], st0.vars x = none := by
    intro x h; subst hst0
    simp only [List.mem_cons, not_or] at h
    simp [src, pprintStrDef, h]
  clear hst0
  rw [← hw]
  have v6 := v5 .len (by simp)
  have v7 := v5 .repr (by simp)
  have v8 := v5 ._wrap_str_repr (by simp)
  unfold pprintStrS
  by_cases hl : obj.length ≤ 1
  · rw [if_pos hl]
    have hl' : ((obj.length : Nat) : Int) ≤ 1 := by omega
    have ew := exec_write (rt := rt) (call := call) (st := st0) v2 (e := .call .repr [(.name .obj)] [] []) (t := reprStr rt.env obj)
      (by simp [src, getVar, v1, v7, hc.repr])
    have e1 : exec rt call pprintStr1 st0 = match streamWrite (rt.write b) (reprStr rt.env obj) st0.world with
        | (.ok _, w) => (.ok (.ret .none), { st0 with world := w })
        | (.error e, w) => (.error (excS e), { st0 with world := w }) := by
      have hcond : eval rt call (.cmp .le (.call .len [(.name .obj)] [] []) (.int 1)) st0 = (.ok (.bool true), st0) := by
        simp [src, getVar, v1, v6, hc.len, hl']
      rw [pprintStr1, exec_ite]
      simp only [PyM.run_bind, hcond, truth_bool, PyM.run_pure, if_true, execs_cons, ew]
      rcases streamWrite (rt.write b) (reprStr rt.env obj) st0.world with ⟨e | u, w⟩ <;> simp [src]
    simp only [pprintStrDef, execs_cons, e1]
    rcases streamWrite (rt.write b) (reprStr rt.env obj) st0.world with ⟨e | u, w⟩
    · exact ⟨_, st0.vars, rfl, rfl⟩
    · exact ⟨_, st0.vars, rfl, .inr rfl⟩
  · rw [if_neg hl]
    have hl' : ¬ ((obj.length : Nat) : Int) ≤ 1 := by omega
    have e1 : exec rt call pprintStr1 st0 = (.ok .next, st0) := by
      simp [pprintStr1, src, getVar, v1, v6, hc.len, hl']
    refine simP_next (V := st0.vars) e1 ?_
    refine simP_next (V := st0.vars.set .delim (.str [])) (by simp [pprintStr2, src]) ?_
    obtain ⟨V, hV⟩ := pieces_loop (rt := rt) (call := call) (b := b) (indent := indent) (wrapStrRepr rt.env obj (width - indent)) []
      { st0 with vars := st0.vars.set .delim (.str []) } (by simp [src, v2]) (by simp [src, v3]) (by simp [src])
    refine simP_last V ?_ rfl
    have he : eval rt call (.call ._wrap_str_repr [(.name .obj), (.bin .sub (.name .width) (.name .indent))] [] []) { st0 with vars := st0.vars.set .delim (.str []) } =
        (.ok (.list ((wrapStrRepr rt.env obj (width - indent)).map .str)), { st0 with vars := st0.vars.set .delim (.str []) }) := by
      simp [src, getVar, v1, v3, v4, v8, hc.str]
    rw [pprintStr3, exec_loop, ← piecesBody]
    simp only [PyM.run_bind, he, elements_list, PyM.run_pure]
    exact hV

/-- tools.py:143-153 `_pprint_bytes`. -/
theorem pprintBytes_call (hc : WrapCalls rt call) (obj : Bytes) (indent : Nat) (width : Int) (st : St σ) :
    invoke rt call pprintBytesDef [.bytes obj, .stream b, .int indent, .int width] [] st =
      callS (pprintBytesS (rt.write b) obj indent width) st := by
  refine callS_of_body rfl rfl rfl rfl ?_
  generalize hst0 : ({ st with vars := _, locals := _, ys := _ } : St σ) = st0
  have hw : st0.world = st.world := by subst hst0; rfl
  have v1 : st0.vars .obj = some (.bytes obj) := by subst hst0; simp [src, pprintBytesDef]
  have v2 : st0.vars .stream = some (.stream b) := by subst hst0; simp [src, pprintBytesDef]
  have v3 : st0.vars .indent = some (.int indent) := by subst hst0; simp [src, pprintBytesDef]
  have v4 : st0.vars .width = some (.int width) := by subst hst0; simp [src, pprintBytesDef]
  have v5 : ∀ x ∉ [Ident.obj, .stream, .indent, .width], st0.vars x = none := by
    intro x h; subst hst0
    simp only [List.mem_cons, not_or] at h
    simp [src, pprintBytesDef, h]
  clear hst0
  rw [← hw]
  have v6 := v5 .len (by simp)
  have v7 := v5 .repr (by simp)
  have v8 := v5 ._wrap_bytes_repr (by simp)
  unfold pprintBytesS
  by_cases hl : obj.length ≤ 1
  · rw [if_pos hl]
    have hl' : ((obj.length : Nat) : Int) ≤ 1 := by omega
    have ew := exec_write (rt := rt) (call := call) (st := st0) v2 (e := .call .repr [(.name .obj)] [] []) (t := reprBytes obj)
      (by simp [src, getVar, v1, v7, hc.repr])
    have e1 : exec rt call pprintBytes1 st0 = match streamWrite (rt.write b) (reprBytes obj) st0.world with
        | (.ok _, w) => (.ok (.ret .none), { st0 with world := w })
        | (.error e, w) => (.error (excS e), { st0 with world := w }) := by
      have hcond : eval rt call (.cmp .le (.call .len [(.name .obj)] [] []) (.int 1)) st0 = (.ok (.bool true), st0) := by
        simp [src, getVar, v1, v6, hc.len, hl']
      rw [pprintBytes1, exec_ite]
      simp only [PyM.run_bind, hcond, truth_bool, PyM.run_pure, if_true, execs_cons, ew]
      rcases streamWrite (rt.write b) (reprBytes obj) st0.world with ⟨e | u, w⟩ <;> simp [src]
    simp only [pprintBytesDef, execs_cons, e1]
    rcases streamWrite (rt.write b) (reprBytes obj) st0.world with ⟨e | u, w⟩
    · exact ⟨_, st0.vars, rfl, rfl⟩
    · exact ⟨_, st0.vars, rfl, .inr rfl⟩
  · rw [if_neg hl]
    have hl' : ¬ ((obj.length : Nat) : Int) ≤ 1 := by omega
    have e1 : exec rt call pprintBytes1 st0 = (.ok .next, st0) := by
      simp [pprintBytes1, src, getVar, v1, v6, hc.len, hl']
    refine simP_next (V := st0.vars) e1 ?_
    refine simP_next (V := st0.vars.set .delim (.str [])) (by simp [pprintBytes2, src]) ?_
    obtain ⟨V, hV⟩ := pieces_loop (rt := rt) (call := call) (b := b) (indent := indent) (wrapBytesRepr obj (width - indent)) []
      { st0 with vars := st0.vars.set .delim (.str []) } (by simp [src, v2]) (by simp [src, v3]) (by simp [src])
    refine simP_last V ?_ rfl
    have he : eval rt call (.call ._wrap_bytes_repr [(.name .obj), (.bin .sub (.name .width) (.name .indent))] [] []) { st0 with vars := st0.vars.set .delim (.str []) } =
        (.ok (.list ((wrapBytesRepr obj (width - indent)).map .str)), { st0 with vars := st0.vars.set .delim (.str []) }) := by
      simp [src, getVar, v1, v3, v4, v8, hc.bytes]
    rw [pprintBytes3, exec_loop, ← piecesBody]
    simp only [PyM.run_bind, he, elements_list, PyM.run_pure]
    exact hV

/-! ## Documents -/

/-- `v` is a dict with these items, in the heap or nobody's to change. -/
def DictAt (h : List Obj) (v : Val) (items : List (Val × Val)) : Prop := v = .dict items ∨ ∃ l, v = .ref l ∧ h[l]? = some (.dict items)

/-- The `repr` of a value that is neither a text, nor `bytes`, nor a dict.  (A number this short has a `repr`
under any limit.) -/
def otherRepr : Val → Option Str
  | .none => some py"None"
  | .bool b => some (if b then py"True" else py"False")
  | .int n => if n.natAbs < 10 ^ 200 then some (intStr n) else none
  | .barray b => some (py"bytearray(" ++ reprBytes b ++ py")")
  | .obj _ r _ => some r
  | _ => none

/-- `v` is the value `pv` of a dict given to `pp`. -/
def PpValIs (h : List Obj) (v : Val) : PpVal → Prop
  | .str s => v = .str s
  | .bytes b => v = .bytes b
  | .other r => otherRepr v = some r
  | .dict len data => ∃ items, DictAt h v items ∧ lookup items (.str py"len") = len.map .bytes ∧ lookup items (.str py"data") = data.map .bytes

/-- `items` are the items of the dict `doc`. -/
def PpDocIs (h : List Obj) : List (Val × Val) → PpDoc → Prop
  | [], [] => True
  | p :: t, q :: t' => keyOf p.1 = some q.1 ∧ PpValIs h p.2 q.2 ∧ PpDocIs h t t'
  | _, _ => False

theorem PpDocIs.get {h : List Obj} {k : Str} : ∀ {items : List (Val × Val)} {doc : PpDoc}, PpDocIs h items doc →
    match doc.get? (.str k) with
    | none => lookup items (.str k) = none
    | some v => ∃ x, lookup items (.str k) = some x ∧ PpValIs h x v
  | [], [], _ => rfl
  | p :: t, q :: t', hd => by
    obtain ⟨h1, h2, h3⟩ := hd
    simp only [Dict.get?, lookup, same_key h1, decide_eq_true_eq]
    by_cases hk : q.1 = .str k
    · simp only [hk, if_true]
      exact ⟨_, rfl, h2⟩
    · simp only [hk, if_false]
      exact PpDocIs.get h3

theorem PpDocIs.keys {h : List Obj} : ∀ {items : List (Val × Val)} {doc : PpDoc}, PpDocIs h items doc →
    (items.map Prod.fst).map keyOf = doc.keys.map some
  | [], [], _ => rfl
  | p :: t, q :: t', hd => by
    obtain ⟨h1, _, h3⟩ := hd
    have := PpDocIs.keys h3
    simp only [Dict.keys] at this
    simp only [Dict.keys, List.map_cons, h1, this]

theorem PpDocIs.contains {h : List Obj} {items : List (Val × Val)} {doc : PpDoc} (hd : PpDocIs h items doc) (k : Str) :
    (lookup items (.str k)).isSome = doc.contains (.str k) := by
  have := hd.get (k := k)
  rw [Dict.contains]
  cases hk : doc.get? (.str k) with
  | none => rw [hk] at this; simp only at this; rw [this]; rfl
  | some v => rw [hk] at this; obtain ⟨x, hx, -⟩ := this; rw [hx]; rfl

theorem DictAt.sub {v : Val} {items : List (Val × Val)} {st : St σ} (h : DictAt st.heap v items) (k : Val) (hk : k.plain = true) :
    (subVal v k : M ε σ Val) st = match lookup items k with
      | some x => (.ok x, st)
      | none => (.error (.std .KeyError k), st) := by
  rcases h with rfl | ⟨l, rfl, hl⟩
  · rw [subVal_dict, keyed_plain hk]; cases lookup items k <;> rfl
  · exact subVal_ref_dict k hl hk

theorem DictAt.contains {v : Val} {items : List (Val × Val)} {st : St σ} (h : DictAt st.heap v items) (k : Val) (hk : k.plain = true) :
    (Src.contains k v : M ε σ Bool) st = (.ok (lookup items k).isSome, st) := by
  rcases h with rfl | ⟨l, rfl, hl⟩
  · rw [Src.contains, keyed_plain hk]; rfl
  · exact contains_ref_dict k hl hk

theorem DictAt.get {v : Val} {items : List (Val × Val)} {st : St σ} (h : DictAt st.heap v items) (k d : Val) (hk : k.plain = true) :
    method rt v .get [k, d] [] st = (.ok ((lookup items k).getD d), st) := by
  rcases h with rfl | ⟨l, rfl, hl⟩
  · rw [method_get, keyed_plain hk]; rfl
  · rw [method_ref, objMethod_dict hl, dictMethod_get, keyed_plain hk]; rfl

theorem DictAt.keys {v : Val} {items : List (Val × Val)} {st : St σ} (h : DictAt st.heap v items) :
    method rt v .keys [] [] st = (.ok (.list (items.map Prod.fst)), st) := by
  rcases h with rfl | ⟨l, rfl, hl⟩
  · rfl
  · rw [method_ref, objMethod_dict hl]; rfl

theorem DictAt.isinstance {v : Val} {items : List (Val × Val)} {st : St σ} (h : DictAt st.heap v items) :
    builtin rt .isinstance [v, .glob .dict] [] st = (.ok (.bool true), st) := by
  rcases h with rfl | ⟨l, rfl, hl⟩
  · rfl
  · have : builtin rt .isinstance [.ref l, .glob .dict] [] = (do pure (.bool (← instanceOf (.ref l) .dict))) := rfl
    rw [this]
    simp [instanceOf, deref_run hl, PyM.run_bind, PyM.run_pure]

/-! ## `_pp_field` -/

/-- `_dispatch` (tools.py:124, 140, 156). -/
def dispatchItems : List (Val × Val) := [(.globAttr .str .__repr__, .glob ._pprint_str), (.globAttr .bytes .__repr__, .glob ._pprint_bytes)]

/-- The module's variables: `_dispatch`, at `dl`. -/
structure ToolsGlobals (rt : Rt ε σ) (dl : Nat) : Prop where
  dispatch : rt.globals ._dispatch = some (.ref dl)
  other : ∀ x, x ≠ ._dispatch → rt.globals x = none
  digits : rt.env.maxStrDigits = 0 ∨ 640 ≤ rt.env.maxStrDigits

/-- What the names called in `_pp_field` are. -/
structure FieldCallsP (rt : Rt ε σ) (call : Caller ε σ) : Prop where
  repr : call .repr = builtin rt .repr
  len : call .len = builtin rt .len
  str : call .str = builtin rt .str
  isinstance : call .isinstance = builtin rt .isinstance
  type : call .type = builtin rt .type
  pprintStr : ∀ (b : Bool) (obj : Str) (indent : Nat) (width : Int) (st : St σ),
    call ._pprint_str [.str obj, .stream b, .int indent, .int width] [] st = callS (pprintStrS rt.env (rt.write b) obj indent width) st
  pprintBytes : ∀ (b : Bool) (obj : Bytes) (indent : Nat) (width : Int) (st : St σ),
    call ._pprint_bytes [.bytes obj, .stream b, .int indent, .int width] [] st = callS (pprintBytesS (rt.write b) obj indent width) st

/-- The variables of `_pp_field`. -/
structure FieldVarsP (vs : Vars) (docv pv : Val) (dw : Int) (b : Bool) (lw : Int) (key : Str) : Prop where
  doc : vs .doc = some docv
  spec : vs .spec = some pv
  desc_width : vs .desc_width = some (.int dw)
  stream : vs .stream = some (.stream b)
  line_width : vs .line_width = some (.int lw)
  field_key : vs .field_key = some (.str key)
  other : ∀ x ∉ [Ident.doc, .spec, .desc_width, .stream, .line_width, .field_key, .indent, .doc_field, .field_length, .obj, .rep, .p], vs x = none

theorem FieldVarsP.set {vs : Vars} {docv pv : Val} {dw lw : Int} {key : Str} (h : FieldVarsP vs docv pv dw b lw key) {x : Ident} (v : Val)
    (hx : x ∈ [Ident.indent, .doc_field, .field_length, .obj, .rep, .p]) : FieldVarsP (vs.set x v) docv pv dw b lw key := by
  simp only [List.mem_cons, List.not_mem_nil, or_false] at hx
  refine ⟨?_, ?_, ?_, ?_, ?_, ?_, ?_⟩
  iterate 6 rcases hx with rfl | rfl | rfl | rfl | rfl | rfl <;> simp [src, h.doc, h.spec, h.desc_width, h.stream, h.line_width, h.field_key]
  intro y hy
  have hyx : y ≠ x := by rintro rfl; apply hy; rcases hx with rfl | rfl | rfl | rfl | rfl | rfl <;> simp
  rw [set_apply, if_neg hyx]
  exact h.other y hy

section
variable {docv pv : Val} {dw lw : Int} {key : Str} {dl : Nat}

@[src] theorem cmpop_isNot_glob (x : Ident) : (cmpop .isNot (.glob x) .none : M ε σ Bool) = pure true := rfl
@[src] theorem cmpop_isNot_none : (cmpop .isNot .none .none : M ε σ Bool) = pure false := rfl
@[src] theorem builtin_type (v : Val) : builtin rt .type [v] [] = typeVal v := rfl

theorem format_index (s : Str) : method rt (.str py"{index:3s}") .format [] [(.index, .str s)] = pure (.str (ljust 3 s)) := rfl
theorem format_len (s : Str) : method rt (.str py"{} ") .format [.str s] [] = pure (.str (s ++ py" ")) := rfl
theorem format_line (s : Str) : method rt (.str py"{}\n") .format [.str s] [] = pure (.str (s ++ py"\n")) := rfl
theorem format_desc (s : Str) (w : Int) : method rt (.str py" {desc: <{desc_width}}") .format [] [(.desc, .str s), (.desc_width, .int w)] =
    if w < 0 then stuck else pure (.str (py" " ++ ljust w.toNat s)) := rfl

/-- tools.py:114-119, when the value does not fit and its type is in `_dispatch`. -/
theorem field8_dispatch {st : St σ} (vs : FieldVarsP st.vars docv pv dw b lw key) {ov : Val} {n : Nat} {m : SM ε σ Unit} {g : Ident}
    (h1 : st.vars .obj = some ov) (h2 : st.vars .indent = some (.int n))
    (hcond : eval rt call (.cmp .gt (.bin .add (.call .len [(.name .rep)] [] []) (.name .indent)) (.name .line_width)) st = (.ok (.bool true), st))
    (hget : eval rt call (.meth (.name ._dispatch) .get [(.attr (.call .type [(.name .obj)] [] []) .__repr__), .none] [] []) st = (.ok (.glob g), st))
    (hm : ∀ st : St σ, call g [ov, .stream b, .int n, .int lw] [] st = callS m st) :
    exec rt call ppField8 st = match (do m; streamWrite (rt.write b) [10] : SM ε σ Unit) st.world with
      | (.ok _, w) => (.ok (.ret .none), { st with vars := st.vars.set .p (.glob g), world := w })
      | (.error e, w) => (.error (excS e), { st with vars := st.vars.set .p (.glob g), world := w }) := by
  have vs' := vs.set (x := .p) (.glob g) (by simp)
  have h1' : (st.vars.set .p (.glob g)) .obj = some ov := by simp [src, h1]
  have h2' : (st.vars.set .p (.glob g)) .indent = some (.int n) := by simp [src, h2]
  have h3' : (st.vars.set .p (.glob g)) .p = some (.glob g) := by simp [src]
  have hb : exec rt call (.assign [(.name .p)] (.meth (.name ._dispatch) .get [(.attr (.call .type [(.name .obj)] [] []) .__repr__), .none] [] [])) st =
      (.ok .next, { st with vars := st.vars.set .p (.glob g) }) := by
    rw [exec_assign]; simp only [PyM.run_bind, hget, assignTo, setVar_run, PyM.run_pure]
  generalize st.vars.set .p (.glob g) = V at *
  have hp : eval rt call (.cmp .isNot (.name .p) .none) { st with vars := V } = (.ok (.bool true), { st with vars := V }) := by
    simp [src, getVar, h3']
  have hcall : exec rt call (.expr (.call .p [(.name .obj), (.name .stream), (.name .indent), (.name .line_width)] [] [])) { st with vars := V } =
      match m st.world with
      | (.ok _, w) => (.ok .next, { st with vars := V, world := w })
      | (.error e, w) => (.error (excS e), { st with vars := V, world := w }) := by
    rw [exec_expr]
    have : eval rt call (.call .p [(.name .obj), (.name .stream), (.name .indent), (.name .line_width)] [] []) { st with vars := V } = callS m { st with vars := V } := by
      rw [eval_call_glob h3']
      simp [src, getVar, h1', h2', vs'.stream, vs'.line_width, hm]
    simp only [PyM.run_bind, this, callS]
    rcases m st.world with ⟨e | u, w⟩ <;> rfl
  rw [ppField8, exec_ite]
  simp only [PyM.run_bind, hcond, truth_bool, PyM.run_pure, if_true, execs_cons, hb]
  rw [exec_ite]
  simp only [PyM.run_bind, hp, truth_bool, PyM.run_pure, if_true, execs_cons, hcall]
  rcases m st.world with ⟨e | u, w⟩
  · rfl
  · simp only
    rw [exec_write (b := b) (t := [10]) (st := { st with vars := V, world := w }) vs'.stream (eval_str _ _)]
    rcases streamWrite (rt.write b) [10] w with ⟨e | u, w'⟩ <;> simp [src]

theorem otherRepr_repr (hd : rt.env.maxStrDigits = 0 ∨ 640 ≤ rt.env.maxStrDigits) {v : Val} {r : Str} (h : otherRepr v = some r) : reprVal rt v = pure r := by
  cases v with
  | int n =>
    simp only [otherRepr] at h
    split at h
    · next hn => cases h; simp only [reprVal, intText, formats_abs hd hn, if_true]
    · cases h
  | none | bool | barray | obj => cases h; rfl
  | _ => cases h

theorem otherRepr_type {v : Val} {r : Str} (h : otherRepr v = some r) : ∃ c, (typeVal v : M ε σ Val) = pure (.cls c) := by
  cases v with
  | none | bool | int | barray | obj => exact ⟨_, rfl⟩
  | _ => cases h

/-- tools.py:113-121. -/
theorem ppValue_sim (hg : ToolsGlobals rt dl) (hc : FieldCallsP rt call) {st st0 : St σ} (h0 : { st with vars := st0.vars, world := st0.world } = st0)
    (hl : st.locals = ppFieldDef.locals) (hd : st.heap[dl]? = some (.dict dispatchItems))
    (vs : FieldVarsP st.vars docv pv dw b lw key) {ov : Val} {obj : PpVal} {n : Nat} (hobj : ∀ x y, obj ≠ .dict x y) (ho : PpValIs st.heap ov obj)
    (h1 : st.vars .obj = some ov) (h2 : st.vars .indent = some (.int n)) :
    SimP (ppValueS rt.env (rt.write b) obj n lw st.world) st0 (execs rt call [ppField7, ppField8, ppField9] st) := by
  obtain ⟨rep, hr⟩ : ∃ rep : Str, rep = match obj with
    | .str s => reprStr rt.env s
    | .bytes b => reprBytes b
    | .dict _ _ => []
    | .other r => r := ⟨_, rfl⟩
  have hrep : reprVal rt ov = pure rep := by
    cases obj with
    | str s => cases ho; subst hr; rfl
    | bytes s => cases ho; subst hr; rfl
    | dict x y => exact absurd rfl (hobj x y)
    | other r => subst hr; exact otherRepr_repr hg.digits ho
  have v1 : st.vars .repr = none := vs.other _ (by simp)
  have e7 : exec rt call ppField7 st = (.ok .next, { st with vars := st.vars.set .rep (.str rep) }) := by
    simp [ppField7, src, getVar, h1, v1, hc.repr, hrep]
  refine simP_next e7 ?_
  have vs' := vs.set (x := .rep) (.str rep) (by simp)
  have h1' : (st.vars.set .rep (.str rep)) .obj = some ov := by simp [src, h1]
  have h2' : (st.vars.set .rep (.str rep)) .indent = some (.int n) := by simp [src, h2]
  have h3' : (st.vars.set .rep (.str rep)) .rep = some (.str rep) := by simp [src]
  clear e7 h1 h2 vs v1
  generalize st.vars.set .rep (.str rep) = V at *
  have v2 : V .len = none := vs'.other _ (by simp)
  have v3 : V .type = none := vs'.other _ (by simp)
  have v4 : V ._dispatch = none := vs'.other _ (by simp)
  have v5 : V .repr = none := vs'.other _ (by simp)
  have hcond : eval rt call (.cmp .gt (.bin .add (.call .len [(.name .rep)] [] []) (.name .indent)) (.name .line_width)) { st with vars := V } =
      (.ok (.bool (decide ((rep.length + n : Int) > lw))), { st with vars := V }) := by
    simp [src, getVar, h2', h3', vs'.line_width, v2, hc.len]
  have hline : exec rt call ppField9 { st with vars := V } = match streamWrite (rt.write b) (rep ++ [10]) st.world with
      | (.ok _, w) => (.ok .next, { st with vars := V, world := w })
      | (.error e, w) => (.error (excS e), { st with vars := V, world := w }) :=
    exec_write (st := { st with vars := V }) vs'.stream (by simp [src, getVar, h1', v5, hc.repr, hrep, format_line])
  have hget : ∀ r : Val, r.plain = true → (do let t ← typeVal ov; attrVal t .__repr__ : M ε σ Val) = pure r →
      eval rt call (.meth (.name ._dispatch) .get [(.attr (.call .type [(.name .obj)] [] []) .__repr__), .none] [] []) { st with vars := V } =
        (.ok ((lookup dispatchItems r).getD .none), { st with vars := V }) := by
    intro r hp hr
    have hr' := congrFun hr { st with vars := V }
    simp only [PyM.run_bind, PyM.run_pure] at hr'
    have hm := objMethod_dict (ε := ε) (st := { st with vars := V }) hd .get [r, .none] []
    have hgd : getVar rt ._dispatch { st with vars := V } = (.ok (.ref dl), { st with vars := V }) := by
      simp [getVar, v4, hl, ppFieldDef, hg.dispatch]
    have ht : eval rt call (.attr (.call .type [(.name .obj)] [] []) .__repr__) { st with vars := V } = (.ok r, { st with vars := V }) := by
      simp [src, getVar, h1', v3, hc.type, hr']
    rw [eval_meth]
    simp only [PyM.run_bind, eval_name, hgd, evals, ht, eval_none, PyM.run_pure, findMethod, guarded_run, method_ref, List.zip_nil_left, hm, dictMethod_get, keyed_plain hp]
  have hval : ppValueS rt.env (rt.write b) obj n lw = (if (rep.length + n : Int) > lw then
      (match obj with
        | .str s => do
          pprintStrS rt.env (rt.write b) s n lw
          streamWrite (rt.write b) [10]
        | .bytes x => do
          pprintBytesS (rt.write b) x n lw
          streamWrite (rt.write b) [10]
        | _ => streamWrite (rt.write b) (rep ++ [10]))
      else streamWrite (rt.write b) (rep ++ [10]) : SM ε σ Unit) := by subst hr; cases obj <;> rfl
  rw [hval]
  clear hval
  by_cases hw : (rep.length + n : Int) > lw
  · rw [decide_eq_true hw] at hcond
    rw [if_pos hw]
    cases obj with
    | dict x y => exact absurd rfl (hobj x y)
    | str s =>
      cases ho
      rw [execs_cons, field8_dispatch (m := pprintStrS rt.env (rt.write b) s n lw) vs' h1' h2' hcond (hget (.globAttr .str .__repr__) rfl rfl) (hc.pprintStr b s n lw)]
      simp only
      rcases (do pprintStrS rt.env (rt.write b) s n lw; streamWrite (rt.write b) [10] : SM ε σ Unit) st.world with ⟨e | u, w⟩
      · exact ⟨_, _, by rw [← h0], rfl⟩
      · exact ⟨_, _, by rw [← h0], .inr rfl⟩
    | bytes s =>
      cases ho
      rw [execs_cons, field8_dispatch (m := pprintBytesS (rt.write b) s n lw) vs' h1' h2' hcond (hget (.globAttr .bytes .__repr__) rfl rfl) (hc.pprintBytes b s n lw)]
      simp only
      rcases (do pprintBytesS (rt.write b) s n lw; streamWrite (rt.write b) [10] : SM ε σ Unit) st.world with ⟨e | u, w⟩
      · exact ⟨_, _, by rw [← h0], rfl⟩
      · exact ⟨_, _, by rw [← h0], .inr rfl⟩
    | other r =>
      obtain ⟨c, ht⟩ := otherRepr_type (ε := ε) (σ := σ) ho
      have hg' := hget .none rfl (by rw [ht]; rfl)
      have e8 : exec rt call ppField8 { st with vars := V } = (.ok .next, { st with vars := V.set .p .none }) := by
        have : (lookup dispatchItems .none).getD .none = .none := rfl
        rw [this] at hg'
        rw [ppField8, exec_ite]
        simp only [PyM.run_bind, hcond, truth_bool, PyM.run_pure, if_true, execs_cons, exec_assign, hg', assignTo, setVar_run]
        simp [src, getVar]
      refine simP_next e8 ?_
      have h4 : (V.set .p .none) .obj = some ov := by simp [src, h1']
      have h5 : (V.set .p .none) .repr = none := by simp [src, v5]
      have h6 := (vs'.set (x := .p) .none (by simp)).stream
      refine simP_last (V.set .p .none) (st := { st with vars := V.set .p .none }) ?_ (by rw [← h0])
      exact exec_write (st := { st with vars := V.set .p .none }) h6 (by simp [src, getVar, h4, h5, hc.repr, hrep, format_line])
  · rw [decide_eq_false hw] at hcond
    rw [if_neg hw]
    have e8 : exec rt call ppField8 { st with vars := V } = (.ok .next, { st with vars := V }) := by
      rw [ppField8, exec_ite]
      simp only [PyM.run_bind, hcond, truth_bool, PyM.run_pure]
      simp [src]
    refine simP_next (V := V) e8 ?_
    exact simP_last V (st := { st with vars := V }) hline (by rw [← h0])

end

end Iso8583.Src
