import Verif.Source.ToolsField
/-!
# tools.py: `_pp_field` and `pp`
-/

namespace Iso8583.Src

variable {ε σ : Type} {rt : Rt ε σ} {call : Caller ε σ} {b : Bool}

/-- A statement that does what `m` does and sets variables, and then the others. -/
theorem simP_bindV {m : SM ε σ Unit} {k : Unit → SM ε σ Unit} {st st0 : St σ} {s : Stmt} {t : List Stmt} (V V' : Vars)
    (h1 : exec rt call s st = match m st.world with
      | (.ok _, w) => (.ok .next, { st with vars := V, world := w })
      | (.error e, w) => (.error (excS e), { st with vars := V', world := w }))
    (h2 : ∀ w, SimP (k () w) st0 (execs rt call t { st with vars := V, world := w }))
    (h0 : { st with vars := st0.vars, world := st0.world } = st0) :
    SimP ((m >>= k) st.world) st0 (execs rt call (s :: t) st) := by
  rw [execs_cons, h1, PyM.run_bind]
  rcases m st.world with ⟨e | u, w⟩
  · exact ⟨_, V', by rw [← h0], rfl⟩
  · exact h2 w

/-! ## `_pp_field` -/

/-- tools.py:103-121. -/
def ppEntryS (env : PyEnv) (w : Writer ε σ) (lw : Int) (indent : Nat) : PpVal → SM ε σ Unit
  | .dict len data =>
    if (len.getD []).length > 0 then do
      streamWrite w (reprBytes (len.getD []) ++ py" ")
      ppValueS env w (.bytes (data.getD [])) (indent + ((reprBytes (len.getD [])).length + 1)) lw
    else ppValueS env w (.bytes (data.getD [])) indent lw
  | v => ppValueS env w v indent lw

/-- tools.py:99-121. -/
def ppRestS (env : PyEnv) (w : Writer ε σ) (doc : PpDoc) (lw : Int) (key : Str) (indent : Nat) : SM ε σ Unit := do
  streamWrite w py": "
  match doc.get? (.str key) with
  | none => PyM.raise (.pp (.keyError key))
  | some v => ppEntryS env w lw indent v

theorem ppFieldS_eq (env : PyEnv) (w : Writer ε σ) (doc : PpDoc) (spec : Spec) (dw lw : Int) (key : Str) :
    ppFieldS env w doc spec dw lw key = (do
      streamWrite w (ljust 3 key)
      if dw > 0 then
        match spec.get? key with
        | none => PyM.raise (.pp (.keyError key))
        | some fs =>
          match fs.desc with
          | none => PyM.raise (.pp (.keyError py"desc"))
          | some d => do
            streamWrite w (py" " ++ ljust dw.toNat (d.take dw.toNat))
            ppRestS env w doc lw key (5 + (dw.toNat + 1))
      else ppRestS env w doc lw key 5 : SM ε σ Unit) := by
  have hrest : ∀ n : Nat, ∀ s, (do
      streamWrite w py": "
      match doc.get? (.str key) with
      | none => PyM.raise (.pp (.keyError key))
      | some (.dict len data) =>
        let l := len.getD []
        let indent ←
          if l.length > 0 then do
            streamWrite w (reprBytes l ++ py" ")
            pure (n + ((reprBytes l).length + 1))
          else pure n
        ppValueS env w (.bytes (data.getD [])) indent lw
      | some v => ppValueS env w v n lw : SM ε σ Unit) s = ppRestS env w doc lw key n s := by
    intro n s
    rw [ppRestS, PyM.run_bind, PyM.run_bind]
    rcases streamWrite w py": " s with ⟨e | u, s'⟩
    · rfl
    · simp only
      cases doc.get? (.str key) with
      | none => rfl
      | some v =>
        cases v with
        | dict len data =>
          simp only [ppEntryS]
          by_cases h : (len.getD []).length > 0
          · simp only [if_pos h, PyM.run_bind]
            rcases streamWrite w (reprBytes (len.getD []) ++ py" ") s' with ⟨e | u, s''⟩ <;> rfl
          · simp only [if_neg h]; rfl
        | _ => rfl
  funext s
  unfold ppFieldS
  rw [PyM.run_bind, PyM.run_bind]
  rcases streamWrite w (ljust 3 key) s with ⟨e | u, s1⟩
  · rfl
  simp only
  by_cases h : dw > 0
  · simp only [if_pos h]
    cases spec.get? key with
    | none => rfl
    | some fs =>
      simp only
      cases fs.desc with
      | none => rfl
      | some d =>
        simp only [PyM.run_bind]
        rcases streamWrite w (py" " ++ ljust dw.toNat (d.take dw.toNat)) s1 with ⟨e | u, s2⟩
        · rfl
        · simp only [PyM.run_pure]
          rw [← hrest, PyM.run_bind]
          rfl
  · simp only [if_neg h]
    rw [← hrest]; rfl

section
variable {docv pv : Val} {dw lw : Int} {key : Str} {dl : Nat} {raw : PartialSpec} {doc : PpDoc} {items : List (Val × Val)}

/-- tools.py:103-121. -/
theorem ppEntry_sim (hg : ToolsGlobals rt dl) (hc : FieldCallsP rt call) {st st0 : St σ} (h0 : { st with vars := st0.vars, world := st0.world } = st0)
    (hl : st.locals = ppFieldDef.locals) (hd : st.heap[dl]? = some (.dict dispatchItems))
    (vs : FieldVarsP st.vars docv pv dw b lw key) {fv : Val} {v : PpVal} {n : Nat} (hv : PpValIs st.heap fv v)
    (h1 : st.vars .doc_field = some fv) (h2 : st.vars .indent = some (.int n)) :
    SimP (ppEntryS rt.env (rt.write b) lw n v st.world) st0 (execs rt call [ppField6, ppField7, ppField8, ppField9] st) := by
  have v1 : st.vars .isinstance = none := vs.other _ (by simp)
  have v2 : st.vars .dict = none := vs.other _ (by simp)
  have v3 : st.vars .len = none := vs.other _ (by simp)
  have v4 : st.vars .repr = none := vs.other _ (by simp)
  have hgd : getVar rt .dict st = (.ok (.glob .dict), st) := by
    simp [getVar, v2, hl, ppFieldDef, hg.other, namesGlobal]
  have flat : (∀ x y, v ≠ .dict x y) → builtin rt .isinstance [fv, .glob .dict] [] = pure (.bool false) →
      SimP (ppValueS rt.env (rt.write b) v n lw st.world) st0 (execs rt call [ppField6, ppField7, ppField8, ppField9] st) := by
    intro hne hi
    have e6 : exec rt call ppField6 st = (.ok .next, { st with vars := st.vars.set .obj fv }) := by
      rw [ppField6, exec_ite]
      simp only [PyM.run_bind, eval_call v1, evals, eval_name, getVar_some h1, hgd, PyM.run_pure, hc.isinstance, List.zip_nil_left, hi, truth_bool]
      simp [src, getVar, h1]
    refine simP_next e6 ?_
    exact ppValue_sim (st := { st with vars := st.vars.set .obj fv }) hg hc h0 hl hd (vs.set _ (by simp)) hne hv (by simp [src]) (by simp [src, h2])
  cases v with
  | str s => cases hv; exact flat (by simp) rfl
  | bytes s => cases hv; exact flat (by simp) rfl
  | other r =>
    refine flat (by simp) ?_
    cases fv with
    | none | bool | int | barray | obj => rfl
    | _ => cases hv
  | dict len data =>
    clear flat
    obtain ⟨its, hat, hlen, hdata⟩ := hv
    have hcond : eval rt call (.call .isinstance [(.name .doc_field), (.name .dict)] [] []) st = (.ok (.bool true), st) := by
      simp only [eval_call v1, PyM.run_bind, evals, eval_name, getVar_some h1, hgd, PyM.run_pure, hc.isinstance, List.zip_nil_left, hat.isinstance]
    have glen := hat.get (rt := rt) (st := st) (.str py"len") (.bytes [])
    have g1 : (lookup its (.str py"len")).getD (.bytes []) = .bytes (len.getD []) := by rw [hlen]; cases len <;> rfl
    have g2 : (lookup its (.str py"data")).getD (.bytes []) = .bytes (data.getD []) := by rw [hdata]; cases data <;> rfl
    rw [g1] at glen
    simp only [ppEntryS]
    generalize len.getD [] = l at *
    have e61 : exec rt call (.assign [(.name .field_length)] (.meth (.name .doc_field) .get [(.str py"len"), (.bytes [])] [] [])) st =
        (.ok .next, { st with vars := st.vars.set .field_length (.bytes l) }) := by
      simp [src, getVar, h1, glen]
    have vs1 := vs.set (x := .field_length) (.bytes l) (by simp)
    have a1 : (st.vars.set .field_length (.bytes l)) .field_length = some (.bytes l) := by simp [src]
    have a2 : (st.vars.set .field_length (.bytes l)) .indent = some (.int n) := by simp [src, h2]
    have a3 : (st.vars.set .field_length (.bytes l)) .doc_field = some fv := by simp [src, h1]
    generalize st.vars.set .field_length (.bytes l) = V at *
    have v5 : V .len = none := vs1.other _ (by simp)
    have v6 : V .repr = none := vs1.other _ (by simp)
    by_cases hlp : l.length > 0
    · rw [if_pos hlp]
      have c2 : eval rt call (.cmp .gt (.call .len [(.name .field_length)] [] []) (.int 0)) { st with vars := V } = (.ok (.bool true), { st with vars := V }) := by
        simp [src, getVar, a1, v5, hc.len]
        exact hlp
      have ew := exec_write (rt := rt) (call := call) (b := b) (st := { st with vars := V }) vs1.stream
        (e := .meth (.str py"{} ") .format [(.call .repr [(.name .field_length)] [] [])] [] []) (t := reprBytes l ++ py" ")
        (by simp [src, getVar, a1, v6, hc.repr, format_len])
      refine simP_bindV ((V.set .indent (.int (n + ((reprBytes l).length + 1)))).set .obj (.bytes (data.getD []))) V ?_ (fun w => ?_) h0
      · rw [ppField6, exec_ite]
        simp only [PyM.run_bind, hcond, truth_bool, PyM.run_pure, if_true, execs_cons, e61]
        rw [exec_ite]
        simp only [PyM.run_bind, c2, truth_bool, PyM.run_pure, if_true, execs_cons, ew]
        rcases streamWrite (rt.write b) (reprBytes l ++ py" ") st.world with ⟨e | u, w⟩
        · rfl
        · have gdata := hat.get (rt := rt) (st := { st with vars := V.set .indent (.int (n + ((reprBytes l).length + 1))), world := w }) (.str py"data") (.bytes [])
          rw [g2] at gdata
          simp [src, getVar, a1, a2, a3, v5, v6, hc.len, hc.repr, gdata]
      · refine ppValue_sim (st := { st with vars := (V.set .indent (.int (n + ((reprBytes l).length + 1)))).set .obj (.bytes (data.getD [])), world := w })
          (n := n + ((reprBytes l).length + 1)) (obj := .bytes (data.getD []))
          hg hc (by rw [← h0]) hl hd ((vs1.set _ (by simp)).set _ (by simp)) (by simp) rfl (by simp [src]) (by simp [src])
    · rw [if_neg hlp]
      have c2 : eval rt call (.cmp .gt (.call .len [(.name .field_length)] [] []) (.int 0)) { st with vars := V } = (.ok (.bool false), { st with vars := V }) := by
        simp [src, getVar, a1, v5, hc.len]
        exact List.eq_nil_of_length_eq_zero (by omega)
      have gdata := hat.get (rt := rt) (st := { st with vars := V }) (.str py"data") (.bytes [])
      rw [g2] at gdata
      refine simP_next (V := V.set .obj (.bytes (data.getD []))) ?_ ?_
      · rw [ppField6, exec_ite]
        simp only [PyM.run_bind, hcond, truth_bool, PyM.run_pure, if_true, execs_cons, e61]
        rw [exec_ite]
        simp only [PyM.run_bind, c2, truth_bool, PyM.run_pure]
        simp [src, getVar, a3, gdata]
      · exact ppValue_sim (st := { st with vars := V.set .obj (.bytes (data.getD [])) }) (obj := .bytes (data.getD []))
          hg hc h0 hl hd (vs1.set _ (by simp)) (by simp) rfl (by simp [src]) (by simp [src, a2])

/-- tools.py:99-121. -/
theorem ppRest_sim (hg : ToolsGlobals rt dl) (hc : FieldCallsP rt call) {st st0 : St σ} (h0 : { st with vars := st0.vars, world := st0.world } = st0)
    (hl : st.locals = ppFieldDef.locals) (hd : st.heap[dl]? = some (.dict dispatchItems)) (hat : DictAt st.heap docv items) (hdoc : PpDocIs st.heap items doc)
    (vs : FieldVarsP st.vars docv pv dw b lw key) {n : Nat} (h2 : st.vars .indent = some (.int n)) :
    SimP (ppRestS rt.env (rt.write b) doc lw key n st.world) st0 (execs rt call [ppField4, ppField5, ppField6, ppField7, ppField8, ppField9] st) := by
  unfold ppRestS
  refine simP_bind (exec_write vs.stream (eval_str _ _)) (fun w => ?_) h0
  have hget := hdoc.get (k := key)
  have hsub := hat.sub (ε := ε) (st := { st with world := w }) (.str key)
  cases hk : doc.get? (.str key) with
  | none =>
    rw [hk] at hget
    simp only at hget
    rw [hget] at hsub
    exact simP_err (st := { st with world := w }) (by simp [ppField5, src, getVar, vs.doc, vs.field_key, hsub, excS]) (by rw [← h0])
  | some v =>
    rw [hk] at hget
    obtain ⟨fv, hx, hv⟩ := hget
    rw [hx] at hsub
    refine simP_next (V := st.vars.set .doc_field fv) (by simp [ppField5, src, getVar, vs.doc, vs.field_key, hsub]) ?_
    exact ppEntry_sim (st := { st with vars := st.vars.set .doc_field fv, world := w }) hg hc (by rw [← h0]) hl hd (vs.set _ (by simp)) hv (by simp [src]) (by simp [src, h2])

/-- tools.py:79-121 `_pp_field`. -/
theorem ppField_call (hg : ToolsGlobals rt dl) (hc : FieldCallsP rt call) (hp : PSpecVal pv raw) (st : St σ)
    (hd : st.heap[dl]? = some (.dict dispatchItems)) (hat : DictAt st.heap docv items) (hdoc : PpDocIs st.heap items doc) :
    invoke rt call ppFieldDef [docv, pv, .int dw, .stream b, .int lw, .str key] [] st =
      callS (ppFieldS rt.env (rt.write b) doc raw.described dw lw key) st := by
  refine callS_of_body rfl rfl rfl rfl ?_
  generalize hst0 : ({ st with vars := _, locals := _, ys := _ } : St σ) = st0
  have hw : st0.world = st.world := by subst hst0; rfl
  have hh : st0.heap = st.heap := by subst hst0; rfl
  have hl : st0.locals = ppFieldDef.locals := by subst hst0; rfl
  have vs : FieldVarsP st0.vars docv pv dw b lw key := by
    subst hst0
    refine ⟨?_, ?_, ?_, ?_, ?_, ?_, ?_⟩
    iterate 6 simp [src, ppFieldDef]
    intro x hx
    simp only [List.mem_cons, not_or] at hx
    simp [src, ppFieldDef, hx]
  clear hst0
  rw [← hw]
  rw [← hh] at hd hat hdoc
  rw [ppFieldS_eq]
  refine simP_next (V := st0.vars.set .indent (.int 5)) (by simp [ppField1, src]) ?_
  have vs1 := vs.set (x := .indent) (.int 5) (by simp)
  have a1 : (st0.vars.set .indent (.int 5)) .indent = some (.int 5) := by simp [src]
  generalize st0.vars.set .indent (.int 5) = V at *
  have v1 : V .str = none := vs1.other _ (by simp)
  refine simP_bind (st := { st0 with vars := V }) (m := streamWrite (rt.write b) (ljust 3 key))
    (exec_write (st := { st0 with vars := V }) vs1.stream (by simp [src, getVar, vs1.field_key, v1, hc.str, format_index])) (fun w => ?_) rfl
  by_cases hdw : dw > 0
  · simp only [if_pos hdw]
    have hc3 : eval rt call (.cmp .gt (.name .desc_width) (.int 0)) { st0 with vars := V, world := w } = (.ok (.bool true), { st0 with vars := V, world := w }) := by
      simp [src, getVar, vs1.desc_width, hdw]
    obtain ⟨sitems, rfl, hs⟩ := hp
    have hk := hs key
    rw [described_get]
    cases hf : raw.get? key with
    | none =>
      rw [hf] at hk
      simp only at hk
      refine simP_err (st := { st0 with vars := V, world := w }) (st0 := st0) ?_ rfl
      rw [ppField3, exec_ite]
      simp only [PyM.run_bind, hc3, truth_bool, PyM.run_pure, if_true]
      simp [src, getVar, vs1.stream, vs1.spec, vs1.field_key, hk, excS]
    | some f =>
      rw [hf] at hk
      obtain ⟨fv, hk, fitems, rfl, -, -, -, -, -, -, -, hdesc⟩ := hk
      simp only [Option.map_some, PartialField.seen]
      cases hds : f.desc with
      | none =>
        rw [hds] at hdesc
        refine simP_err (st := { st0 with vars := V, world := w }) (st0 := st0) ?_ rfl
        rw [ppField3, exec_ite]
        simp only [PyM.run_bind, hc3, truth_bool, PyM.run_pure, if_true]
        simp [src, getVar, vs1.stream, vs1.spec, vs1.field_key, hk, hdesc, excS]
      | some d =>
        rw [hds] at hdesc
        have hsl : sliceOf d none (some dw) = d.take dw.toNat := by
          have : ¬ dw < 0 := by omega
          simp [sliceOf, bound, this]
        have ew := exec_write (rt := rt) (call := call) (b := b) (st := { st0 with vars := V, world := w }) vs1.stream
          (e := .meth (.str py" {desc: <{desc_width}}") .format [] [.desc, .desc_width] [(.slice (.sub (.sub (.name .spec) (.name .field_key)) (.str py"desc")) .none (.name .desc_width)), (.name .desc_width)])
          (t := py" " ++ ljust dw.toNat (d.take dw.toNat))
          (by
            have : ¬ dw < 0 := by omega
            simp [src, getVar, vs1.spec, vs1.field_key, vs1.desc_width, hk, hdesc, hsl, format_desc, this])
        have hn : (5 + (dw + 1) : Int) = ((5 + (dw.toNat + 1) : Nat) : Int) := by omega
        refine simP_bindV (st := { st0 with vars := V, world := w }) (st0 := st0) (V.set .indent (.int (5 + (dw.toNat + 1) : Nat))) V ?_ (fun w' => ?_) rfl
        · rw [ppField3, exec_ite]
          simp only [PyM.run_bind, hc3, truth_bool, PyM.run_pure, if_true, execs_cons, ew]
          rcases streamWrite (rt.write b) (py" " ++ ljust dw.toNat (d.take dw.toNat)) w with ⟨e | u, w'⟩
          · rfl
          · rw [← hn]
            simp [src, getVar, a1, vs1.desc_width]
        · exact ppRest_sim (st := { st0 with vars := V.set .indent (.int (5 + (dw.toNat + 1) : Nat)), world := w' }) hg hc rfl hl hd hat hdoc (vs1.set _ (by simp)) (by simp only [set_apply, if_true])
  · simp only [if_neg hdw]
    have hc3 : eval rt call (.cmp .gt (.name .desc_width) (.int 0)) { st0 with vars := V, world := w } = (.ok (.bool false), { st0 with vars := V, world := w }) := by
      have : ¬ 0 < dw := hdw
      simp [src, getVar, vs1.desc_width, this]
    refine simP_next (st := { st0 with vars := V, world := w }) (V := V) ?_ ?_
    · rw [ppField3, exec_ite]
      simp only [PyM.run_bind, hc3, truth_bool, PyM.run_pure]
      simp [src]
    · exact ppRest_sim (st := { st0 with vars := V, world := w }) hg hc rfl hl hd hat hdoc vs1 a1

end

/-! ## `pp` -/

/-- The width argument a value is. -/
def widthOf : Val → Option PpWidth
  | .int n => some (.int n)
  | .str s => some (.str s)
  | .float m e => some (.float m e)
  | .nan => some .nan
  | .inf => some .inf
  | .obj .. => some .other
  | _ => none

/-- The stream argument a value is: nothing, or a stream. -/
def streamOf (rt : Rt ε σ) : Val → Option (Option (Writer ε σ))
  | .none => some none
  | .stream b => some (some (rt.write b))
  | _ => none

theorem width_run {v : Val} {w : PpWidth} (h : widthOf v = some w) (st : St σ) :
    intVal rt v st = match (ppWidth rt.env w : Except (StreamRaise ε) Int) with
      | .ok n => (.ok (.int n), st)
      | .error e => (.error (excS e), st) := by
  cases v <;> cases h
  case str s =>
    simp only [ppWidth, intVal]
    cases pyInt rt.env s <;> rfl
  all_goals rfl

/-- tools.py:64-65. -/
def ppHeadS (env : PyEnv) (w : Writer ε σ) (doc : PpDoc) (spec : PartialSpec) (dw lw : Int) : SM ε σ Unit :=
  if doc.contains (.str py"h") then
    match spec.get? py"h" with
    | none => PyM.raise (.pp (.keyError py"h"))
    | some f =>
      match f.maxLen with
      | none => PyM.raise (.pp (.keyError py"max_len"))
      | some m => if m > 0 then ppFieldS env w doc spec.described dw lw py"h" else pure ()
  else pure ()

/-- tools.py:67-68, 70-71. -/
def ppKeyS (env : PyEnv) (w : Writer ε σ) (doc : PpDoc) (spec : Spec) (dw lw : Int) (k : Str) : SM ε σ Unit :=
  if doc.contains (.str k) then ppFieldS env w doc spec dw lw k else pure ()

/-- tools.py:73-76. -/
def ppNumsS (env : PyEnv) (w : Writer ε σ) (doc : PpDoc) (spec : Spec) (dw lw : Int) : SM ε σ Unit :=
  match ppNumericKeys env doc.keys with
  | .error e => PyM.raise (.pp e)
  | .ok ks => ppFieldsS env w doc spec dw lw ((sortedBy Prod.snd ks).map Prod.fst)

theorem ppBodySP_eq (env : PyEnv) (w : Writer ε σ) (doc : PpDoc) (raw : PartialSpec) (dw lw : Int) :
    ppBodySP env w doc raw dw lw = (do
      ppHeadS env w doc raw dw lw
      ppKeyS env w doc raw.described dw lw py"t"
      ppKeyS env w doc raw.described dw lw py"p"
      ppNumsS env w doc raw.described dw lw : SM ε σ Unit) := by
  have h2 : ∀ s, (do
      if doc.contains (.str py"t") then
        ppFieldS env w doc raw.described dw lw py"t"
      if doc.contains (.str py"p") then
        ppFieldS env w doc raw.described dw lw py"p"
      match ppNumericKeys env doc.keys with
      | .error e => PyM.raise (.pp e)
      | .ok ks => ppFieldsS env w doc raw.described dw lw ((sortedBy Prod.snd ks).map Prod.fst) : SM ε σ Unit) s = (do
      ppKeyS env w doc raw.described dw lw py"t"
      ppKeyS env w doc raw.described dw lw py"p"
      ppNumsS env w doc raw.described dw lw : SM ε σ Unit) s := by
    intro s
    unfold ppKeyS
    by_cases h1 : doc.contains (.str py"t") = true <;> by_cases h2 : doc.contains (.str py"p") = true <;> simp only [h1, h2, if_true] <;> rfl
  funext s
  unfold ppBodySP ppHeadS
  by_cases hh : doc.contains (.str py"h") = true
  · simp only [if_pos hh]
    cases raw.get? py"h" with
    | none => rfl
    | some f =>
      simp only
      cases f.maxLen with
      | none => rfl
      | some m =>
        simp only
        by_cases hm : m > 0
        · simp only [if_pos hm, PyM.run_bind]
          rcases ppFieldS env w doc raw.described dw lw py"h" s with ⟨e | u, s'⟩
          · rfl
          · simp only
            exact h2 s'
        · simp only [if_neg hm]
          exact h2 s
  · simp only [if_neg hh]
    exact h2 s

/-! ### Keys in order -/

/-- The strings tools.py:74 picks. -/
def pickNumeric (env : PyEnv) : List Key → List Str
  | [] => []
  | .obj _ :: t => pickNumeric env t
  | .str k :: t => if isNumeric env k then k :: pickNumeric env t else pickNumeric env t

/-- tools.py:74. -/
theorem pick_run (hg : ∀ x, x ≠ ._dispatch → rt.globals x = none) (hc : call .isinstance = builtin rt .isinstance) :
    ∀ (ks : List Val) (qs : List Key), ks.map keyOf = qs.map some →
    ∀ st : St σ, st.vars .isinstance = none → st.vars .str = none → .str ∉ st.locals → ∃ V : Vars,
      gather (evalComp rt call (.when (.and (.call .isinstance [(.name .k), (.name .str)] [] []) (.meth (.name .k) .isnumeric [] [] [])) (.yield (.name .k)))) [.k] ks st =
        (.ok ((pickNumeric rt.env qs).map .str), { st with vars := V })
  | [], [], _, st, _, _, _ => ⟨st.vars, rfl⟩
  | [], _ :: _, h, _, _, _, _ => by simp at h
  | _ :: _, [], h, _, _, _, _ => by simp at h
  | v :: ks, q :: qs, h, st, h1, h2, h3 => by
    simp only [List.map_cons, List.cons.injEq] at h
    obtain ⟨hk, ht⟩ := h
    have h1' : (st.vars.set .k v) .isinstance = none := by simp [src, h1]
    have h2' : (st.vars.set .k v) .str = none := by simp [src, h2]
    obtain ⟨V, hV⟩ := pick_run hg hc ks qs ht { st with vars := st.vars.set .k v } h1' h2' h3
    have hgk : getVar rt .k { st with vars := st.vars.set .k v } = (.ok v, { st with vars := st.vars.set .k v }) := getVar_some (by simp [src])
    have hgs : getVar rt .str { st with vars := st.vars.set .k v } = (.ok (.glob .str), { st with vars := st.vars.set .k v }) := by
      simp [getVar, h2', h3, hg, namesGlobal]
    refine ⟨V, ?_⟩
    rcases keyOf_cases (rt := rt) hk with ⟨k, rfl, rfl⟩ | ⟨r, rfl, -, hi, -⟩
    · have hi : builtin rt .isinstance [.str k, .glob .str] [] = pure (.bool true) := rfl
      have hm : method rt (.str k) .isnumeric [] [] = pure (.bool (isNumeric rt.env k)) := rfl
      have he : evalComp rt call (.when (.and (.call .isinstance [(.name .k), (.name .str)] [] []) (.meth (.name .k) .isnumeric [] [] [])) (.yield (.name .k))) { st with vars := st.vars.set .k (.str k) } =
          (.ok (if isNumeric rt.env k then [.str k] else []), { st with vars := st.vars.set .k (.str k) }) := by
        by_cases hn : isNumeric rt.env k = true <;> simp [evalComp, src, hgk, hgs, h1', hc, hi, hm, hn]
      simp only [gather, bindNames, PyM.run_bind, setVar_run, he, hV, pickNumeric]
      by_cases hn : isNumeric rt.env k = true
      · simp only [hn, if_true]; rfl
      · simp only [hn]; rfl
    · have he : evalComp rt call (.when (.and (.call .isinstance [(.name .k), (.name .str)] [] []) (.meth (.name .k) .isnumeric [] [] [])) (.yield (.name .k))) { st with vars := st.vars.set .k v } =
          (.ok [], { st with vars := st.vars.set .k v }) := by
        simp [evalComp, src, hgk, hgs, h1', hc, hi]
      simp only [gather, bindNames, PyM.run_bind, setVar_run, he, hV, pickNumeric]; rfl

/-- `int` of each. -/
theorem intVals_pick (env : PyEnv) (he : env = rt.env) : ∀ (qs : List Key) (st : St σ),
    match ppNumericKeys env qs with
    | .ok r => pickNumeric env qs = r.map Prod.fst ∧ intVals rt ((pickNumeric env qs).map .str) st = (.ok (r.map Prod.snd), st)
    | .error e => e = .valueError ∧ intVals rt ((pickNumeric env qs).map .str) st = (.error (.std .ValueError .none), st)
  | [], st => ⟨rfl, rfl⟩
  | .obj r :: t, st => by simpa only [ppNumericKeys, pickNumeric] using intVals_pick env he t st
  | .str k :: t, st => by
    have ih := intVals_pick env he t st
    simp only [ppNumericKeys, pickNumeric]
    by_cases hn : isNumeric env k = true
    · simp only [hn, if_true, List.map_cons, intVals, intVal, ← he]
      cases hp : pyInt env k with
      | none =>
        cases hr : ppNumericKeys env t with
        | error e => rw [hr] at ih; exact ⟨ih.1, rfl⟩
        | ok r => exact ⟨rfl, rfl⟩
      | some n =>
        cases hr : ppNumericKeys env t with
        | error e => rw [hr] at ih; exact ⟨ih.1, by simp only [PyM.run_bind, PyM.run_pure, ih.2]⟩
        | ok r =>
          rw [hr] at ih
          exact ⟨by simp [ih.1], by simp only [PyM.run_bind, PyM.run_pure, ih.2, List.map_cons]⟩
    · simp only [hn]
      exact ih

theorem insertBy_map' {α β : Type} (f : α → β) (g : β → Int) (x : α) : ∀ l : List α, insertBy g (f x) (l.map f) = (insertBy (fun a => g (f a)) x l).map f
  | [] => rfl
  | y :: t => by
    simp only [List.map_cons, insertBy]
    split
    · rfl
    · rw [List.map_cons, insertBy_map' f g x t]

theorem sortedBy_map' {α β : Type} (f : α → β) (g : β → Int) : ∀ l : List α, sortedBy g (l.map f) = (sortedBy (fun a => g (f a)) l).map f
  | [] => rfl
  | x :: t => by rw [List.map_cons, sortedBy, sortedBy, sortedBy_map' f g t, insertBy_map']

theorem zip_fst_snd (r : List (Str × Int)) : ((r.map Prod.fst).map Val.str).zip (r.map Prod.snd) = r.map fun p => (Val.str p.1, p.2) := by
  induction r with
  | nil => rfl
  | cons p t ih => simp only [List.map_cons, List.zip_cons_cons, ih]

/-- `sorted(…, key=int)`. -/
theorem sorted_pick (qs : List Key) (st : St σ) :
    builtin rt .sorted [.list ((pickNumeric rt.env qs).map .str)] [(.key, .glob .int)] st =
      match ppNumericKeys rt.env qs with
      | .ok r => (.ok (.list (((sortedBy Prod.snd r).map Prod.fst).map .str)), st)
      | .error _ => (.error (.std .ValueError .none), st) := by
  have hb : ∀ xs, builtin rt .sorted [.list xs] [(.key, .glob .int)] = (do
    let ns ← intVals rt xs
    pure (.list ((sortedBy Prod.snd (xs.zip ns)).map Prod.fst))) := fun _ => rfl
  have := intVals_pick (rt := rt) rt.env rfl qs st
  rw [hb, PyM.run_bind]
  cases hr : ppNumericKeys rt.env qs with
  | error e => rw [hr] at this; rw [this.2]
  | ok r =>
    rw [hr] at this
    rw [this.2, this.1]
    simp only [PyM.run_pure, zip_fst_snd]
    rw [sortedBy_map' (fun p : Str × Int => (Val.str p.1, p.2)) Prod.snd, List.map_map, List.map_map]
    rfl

/-! ### The function -/

/-- What the names called in `pp` are. -/
structure MainCallsP (rt : Rt ε σ) (call : Caller ε σ) : Prop where
  int : call .int = builtin rt .int
  sorted : call .sorted = builtin rt .sorted
  isinstance : call .isinstance = builtin rt .isinstance
  field : ∃ call', FieldCallsP rt call' ∧ call ._pp_field = invoke rt call' ppFieldDef

/-- The variables of `pp` after its first statements. -/
structure MainVarsP (vs : Vars) (docv pv : Val) (dw : Int) (b : Bool) (lw : Int) : Prop where
  doc : vs .doc = some docv
  spec : vs .spec = some pv
  desc_width : vs .desc_width = some (.int dw)
  stream : vs .stream = some (.stream b)
  line_width : vs .line_width = some (.int lw)
  other : ∀ x ∉ [Ident.doc, .spec, .desc_width, .stream, .line_width, .field_key], vs x = none

section
variable {docv pv : Val} {dw lw : Int} {dl : Nat} {raw : PartialSpec} {doc : PpDoc} {items : List (Val × Val)}

/-- `_pp_field(doc, spec, desc_width, stream, line_width, key)` as a statement. -/
theorem field_stmt (hg : ToolsGlobals rt dl) (hc : MainCallsP rt call) (hp : PSpecVal pv raw) {st : St σ}
    (hd : st.heap[dl]? = some (.dict dispatchItems)) (hat : DictAt st.heap docv items) (hdoc : PpDocIs st.heap items doc)
    (vs : MainVarsP st.vars docv pv dw b lw) {e : Expr} {key : Str} (he : eval rt call e st = (.ok (.str key), st)) :
    exec rt call (.expr (.call ._pp_field [(.name .doc), (.name .spec), (.name .desc_width), (.name .stream), (.name .line_width), e] [] [])) st =
      match ppFieldS rt.env (rt.write b) doc raw.described dw lw key st.world with
      | (.ok _, w) => (.ok .next, { st with world := w })
      | (.error e, w) => (.error (excS e), { st with world := w }) := by
  obtain ⟨call', h1, h2⟩ := hc.field
  have v : st.vars ._pp_field = none := vs.other _ (by simp)
  have : eval rt call (.call ._pp_field [(.name .doc), (.name .spec), (.name .desc_width), (.name .stream), (.name .line_width), e] [] []) st =
      callS (ppFieldS rt.env (rt.write b) doc raw.described dw lw key) st := by
    rw [← ppField_call hg h1 hp st hd hat hdoc, eval_call v]
    simp only [PyM.run_bind, evals, eval_name, getVar_some vs.doc, getVar_some vs.spec, getVar_some vs.desc_width, getVar_some vs.stream,
      getVar_some vs.line_width, he, PyM.run_pure, List.zip_nil_left, h2]
  rw [exec_expr]
  simp only [PyM.run_bind, this, callS]
  rcases ppFieldS rt.env (rt.write b) doc raw.described dw lw key st.world with ⟨e | u, w⟩ <;> rfl

/-- tools.py:73-76. -/
def fieldBody : List Stmt := [
  .expr (.call ._pp_field [(.name .doc), (.name .spec), (.name .desc_width), (.name .stream), (.name .line_width), (.name .field_key)] [] [])]

theorem ppFields_loop (hg : ToolsGlobals rt dl) (hc : MainCallsP rt call) (hp : PSpecVal pv raw) : ∀ (ks : List Str) (st : St σ),
    st.heap[dl]? = some (.dict dispatchItems) → DictAt st.heap docv items → PpDocIs st.heap items doc → MainVarsP st.vars docv pv dw b lw → ∃ V,
      iterate (execs rt call fieldBody) [.field_key] (ks.map .str) st = match ppFieldsS rt.env (rt.write b) doc raw.described dw lw ks st.world with
        | (.ok _, w) => (.ok .next, { st with vars := V, world := w })
        | (.error e, w) => (.error (excS e), { st with vars := V, world := w })
  | [], st, _, _, _, _ => ⟨st.vars, rfl⟩
  | k :: ks, st, hd, hat, hdoc, vs => by
    have vs' : MainVarsP (st.vars.set .field_key (.str k)) docv pv dw b lw := by
      refine ⟨by simp [src, vs.doc], by simp [src, vs.spec], by simp [src, vs.desc_width], by simp [src, vs.stream], by simp [src, vs.line_width], fun x hx => ?_⟩
      rw [set_apply, if_neg (by rintro rfl; simp at hx)]
      exact vs.other x hx
    have he := field_stmt (e := .name .field_key) (key := k) hg hc hp (st := { st with vars := st.vars.set .field_key (.str k) }) hd hat hdoc vs' (by simp [src, getVar])
    simp only [List.map_cons, iterate, bindNames, PyM.run_bind, setVar_run, fieldBody, execs_cons, he, ppFieldsS]
    rcases ppFieldS rt.env (rt.write b) doc raw.described dw lw k st.world with ⟨e | u, w⟩
    · exact ⟨st.vars.set .field_key (.str k), rfl⟩
    · obtain ⟨V, hV⟩ := ppFields_loop hg hc hp ks { st with vars := st.vars.set .field_key (.str k), world := w } hd hat hdoc vs'
      exact ⟨V, hV⟩

/-- tools.py:64-76. -/
theorem ppBody_sim (hg : ToolsGlobals rt dl) (hc : MainCallsP rt call) (hp : PSpecVal pv raw) {st st0 : St σ}
    (h0 : { st with vars := st0.vars, world := st0.world } = st0) (hl : st.locals = ppDef.locals)
    (hd : st.heap[dl]? = some (.dict dispatchItems)) (hat : DictAt st.heap docv items) (hdoc : PpDocIs st.heap items doc)
    (vs : MainVarsP st.vars docv pv dw b lw) :
    SimP (ppBodySP rt.env (rt.write b) doc raw dw lw st.world) st0 (execs rt call [pp4, pp5, pp6, pp7] st) := by
  have mem : ∀ (k : Str) (w : σ), eval rt call (.cmp .mem (.str k) (.name .doc)) { st with world := w } = (.ok (.bool (doc.contains (.str k))), { st with world := w }) := by
    intro k w
    have h1 := hat.contains (ε := ε) (st := { st with world := w }) (.str k)
    rw [hdoc.contains] at h1
    simp [src, getVar, vs.doc, h1]
  have key : ∀ (k : Str) (w : σ), exec rt call (.ite (.cmp .mem (.str k) (.name .doc)) [
      .expr (.call ._pp_field [(.name .doc), (.name .spec), (.name .desc_width), (.name .stream), (.name .line_width), (.str k)] [] [])] []) { st with world := w } =
      match ppKeyS rt.env (rt.write b) doc raw.described dw lw k w with
      | (.ok _, w) => (.ok .next, { st with world := w })
      | (.error e, w) => (.error (excS e), { st with world := w }) := by
    intro k w
    rw [exec_ite]
    simp only [PyM.run_bind, mem, truth_bool, PyM.run_pure, ppKeyS]
    by_cases hk : doc.contains (.str k) = true
    · simp only [hk, if_true, execs_cons]
      rw [field_stmt (key := k) hg hc hp (st := { st with world := w }) hd hat hdoc vs (eval_str _ _)]
      simp only
      rcases ppFieldS rt.env (rt.write b) doc raw.described dw lw k w with ⟨e | u, w'⟩ <;> rfl
    · simp only [hk]; rfl
  rw [ppBodySP_eq]
  refine simP_bind (m := ppHeadS rt.env (rt.write b) doc raw dw lw) ?_ (fun w1 => ?_) h0
  · rw [pp4, exec_ite]
    have hm := mem py"h" st.world
    rw [PyM.run_bind, eval_and]
    simp only [PyM.run_bind, hm, truth_bool, PyM.run_pure, ppHeadS]
    by_cases hk : doc.contains (.str py"h") = true
    · simp only [hk, if_true]
      have hf := field_stmt (key := py"h") hg hc hp (st := st) hd hat hdoc vs (eval_str _ _)
      obtain ⟨sitems, rfl, hs⟩ := hp
      have hh := hs py"h"
      cases hsp : raw.get? py"h" with
      | none =>
        rw [hsp] at hh
        simp only at hh
        simp [src, getVar, vs.spec, hh, excS]
      | some f =>
        rw [hsp] at hh
        obtain ⟨fv, h1, fitems, rfl, -, -, -, h2, -⟩ := hh
        dsimp only
        cases hfm : f.maxLen with
        | none =>
          rw [hfm] at h2
          simp [src, getVar, vs.spec, h1, h2, excS]
        | some m =>
          rw [hfm] at h2
          have hcmp : eval rt call (.cmp .gt (.sub (.sub (.name .spec) (.str py"h")) (.str py"max_len")) (.int 0)) st = (.ok (.bool (decide (m > 0))), st) := by
            simp [src, getVar, vs.spec, h1, h2]
          simp only [hcmp, truth_bool, PyM.run_pure]
          by_cases hmx : m > 0
          · simp only [decide_eq_true hmx, if_pos hmx, if_true, execs_cons, hf]
            rcases ppFieldS rt.env (rt.write b) doc raw.described dw lw py"h" st.world with ⟨e | u, w'⟩ <;> rfl
          · simp only [decide_eq_false hmx, if_neg hmx]; rfl
    · simp only [hk]; rfl
  refine simP_bind (m := ppKeyS rt.env (rt.write b) doc raw.described dw lw py"t") (st := { st with world := w1 }) (key py"t" w1) (fun w2 => ?_) (by rw [← h0])
  refine simP_bind (m := ppKeyS rt.env (rt.write b) doc raw.described dw lw py"p") (st := { st with world := w2 }) (key py"p" w2) (fun w3 => ?_) (by rw [← h0])
  have v1 : st.vars .isinstance = none := vs.other _ (by simp)
  have v2 : st.vars .str = none := vs.other _ (by simp)
  have v3 : st.vars .sorted = none := vs.other _ (by simp)
  have v4 : st.vars .int = none := vs.other _ (by simp)
  obtain ⟨V, hV⟩ := pick_run hg.other hc.isinstance (items.map Prod.fst) doc.keys hdoc.keys { st with world := w3 } v1 v2 (by rw [hl]; decide)
  have hcomp : eval rt call (.comp (.loop [.k] (.meth (.name .doc) .keys [] [] []) (.when (.and (.call .isinstance [(.name .k), (.name .str)] [] []) (.meth (.name .k) .isnumeric [] [] [])) (.yield (.name .k))))) { st with world := w3 } =
      (.ok (.list ((pickNumeric rt.env doc.keys).map .str)), { st with world := w3 }) := by
    rw [eval_comp, evalComp]
    have hk : eval rt call (.meth (.name .doc) .keys [] [] []) { st with world := w3 } = (.ok (.list (items.map Prod.fst)), { st with world := w3 }) := by
      simp [src, getVar, vs.doc, hat.keys (rt := rt) (st := { st with world := w3 })]
    simp only [PyM.run_bind, hk, elements_list, PyM.run_pure, hV]
  have hsort : eval rt call (.call .sorted [(.comp (.loop [.k] (.meth (.name .doc) .keys [] [] []) (.when (.and (.call .isinstance [(.name .k), (.name .str)] [] []) (.meth (.name .k) .isnumeric [] [] [])) (.yield (.name .k)))))] [.key] [(.name .int)]) { st with world := w3 } =
      match ppNumericKeys rt.env doc.keys with
      | .ok r => (.ok (.list (((sortedBy Prod.snd r).map Prod.fst).map .str)), { st with world := w3 })
      | .error _ => (.error (.std .ValueError .none), { st with world := w3 }) := by
    rw [← sorted_pick, eval_call (st := { st with world := w3 }) v3]
    have hgi : getVar rt .int { st with world := w3 } = (.ok (.glob .int), { st with world := w3 }) := by
      simp [getVar, v4, hl, ppDef, hg.other, namesGlobal]
    simp only [PyM.run_bind, evals, hcomp, eval_name, hgi, PyM.run_pure, hc.sorted, List.zip_cons_cons, List.zip_nil_left]
  unfold ppNumsS
  have herr := (intVals_pick (rt := rt) rt.env rfl doc.keys { st with world := w3 })
  cases hr : ppNumericKeys rt.env doc.keys with
  | error e =>
    rw [hr] at hsort herr
    simp only at hsort
    obtain ⟨rfl, -⟩ := herr
    refine simP_err (st := { st with world := w3 }) ?_ (by rw [← h0])
    rw [pp7, exec_loop]
    simp only [PyM.run_bind, hsort, excS]
  | ok r =>
    rw [hr] at hsort
    simp only at hsort
    obtain ⟨V, hV⟩ := ppFields_loop hg hc hp ((sortedBy Prod.snd r).map Prod.fst) { st with world := w3 } hd hat hdoc vs
    refine simP_last (st := { st with world := w3 }) V ?_ (by rw [← h0])
    rw [pp7, exec_loop, ← fieldBody]
    simp only [PyM.run_bind, hsort, elements_list, PyM.run_pure]
    exact hV

/-- tools.py:11-76 `pp`. -/
theorem pp_call (hg : ToolsGlobals rt dl) (hc : MainCallsP rt call) (hp : PSpecVal pv raw) (st : St σ)
    (hd : st.heap[dl]? = some (.dict dispatchItems)) (hat : DictAt st.heap docv items) (hdoc : PpDocIs st.heap items doc)
    {args : List Val} {dwv sv lwv : Val} {dw lw : PpWidth} {ow : Option (Writer ε σ)}
    (hargs : bindParams ppDef.params args [.int 30, .none, .int 80] = bindParams ppDef.params [docv, pv, dwv, sv, lwv] [])
    (hdw : widthOf dwv = some dw) (hs : streamOf rt sv = some ow) (hlw : widthOf lwv = some lw) :
    invoke rt call ppDef args [] st = callS (ppStreamP rt.env (rt.write true) doc raw dw ow lw) st := by
  refine callS_of_body rfl rfl rfl hargs ?_
  generalize hst0 : ({ st with vars := _, locals := _, ys := _ } : St σ) = st0
  have hw : st0.world = st.world := by subst hst0; rfl
  have hh : st0.heap = st.heap := by subst hst0; rfl
  have hl : st0.locals = ppDef.locals := by subst hst0; rfl
  have v1 : st0.vars .doc = some docv := by subst hst0; simp [src, ppDef]
  have v2 : st0.vars .spec = some pv := by subst hst0; simp [src, ppDef]
  have v3 : st0.vars .desc_width = some dwv := by subst hst0; simp [src, ppDef]
  have v4 : st0.vars .stream = some sv := by subst hst0; simp [src, ppDef]
  have v5 : st0.vars .line_width = some lwv := by subst hst0; simp [src, ppDef]
  have v6 : ∀ x ∉ [Ident.doc, .spec, .desc_width, .stream, .line_width], st0.vars x = none := by
    intro x h; subst hst0
    simp only [List.mem_cons, not_or] at h
    simp [src, ppDef, h]
  clear hst0
  rw [← hw]
  rw [← hh] at hd hat hdoc
  have v7 : st0.vars .int = none := v6 _ (by simp)
  have hi1 := width_run (rt := rt) (ε := ε) hdw st0
  unfold ppStreamP
  simp only [PyM.run_bind, PyM.run_lift]
  cases h1 : (ppWidth rt.env dw : Except (StreamRaise ε) Int) with
  | error e =>
    rw [h1] at hi1
    simp only at hi1
    exact simP_err (st := st0) (by simp [pp1, src, getVar, v3, v7, hc.int, hi1]) rfl
  | ok n1 =>
    rw [h1] at hi1
    simp only at hi1 ⊢
    refine simP_next (V := st0.vars.set .desc_width (.int n1)) (by simp [pp1, src, getVar, v3, v7, hc.int, hi1]) ?_
    have hi2 := width_run (rt := rt) (ε := ε) hlw { st0 with vars := st0.vars.set .desc_width (.int n1) }
    cases h2 : (ppWidth rt.env lw : Except (StreamRaise ε) Int) with
    | error e =>
      rw [h2] at hi2
      simp only at hi2
      exact simP_err (st := { st0 with vars := st0.vars.set .desc_width (.int n1) }) (by simp [pp2, src, getVar, v5, v7, hc.int, hi2]) rfl
    | ok n2 =>
      rw [h2] at hi2
      simp only at hi2 ⊢
      refine simP_next (st := { st0 with vars := st0.vars.set .desc_width (.int n1) }) (V := (st0.vars.set .desc_width (.int n1)).set .line_width (.int n2)) (by simp [pp2, src, getVar, v5, v7, hc.int, hi2]) ?_
      obtain ⟨b, hb, V, e3, vs⟩ : ∃ b, (ow = none ∧ b = true ∨ ow = some (rt.write b)) ∧ ∃ V,
          exec rt call pp3 { st0 with vars := (st0.vars.set .desc_width (.int n1)).set .line_width (.int n2) } = (.ok .next, { st0 with vars := V }) ∧
          MainVarsP V docv pv n1 b n2 := by
        have ho : ∀ x ∉ [Ident.doc, .spec, .desc_width, .stream, .line_width, .field_key], st0.vars x = none := by
          intro x hx
          simp only [List.mem_cons, not_or] at hx
          exact v6 x (by simp [hx])
        cases sv <;> cases hs
        · have hs1 : (attrVal (.glob ._sys) .stdout : M ε σ Val) = pure (.stream true) := rfl
          have hs2 : (cmpop .is .none .none : M ε σ Bool) = pure true := rfl
          have v8 : st0.vars ._sys = none := v6 _ (by simp)
          refine ⟨true, .inl ⟨rfl, rfl⟩, ((st0.vars.set .desc_width (.int n1)).set .line_width (.int n2)).set .stream (.stream true), ?_, ?_⟩
          · simp [pp3, src, getVar, v4, v8, hs1, hs2, hl, ppDef, hg.other]
          · refine ⟨by simp [src, v1], by simp [src, v2], by simp [src], by simp [src], by simp [src], fun x hx => ?_⟩
            have := ho x hx
            simp only [List.mem_cons, not_or] at hx
            simp [src, hx, this]
        · rename_i b
          have hs2 : (cmpop .is (.stream b) .none : M ε σ Bool) = pure false := rfl
          refine ⟨b, .inr rfl, (st0.vars.set .desc_width (.int n1)).set .line_width (.int n2), ?_, ?_⟩
          · simp [pp3, src, getVar, v4, hs2]
          · refine ⟨by simp [src, v1], by simp [src, v2], by simp [src], by simp [src, v4], by simp [src], fun x hx => ?_⟩
            have := ho x hx
            simp only [List.mem_cons, not_or] at hx
            simp [src, hx, this]
      refine simP_next (V := V) e3 ?_
      have := ppBody_sim hg hc hp (st := { st0 with vars := V }) (st0 := st0) rfl hl hd hat hdoc vs
      rcases hb with ⟨rfl, rfl⟩ | rfl <;> exact this

end

/-! ## The module -/

theorem wrapCalls : WrapCalls rt (program rt [wrapStrReprDef, wrapBytesReprDef]) where
  repr := by iterate 2 rw [program_ne _ _ (by decide)]
             rfl
  len := by iterate 2 rw [program_ne _ _ (by decide)]
            rfl
  str obj width st := by
    rw [program_eq wrapStrReprDef [wrapBytesReprDef] (f := ._wrap_str_repr) rfl]
    refine wrapStrRepr_call ?_ ?_ ?_ obj width st <;> (rw [program_ne _ _ (by decide)]; rfl)
  bytes obj width st := by
    rw [program_ne _ _ (by decide), program_eq wrapBytesReprDef [] (f := ._wrap_bytes_repr) rfl]
    exact wrapBytesRepr_call rfl rfl rfl obj width st

theorem WrapCalls.cons {d : Def} {ds : List Def} (h : WrapCalls rt (program rt ds))
    (hd : d.name ∉ [Ident.repr, .len, ._wrap_str_repr, ._wrap_bytes_repr]) : WrapCalls rt (program rt (d :: ds)) := by
  simp only [List.mem_cons, not_or] at hd
  refine ⟨?_, ?_, ?_, ?_⟩
  · rw [program_ne _ _ (Ne.symm hd.1)]; exact h.repr
  · rw [program_ne _ _ (Ne.symm hd.2.1)]; exact h.len
  · rw [program_ne _ _ (Ne.symm hd.2.2.1)]; exact h.str
  · rw [program_ne _ _ (Ne.symm hd.2.2.2.1)]; exact h.bytes

theorem fieldCallsP : FieldCallsP rt (program rt [pprintStrDef, pprintBytesDef, wrapStrReprDef, wrapBytesReprDef]) where
  repr := by iterate 4 rw [program_ne _ _ (by decide)]
             rfl
  len := by iterate 4 rw [program_ne _ _ (by decide)]
            rfl
  str := by iterate 4 rw [program_ne _ _ (by decide)]
            rfl
  isinstance := by iterate 4 rw [program_ne _ _ (by decide)]
                   rfl
  type := by iterate 4 rw [program_ne _ _ (by decide)]
             rfl
  pprintStr b obj indent width st := by
    rw [program_eq pprintStrDef [pprintBytesDef, wrapStrReprDef, wrapBytesReprDef] (f := ._pprint_str) rfl]
    exact pprintStr_call (wrapCalls.cons (d := pprintBytesDef) (by decide)) obj indent width st
  pprintBytes b obj indent width st := by
    rw [program_ne _ _ (by decide), program_eq pprintBytesDef [wrapStrReprDef, wrapBytesReprDef] (f := ._pprint_bytes) rfl]
    exact pprintBytes_call wrapCalls obj indent width st

theorem mainCallsP : MainCallsP rt (program rt [ppFieldDef, pprintStrDef, pprintBytesDef, wrapStrReprDef, wrapBytesReprDef]) where
  int := by iterate 5 rw [program_ne _ _ (by decide)]
            rfl
  sorted := by iterate 5 rw [program_ne _ _ (by decide)]
               rfl
  isinstance := by iterate 5 rw [program_ne _ _ (by decide)]
                   rfl
  field := ⟨_, fieldCallsP, program_eq _ _ rfl⟩

/-- Importing tools.py (tools.py:124, 140, 156): a dict `_dispatch`, and nothing else. -/
theorem tools_import (hg : ∀ x, rt.globals x = none) (st : St σ) (hv : ∀ x, st.vars x = none) (hl : st.locals = []) :
    execs rt call toolsModule st = (.ok .next, { st with vars := st.vars.set ._dispatch (.ref st.heap.length), heap := st.heap ++ [.dict dispatchItems] }) := by
  have hs : (attrVal (.glob .str) .__repr__ : M ε σ Val) = pure (.globAttr .str .__repr__) := rfl
  have hb : (attrVal (.glob .bytes) .__repr__ : M ε σ Val) = pure (.globAttr .bytes .__repr__) := rfl
  have hl' : ∀ x, x ∉ st.locals := by simp [hl]
  have e1 : exec rt call (.assign [(.name ._dispatch)] (.dict [] [])) st =
      (.ok .next, { st with vars := st.vars.set ._dispatch (.ref st.heap.length), heap := st.heap ++ [.dict []] }) := by
    simp [src]
  have e2 : exec rt call (.assign [(.sub (.name ._dispatch) (.attr (.name .str) .__repr__))] (.name ._pprint_str))
      { st with vars := st.vars.set ._dispatch (.ref st.heap.length), heap := st.heap ++ [.dict []] } =
      (.ok .next, { st with vars := st.vars.set ._dispatch (.ref st.heap.length), heap := st.heap ++ [.dict [(.globAttr .str .__repr__, .glob ._pprint_str)]] }) := by
    have := subSet_ref_dict (ε := ε) (st := { st with vars := st.vars.set ._dispatch (.ref st.heap.length), heap := st.heap ++ [.dict []] })
      (l := st.heap.length) (items := []) (.globAttr .str .__repr__) (.glob ._pprint_str) (by simp)
    simp [src, getVar, hv, hl', hg, hs, this, insert]
  have e3 : exec rt call (.assign [(.sub (.name ._dispatch) (.attr (.name .bytes) .__repr__))] (.name ._pprint_bytes))
      { st with vars := st.vars.set ._dispatch (.ref st.heap.length), heap := st.heap ++ [.dict [(.globAttr .str .__repr__, .glob ._pprint_str)]] } =
      (.ok .next, { st with vars := st.vars.set ._dispatch (.ref st.heap.length), heap := st.heap ++ [.dict dispatchItems] }) := by
    have := subSet_ref_dict (ε := ε) (st := { st with vars := st.vars.set ._dispatch (.ref st.heap.length), heap := st.heap ++ [.dict [(.globAttr .str .__repr__, .glob ._pprint_str)]] })
      (l := st.heap.length) (items := [(.globAttr .str .__repr__, .glob ._pprint_str)]) (.globAttr .bytes .__repr__) (.glob ._pprint_bytes) (by simp)
    have hi : insert [(.globAttr .str .__repr__, .glob ._pprint_str)] (.globAttr .bytes .__repr__) (.glob ._pprint_bytes) = dispatchItems := rfl
    simp [src, getVar, hv, hl', hg, hb, this, hi]
  simp only [toolsModule, execs_cons, e1, e2, e3]
  rfl

end Iso8583.Src
