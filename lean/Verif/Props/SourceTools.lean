import Verif.Source.Tools
import Verif.Props.SourceEncode
import Verif.Props.Stream
import Verif.Props.PrettyPrintResult
/-!
# C82: running tools.py is the model

`Source/Code.lean` is the text of tools.py as data and `Source/Semantics.lean` says what running it
does.  Here: running `pp` makes the calls of `write` the model's `ppStream` makes, and ends the same
way, for every argument.
-/

namespace Iso8583.Src

variable {ε σ : Type} {rt : Rt ε σ} {pv docv : Val} {spec : Spec} {doc : PpDoc} {items : List (Val × Val)} {dl : Nat}

theorem pp_program {args : List Val} : program rt toolsDefs .pp args [] = invoke rt (program rt [ppFieldDef, pprintStrDef, pprintBytesDef, wrapStrReprDef, wrapBytesReprDef]) ppDef args [] := by
  rw [toolsDefs, program_eq ppDef [ppFieldDef, pprintStrDef, pprintBytesDef, wrapStrReprDef, wrapBytesReprDef] (f := .pp) rfl]

/-- **C87** (pp): `pp` of tools.py with a specification that may lack properties. -/
theorem pp_source_missing {raw : PartialSpec} (hg : ToolsGlobals rt dl) (hp : PSpecVal pv raw) (st : St σ) (hd : st.heap[dl]? = some (.dict dispatchItems))
    (hat : DictAt st.heap docv items) (hdoc : PpDocIs st.heap items doc) {dwv sv lwv : Val} {dw lw : PpWidth} {ow : Option (Writer ε σ)}
    (hdw : widthOf dwv = some dw) (hs : streamOf rt sv = some ow) (hlw : widthOf lwv = some lw) :
    program rt toolsDefs .pp [docv, pv, dwv, sv, lwv] [] st =
      match ppStreamP rt.env (rt.write true) doc raw dw ow lw st.world with
      | (.ok _, w) => (.ok .none, { st with world := w })
      | (.error e, w) => (.error (excS e), { st with world := w }) := by
  rw [pp_program, pp_call hg mainCallsP hp st hd hat hdoc rfl hdw hs hlw]
  rfl

theorem ppStreamP_full {env : PyEnv} {w : Writer ε σ} {dw lw : PpWidth} {ow : Option (Writer ε σ)} :
    ppStreamP env w doc (fullSpec spec) dw ow lw = ppStream env w doc spec dw ow lw := by
  have : ∀ w m n, ppBodySP (ε := ε) (σ := σ) env w doc (fullSpec spec) m n = ppBodyS env w doc spec m n := by
    intro w m n
    unfold ppBodySP ppBodyS
    rw [described_full, fullSpec_get]
    cases spec.get? py"h" <;> rfl
  unfold ppStreamP ppStream
  simp only [this]

/-- **C82**: `pp(doc, spec, desc_width, stream, line_width)` of tools.py, called in any state of the
interpreter after tools.py was imported, with a dict that has the items of `doc` and a specification
that has the properties of `spec`, returns or raises what the model says and does to the world what the
model says; no object changes, and none is made. -/
theorem pp_source (hg : ToolsGlobals rt dl) (hp : SpecVal pv spec) (st : St σ) (hd : st.heap[dl]? = some (.dict dispatchItems))
    (hat : DictAt st.heap docv items) (hdoc : PpDocIs st.heap items doc) {dwv sv lwv : Val} {dw lw : PpWidth} {ow : Option (Writer ε σ)}
    (hdw : widthOf dwv = some dw) (hs : streamOf rt sv = some ow) (hlw : widthOf lwv = some lw) :
    program rt toolsDefs .pp [docv, pv, dwv, sv, lwv] [] st =
      match ppStream rt.env (rt.write true) doc spec dw ow lw st.world with
      | (.ok _, w) => (.ok .none, { st with world := w })
      | (.error e, w) => (.error (excS e), { st with world := w }) := by
  rw [pp_program, pp_call hg mainCallsP hp.full st hd hat hdoc rfl hdw hs hlw, ppStreamP_full]
  rfl

/-- **C82** (arguments left out): the widths are 30 and 80, the stream is `sys.stdout`. -/
theorem pp_source_defaults (hg : ToolsGlobals rt dl) (hp : SpecVal pv spec) (st : St σ) (hd : st.heap[dl]? = some (.dict dispatchItems))
    (hat : DictAt st.heap docv items) (hdoc : PpDocIs st.heap items doc) {dwv sv : Val} {dw : PpWidth} {ow : Option (Writer ε σ)}
    (hdw : widthOf dwv = some dw) (hs : streamOf rt sv = some ow) :
    program rt toolsDefs .pp [docv, pv] [] st = callS (ppStream rt.env (rt.write true) doc spec (.int 30) none (.int 80)) st ∧
    program rt toolsDefs .pp [docv, pv, dwv] [] st = callS (ppStream rt.env (rt.write true) doc spec dw none (.int 80)) st ∧
    program rt toolsDefs .pp [docv, pv, dwv, sv] [] st = callS (ppStream rt.env (rt.write true) doc spec dw ow (.int 80)) st := by
  simp only [← ppStreamP_full (spec := spec)]
  refine ⟨?_, ?_, ?_⟩
  · rw [pp_program]
    exact pp_call (dwv := .int 30) (sv := .none) (lwv := .int 80) hg mainCallsP hp.full st hd hat hdoc rfl rfl rfl rfl
  · rw [pp_program]
    exact pp_call (dwv := dwv) (sv := .none) (lwv := .int 80) hg mainCallsP hp.full st hd hat hdoc rfl hdw rfl rfl
  · rw [pp_program]
    exact pp_call (dwv := dwv) (sv := sv) (lwv := .int 80) hg mainCallsP hp.full st hd hat hdoc rfl hdw hs rfl

/-! ## The dicts `decode` and `encode` return -/

theorem hasDec_pp {h : List Obj} {l : Nat} {d : DecDoc} (hd : HasDec h l d) : ∃ items, DictAt h (.ref l) items ∧ PpDocIs h items (printDec d) := by
  refine ⟨_, .inr ⟨l, rfl, hd⟩, ?_⟩
  clear hd
  induction d with
  | nil => trivial
  | cons p t ih => exact ⟨rfl, rfl, ih⟩

theorem hasEnc_pp {h : List Obj} {l : Nat} {d : EncDoc} (nd : d.NoDup) (hd : HasEnc h l d) : ∃ items, DictAt h (.ref l) items ∧ PpDocIs h items (printEnc d) := by
  obtain ⟨loc, h1, h2, -⟩ := hd
  refine ⟨_, .inr ⟨l, rfl, h1⟩, ?_⟩
  clear h1
  induction d with
  | nil => trivial
  | cons p t ih =>
    simp only [Dict.NoDup, Dict.keys, List.map_cons, List.nodup_cons] at nd
    refine ⟨rfl, ⟨_, .inr ⟨loc p.1, rfl, h2 p.1 p.2 (by simp [Dict.get?])⟩, rfl, rfl⟩, ih nd.2 fun k e hk => h2 k e ?_⟩
    have : p.1 ≠ k := by
      rintro rfl
      exact nd.1 (Dict.mem_keys_iff.2 ⟨e, hk⟩)
    simpa [Dict.get?, this] using hk

/-- **C82** (a decoded message): decoder.py decodes, then tools.py prints the decoded dict in the heap
decoder.py left behind.  `rt` is the runtime of decoder.py, the other has the variables of tools.py. -/
theorem decode_pp_source (hg : ∀ x, rt.globals x = none) (ho : ∀ xs, (rt.order xs).Perm xs) (hs : Sane rt.env) (hp : SpecVal pv spec)
    {sv : Val} {s : Bytes} (st : St σ) (hb : BytesIn st.heap sv s) (hd : st.heap[dl]? = some (.dict dispatchItems)) {d : DecDoc} {e : EncDoc}
    (hok : decode rt.env spec s = .ok (d, e)) :
    ∃ (dd de : Nat) (h : List Obj), program rt decoderDefs .decode [sv, pv] [] st = (.ok (.tuple [.ref dd, .ref de]), { st with heap := h }) ∧
      program { rt with globals := Vars.set (fun _ => none) ._dispatch (.ref dl) } toolsDefs .pp [.ref dd, pv] [] { st with heap := h } =
        callS (ppStream rt.env (rt.write true) (printDec d) spec (.int 30) none (.int 80)) { st with heap := h } := by
  obtain ⟨x, h, h1, h2, h3⟩ := decode_source hg ho hs hp st hb
  have hl : decodeLim rt.env spec s = .ok (d, e) := by simp [decodeLim, hok]
  rw [hl] at h3
  obtain ⟨dd, de, rfl, -, h4, -⟩ := h3
  obtain ⟨items, h5, h6⟩ := hasDec_pp h4
  refine ⟨dd, de, h, h1, ?_⟩
  have hgt : ToolsGlobals { rt with globals := Vars.set (fun _ => none) ._dispatch (.ref dl) } dl := ⟨by simp [src], fun x hx => by simp [src, hx], hs.digits⟩
  exact (pp_source_defaults (dwv := .int 30) (sv := .none) hgt hp { st with heap := h } (h2 dl _ hd) h5 h6 rfl rfl).1

/-! ## The hypotheses are met -/

/-- A dict with these items. -/
def ppItems (doc : PpDoc) : List (Val × Val) := doc.map fun p =>
  (match p.1 with | .str s => .str s | .obj r => .obj py"object" r none,
   match p.2 with
   | .str s => .str s
   | .bytes b => .bytes b
   | .other r => .obj py"object" r none
   | .dict l d => .dict ((match l with | some v => [(.str py"len", .bytes v)] | none => []) ++ (match d with | some v => [(.str py"data", .bytes v)] | none => [])))

theorem ppItems_is (h : List Obj) : ∀ doc : PpDoc, PpDocIs h (ppItems doc) doc
  | [] => trivial
  | (k, v) :: t => by
    refine ⟨?_, ?_, ppItems_is h t⟩
    · cases k <;> rfl
    · cases v with
      | str s => rfl
      | bytes b => rfl
      | other r => rfl
      | dict l d =>
        refine ⟨_, .inl rfl, ?_, ?_⟩ <;> cases l <;> cases d <;> rfl

/-- A runtime whose streams remember what is written, in one list, with the stream. -/
def recordRt (dl : Nat) : Rt String (List (Bool × Str)) where
  env := cpython
  order := id
  detail _ _ := []
  globals := Vars.set (fun _ => none) ._dispatch (.ref dl)
  write b t := fun s => (.ok (), s ++ [(b, t)])

theorem recordRt_globals (dl : Nat) : ToolsGlobals (recordRt dl) dl := ⟨by simp [recordRt, src], fun x hx => by simp [recordRt, src, hx], cpython_sane.digits⟩

/-- tools.py is imported into an interpreter that has a bytearray already. -/
example (call : Caller String (List (Bool × Str))) (st : St (List (Bool × Str))) (hv : ∀ x, st.vars x = none) (hl : st.locals = []) (hh : st.heap = [.barray [1]]) :
    execs { recordRt 0 with globals := fun _ => none } call toolsModule st =
      (.ok .next, { st with vars := st.vars.set ._dispatch (.ref 1), heap := [.barray [1], .dict dispatchItems] }) := by
  rw [tools_import (fun _ => rfl) st hv hl, hh]; rfl

/-- The calls of `write` in the example below. -/
def ppWrites : List (Bool × Str) :=
  (ppStream (ε := String) cpython ((recordRt 1).write true) ppDoc ppSpec (.str py"7") (some ((recordRt 1).write false)) (.float 51 (-1)) []).2

/-- What tools.py writes to the caller's stream for a dict with folded bytes, an object of another class
and keys that are not printed. -/
example (st : St (List (Bool × Str))) (hd : st.heap[1]? = some (.dict dispatchItems)) (hw : st.world = []) :
    ∃ w, program (recordRt 1) toolsDefs .pp [.dict (ppItems ppDoc), specVal ppSpec, .str py"7", .stream false, .float 51 (-1)] [] st = (.ok .none, { st with world := w }) ∧
      (∀ p ∈ w, p.1 = false) ∧
      (w.map Prod.snd).flatten = py"t   Message: '0200'\n2   PAN    : b'04' b'12'\n                   b'\\xff'\n                   b'4'\n" := by
  have hk : ppStream (ε := String) (recordRt 1).env ((recordRt 1).write true) ppDoc ppSpec (.str py"7") (some ((recordRt 1).write false)) (.float 51 (-1)) [] = (.ok (), ppWrites) := by decide +kernel
  refine ⟨ppWrites, ?_, by decide +kernel, by decide +kernel⟩
  have := pp_source (recordRt_globals 1) (specVal_is ppSpec) st hd (.inl rfl) (ppItems_is _ ppDoc) (dwv := .str py"7") (sv := .stream false) (lwv := .float 51 (-1)) rfl rfl rfl
  rw [hw, hk] at this
  exact this

/-- A specification without field 2: `KeyError`, after the number was written to `sys.stdout`. -/
example (st : St (List (Bool × Str))) (hd : st.heap[0]? = some (.dict dispatchItems)) (hw : st.world = []) :
    program (recordRt 0) toolsDefs .pp [.dict [(.str py"2", .str py"12")], specVal []] [] st =
      (.error (.std .KeyError (.str py"2")), { st with world := [(true, py"2  ")] }) := by
  have := (pp_source_defaults (dwv := .int 30) (sv := .none) (recordRt_globals 0) (specVal_is []) st hd (.inl rfl) (ppItems_is _ [(.str py"2", .str py"12")]) rfl rfl).1
  refine this.trans ?_
  rw [callS, hw]
  have hr : ppStream (ε := String) (recordRt 0).env ((recordRt 0).write true) [(.str py"2", .str py"12")] [] (.int 30) none (.int 80) [] =
    (.error (.pp (.keyError py"2")), [(true, py"2  ")]) := by decide +kernel
  rw [hr]; rfl

/-- The calls of `write` in the example below. -/
def ppOtherWrites : List (Bool × Str) :=
  (ppStream (ε := String) cpython ((recordRt 0).write true) [(.str py"2", .other py"-7"), (.str py"t", .other py"None")] ppSpec (.int 7) none (.int 80) []).2

/-- A number and `None` as values. -/
example (st : St (List (Bool × Str))) (hd : st.heap[0]? = some (.dict dispatchItems)) (hw : st.world = []) :
    ∃ w, program (recordRt 0) toolsDefs .pp [.dict [(.str py"2", .int (-7)), (.str py"t", .none)], specVal ppSpec, .int 7] [] st = (.ok .none, { st with world := w }) ∧
      (w.map Prod.snd).flatten = py"t   Message: None\n2   PAN    : -7\n" := by
  have h7 : otherRepr (.int (-7)) = some py"-7" := by decide +kernel
  have hi : PpDocIs st.heap [(.str py"2", .int (-7)), (.str py"t", .none)] [(.str py"2", .other py"-7"), (.str py"t", .other py"None")] := ⟨rfl, h7, rfl, rfl, trivial⟩
  have hk : ppStream (ε := String) (recordRt 0).env ((recordRt 0).write true) [(.str py"2", .other py"-7"), (.str py"t", .other py"None")] ppSpec (.int 7) none (.int 80) [] =
    (.ok (), ppOtherWrites) := by decide +kernel
  have := (pp_source_defaults (dwv := .int 7) (sv := .none) (recordRt_globals 0) (specVal_is ppSpec) st hd (.inl rfl) hi rfl rfl).2.1
  rw [callS, hw, hk] at this
  exact ⟨_, this, by decide +kernel⟩

/-- The demo message, decoded and printed. -/
example (st : St (List (Bool × Str))) (hd : st.heap[0]? = some (.dict dispatchItems)) :
    ∃ (dd de : Nat) (h : List Obj), program { recordRt 0 with globals := fun _ => none } decoderDefs .decode [.bytes demoMsg, specVal demoSpec] [] st = (.ok (.tuple [.ref dd, .ref de]), { st with heap := h }) ∧
      program (recordRt 0) toolsDefs .pp [.ref dd, specVal demoSpec] [] { st with heap := h } =
        callS (ppStream cpython ((recordRt 0).write true) (printDec demoDec) demoSpec (.int 30) none (.int 80)) { st with heap := h } :=
  decode_pp_source (rt := { recordRt 0 with globals := fun _ => none }) (e := demoEnc) (fun _ => rfl) (fun _ => .refl _) cpython_sane (specVal_is demoSpec) st (.inl (.inl rfl)) hd
    (by decide +kernel)

end Iso8583.Src
