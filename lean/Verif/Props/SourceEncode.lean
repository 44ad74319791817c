import Verif.Source.Encode
import Verif.Props.SourceDecode
/-!
# C81: running encoder.py is the model

`Source/Code.lean` is the text of encoder.py as data and `Source/Semantics.lean` says what running it
does.  Here: running `encode` gives what the model's `encodeLim` says, for every argument, and does to
the caller's dict what the model says.
-/

namespace Iso8583.Src

variable {ε σ : Type} {rt : Rt ε σ} {pv : Val} {spec : Spec}

/-! ## What a result looks like -/

/-- What `encode` returns or raises, as a value in the heap `h`, when it is given the dict at `dd`.  The
detail after "Failed to encode field length, " (encoder.py:499) is the codec's and may be anything. -/
def EncodeOut (h : List Obj) (dd : Nat) : Except (Limited EncodeExc) (Bytes × EncDoc) → Except (Exc ε) Val → Prop
  | .ok (s, e), x => ∃ sl de, x = .ok (.tuple [.ref sl, .ref de]) ∧ h[sl]? = some (.barray s) ∧ de ≠ dd ∧ HasEnc h de e
  | .error (.exc (.encodeError e)), x => ∃ l de d, x = .error (.inst .EncodeError l) ∧ (e.msg ≠ .lenInvalid → d = []) ∧
    h[l]? = some (.inst .EncodeError [.str (e.text d)]
      [(.msg, .str (e.msg.text ++ d)), (.doc_dec, .ref dd), (.doc_enc, .ref de), (.field, .str e.field)]) ∧ de ≠ dd ∧ HasEnc h de e.docEnc
  | .error (.exc (.keyError k)), x => x = .error (.std .KeyError (.str k))
  | .error (.exc .valueError), x => x = .error (.std .ValueError .none)
  | .error (.exc .typeError), x => x = .error (.std .TypeError .none)
  | .error (.exc .unboundLocal), x => x = .error (.std .UnboundLocalError .none)
  | .error (.exc .indexError), x => x = .error (.std .IndexError .none)
  | .error (.exc (.notDict c)), x => x = .error (.std .TypeError (.str (py"Decoded ISO8583 data must be dict, not " ++ c)))
  | .error .valueError, x => x = .error (.std .ValueError .none)

/-- **C87** (encode): `encode(doc_dec, spec)` on a specification any property of which may be missing, in
any state of the interpreter, ends the way `encodeLimP` (Model/Partial.lean with the digit limit) says and
leaves in the dict what it says; the rest is as in **C81**. -/
theorem encode_source_missing {raw : PartialSpec} (hg : ∀ x, rt.globals x = none) (ho : ∀ xs, (rt.order xs).Perm xs)
    (hs : rt.env.maxStrDigits = 0 ∨ 640 ≤ rt.env.maxStrDigits) (hp : PSpecVal pv raw)
    (st : St σ) {dd : Nat} {items : List (Val × Val)} {doc : Doc} (hd : st.heap[dd]? = some (.dict items)) (di : DocIs items doc) :
    ∃ (x : Except (Exc ε) Val) (h : List Obj) (items' : List (Val × Val)),
      program rt encoderDefs .encode [.ref dd, pv] [] st = (x, { st with heap := h }) ∧
      (∀ (l : Nat) o, l ≠ dd → st.heap[l]? = some o → h[l]? = some o) ∧
      h[dd]? = some (.dict items') ∧ DocIs items' (encodeLimP rt.env raw doc).2 ∧ Keeps items items' ∧
      EncodeOut h dd (encodeLimP rt.env raw doc).1 x := by
  obtain ⟨h, x, items', h1, h2, h3, h4, h5⟩ := encode_sim hg hp ho hs st hd di
  have hfr : ∀ (l : Nat) o, l ≠ dd → st.heap[l]? = some o → h[l]? = some o := by
    intro l o hl ho
    have hm : (l, o) ∈ others st.heap dd := List.mem_filter.2 ⟨mem_objs.2 ho, by simpa using hl⟩
    refine (h2.frame (l, o) ?_).1
    cases (encodeBodyP rt.env raw ⟨doc, []⟩).1 with
    | error e => exact hm
    | ok b => exact List.mem_cons_of_mem _ hm
  have hdoc : (encodeLimP rt.env raw doc).2 = (encodeBodyP rt.env raw ⟨doc, []⟩).2.dec := by
    unfold encodeLimP encodeP
    rcases encodeBodyP rt.env raw ⟨doc, []⟩ with ⟨e | b, es⟩
    · cases e <;> rfl
    · rfl
  refine ⟨x, h, items', h1, hfr, h2.hdec, by rw [hdoc]; exact h3, h4, ?_⟩
  unfold encodeLimP encodeP
  rcases hres : encodeBodyP rt.env raw ⟨doc, []⟩ with ⟨e | b, es⟩
  · rw [hres] at h2 h5
    obtain ⟨exc, rfl, h6⟩ := h5
    cases e with
    | err m f =>
      simp only [ErrIsE] at h6
      simp only
      by_cases hf : m.numbers.all (formats rt.env) = true
      · rw [if_pos hf] at h6 ⊢
        obtain ⟨l, d, hdd, rfl, h7⟩ := h6
        exact ⟨l, _, d, rfl, hdd, h7, h2.ne.symm, h2.hasEnc⟩
      · rw [if_neg hf] at h6 ⊢
        rw [h6]; rfl
    | keyError k => simp only [ErrIsE] at h6; rw [h6]; rfl
    | valueError => simp only [ErrIsE] at h6; rw [h6]; rfl
    | typeError => simp only [ErrIsE] at h6; rw [h6]; rfl
    | unboundLocal => simp only [ErrIsE] at h6; rw [h6]; rfl
    | indexError => simp only [ErrIsE] at h6; rw [h6]; rfl
  · rw [hres] at h2 h5
    subst h5
    exact ⟨_, _, rfl, h2.frame_get, h2.ne.symm, h2.hasEnc⟩

theorem encodeP_full (env : PyEnv) (spec : Spec) (doc : Doc) : encodeP env (fullSpec spec) doc = encode env spec doc := by
  rcases (encodeBodyP_sim (env := env) (fullSpec_filledBy spec)).sim ⟨doc, []⟩ with ⟨h, -⟩ | ⟨k, p, st', -, h, -⟩
  · unfold encodeP encode
    rw [h]
    rcases encodeBody env spec ⟨doc, []⟩ with ⟨r, st⟩
    cases r <;> rfl
  · exact absurd h fullSpec_lacks

/-- **C81**: `encode(doc_dec, spec)` of encoder.py, called in any state of the interpreter, with a dict
and a specification that has the properties of `spec`, ends the way the model says and leaves in the
dict what the model says; the values the model says nothing more about are under the keys they were
under; every other object that existed before is as it was, and nothing else is touched. -/
theorem encode_source (hg : ∀ x, rt.globals x = none) (ho : ∀ xs, (rt.order xs).Perm xs)
    (hs : rt.env.maxStrDigits = 0 ∨ 640 ≤ rt.env.maxStrDigits) (hp : SpecVal pv spec)
    (st : St σ) {dd : Nat} {items : List (Val × Val)} {doc : Doc} (hd : st.heap[dd]? = some (.dict items)) (di : DocIs items doc) :
    ∃ (x : Except (Exc ε) Val) (h : List Obj) (items' : List (Val × Val)),
      program rt encoderDefs .encode [.ref dd, pv] [] st = (x, { st with heap := h }) ∧
      (∀ (l : Nat) o, l ≠ dd → st.heap[l]? = some o → h[l]? = some o) ∧
      h[dd]? = some (.dict items') ∧ DocIs items' (encodeLim rt.env spec doc).2 ∧ Keeps items items' ∧
      EncodeOut h dd (encodeLim rt.env spec doc).1 x := by
  have := encode_source_missing hg ho hs hp.full st hd di
  rwa [show encodeLimP rt.env (fullSpec spec) doc = encodeLim rt.env spec doc by unfold encodeLimP encodeLim; rw [encodeP_full]] at this

/-- **C81** (any other argument): `TypeError`, naming the class. -/
theorem encode_source_type (hg : ∀ x, rt.globals x = none) (c r : Str) (n : Option Nat) (dd : Nat) (st : St σ) :
    ∃ x, program rt encoderDefs .encode [.obj c r n, pv] [] st = (x, st) ∧
      EncodeOut st.heap dd ((encodeApi rt.env spec (.other c)).1.mapError .exc) x := by
  refine ⟨_, ?_, rfl⟩
  have hprog : program rt encoderDefs .encode = invoke rt (program rt [encodeHeaderDef, encodeTypeDef, encodeBitmapDef, encodeFieldDef, encodeBindaryFieldDef, addPadFieldDef,
    encodeTextFieldDef, encodeErrorInitDef]) encodeDef := program_eq _ _ rfl
  rw [hprog]
  have hc := mainCallsE (rt := rt)
  generalize program rt [encodeHeaderDef, encodeTypeDef, encodeBitmapDef, encodeFieldDef, encodeBindaryFieldDef, addPadFieldDef,
    encodeTextFieldDef, encodeErrorInitDef] = call at hc ⊢
  have hi : builtin rt .isinstance [.obj c r n, .glob .dict] [] = pure (.bool false) := rfl
  have h1 : (attrVal (.obj c r n) .__class__ : M ε σ Val) = pure (.cls c) := rfl
  have h2 : (attrVal (.cls c) .__name__ : M ε σ Val) = pure (.str c) := rfl
  simp [invoke, encodeDef, bindParams, runBody, encode1, src, getVar, hg, hc.isinstance, hc.TypeError, hi, h1, h2]

/-! ## The hypotheses are met -/

/-- A dict with these items: strings, bytes, and objects of unknown classes. -/
def docVal (doc : Doc) : List (Val × Val) := doc.map fun p =>
  (match p.1 with | .str s => .str s | .obj r => .obj py"object" r none,
   match p.2 with | .str s => .str s | .bytes b => .bytes b | .sized n => .obj py"object" [] (some n) | .unsized => .obj py"object" [] none)

theorem docVal_is : ∀ doc : Doc, DocIs (docVal doc) doc
  | [] => trivial
  | (k, v) :: t => by
    refine ⟨?_, ?_, docVal_is t⟩
    · cases k <;> rfl
    · cases v <;> rfl

set_option maxRecDepth 4000 in
/-- encoder.py encodes the demo document, in a heap that has a set before it and an exception after it. -/
example (st : St Unit) (hst : st.heap = [.set [7], .dict (docVal demoDoc), .inst .EncodeError [] []]) :
    ∃ (h : List Obj) (sl de : Nat) (items' : List (Val × Val)), program plainRt encoderDefs .encode [.ref 1, specVal demoSpec] [] st =
      (.ok (.tuple [.ref sl, .ref de]), { st with heap := h }) ∧ h[sl]? = some (.barray demoMsg) ∧ HasEnc h de demoEnc ∧
      h[1]? = some (.dict items') ∧ DocIs items' demoDocAfter ∧ h[0]? = some (.set [7]) := by
  obtain ⟨x, h, items', h1, h2, h3, h4, -, h6⟩ := encode_source (rt := plainRt) (fun _ => rfl) (fun _ => .refl _) cpython_sane.digits (specVal_is demoSpec) st
    (dd := 1) (doc := demoDoc) (by rw [hst]; rfl) (docVal_is demoDoc)
  have hl : encodeLim plainRt.env demoSpec demoDoc = (.ok (demoMsg, demoEnc), demoDocAfter) := by decide +kernel
  rw [hl] at h4 h6
  obtain ⟨sl, de, rfl, h7, -, h8⟩ := h6
  exact ⟨h, sl, de, items', h1, h7, h8, h3, h4, h2 0 _ (by decide) (by rw [hst]; rfl)⟩

/-- A document without a header: the exception names field "h". -/
example (st : St Unit) (hst : st.heap = [.dict []]) : ∃ (h : List Obj) (l de : Nat), program plainRt encoderDefs .encode [.ref 0, specVal demoSpec] [] st =
      (.error (.inst .EncodeError l), { st with heap := h }) ∧
      ∃ args m, h[l]? = some (.inst .EncodeError args [(.msg, m), (.doc_dec, .ref 0), (.doc_enc, .ref de), (.field, .str py"h")]) := by
  obtain ⟨x, h, items', h1, -, -, -, -, h6⟩ := encode_source (rt := plainRt) (fun _ => rfl) (fun _ => .refl _) cpython_sane.digits (specVal_is demoSpec) st
    (dd := 0) (items := []) (doc := []) (by rw [hst]; rfl) trivial
  have hl : ∃ m, (encodeLim plainRt.env demoSpec []).1 = .error (.exc (.encodeError ⟨m, [], [], py"h"⟩)) := ⟨.requiredBySpec, by decide +kernel⟩
  obtain ⟨m, hl⟩ := hl
  rw [hl] at h6
  obtain ⟨l, de, d, rfl, -, h7, -⟩ := h6
  exact ⟨h, l, de, h1, _, _, h7⟩

/-- A list is not a dict. -/
example (st : St Unit) : program plainRt encoderDefs .encode [.obj py"list" py"[]" (some 0), specVal demoSpec] [] st =
    (.error (.std .TypeError (.str py"Decoded ISO8583 data must be dict, not list")), st) := by
  obtain ⟨x, h1, h2⟩ := encode_source_type (rt := plainRt) (pv := specVal demoSpec) (spec := demoSpec) (fun _ => rfl) py"list" py"[]" (some 0) 0 st
  rw [h1, h2]; rfl

end Iso8583.Src
