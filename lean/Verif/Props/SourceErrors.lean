import Verif.Props.SourceEncode
import Verif.Model.Exceptions
/-!
# C83: exceptions of decoder.py and encoder.py survive pickling

`pickle` and `copy` ask an exception for `__reduce__()`, which returns a class and a tuple of arguments,
and later call the class with the arguments.  Here both halves are the text of the files.
-/

namespace Iso8583.Src

variable {ε σ : Type} {rt : Rt ε σ} {sv pv : Val} {spec : Spec} {s : Bytes}

/-- decoder.py:47-56 on any object that has the attributes, of whatever class. -/
theorem reduce_decodeError (hg : ∀ x, rt.globals x = none) (st : St σ) {l : Nat} {c : Ident} {args : List Val} {attrs : List (Ident × Val)}
    (hl : st.heap[l]? = some (.inst c args attrs)) {msg s dd de pos f : Val} (h1 : attrGet attrs .msg = some msg) (h2 : attrGet attrs .s = some s)
    (h3 : attrGet attrs .doc_dec = some dd) (h4 : attrGet attrs .doc_enc = some de) (h5 : attrGet attrs .pos = some pos) (h6 : attrGet attrs .field = some f) :
    program rt [decodeErrorReduceDef] .__reduce__ [.ref l] [] st = (.ok (.tuple [.glob c, .tuple [msg, s, dd, de, pos, f]]), st) := by
  have hprog : program rt [decodeErrorReduceDef] .__reduce__ = invoke rt (program rt []) decodeErrorReduceDef := program_eq _ _ rfl
  rw [hprog]
  simp [invoke, decodeErrorReduceDef, bindParams, runBody, decodeErrorReduce1, src, getVar, hg, attrVal, classVal, deref, hl, h1, h2, h3, h4, h5, h6]

/-- encoder.py:36-39 on any object that has the attributes, of whatever class. -/
theorem reduce_encodeError (hg : ∀ x, rt.globals x = none) (st : St σ) {l : Nat} {c : Ident} {args : List Val} {attrs : List (Ident × Val)}
    (hl : st.heap[l]? = some (.inst c args attrs)) {msg dd de f : Val} (h1 : attrGet attrs .msg = some msg)
    (h3 : attrGet attrs .doc_dec = some dd) (h4 : attrGet attrs .doc_enc = some de) (h6 : attrGet attrs .field = some f) :
    program rt [encodeErrorReduceDef] .__reduce__ [.ref l] [] st = (.ok (.tuple [.glob c, .tuple [msg, dd, de, f]]), st) := by
  have hprog : program rt [encodeErrorReduceDef] .__reduce__ = invoke rt (program rt []) encodeErrorReduceDef := program_eq _ _ rfl
  rw [hprog]
  simp [invoke, encodeErrorReduceDef, bindParams, runBody, encodeErrorReduce1, src, getVar, hg, attrVal, classVal, deref, hl, h1, h3, h4, h6]

/-! ## The objects are the model's -/

/-- The heap has at `l` this `DecodeError`; `sv` is the value of its attribute `s`. -/
def HasDecodeError (h : List Obj) (l : Nat) (sv : Val) (e : DecodeErrorObj) : Prop :=
  ∃ c dd de, h[l]? = some (.inst c [.str e.args0] [(.msg, .str e.msg), (.s, sv), (.doc_dec, .ref dd), (.doc_enc, .ref de), (.field, .str e.field), (.pos, .int e.pos)]) ∧
    className c = some e.cls ∧ HasDec h dd e.docDec ∧ HasEnc h de e.docEnc

/-- The heap has at `l` this `EncodeError`; `dd` is the dict that was given to `encode`. -/
def HasEncodeError (h : List Obj) (l dd : Nat) (e : EncodeErrorObj) : Prop :=
  ∃ c de, h[l]? = some (.inst c [.str e.args0] [(.msg, .str e.msg), (.doc_dec, .ref dd), (.doc_enc, .ref de), (.field, .str e.field)]) ∧
    className c = some e.cls ∧ HasEnc h de e.docEnc

/-- **C83**: the object decoder.py raises is the one of the model (`a` is the caller's object). -/
theorem decode_error_obj (hg : ∀ x, rt.globals x = none) (ho : ∀ xs, (rt.order xs).Perm xs) (hs : Sane rt.env)
    (hp : SpecVal pv spec) (st : St σ) (hb : BytesIn st.heap sv s) {e : DecodeError} (he : decodeLim rt.env spec s = .error (.exc (.decodeError e))) (a : DecodeArg) :
    ∃ (l : Nat) (h : List Obj), program rt decoderDefs .decode [sv, pv] [] st = (.error (.inst .DecodeError l), { st with heap := h }) ∧
      HasDecodeError h l sv (e.obj a) := by
  obtain ⟨x, h, h1, -, h3⟩ := decode_source hg ho hs hp st hb
  rw [he] at h3
  obtain ⟨l, dd, de, rfl, h4, -, h5, h6⟩ := h3
  refine ⟨l, h, h1, .DecodeError, dd, de, ?_, rfl, h5, h6⟩
  rw [h4]
  simp [DecodeError.obj, DecodeErrorObj.init, DecodeError.text, intStr]

/-- **C83**: the object encoder.py raises is the one of the model; the detail of a codec's refusal
(encoder.py:499) is left out of the model. -/
theorem encode_error_obj (hg : ∀ x, rt.globals x = none) (ho : ∀ xs, (rt.order xs).Perm xs)
    (hs : rt.env.maxStrDigits = 0 ∨ 640 ≤ rt.env.maxStrDigits) (hp : SpecVal pv spec) (st : St σ)
    {dd : Nat} {items : List (Val × Val)} {doc : Doc} (hd : st.heap[dd]? = some (.dict items)) (di : DocIs items doc) {e : EncodeError}
    (he : (encodeLim rt.env spec doc).1 = .error (.exc (.encodeError e))) (hm : e.msg ≠ .lenInvalid) :
    ∃ (l : Nat) (h : List Obj), program rt encoderDefs .encode [.ref dd, pv] [] st = (.error (.inst .EncodeError l), { st with heap := h }) ∧
      HasEncodeError h l dd e.obj := by
  obtain ⟨x, h, items', h1, -, -, -, -, h3⟩ := encode_source hg ho hs hp st hd di
  rw [he] at h3
  obtain ⟨l, de, d, rfl, hm', h4, -, h5⟩ := h3
  cases hm' hm
  refine ⟨l, h, h1, .EncodeError, de, ?_, rfl, h5⟩
  rw [h4]
  simp [EncodeError.obj, EncodeErrorObj.init, EncodeError.text]

/-! ## Rebuilding -/

theorem decodeLim_formats {env : PyEnv} {e : DecodeError} (hr : decodeLim env spec s = .error (.exc (.decodeError e))) : formats env e.pos := by
  unfold decodeLim at hr
  rcases hd : decode env spec s with (e' | k | c) | r
  all_goals rw [hd] at hr
  · simp only at hr
    by_cases hf : (e'.msg.numbers ++ [(e'.pos : Int)]).all (formats env) = true
    · rw [if_pos hf] at hr
      cases hr
      rw [List.all_append, Bool.and_eq_true] at hf
      simpa using hf.2
    · rw [if_neg hf] at hr
      simp at hr
  all_goals simp at hr

/-- What `copy.copy` and `pickle` do: ask for the class and the arguments, call the class. -/
def rebuild (rt : Rt ε σ) (reduce init : Def) (v : Val) : M ε σ Val := do
  match ← program rt [reduce] .__reduce__ [v] [] with
  | .tuple [.glob c, .tuple args] => program rt [init] c args []
  | _ => stuck

/-- **C83**: when `decode` raises `DecodeError`, rebuilding the exception gives a new object, equal in
class, text and attributes, and changes nothing else. -/
theorem decode_error_rebuild (hg : ∀ x, rt.globals x = none) (ho : ∀ xs, (rt.order xs).Perm xs) (hs : Sane rt.env)
    (hp : SpecVal pv spec) (st : St σ) (hb : BytesIn st.heap sv s) {l : Nat} {h : List Obj}
    (hd : program rt decoderDefs .decode [sv, pv] [] st = (.error (.inst .DecodeError l), { st with heap := h })) :
    ∃ o, h[l]? = some o ∧
      rebuild rt decodeErrorReduceDef decodeErrorInitDef (.ref l) { st with heap := h } = (.ok (.ref h.length), { st with heap := h ++ [o] }) := by
  obtain ⟨x, h', h1, -, h3⟩ := decode_source hg ho hs hp st hb
  rw [h1] at hd
  have e1 : x = .error (.inst .DecodeError l) := congrArg Prod.fst hd
  have e2 : h' = h := by simpa using congrArg (fun r => r.2.heap) hd
  subst e1 e2
  have key : ∃ m pos f, formats rt.env pos ∧ ∃ dd de, h'[l]? = some (errObj m sv dd de pos f) := by
    rcases hr : decodeLim rt.env spec s with e | ⟨d, e⟩
    · rw [hr] at h3
      cases e with
      | valueError => simp [DecodeOut] at h3
      | exc e =>
        cases e with
        | keyError k => simp [DecodeOut] at h3
        | typeError c => simp [DecodeOut] at h3
        | decodeError e =>
          obtain ⟨l', dd, de, h4, h5, -⟩ := h3
          cases h4
          refine ⟨e.msg.text, e.pos, e.field, ?_, dd, de, ?_⟩
          · exact decodeLim_formats hr
          · rw [h5]; simp [errObj, DecodeError.text, intStr]
    · rw [hr] at h3
      obtain ⟨_, _, h4, -⟩ := h3
      cases h4
  obtain ⟨m, pos, f, hf, dd, de, hl⟩ := key
  refine ⟨_, hl, ?_⟩
  have hr := reduce_decodeError hg { st with heap := h' } hl rfl rfl rfl rfl rfl rfl
  have hn := new_decodeError hg m sv dd de pos f { st with heap := h' }
  rw [if_pos hf] at hn
  rw [rebuild, PyM.run_bind, hr]
  exact hn

/-- **C83**: the same for `encode` and `EncodeError`. -/
theorem encode_error_rebuild (hg : ∀ x, rt.globals x = none) (ho : ∀ xs, (rt.order xs).Perm xs)
    (hs : rt.env.maxStrDigits = 0 ∨ 640 ≤ rt.env.maxStrDigits) (hp : SpecVal pv spec) (st : St σ)
    {dd : Nat} {items : List (Val × Val)} {doc : Doc} (hd : st.heap[dd]? = some (.dict items)) (di : DocIs items doc) {l : Nat} {h : List Obj}
    (he : program rt encoderDefs .encode [.ref dd, pv] [] st = (.error (.inst .EncodeError l), { st with heap := h })) :
    ∃ o, h[l]? = some o ∧
      rebuild rt encodeErrorReduceDef encodeErrorInitDef (.ref l) { st with heap := h } = (.ok (.ref h.length), { st with heap := h ++ [o] }) := by
  obtain ⟨x, h', items', h1, -, -, -, -, h3⟩ := encode_source hg ho hs hp st hd di
  rw [h1] at he
  have e1 : x = .error (.inst .EncodeError l) := congrArg Prod.fst he
  have e2 : h' = h := by simpa using congrArg (fun r => r.2.heap) he
  subst e1 e2
  have key : ∃ m f de, h'[l]? = some (encErrObj m dd de f) := by
    rcases hr : (encodeLim rt.env spec doc).1 with e | ⟨d, e⟩
    · rw [hr] at h3
      rcases e with e | _
      · cases e <;> try (simp [EncodeOut] at h3; done)
        obtain ⟨l', de, d, h4, -, h5, -⟩ := h3
        cases h4
        exact ⟨_, _, _, h5⟩
      · simp [EncodeOut] at h3
    · rw [hr] at h3
      obtain ⟨_, _, h4, -⟩ := h3
      cases h4
  obtain ⟨m, f, de, hl⟩ := key
  refine ⟨_, hl, ?_⟩
  have hr := reduce_encodeError hg { st with heap := h' } hl rfl rfl rfl rfl
  have hn := new_encodeError hg m dd de f { st with heap := h' }
  rw [rebuild, PyM.run_bind, hr]
  exact hn

/-! ## The hypotheses are met -/

/-- The exception for a message of two bytes that should begin with a header of three. -/
def shortObj (dd de : Nat) : Obj := .inst .DecodeError [.str py"Field data is 2 bytes, expecting 3: field h pos 0"] [(.msg, .str py"Field data is 2 bytes, expecting 3"), (.s, .bytes [0x30, 0x32]), (.doc_dec, .ref dd), (.doc_enc, .ref de), (.field, .str py"h"), (.pos, .int 0)]

/-- It is raised, and its copy is the same. -/
example (st : St Unit) : ∃ (l dd de : Nat) (h : List Obj),
    program plainRt decoderDefs .decode [.bytes [0x30, 0x32], specVal demoSpec] [] st = (.error (.inst .DecodeError l), { st with heap := h }) ∧
    h[l]? = some (shortObj dd de) ∧
    rebuild plainRt decodeErrorReduceDef decodeErrorInitDef (.ref l) { st with heap := h } = (.ok (.ref h.length), { st with heap := h ++ [shortObj dd de] }) := by
  obtain ⟨l, h, h1, c, dd, de, h2, h3, -⟩ := decode_error_obj (rt := plainRt) (s := [0x30, 0x32])
    (e := { msg := .dataShort 2 py"bytes" 3, s := [0x30, 0x32], docDec := [(py"h", [])], docEnc := [(py"h", ⟨[], [0x30, 0x32]⟩)], pos := 0, field := py"h" })
    (fun _ => rfl) (fun _ => .refl _) cpython_sane (specVal_is demoSpec) st (.inl (.inl rfl)) (by decide +kernel) (.bytes [0x30, 0x32])
  obtain ⟨o, h4, h5⟩ := decode_error_rebuild (rt := plainRt) (fun _ => rfl) (fun _ => .refl _) cpython_sane (specVal_is demoSpec) st (.inl (.inl rfl)) h1
  have hc : c = .DecodeError := by
    revert h3; cases c <;> simp [className, DecodeError.obj, DecodeErrorObj.init]
  subst hc
  rw [h2] at h4
  cases h4
  exact ⟨l, dd, de, h, h1, h2, h5⟩

/-- `encode` of a dict without message type. -/
example (st : St Unit) (hd : st.heap[0]? = some (.dict (docVal [(.str py"h", .str py"abc")]))) : ∃ (l : Nat) (h : List Obj) (o : Obj),
    program plainRt encoderDefs .encode [.ref 0, specVal demoSpec] [] st = (.error (.inst .EncodeError l), { st with heap := h }) ∧
    h[l]? = some o ∧
    rebuild plainRt encodeErrorReduceDef encodeErrorInitDef (.ref l) { st with heap := h } = (.ok (.ref h.length), { st with heap := h ++ [o] }) := by
  obtain ⟨l, h, h1, -⟩ := encode_error_obj (rt := plainRt) (doc := [(.str py"h", .str py"abc")]) (fun _ => rfl) (fun _ => .refl _) (.inr (by decide)) (specVal_is demoSpec) st hd (docVal_is _)
    (e := { msg := .required, docDec := [(.str py"h", .str py"abc")], docEnc := [(py"h", ⟨[], [0x61, 0x62, 0x63]⟩)], field := py"t" }) (by decide +kernel) (by decide)
  obtain ⟨o, h2, h3⟩ := encode_error_rebuild (rt := plainRt) (doc := [(.str py"h", .str py"abc")]) (fun _ => rfl) (fun _ => .refl _) (.inr (by decide)) (specVal_is demoSpec) st hd (docVal_is _) h1
  exact ⟨l, h, o, h1, h2, h3⟩

/-- An instance of `reduce_decodeError`. -/
example (st : St Unit) (dd de : Nat) (h : st.heap = [shortObj dd de]) :
    program plainRt [decodeErrorReduceDef] .__reduce__ [.ref 0] [] st =
      (.ok (.tuple [.glob .DecodeError, .tuple [.str py"Field data is 2 bytes, expecting 3", .bytes [0x30, 0x32], .ref dd, .ref de, .int 0, .str py"h"]]), st) :=
  reduce_decodeError (rt := plainRt) (fun _ => rfl) st (by rw [h]; rfl) rfl rfl rfl rfl rfl rfl

/-- An instance of `reduce_encodeError`. -/
example (st : St Unit) (h : st.heap = [.dict [], .inst .EncodeError [.str py"m: field t"] [(.msg, .str py"m"), (.doc_dec, .ref 0), (.doc_enc, .ref 0), (.field, .str py"t")]]) :
    program plainRt [encodeErrorReduceDef] .__reduce__ [.ref 1] [] st = (.ok (.tuple [.glob .EncodeError, .tuple [.str py"m", .ref 0, .ref 0, .str py"t"]]), st) :=
  reduce_encodeError (rt := plainRt) (fun _ => rfl) st (by rw [h]; rfl) rfl rfl rfl rfl

end Iso8583.Src
