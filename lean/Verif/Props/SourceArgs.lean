import Verif.Props.SourceHeap
/-!
# C92: the first argument of `decode` and `encode`

Whatever Python object is passed first: `decode` takes `bytes` and bytearrays, `encode` takes dicts, and for
anything else the text of decoder.py and encoder.py raises `TypeError` with the name of the class, before it
looks at the specification or changes anything.
-/

namespace Iso8583.Src

variable {ε σ : Type} {rt : Rt ε σ}

/-- What Python calls the class of a value. -/
inductive Named (h : List Obj) : Val → Str → Prop
  | none : Named h .none py"NoneType"
  | bool (b : Bool) : Named h (.bool b) py"bool"
  | int (n : Int) : Named h (.int n) py"int"
  | float (m e : Int) : Named h (.float m e) py"float"
  | nan : Named h .nan py"float"
  | inf : Named h .inf py"float"
  | str (s : Str) : Named h (.str s) py"str"
  | bytes (b : Bytes) : Named h (.bytes b) py"bytes"
  | barray (b : Bytes) : Named h (.barray b) py"bytearray"
  | tuple (xs : List Val) : Named h (.tuple xs) py"tuple"
  | dict (items : List (Val × Val)) : Named h (.dict items) py"dict"
  | obj (c r : Str) (n : Option Nat) : Named h (.obj c r n) c
  | barrayAt {l : Nat} {b : Bytes} : h[l]? = some (.barray b) → Named h (.ref l) py"bytearray"
  | dictAt {l : Nat} {items : List (Val × Val)} : h[l]? = some (.dict items) → Named h (.ref l) py"dict"
  | setAt {l : Nat} {xs : List Int} : h[l]? = some (.set xs) → Named h (.ref l) py"set"
  | decodeErrorAt {l : Nat} {args : List Val} {attrs : List (Ident × Val)} : h[l]? = some (.inst .DecodeError args attrs) → Named h (.ref l) py"DecodeError"
  | encodeErrorAt {l : Nat} {args : List Val} {attrs : List (Ident × Val)} : h[l]? = some (.inst .EncodeError args attrs) → Named h (.ref l) py"EncodeError"

theorem Named.class_name {st : St σ} {w : Val} {c : Str} (h : Named st.heap w c) :
    (do attrVal (← attrVal w .__class__) .__name__ : M ε σ Val) st = (.ok (.str c), st) := by
  cases h with
  | barrayAt h | dictAt h | setAt h | decodeErrorAt h | encodeErrorAt h =>
    simp only [attrVal, PyM.run_bind, deref_run h, PyM.run_pure, classVal, className]
  | _ => rfl

/-- **C92**: `decode` of anything that is neither `bytes` nor a bytearray. -/
theorem decode_type_error (hg : ∀ x, rt.globals x = none) {w pv : Val} {c : Str} {st : St σ} (hn : Named st.heap w c) (hb : ∀ s, ¬ BytesIn st.heap w s) :
    program rt decoderDefs .decode [w, pv] [] st = (.error (.std .TypeError (.str (py"Encoded ISO8583 data must be bytes or bytearray, not " ++ c))), st) := by
  have hprog : program rt decoderDefs .decode = invoke rt (program rt [decodeHeaderDef, decodeTypeDef, decodeBitmapDef, decodeFieldDef, removePadFieldDef,
    decodeTextDataDef, decodeErrorInitDef]) decodeDef := program_eq _ _ rfl
  rw [hprog]
  have hc := mainCalls (rt := rt)
  generalize program rt [decodeHeaderDef, decodeTypeDef, decodeBitmapDef, decodeFieldDef, removePadFieldDef, decodeTextDataDef, decodeErrorInitDef] = call at hc ⊢
  have hi : ∀ st', st'.heap = st.heap → builtin rt .isinstance [w, .tuple [.glob .bytes, .glob .bytearray]] [] st' = (.ok (.bool false), st') := by
    intro st' hst
    have e : builtin rt .isinstance [w, .tuple [.glob .bytes, .glob .bytearray]] [] = (do pure (.bool (← instanceOfAny w [.glob .bytes, .glob .bytearray]))) := rfl
    rw [e]
    cases hn with
    | bytes b => exact absurd (.inl (.inl rfl)) (hb b)
    | barray b => exact absurd (.inl (.inr rfl)) (hb b)
    | barrayAt h => exact absurd (.inr ⟨_, rfl, h⟩) (hb _)
    | dictAt h | setAt h | decodeErrorAt h | encodeErrorAt h =>
      rw [← hst] at h
      simp [instanceOfAny, instanceOf, PyM.run_bind, deref_run h, PyM.run_pure]
    | _ => rfl
  have hcn : ∀ st' : St σ, st'.heap = st.heap → (do attrVal (← attrVal w .__class__) .__name__ : M ε σ Val) st' = (.ok (.str c), st') :=
    fun st' hst => (hst ▸ hn).class_name
  simp only [PyM.run_bind] at hcn
  simp [invoke, decodeDef, bindParams, runBody, decode1, src, getVar, hg, hc.isinstance, hc.TypeError, hi, hcn]

/-- **C92** (encode): `encode` of anything that is not a dict. -/
theorem encode_type_error (hg : ∀ x, rt.globals x = none) {w pv : Val} {c : Str} {st : St σ} (hn : Named st.heap w c) (hb : ∀ items, ¬ DictAt st.heap w items) :
    program rt encoderDefs .encode [w, pv] [] st = (.error (.std .TypeError (.str (py"Decoded ISO8583 data must be dict, not " ++ c))), st) := by
  have hprog : program rt encoderDefs .encode = invoke rt (program rt [encodeHeaderDef, encodeTypeDef, encodeBitmapDef, encodeFieldDef, encodeBindaryFieldDef, addPadFieldDef,
    encodeTextFieldDef, encodeErrorInitDef]) encodeDef := program_eq _ _ rfl
  rw [hprog]
  have hc := mainCallsE (rt := rt)
  generalize program rt [encodeHeaderDef, encodeTypeDef, encodeBitmapDef, encodeFieldDef, encodeBindaryFieldDef, addPadFieldDef,
    encodeTextFieldDef, encodeErrorInitDef] = call at hc ⊢
  have hi : ∀ st', st'.heap = st.heap → builtin rt .isinstance [w, .glob .dict] [] st' = (.ok (.bool false), st') := by
    intro st' hst
    have e : builtin rt .isinstance [w, .glob .dict] [] = (do pure (.bool (← instanceOf w .dict))) := rfl
    rw [e]
    cases hn with
    | dict its => exact absurd (.inl rfl) (hb its)
    | dictAt h => exact absurd (.inr ⟨_, rfl, h⟩) (hb _)
    | barrayAt h | setAt h | decodeErrorAt h | encodeErrorAt h =>
      rw [← hst] at h
      simp only [instanceOf, PyM.run_bind, deref_run h, PyM.run_pure]; rfl
    | _ => rfl
  have hcn : ∀ st' : St σ, st'.heap = st.heap → (do attrVal (← attrVal w .__class__) .__name__ : M ε σ Val) st' = (.ok (.str c), st') :=
    fun st' hst => (hst ▸ hn).class_name
  simp only [PyM.run_bind] at hcn
  simp [invoke, encodeDef, bindParams, runBody, encode1, src, getVar, hg, hc.isinstance, hc.TypeError, hi, hcn]

/-! ## The hypotheses are met -/

/-- A message given as text. -/
example (st : St Unit) (pv : Val) : program plainRt decoderDefs .decode [.str py"0200", pv] [] st =
    (.error (.std .TypeError (.str py"Encoded ISO8583 data must be bytes or bytearray, not str")), st) :=
  decode_type_error (fun _ => rfl) (.str _) (by rintro s ((h | h) | ⟨l, h, -⟩) <;> cases h)

/-- The dict and the message swapped, and an exception decoded. -/
example (st : St Unit) (pv : Val) (l k : Nat) (b : Bytes) (items : List (Val × Val)) (h1 : st.heap[l]? = some (.barray b)) (h2 : st.heap[k]? = some (.dict items)) :
    program plainRt encoderDefs .encode [.ref l, pv] [] st = (.error (.std .TypeError (.str py"Decoded ISO8583 data must be dict, not bytearray")), st) ∧
    program plainRt decoderDefs .decode [.ref k, pv] [] st = (.error (.std .TypeError (.str py"Encoded ISO8583 data must be bytes or bytearray, not dict")), st) :=
  ⟨encode_type_error (fun _ => rfl) (.barrayAt h1) (by rintro items (h | ⟨l', h, h3⟩); cases h; cases h; rw [h1] at h3; cases h3),
   decode_type_error (fun _ => rfl) (.dictAt h2) (by rintro s ((h | h) | ⟨l', h, h3⟩); cases h; cases h; cases h; rw [h2] at h3; cases h3)⟩

end Iso8583.Src
