import Verif.Model.Exceptions
import Verif.Props.Demo
/-!
# Exceptions (C42) and argument types (C43)
-/

namespace Iso8583

/-- **C42**: a `DecodeError` made with any arguments survives pickling: the rebuilt object has the
same class, attributes and text. -/
theorem decodeError_rebuild (cls msg : Str) (s : DecodeArg) (docDec : DecDoc) (docEnc : EncDoc) (pos : Int) (field : Str) :
    let e := DecodeErrorObj.init cls msg s docDec docEnc pos field
    let e' := DecodeErrorObj.rebuild e.reduce
    e'.cls = cls ∧ e'.msg = msg ∧ e'.s = s ∧ e'.docDec = docDec ∧ e'.docEnc = docEnc ∧ e'.pos = pos ∧ e'.field = field ∧
      e'.args0 = e.args0 := ⟨rfl, rfl, rfl, rfl, rfl, rfl, rfl, rfl⟩

/-- **C42**, also when attributes were reassigned after construction: the attributes survive, and
the text is the one those attributes give. -/
theorem decodeError_rebuild_any (e : DecodeErrorObj) :
    let e' := DecodeErrorObj.rebuild e.reduce
    e'.cls = e.cls ∧ e'.msg = e.msg ∧ e'.s = e.s ∧ e'.docDec = e.docDec ∧ e'.docEnc = e.docEnc ∧ e'.pos = e.pos ∧
      e'.field = e.field ∧ e'.args0 = e.msg ++ py": field " ++ e.field ++ py" pos " ++ intStr e.pos :=
  ⟨rfl, rfl, rfl, rfl, rfl, rfl, rfl, rfl⟩

/-- **C42**: same for `EncodeError`. -/
theorem encodeError_rebuild (cls msg : Str) (docDec : Doc) (docEnc : EncDoc) (field : Str) :
    let e := EncodeErrorObj.init cls msg docDec docEnc field
    let e' := EncodeErrorObj.rebuild e.reduce
    e'.cls = cls ∧ e'.msg = msg ∧ e'.docDec = docDec ∧ e'.docEnc = docEnc ∧ e'.field = field ∧ e'.args0 = e.args0 :=
  ⟨rfl, rfl, rfl, rfl, rfl, rfl⟩

/-- **C42**, after reassignment of attributes. -/
theorem encodeError_rebuild_any (e : EncodeErrorObj) :
    let e' := EncodeErrorObj.rebuild e.reduce
    e'.cls = e.cls ∧ e'.msg = e.msg ∧ e'.docDec = e.docDec ∧ e'.docEnc = e.docEnc ∧ e'.field = e.field ∧
      e'.args0 = e.msg ++ py": field " ++ e.field :=
  ⟨rfl, rfl, rfl, rfl, rfl, rfl⟩

/-- The object raised for a message with extra bytes. -/
example : let e : DecodeErrorObj := DecodeError.obj (.bytearray [0x30]) ⟨.extraData, [0x30], [(py"t", [])], [(py"t", ⟨[], []⟩)], 0, py"t"⟩
    e.args0 = py"Extra data after last field: field t pos 0" ∧
    (DecodeErrorObj.rebuild e.reduce).args0 = py"Extra data after last field: field t pos 0" ∧
    (DecodeErrorObj.rebuild e.reduce).s = .bytearray [0x30] := by decide +kernel

example : let e : EncodeErrorObj := EncodeError.obj ⟨.required, [(.str py"2", .str py"1")], [], py"t"⟩
    e.args0 = py"Field data is required: field t" ∧
    (EncodeErrorObj.rebuild e.reduce).args0 = py"Field data is required: field t" ∧
    (EncodeErrorObj.rebuild e.reduce).docDec = [(.str py"2", .str py"1")] := by decide +kernel

/-- **C43**: `decode` treats `bytes` and `bytearray` alike, and rejects every other class by name
before looking at the data or the specification. -/
theorem decode_argument_types (env : PyEnv) (spec : Spec) :
    (∀ s, decodeApi env spec (.bytes s) = decodeApi env spec (.bytearray s)) ∧
    (∀ c, decodeApi env spec (.other c) = .error (.typeError c)) ∧
    (∀ a c, decodeApi env spec a = .error (.typeError c) → a = .other c) := by
  refine ⟨fun _ => rfl, fun _ => rfl, ?_⟩
  have key : ∀ s c, decode env spec s ≠ .error (.typeError c) := by
    intro s c h
    unfold decode at h
    split at h <;> cases h
  rintro (s | s | c') c h
  · exact absurd h (key s c)
  · exact absurd h (key s c)
  · cases h; rfl

/-- **C43**: `encode` rejects everything but a dict by class name, leaves it alone, and raises this
error for nothing else. -/
theorem encode_argument_types (env : PyEnv) (spec : Spec) :
    (∀ c, encodeApi env spec (.other c) = (.error (.notDict c), .other c)) ∧
    (∀ a c, (encodeApi env spec a).1 = .error (.notDict c) → a = .other c) := by
  refine ⟨fun _ => rfl, ?_⟩
  rintro (d | c') c h
  · exfalso
    have key : (encode env spec d).1 = .error (.notDict c) := h
    unfold encode at key
    split at key
    · cases key
    · next e st _ => cases e <;> cases key
  · cases h; rfl

example : decodeApi cpython demoSpec (.other py"str") = .error (.typeError py"str") := by decide
example : decodeApi cpython demoSpec (.bytearray demoMsg) = .ok (demoDec, demoEnc) := demo_decode
example : (encodeApi cpython demoSpec (.other py"list")).1 = .error (.notDict py"list") := by decide

end Iso8583
