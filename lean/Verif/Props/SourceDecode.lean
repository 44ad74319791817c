import Verif.Source.Decode
import Verif.Model.Codecs
import Verif.Model.Format
import Verif.Props.Demo
import Verif.Props.Partial
/-!
# C80: running decoder.py is the model

`Source/Code.lean` is the text of decoder.py as data and `Source/Semantics.lean` says what running it
does.  Here: running `decode` gives what the model's `decodeLim` says, for every argument.
-/

namespace Iso8583.Src

variable {ε σ : Type} {rt : Rt ε σ} {sv pv : Val} {spec : Spec} {s : Bytes}

/-! ## What a result looks like -/

/-- The heap has at `l` a dict with these keys and values, in this order. -/
def HasDec (h : List Obj) (l : Nat) (d : DecDoc) : Prop := h[l]? = some (.dict (d.map fun p => (.str p.1, .str p.2)))

/-- The heap has at `l` a dict from these keys, in this order, to one dict `{"len": …, "data": …}` each. -/
def HasEnc (h : List Obj) (l : Nat) (d : EncDoc) : Prop :=
  ∃ loc : Str → Nat, h[l]? = some (.dict (d.map fun p => (.str p.1, .ref (loc p.1)))) ∧
    (∀ k e, d.get? k = some e → h[loc k]? = some (.dict [(.str py"len", .bytes e.len), (.str py"data", .bytes e.data)])) ∧
    ∀ k k', k ∈ d.keys → k' ∈ d.keys → loc k = loc k' → k = k'

/-- What `decode` returns or raises, as a value in the heap `h`. -/
def DecodeOut (h : List Obj) (sv : Val) : Except (Limited DecodeExc) (DecDoc × EncDoc) → Except (Exc ε) Val → Prop
  | .ok (d, e), x => ∃ dd de, x = .ok (.tuple [.ref dd, .ref de]) ∧ dd ≠ de ∧ HasDec h dd d ∧ HasEnc h de e
  | .error (.exc (.decodeError e)), x => ∃ l dd de, x = .error (.inst .DecodeError l) ∧
    h[l]? = some (.inst .DecodeError [.str e.text] [(.msg, .str e.msg.text), (.s, sv), (.doc_dec, .ref dd), (.doc_enc, .ref de),
      (.field, .str e.field), (.pos, .int e.pos)]) ∧ dd ≠ de ∧ HasDec h dd e.docDec ∧ HasEnc h de e.docEnc
  | .error (.exc (.keyError k)), x => x = .error (.std .KeyError (.str k))
  | .error (.exc (.typeError c)), x =>
    x = .error (.std .TypeError (.str (py"Encoded ISO8583 data must be bytes or bytearray, not " ++ c)))
  | .error .valueError, x => x = .error (.std .ValueError .none)

theorem Rep.hasEnc {h : List Obj} {dd de : Nat} {dec : List (Val × Val)} {enc : EncDoc} {F : List (Nat × Obj)} (r : Rep h dd de dec enc F) :
    HasEnc h de enc := by
  obtain ⟨loc, h1, h2, h3⟩ := r.henc
  refine ⟨loc, h1, fun k e hk => (h2 k e hk).1, fun k k' hk hk' => ?_⟩
  obtain ⟨e, he⟩ := Dict.mem_keys_iff.1 hk
  obtain ⟨e', he'⟩ := Dict.mem_keys_iff.1 hk'
  exact h3 k k' e e' he he'

/-- **C87** (decode): `decode(s, spec)` on a specification any property of which may be missing, in any
state of the interpreter, ends the way `decodeLimP` (Model/Partial.lean with the digit limit) says; every
object that existed before is as it was, and nothing else is touched. -/
theorem decode_source_missing {raw : PartialSpec} (hg : ∀ x, rt.globals x = none) (ho : ∀ xs, (rt.order xs).Perm xs) (hs : Sane rt.env)
    (hp : PSpecVal pv raw) (st : St σ) (hb : BytesIn st.heap sv s) :
    ∃ (x : Except (Exc ε) Val) (h : List Obj), program rt decoderDefs .decode [sv, pv] [] st = (x, { st with heap := h }) ∧
      (∀ (l : Nat) o, st.heap[l]? = some o → h[l]? = some o) ∧ DecodeOut h sv (decodeLimP rt.env raw s) x := by
  obtain ⟨h, x, h1, h2, h3⟩ := decode_sim hg hp hs ho st hb
  refine ⟨x, h, h1, fun l o hl => (h2.frame (l, o) (mem_objs.2 hl)).1, ?_⟩
  unfold decodeLimP decodeP
  rcases hres : decodeBodyP rt.env raw s ⟨[], []⟩ with ⟨⟨m, pos, f⟩ | k | u, ds⟩
  · rw [hres] at h2 h3
    obtain ⟨exc, rfl, h4⟩ := h3
    simp only [ErrIs] at h4
    simp only
    by_cases hf : (m.numbers ++ [(pos : Int)]).all (formats rt.env) = true
    · rw [if_pos hf] at h4 ⊢
      obtain ⟨l, rfl, h5⟩ := h4
      exact ⟨l, _, _, rfl, h5, h2.ne, h2.hdec, h2.hasEnc⟩
    · rw [if_neg hf] at h4 ⊢
      rw [h4]; rfl
  · rw [hres] at h3
    obtain ⟨exc, rfl, h4⟩ := h3
    simp only [ErrIs] at h4
    rw [h4]; rfl
  · rw [hres] at h2 h3
    subst h3
    exact ⟨_, _, rfl, h2.ne, h2.hdec, h2.hasEnc⟩

theorem decodeP_full (env : PyEnv) (spec : Spec) (s : Bytes) : decodeP env (fullSpec spec) s = decode env spec s := by
  rcases decode_missing (env := env) (fullSpec_filledBy spec) s with h | ⟨k, p, h, -⟩
  · exact h
  · exact absurd h fullSpec_lacks

/-- **C80**: `decode(s, spec)` of decoder.py, called in any state of the interpreter, with `bytes` or
`bytearray` and a specification that has the properties of `spec`, ends the way the model says, leaves
every object that existed before as it was, and touches nothing else. -/
theorem decode_source (hg : ∀ x, rt.globals x = none) (ho : ∀ xs, (rt.order xs).Perm xs) (hs : Sane rt.env)
    (hp : SpecVal pv spec) (st : St σ) (hb : BytesIn st.heap sv s) :
    ∃ (x : Except (Exc ε) Val) (h : List Obj), program rt decoderDefs .decode [sv, pv] [] st = (x, { st with heap := h }) ∧
      (∀ (l : Nat) o, st.heap[l]? = some o → h[l]? = some o) ∧ DecodeOut h sv (decodeLim rt.env spec s) x := by
  have := decode_source_missing hg ho hs hp.full st hb
  rwa [show decodeLimP rt.env (fullSpec spec) s = decodeLim rt.env spec s by unfold decodeLimP decodeLim; rw [decodeP_full]] at this

/-- **C80** (any other argument): `TypeError`, naming the class. -/
theorem decode_source_type (hg : ∀ x, rt.globals x = none) (c r : Str) (n : Option Nat) (st : St σ) :
    ∃ x, program rt decoderDefs .decode [.obj c r n, pv] [] st = (x, st) ∧
      DecodeOut st.heap (.obj c r n) ((decodeApi rt.env spec (.other c)).mapError .exc) x := by
  refine ⟨_, ?_, rfl⟩
  have hprog : program rt decoderDefs .decode = invoke rt (program rt [decodeHeaderDef, decodeTypeDef, decodeBitmapDef, decodeFieldDef, removePadFieldDef,
    decodeTextDataDef, decodeErrorInitDef]) decodeDef := program_eq _ _ rfl
  rw [hprog]
  have hc := mainCalls (rt := rt)
  generalize program rt [decodeHeaderDef, decodeTypeDef, decodeBitmapDef, decodeFieldDef, removePadFieldDef, decodeTextDataDef, decodeErrorInitDef] = call at hc ⊢
  have hi : builtin rt .isinstance [.obj c r n, .tuple [.glob .bytes, .glob .bytearray]] [] = pure (.bool false) := rfl
  have h1 : (attrVal (.obj c r n) .__class__ : M ε σ Val) = pure (.cls c) := rfl
  have h2 : (attrVal (.cls c) .__name__ : M ε σ Val) = pure (.str c) := rfl
  simp [invoke, decodeDef, bindParams, runBody, decode1, src, getVar, hg, hc.isinstance, hc.TypeError, hi, h1, h2]

/-! ## The hypotheses are met -/

/-- A specification as a dict of dicts. -/
def specVal (spec : Spec) : Val := .dict (spec.map fun p => (.str p.1, .dict (
  [(.str py"data_enc", .str p.2.dataEnc), (.str py"len_enc", .str p.2.lenEnc), (.str py"len_type", .int p.2.lenType), (.str py"max_len", .int p.2.maxLen)] ++
  (match p.2.lenCount with | some v => [(.str py"len_count", .str v)] | none => []) ++
  (match p.2.leftPad with | some v => [(.str py"left_pad", .str v)] | none => []) ++
  (match p.2.rightPad with | some v => [(.str py"right_pad", .str v)] | none => []) ++
  (match p.2.desc with | some v => [(.str py"desc", .str v)] | none => []))))

theorem specVal_is (spec : Spec) : SpecVal (specVal spec) spec := by
  refine ⟨_, rfl, fun k => ?_⟩
  induction spec with
  | nil => rfl
  | cons p t ih =>
    simp only [List.map_cons, lookup, Dict.get?, same_str, beq_iff_eq]
    by_cases h : p.1 = k
    · simp only [h, if_true]
      refine ⟨_, rfl, _, rfl, ?_⟩
      obtain ⟨k', ⟨a, b, c, d, e, f, g, i⟩⟩ := p
      cases e <;> cases f <;> cases g <;> cases i <;> simp [lookup, same_str]
    · simp only [h, if_false]
      exact ih

/-- A runtime: `cpython` with sets iterated in the order of insertion, and no output. -/
def plainRt : Rt Empty Unit where
  env := cpython
  order := id
  detail _ _ := []
  globals _ := none
  write _ _ := fun st => (.ok (), st)

theorem decodeBytes_length {f : UInt8 → Option Nat} : ∀ {b : Bytes} {t : Str}, decodeBytes f b = some t → t.length ≤ b.length
  | [], t, h => by cases h; simp
  | a :: b, t, h => by
    simp only [decodeBytes] at h
    split at h
    next c r _ h2 => cases h; have := decodeBytes_length h2; simp only [List.length_cons]; omega
    next => cases h

theorem utf8Decode_length : ∀ (n : Nat) {b : Bytes} {t : Str}, b.length ≤ n → utf8Decode b = some t → t.length ≤ b.length
  | _, [], t, _, h => by unfold utf8Decode at h; cases h; simp
  | 0, _ :: _, _, hn, _ => absurd hn (by simp)
  | n + 1, a :: b, t, hn, h => by
    have step : ∀ {b' : Bytes} {x : Nat}, b'.length ≤ b.length → (utf8Decode b').map (x :: ·) = some t → t.length ≤ (a :: b).length := by
      intro b' x hb h
      obtain ⟨r, h1, rfl⟩ := Option.map_eq_some_iff.1 h
      have := utf8Decode_length n (by simp only [List.length_cons] at hn; omega) h1
      simp only [List.length_cons]; omega
    unfold utf8Decode at h
    split at h
    · exact step (by omega) h
    split at h
    · cases h
    split at h
    · split at h
      · split at h
        · exact step (by simp) h
        · cases h
      · cases h
    split at h
    · split at h
      · split at h
        · dsimp only at h
          split at h
          · cases h
          · exact step (by simp; omega) h
        · cases h
      · cases h
    split at h
    · split at h
      · split at h
        · dsimp only at h
          split at h
          · cases h
          · exact step (by simp; omega) h
        · cases h
      · cases h
    · cases h

theorem cpython_sane : Sane cpython where
  digits := .inr (by decide)
  codec name b t hb h := by
    have : t.length ≤ b.length := by
      simp only [bytesDecode] at h
      split at h
      · cases h; simp
      · split at h
        · cases h
        next c hc =>
          split at h
          · cases h
          next x hx =>
            cases h
            simp only [cpython] at hc
            split at hc
            · cases hc; exact decodeBytes_length hx
            split at hc
            · cases hc; exact decodeBytes_length hx
            split at hc
            · cases hc; exact decodeBytes_length hx
            split at hc
            · cases hc; exact decodeBytes_length hx
            split at hc
            · cases hc; exact utf8Decode_length _ (Nat.le_refl _) hx
            · cases hc
    omega

/-- decoder.py decodes the demo message, called with a dict and an exception already in the heap. -/
example (st : St Unit) : ∃ (h : List Obj) (dd de : Nat), program plainRt decoderDefs .decode [.barray demoMsg, specVal demoSpec] [] st =
      (.ok (.tuple [.ref dd, .ref de]), { st with heap := h }) ∧ HasDec h dd demoDec ∧ HasEnc h de demoEnc := by
  obtain ⟨x, h, h1, -, h3⟩ := decode_source (rt := plainRt) (fun _ => rfl) (fun _ => .refl _) cpython_sane (specVal_is demoSpec) st (s := demoMsg) (.inl (.inr rfl))
  rw [show decodeLim plainRt.env demoSpec demoMsg = .ok (demoDec, demoEnc) by decide +kernel] at h3
  obtain ⟨dd, de, rfl, -, h4, h5⟩ := h3
  exact ⟨h, dd, de, h1, h4, h5⟩

/-- One byte less. -/
example (st : St Unit) : ∃ h l, (program plainRt decoderDefs .decode [.bytes (demoMsg.dropLast), specVal demoSpec] [] st) =
    (.error (.inst .DecodeError l), { st with heap := h }) := by
  obtain ⟨x, h, h1, -, h3⟩ := decode_source (rt := plainRt) (fun _ => rfl) (fun _ => .refl _) cpython_sane (specVal_is demoSpec) st (s := demoMsg.dropLast) (.inl (.inl rfl))
  have : ∃ e, decodeLim plainRt.env demoSpec demoMsg.dropLast = .error (.exc (.decodeError e)) := ⟨_, by rfl⟩
  obtain ⟨e, he⟩ := this
  rw [he] at h3
  obtain ⟨l, dd, de, rfl, -⟩ := h3
  exact ⟨h, l, h1⟩

/-- A string is not bytes. -/
example (st : St Unit) : program plainRt decoderDefs .decode [.obj py"str" py"'0200'" (some 4), specVal demoSpec] [] st =
    (.error (.std .TypeError (.str py"Encoded ISO8583 data must be bytes or bytearray, not str")), st) := by
  obtain ⟨x, h1, h2⟩ := decode_source_type (rt := plainRt) (pv := specVal demoSpec) (spec := demoSpec) (fun _ => rfl) py"str" py"'0200'" (some 4) st
  rw [h1, h2]; rfl

end Iso8583.Src
