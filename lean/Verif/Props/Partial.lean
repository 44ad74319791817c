import Verif.Lemmas.PartialEncode
import Verif.Lemmas.PartialNeeded
import Verif.Lemmas.PartialEncodeNeeded
import Verif.Props.DecodeFailure
import Verif.Props.DecodeContent
import Verif.Props.EncodeDict
/-!
# Specifications with missing properties (C66)
-/

namespace Iso8583
open PyM

/-! ## decode -/

/-- **C66** (decode): on a specification that lacks properties `decode` does exactly what it does when
they are filled in, with anything; or it raises `KeyError` for a missing property of the header or of
a field that it gets to, and one that this field cannot do without. -/
theorem decode_missing {env : PyEnv} {raw : PartialSpec} {spec : Spec} (h : raw.FilledBy spec) (s : Bytes) :
    decodeP env raw s = decode env spec s ∨
    ∃ k p, raw.Lacks k p ∧ (k = py"h" ∨ GotTo (decode env spec s) k) ∧ decodeP env raw s = .error (.keyError p) := by
  rcases (decodeBodyP_sim (env := env) (s := s) h).sim ⟨[], []⟩ with ⟨he, _⟩ | ⟨k, p, st', he, hl, hv⟩
  · left
    unfold decodeP decode
    rw [he]
    rcases decodeBody env spec s ⟨[], []⟩ with ⟨r, st⟩
    cases r with
    | ok _ => rfl
    | error e => cases e <;> rfl
  · right
    refine ⟨k, p, hl, hv.imp id fun hv => ?_, by unfold decodeP; rw [he]⟩
    unfold decode
    rcases hd : decodeBody env spec s ⟨[], []⟩ with ⟨r, st⟩
    rw [hd] at hv
    cases r with
    | ok _ => exact hv
    | error e => cases e with
      | err m pos f => exact hv
      | keyError k => exact trivial

/-- **C66** (decode): properties of fields outside the message and properties nobody needs may be
missing: if the header and the fields the message gets to lack nothing they need, `decode` answers as
with any completion. -/
theorem decode_missing_unused {env : PyEnv} {raw : PartialSpec} {spec : Spec} (h : raw.FilledBy spec) {s : Bytes}
    (hn : ∀ k p, (k = py"h" ∨ GotTo (decode env spec s) k) → ¬ raw.Lacks k p) : decodeP env raw s = decode env spec s := by
  rcases decode_missing (env := env) h s with h | ⟨k, p, hl, hk, _⟩
  · exact h
  · exact absurd hl (hn k p hk)

theorem decode_missing_needed {env : PyEnv} (hu : ∃ u, u ≠ py"b" ∧ u ≠ py"bcd" ∧ env.codec u = none) {raw : PartialSpec} {s : Bytes}
    {R : Except DecodeExc (DecDoc × EncDoc)} (hR : ∀ k, R ≠ .error (.keyError k))
    (hall : ∀ spec, raw.FilledBy spec → decode env spec s = R) : decodeP env raw s = R := by
  obtain ⟨spec0, hself⟩ := filled_exists raw
  by_cases hm : ∀ f, raw.get? py"h" = some f → f.maxLen ≠ none
  · rcases decodeBodyP_pin (env := env) (s := s) hu hm ⟨[], []⟩ with h | ⟨spec1, spec2, m, i, k, h1, h2, he, hme, hd⟩
    · rw [← hall _ hself]
      have he : decodeBody env spec0 s ⟨[], []⟩ = _ := h _ hself
      unfold decodeP decode
      rw [he]
      rcases decodeBodyP env raw s ⟨[], []⟩ with ⟨r, st⟩
      cases r with
      | ok _ => rfl
      | error e => cases e <;> rfl
    · exfalso
      have e1 : ∃ st : DecState, decode env spec1 s = .error (.decodeError ⟨m, s, st.dec, st.enc, i, k⟩) := by
        unfold decode
        rcases hb : decodeBody env spec1 s ⟨[], []⟩ with ⟨r, st⟩
        dsimp only at he
        rw [hb] at he
        cases he
        exact ⟨st, rfl⟩
      obtain ⟨st, e1⟩ := e1
      have e2 := (hall _ h2).trans ((hall _ h1).symm.trans e1)
      rcases decode_error_truthful e1 with ⟨hx, _⟩ | ⟨_, pre, ent, preDec, v, p1, p2, f1⟩
      · exact hme hx
      rcases decode_error_truthful e2 with ⟨hx, _⟩ | ⟨_, pre', ent', preDec', v', p1', p2', f2⟩
      · exact hme hx
      dsimp only at p1 p2 p1' p2' f1 f2
      rw [p1] at p1'
      rw [p2] at p2'
      obtain ⟨rfl, hx⟩ := List.append_inj' p1' rfl
      cases hx
      obtain ⟨rfl, hx⟩ := List.append_inj' p2' rfl
      cases hx
      exact hd _ _ _ _ f1 f2
  · exfalso
    simp only [Classical.not_forall, Decidable.not_not, ne_eq] at hm
    obtain ⟨f, hf, hm⟩ := hm
    have h1 := fillWith_filled hf (filled_maxLen (filled_seen f) hm 1)
    have h2 := fillWith_filled hf (filled_maxLen (filled_seen f) hm 0)
    have y1 : hasHeader (fillWith raw py"h" { f.seen with maxLen := 1 }) := ⟨_, fillWith_self hf, by simp⟩
    have y2 : ¬ hasHeader (fillWith raw py"h" { f.seen with maxLen := 0 }) := by
      rintro ⟨fs, hs, hp⟩
      rw [fillWith_self hf] at hs
      cases hs
      simp at hp
    have a1 := hall _ h1
    have a2 := hall _ h2
    cases R with
    | ok r =>
      have := ((decode_header a1).1 y1).1
      rw [((decode_header a2).2 y2).2.2] at this
      simp at this
    | error x =>
      cases x with
      | decodeError e =>
        have := (decode_error_header a1).1 y1
        rw [(decode_error_header a2).2 y2] at this
        simp at this
      | keyError k => exact hR k rfl
      | typeError c =>
        unfold decode at a1
        split at a1 <;> cases a1

/-- **C66** (decode): exactly when gaps matter. `decode` gives an answer other than `KeyError` just
when every way of filling the gaps leads to that answer: it neither makes up a missing property nor
asks for one the answer does not depend on. -/
theorem decode_missing_iff {env : PyEnv} (hu : ∃ u, u ≠ py"b" ∧ u ≠ py"bcd" ∧ env.codec u = none) {raw : PartialSpec} {s : Bytes}
    {R : Except DecodeExc (DecDoc × EncDoc)} (hR : ∀ k, R ≠ .error (.keyError k)) :
    decodeP env raw s = R ↔ ∀ spec, raw.FilledBy spec → decode env spec s = R := by
  refine ⟨fun h spec hs => ?_, decode_missing_needed hu hR⟩
  rcases decode_missing (env := env) hs s with h' | ⟨k, p, _, _, h'⟩
  · exact h'.symm.trans h
  · exact absurd (h.symm.trans h') (hR p)

/-! ## encode -/

/-- **C66** (encode): likewise for `encode`; in the first case the caller's dict is left alike too. -/
theorem encode_missing {env : PyEnv} {raw : PartialSpec} {spec : Spec} (h : raw.FilledBy spec) (doc : Doc) :
    encodeP env raw doc = encode env spec doc ∨
    ∃ k p, raw.Lacks k p ∧ (k = py"h" ∨ EncGotTo (encode env spec doc).1 k) ∧ (encodeP env raw doc).1 = .error (.keyError p) := by
  rcases (encodeBodyP_sim (env := env) h).sim ⟨doc, []⟩ with ⟨he, _⟩ | ⟨k, p, st', he, hl, hv⟩
  · left
    unfold encodeP encode
    rw [he]
    rcases encodeBody env spec ⟨doc, []⟩ with ⟨r, st⟩
    cases r <;> rfl
  · right
    refine ⟨k, p, hl, hv.imp id fun hv => ?_, by unfold encodeP; rw [he]⟩
    unfold encode
    rcases hd : encodeBody env spec ⟨doc, []⟩ with ⟨r, st⟩
    rw [hd] at hv
    cases r with
    | ok _ => exact hv
    | error e => cases e with
      | err m f => exact hv
      | _ => exact trivial

theorem encode_missing_unused {env : PyEnv} {raw : PartialSpec} {spec : Spec} (h : raw.FilledBy spec) {doc : Doc}
    (hn : ∀ k p, (k = py"h" ∨ EncGotTo (encode env spec doc).1 k) → ¬ raw.Lacks k p) : encodeP env raw doc = encode env spec doc := by
  rcases encode_missing (env := env) h doc with h | ⟨k, p, hl, hk, _⟩
  · exact h
  · exact absurd hl (hn k p hk)

/-- **C66** (encode): exactly when gaps matter. `encode` returns a message or raises `EncodeError` just
when every way of filling the gaps leads to that outcome and to that state of the caller's dict. -/
theorem encode_missing_iff {env : PyEnv} (hu : ∃ u, u ≠ py"b" ∧ u ≠ py"bcd" ∧ env.codec u = none)
    (hc : ∀ name c t, env.codec name = some c → t ≠ [] → c.encode t ≠ some []) {raw : PartialSpec} {doc d : Doc}
    {R : Except EncodeExc (Bytes × EncDoc)} (hR : (∃ r, R = .ok r) ∨ ∃ e, R = .error (.encodeError e)) :
    encodeP env raw doc = (R, d) ↔ ∀ spec, raw.FilledBy spec → encode env spec doc = (R, d) := by
  refine ⟨fun h spec hs => ?_, fun hall => ?_⟩
  · rcases encode_missing (env := env) hs doc with h' | ⟨k, p, _, _, h'⟩
    · exact h'.symm.trans h
    · rw [h] at h'
      rcases hR with ⟨r, rfl⟩ | ⟨e, rfl⟩ <;> cases h'
  · rcases encodeBodyP_pin hu hc (raw := raw) (doc := doc) with h | ⟨spec1, spec2, k, h1, h2, h⟩
    · obtain ⟨spec, hs⟩ := filled_exists raw
      rw [← hall spec hs]
      unfold encodeP encode
      rw [h spec hs]
      rcases encodeBodyP env raw ⟨doc, []⟩ with ⟨r, st⟩
      cases r <;> rfl
    · exfalso
      -- what an outcome of `encode` says about the run
      have look : ∀ {spec : Spec}, encode env spec doc = (R, d) →
          ¬ Raw (encodeBody env spec ⟨doc, []⟩) ∧
          (match R with
            | .ok r => (∀ x, (encodeBody env spec ⟨doc, []⟩).1 ≠ .error x) ∧ (encodeBody env spec ⟨doc, []⟩).2.enc = r.2
            | .error (.encodeError e) => (encodeBody env spec ⟨doc, []⟩).1 = .error (.err e.msg e.field) ∧
                (encodeBody env spec ⟨doc, []⟩).2.enc = e.docEnc
            | _ => False) := by
        intro spec hE
        unfold encode at hE
        rcases hb : encodeBody env spec ⟨doc, []⟩ with ⟨r, st⟩
        rw [hb] at hE
        rcases hR with ⟨r', rfl⟩ | ⟨e, rfl⟩
        · cases r with
          | ok s => cases hE; exact ⟨(fun ⟨_, hx, _⟩ => by cases hx), (fun _ hx => by cases hx), rfl⟩
          | error x => cases x <;> cases hE
        · cases r with
          | ok s => cases hE
          | error x =>
            cases x with
            | err m f => cases hE; exact ⟨(fun ⟨_, hx, hn⟩ => by cases hx; exact hn _ _ rfl), rfl, rfl⟩
            | _ => cases hE
      obtain ⟨r1, l1⟩ := look (hall _ h1)
      obtain ⟨r2, l2⟩ := look (hall _ h2)
      rcases hR with ⟨r', rfl⟩ | ⟨e, rfl⟩
      · rcases h with h | h | ⟨m, hm, _⟩ | h
        · exact r1 h
        · exact r2 h
        · exact l1.1 _ hm
        · exact h (by rw [l1.2, l2.2])
      · rcases h with h | h | ⟨m, hm, hn⟩ | h
        · exact r1 h
        · exact r2 h
        · rw [l1.1] at hm
          rw [l2.1] at hn
          exact hn hm
        · exact h (by rw [l1.2, l2.2])

/-! ### The caller's dict -/

/-- The program changes no item of the caller's dict that satisfies `q`. -/
def Keeps (q : Key → Bool) {α : Type} (m : EncM α) : Prop := ∀ st, ((m st).2.dec.filter fun kv => q kv.1) = st.dec.filter fun kv => q kv.1

namespace Keeps
variable {α β : Type} {q : Key → Bool}

theorem bind {m : EncM α} {f : α → EncM β} (h : Keeps q m) (hf : ∀ a, Keeps q (f a)) : Keeps q (m >>= f) := by
  intro st
  have h1 := h st
  simp only [run_bind]
  rcases hm : m st with ⟨r, st1⟩
  rw [hm] at h1
  cases r with
  | error e => exact h1
  | ok a => exact (hf a st1).trans h1

theorem pure {a : α} : Keeps q (Pure.pure a : EncM α) := fun _ => rfl
theorem raise {e : EncRaise} : Keeps q (PyM.raise e : EncM α) := fun _ => rfl
theorem get : Keeps q (PyM.get : EncM EncState) := fun _ => rfl
theorem lift {x : Except EncRaise α} : Keeps q (PyM.lift x : EncM α) := fun _ => rfl
theorem need {p : Str} : ∀ {o : Option α}, Keeps q (Iso8583.need .keyError p o : EncM α)
  | none => raise
  | some _ => pure
theorem spec {raw : PartialSpec} {k : Str} : Keeps q (partialSpec .keyError raw k : EncM PartialField) := need
theorem encSet {k : Str} {e : EncEntry} : Keeps q (Iso8583.encSet k e) := fun _ => rfl
theorem encFail {m : EncMsg} {k : Str} : Keeps q (Iso8583.encFail m k : EncM α) := raise
theorem encGet {k : Str} : Keeps q (Iso8583.encGet k) := by
  unfold Iso8583.encGet
  refine bind get fun st => ?_
  cases st.enc.get? k with
  | none => exact raise
  | some _ => exact pure
theorem docGet {k : Str} : Keeps q (Iso8583.docGet k) := by
  unfold Iso8583.docGet
  refine bind get fun st => ?_
  cases st.dec.get? (.str k) with
  | none => exact raise
  | some _ => exact pure
theorem ite {c : Prop} [Decidable c] {a b : EncM α} (ha : Keeps q a) (hb : Keeps q b) : Keeps q (if c then a else b) := by
  by_cases h : c
  · simp only [if_pos h]; exact ha
  · simp only [if_neg h]; exact hb

end Keeps

/-- Search for a proof that a program changes no item. -/
macro "keeps_tac" : tactic => `(tactic| repeat' with_reducible first
  | refine Keeps.ite ?_ ?_ | refine Keeps.bind ?_ fun _ => ?_
  | exact Keeps.pure | exact Keeps.raise | exact Keeps.get | exact Keeps.lift | exact Keeps.need | exact Keeps.spec
  | exact Keeps.encSet | exact Keeps.encFail | exact Keeps.encGet | exact Keeps.docGet)

theorem encodeLength_keeps {q : Key → Bool} {env : PyEnv} {n : Nat} {key : Str} {g : FieldSpec} : Keeps q (encodeLength env n key g) := by
  unfold encodeLength
  dsimp only
  keeps_tac
  · split <;> keeps_tac
  · split <;> keeps_tac
  · split <;> keeps_tac
  · split <;> keeps_tac

theorem encodeFieldP_keeps {q : Key → Bool} {env : PyEnv} {key : Str} {f : PartialField} : Keeps q (encodeFieldP env key f) := by
  unfold encodeFieldP
  dsimp only
  keeps_tac
  all_goals exact encodeLength_keeps

theorem encodeHeaderP_keeps {q : Key → Bool} {env : PyEnv} {raw : PartialSpec} : Keeps q (encodeHeaderP env raw) := by
  unfold encodeHeaderP
  dsimp only
  keeps_tac
  all_goals exact encodeFieldP_keeps

theorem encodeTypeP_keeps {q : Key → Bool} {env : PyEnv} {raw : PartialSpec} : Keeps q (encodeTypeP env raw) := by
  unfold encodeTypeP
  dsimp only
  keeps_tac

theorem encodeBitmapP_keeps {q : Key → Bool} {env : PyEnv} {key : Str} {f : PartialField} {off : Nat} {e : Bool} {F : List Nat}
    (hq : q (.str key) = false) : Keeps q (encodeBitmapP env key f off e F) := by
  have hs : ∀ v, Keeps q (docSet key v) := fun v st => Dict.filter_set hq _
  have ha : ∀ v, Keeps q (docAppend key v) := by
    intro v
    unfold docAppend
    refine Keeps.bind Keeps.docGet fun x => ?_
    cases x with
    | str s => exact hs _
    | _ => exact Keeps.raise
  unfold encodeBitmapP
  cases bitmapLoop off F (List.replicate 8 0) with
  | none => exact Keeps.raise
  | some bm =>
    dsimp only
    keeps_tac
    all_goals first | exact hs _ | exact ha _

theorem encodeFieldsP_keeps {q : Key → Bool} {env : PyEnv} {raw : PartialSpec} : ∀ {l : List Nat}, Keeps q (encodeFieldsP env raw l)
  | [] => Keeps.pure
  | i :: l => by
    unfold encodeFieldsP
    exact Keeps.bind Keeps.spec fun _ => Keeps.bind encodeFieldP_keeps fun _ => Keeps.bind encodeFieldsP_keeps fun _ => Keeps.pure

theorem encodeBodyP_keeps {q : Key → Bool} {env : PyEnv} {raw : PartialSpec} (hp : q (.str py"p") = false) (h1 : q (.str py"1") = false)
    (h65 : q (.str py"65") = false) : Keeps q (encodeBodyP env raw) := by
  unfold encodeBodyP
  have hm : Keeps q (PyM.modify fun st => { st with dec := (st.dec.pop (.str py"1")).pop (.str py"65") } : EncM Unit) := by
    intro st
    simp only [run_modify]
    rw [Dict.filter_pop h65, Dict.filter_pop h1]
  dsimp only
  keeps_tac
  all_goals first
    | exact hm | exact encodeHeaderP_keeps | exact encodeTypeP_keeps | exact encodeBitmapP_keeps hp | exact encodeBitmapP_keeps h1
    | exact encodeFieldsP_keeps

/-- **C66**: whatever is missing from the specification, `encode` touches only the bitmap keys of the
caller's dict. -/
theorem encode_missing_dict (env : PyEnv) (raw : PartialSpec) (doc : Doc) :
    ((encodeP env raw doc).2.filter fun kv => !isBitmapKey kv.1) = doc.filter fun kv => !isBitmapKey kv.1 := by
  have h := encodeBodyP_keeps (q := fun k => !isBitmapKey k) (env := env) (raw := raw) (by decide) (by decide) (by decide) ⟨doc, []⟩
  unfold encodeP
  rcases hb : encodeBodyP env raw ⟨doc, []⟩ with ⟨r, st⟩
  rw [hb] at h
  cases r <;> exact h

/-! ## pp -/

theorem need_some_bind {ε σ α β : Type} {ke : Str → ε} {p : Str} {a : α} {f : α → PyM ε σ β} : (need ke p (some a) >>= f) = f a := rfl

theorem ppFieldP_eq {env : PyEnv} {doc : PpDoc} {raw : PartialSpec} {spec : Spec} (h : raw.FilledBy spec) {dw lw : Int} {key : Str} :
    ppFieldP env doc raw dw lw key = ppField env doc spec dw lw key := by
  unfold ppFieldP ppField
  funext st
  by_cases hd : dw > 0
  · simp only [if_pos hd, run_bind]
    unfold partialSpec
    rcases h key with ⟨h1, h2⟩ | ⟨f, g, h1, h2, h⟩
    · rw [h1, h2]; rfl
    · have hdesc := h.2.2.2.2.2.2.2
      rw [h1, h2]
      dsimp only
      rw [hdesc]
      simp only [need, run_pure]
      cases f.desc <;> rfl
  · simp only [if_neg hd]
    rcases doc.get? (.str key) with _ | v
    · rfl
    · cases v <;> rfl

theorem ppFieldsP_eq {env : PyEnv} {doc : PpDoc} {raw : PartialSpec} {spec : Spec} (h : raw.FilledBy spec) {dw lw : Int} :
    ∀ {l : List Str}, ppFieldsP env doc raw dw lw l = ppFields env doc spec dw lw l
  | [] => rfl
  | k :: l => by unfold ppFieldsP ppFields; rw [ppFieldP_eq h, ppFieldsP_eq h]

/-- **C66** (pp): of the mandatory properties `pp` needs only `max_len` of the header, and only when
the dict has a header; without it, it raises `KeyError` before it writes anything. -/
theorem pp_missing {env : PyEnv} {doc : PpDoc} {raw : PartialSpec} {spec : Spec} (h : raw.FilledBy spec) (dw lw : Int) :
    ppP env doc raw dw lw = pp env doc spec dw lw ∨
    ((∃ f, raw.get? py"h" = some f ∧ f.maxLen = none) ∧ (.str py"h") ∈ doc.keys ∧
      ppP env doc raw dw lw = (.error (.keyError py"max_len"), [])) := by
  unfold ppP pp ppBodyP ppBody
  simp only [ppFieldP_eq h, ppFieldsP_eq h]
  by_cases hh : doc.contains (.str py"h") = true
  · simp only [if_pos hh]
    unfold partialSpec
    rcases h py"h" with ⟨h1, h2⟩ | ⟨f, g, h1, h2, h⟩
    · left; rw [h1, h2]; rfl
    · rw [h1, h2, need_some_bind]
      cases hm : f.maxLen with
      | none => exact .inr ⟨⟨f, rfl, hm⟩, Dict.contains_iff.1 hh, rfl⟩
      | some m =>
        left
        dsimp only
        rw [h.2.2.2.1 m hm, need_some_bind]
  · simp only [if_neg hh]
    exact .inl trivial

/-! ## Examples -/

/-- The worked specification with everything removed that its message does not need, and a field 4
without any property. -/
def gappySpec : PartialSpec := [
  (py"h", { dataEnc := some py"ascii", lenType := some 0, maxLen := some 3 }),
  (py"t", { dataEnc := some py"b" }), (py"p", { dataEnc := some py"b" }), (py"1", { dataEnc := some py"ascii" }),
  (py"2", { dataEnc := some py"ascii", lenEnc := some py"bcd", lenType := some 1, maxLen := some 19 }),
  (py"3", { dataEnc := some py"b", lenEnc := some py"b", lenType := some 1, maxLen := some 9, lenCount := some py"nibbles", leftPad := some py"0" }),
  (py"70", { dataEnc := some py"cp500", lenEnc := some py"cp500", lenType := some 2, maxLen := some 10 }),
  (py"130", { dataEnc := some py"b", lenType := some 0, maxLen := some 2 }), (py"4", {})]

/-- One way of filling the gaps. -/
def gappyFilled : Spec := demoSpec ++ [(py"4", { dataEnc := py"x", lenEnc := py"y", lenType := 7, maxLen := -1 })]

theorem gappy_filled : gappySpec.FilledBy gappyFilled := by
  intro k
  by_cases hk : k ∈ gappySpec.keys
  · right
    simp only [gappySpec, Dict.keys, List.map, List.mem_cons, List.not_mem_nil, or_false] at hk
    rcases hk with rfl | rfl | rfl | rfl | rfl | rfl | rfl | rfl | rfl <;>
      exact ⟨_, _, rfl, rfl, by simp [PartialField.FilledBy]⟩
  · left
    have hk' : k ∉ gappyFilled.keys := by simpa [gappySpec, gappyFilled, demoSpec, Dict.keys] using hk
    constructor
    · cases h : gappySpec.get? k with
      | none => rfl
      | some f => exact absurd (Dict.mem_keys_iff.2 ⟨f, h⟩) hk
    · cases h : gappyFilled.get? k with
      | none => rfl
      | some f => exact absurd (Dict.mem_keys_iff.2 ⟨f, h⟩) hk'

/-- The message does not notice the gaps. -/
example : decodeP cpython gappySpec demoMsg = .ok (demoDec, demoEnc) := by
  have hd : decode cpython gappyFilled demoMsg = .ok (demoDec, demoEnc) := by decide +kernel
  refine (decode_missing_unused gappy_filled fun k p hk hl => ?_).trans hd
  rw [hd] at hk
  have hk : k ∈ demoDec.keys := by
    rcases hk with rfl | h
    · decide
    · exact h
  obtain ⟨f, hf, hl⟩ := hl
  simp only [demoDec, Dict.keys, List.map, List.mem_cons, List.not_mem_nil, or_false] at hk
  rcases hk with rfl | rfl | rfl | rfl | rfl | rfl | rfl | rfl <;>
    (cases hf; simp [PartialField.Lacks] at hl)

/-- Since `decode` accepts the message with the gaps, it does so however they are filled. -/
example : ∀ spec, gappySpec.FilledBy spec → decode cpython spec demoMsg = .ok (demoDec, demoEnc) :=
  (decode_missing_iff ⟨py"x", by decide, by decide, rfl⟩ (by simp)).1 (by decide +kernel)

/-- A field without data needs no `data_enc`; whether data is needed is up to `max_len`. -/
def gappySpec3 : PartialSpec := [(py"h", { maxLen := some 0 }), (py"t", { dataEnc := some py"b" }), (py"p", { dataEnc := some py"b" }),
  (py"2", { lenType := some 1, lenEnc := some py"b", maxLen := some 5 }), (py"3", { lenType := some 1, lenEnc := some py"b" })]

example : decodeP cpython gappySpec3 [2, 0, 0x40, 0, 0, 0, 0, 0, 0, 0, 0] =
    .ok ([(py"t", py"0200"), (py"p", py"4000000000000000"), (py"2", [])],
      [(py"t", ⟨[], [2, 0]⟩), (py"p", ⟨[], [0x40, 0, 0, 0, 0, 0, 0, 0]⟩), (py"2", ⟨[0], []⟩)]) := by decide +kernel
example : decodeP cpython gappySpec3 [2, 0, 0x20, 0, 0, 0, 0, 0, 0, 0, 0] = .error (.keyError py"max_len") := by decide +kernel

/-- So the answer for field 3 depends on the property that is missing. -/
example : ¬ ∃ R, (∀ k, R ≠ .error (.keyError k)) ∧
    ∀ spec, gappySpec3.FilledBy spec → decode cpython spec [2, 0, 0x20, 0, 0, 0, 0, 0, 0, 0, 0] = R := by
  rintro ⟨R, hR, h⟩
  have := (decode_missing_iff ⟨py"x", by decide, by decide, rfl⟩ hR).2 h
  rw [show decodeP cpython gappySpec3 [2, 0, 0x20, 0, 0, 0, 0, 0, 0, 0, 0] = .error (.keyError py"max_len") by decide +kernel] at this
  exact hR _ this.symm

/-- The modelled codecs turn no text into nothing. -/
theorem cpython_no_empty : ∀ name c t, cpython.codec name = some c → t ≠ [] → c.encode t ≠ some [] :=
  fun name c t hc ht he => ht ((cpython_codecs_lawful name c hc).roundTrips.nonempty t he)

example : (encodeP cpython gappySpec demoDoc).1 = .ok (demoMsg, demoEnc) := by decide +kernel

/-- So every way of filling the gaps gives this message. -/
example : ∀ spec, gappySpec.FilledBy spec → (encode cpython spec demoDoc).1 = .ok (demoMsg, demoEnc) := by
  intro spec hs
  have h : encodeP cpython gappySpec demoDoc = (.ok (demoMsg, demoEnc), (encodeP cpython gappySpec demoDoc).2) := by decide +kernel
  rw [(encode_missing_iff ⟨py"x", by decide, by decide, rfl⟩ cpython_no_empty (.inl ⟨_, rfl⟩)).1 h spec hs]

/-- A field without `len_type` is written neither with nor without a length: it matters which. -/
def gappySpec4 : PartialSpec := [(py"h", { maxLen := some 0 }), (py"t", { dataEnc := some py"b" }), (py"p", { dataEnc := some py"b" }),
  (py"2", { dataEnc := some py"ascii", lenEnc := some py"ascii", maxLen := some 2 })]

def gappyDoc4 : Doc := [(.str py"t", .str py"0200"), (.str py"2", .str py"ab")]

example : (encodeP cpython gappySpec4 gappyDoc4).1 = .error (.keyError py"len_type") := by decide +kernel

example : ¬ ∃ r d, ∀ spec, gappySpec4.FilledBy spec → encode cpython spec gappyDoc4 = (.ok r, d) := by
  rintro ⟨r, d, h⟩
  have := (encode_missing_iff ⟨py"x", by decide, by decide, rfl⟩ cpython_no_empty (.inl ⟨_, rfl⟩)).2 h
  have e : (encodeP cpython gappySpec4 gappyDoc4).1 = .error (.keyError py"len_type") := by decide +kernel
  rw [this] at e
  cases e

/-- With a variable-length field that has no `len_enc` the gap shows, in `encode` as in `decode`;
the caller's dict keeps everything but the bitmaps. -/
def gappySpec2 : PartialSpec := gappySpec.set py"70" { dataEnc := some py"cp500", lenType := some 2, maxLen := some 10 }

example : decodeP cpython gappySpec2 demoMsg = .error (.keyError py"len_enc") := by decide +kernel
example : (encodeP cpython gappySpec2 demoDoc).1 = .error (.keyError py"len_enc") := by decide +kernel
example : ((encodeP cpython gappySpec2 demoDoc).2.filter fun kv => !isBitmapKey kv.1) = demoDoc.filter fun kv => !isBitmapKey kv.1 :=
  encode_missing_dict _ _ _

/-- A shorter message that ends before field 70 is refused for its own reasons. -/
example : decodeP cpython gappySpec2 (demoMsg.take 45) = decode cpython gappyFilled (demoMsg.take 45) := by decide +kernel

/-- `pp` needs no mandatory property but the header's `max_len`. -/
example : ppP cpython [(.str py"t", .str py"0200"), (.str py"70", .str py"xyz")] gappySpec2 0 80 =
    (.ok (), py"t  : '0200'\n70 : 'xyz'\n") := by decide +kernel
example : ppP cpython [(.str py"t", .str py"0200"), (.str py"h", .str py"xyz")] [(py"h", {})] 0 80 = (.error (.keyError py"max_len"), []) := by
  decide +kernel

/-- An instance of `decode_missing`. -/
example (s : Bytes) : decodeP cpython gappySpec s = decode cpython gappyFilled s ∨
    ∃ k p, gappySpec.Lacks k p ∧ (k = py"h" ∨ GotTo (decode cpython gappyFilled s) k) ∧ decodeP cpython gappySpec s = .error (.keyError p) :=
  decode_missing gappy_filled s

/-- An instance of `encode_missing`. -/
example (doc : Doc) : encodeP cpython gappySpec doc = encode cpython gappyFilled doc ∨
    ∃ k p, gappySpec.Lacks k p ∧ (k = py"h" ∨ EncGotTo (encode cpython gappyFilled doc).1 k) ∧
      (encodeP cpython gappySpec doc).1 = .error (.keyError p) :=
  encode_missing gappy_filled doc

/-- An instance of `pp_missing`. -/
example (dw lw : Int) (doc : PpDoc) (h : .str py"h" ∉ doc.keys) : ppP cpython doc gappySpec dw lw = pp cpython doc gappyFilled dw lw := by
  rcases pp_missing (env := cpython) (doc := doc) gappy_filled dw lw with h' | ⟨_, h', _⟩
  · exact h'
  · exact absurd h' h

end Iso8583
