import Verif.Lemmas.EncodeFails
import Verif.Props.EncodeAttribution
import Verif.Props.Grammar
/-!
# What encode does on every dict (C59)
-/

namespace Iso8583

/-- **C59** `encode` raises `x` and leaves the caller's dict at `doc'` exactly when writing the message fails that way. -/
theorem encode_fails_iff {env : PyEnv} {spec : Spec} {doc doc' : Doc} {x : EncodeExc} (nd : doc.NoDup) :
    encode env spec doc = (.error x, doc') ↔ EncodeFails env spec doc x doc' := encode_fails_iff' nd

/-- Every dict can be written as a message or fails in exactly one way, never both. -/
theorem encode_total {env : PyEnv} (spec : Spec) {doc : Doc} (nd : doc.NoDup) :
    ((∃ ps b, Written env spec doc ps b) ∧ ∀ x doc', ¬ EncodeFails env spec doc x doc') ∨
    ((¬ ∃ ps b, Written env spec doc ps b) ∧ ∃ x doc', EncodeFails env spec doc x doc' ∧
      ∀ y doc'', EncodeFails env spec doc y doc'' → y = x ∧ doc'' = doc') := by
  rcases h : encode env spec doc with ⟨x | ⟨s, enc⟩, doc'⟩
  · refine .inr ⟨?_, x, doc', (encode_fails_iff nd).1 h, ?_⟩
    · rintro ⟨ps, b, hw⟩
      have := (encode_iff nd).2 ⟨ps, b, hw, rfl, rfl, rfl⟩
      rw [h] at this
      cases this
    · intro y doc'' hy
      have := (encode_fails_iff nd).2 hy
      rw [h] at this
      cases this
      exact ⟨rfl, rfl⟩
  · obtain ⟨ps, b, hw, _⟩ := (encode_iff nd).1 h
    refine .inl ⟨⟨ps, b, hw⟩, fun x d hx => ?_⟩
    have := (encode_fails_iff nd).2 hx
    rw [h] at this
    cases this

/-- The dict whose field 70 is too long fails, with everything before field 70 written. -/
example : ∃ d, EncodeFails cpython demoSpec longDoc (.encodeError longError) d :=
  ⟨_, (encode_fails_iff (by unfold Dict.NoDup; decide)).1 long_encode⟩

/-- A dict with a key that is not a string, and one that only looks like a number. -/
def mixedDoc : Doc := demoDoc ++ [(.obj py"7", .str py"x"), (.str [0xB2], .str py"y")]

/-- The key that comes first decides. -/
example : ∃ e, EncodeFails cpython demoSpec mixedDoc (.encodeError e) (encode cpython demoSpec mixedDoc).2 ∧
    e.msg = .invalidFields [py"7"] := by
  have h : (match (encode cpython demoSpec mixedDoc).1 with
    | .error (.encodeError e) => e.msg == .invalidFields [py"7"] | _ => false) = true := by decide +kernel
  split at h
  · next e he =>
    exact ⟨e, (encode_fails_iff (by unfold Dict.NoDup; decide)).1 (Prod.ext he rfl), by simpa using h⟩
  · cases h

example : EncodeFails cpython demoSpec (demoDoc ++ [(.str [0xB2], .str py"y"), (.obj py"7", .str py"x")]) .valueError
    (encode cpython demoSpec (demoDoc ++ [(.str [0xB2], .str py"y"), (.obj py"7", .str py"x")])).2 := by
  refine (encode_fails_iff (by unfold Dict.NoDup; decide)).1 (Prod.ext ?_ rfl)
  decide +kernel

/-- An instance of `encode_total`. -/
example : ∃ ps b, Written cpython demoSpec demoDoc ps b := by
  rcases encode_total demoSpec (env := cpython) demo_nodup with ⟨h, _⟩ | ⟨_, x, doc', h, _⟩
  · exact h
  · rw [← encode_fails_iff demo_nodup, demo_encode] at h
    cases h

end Iso8583
