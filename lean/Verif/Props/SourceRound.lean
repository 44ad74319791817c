import Verif.Props.SourceEncode
import Verif.Props.EncodeRoundTrip
import Verif.Props.DecodeEncode
/-!
# C84: the round trips, of the text

C01 and C02 of the model, for the text of encoder.py and decoder.py run one after the other in one
interpreter.
-/

namespace Iso8583.Src

variable {ε σ : Type} {rt : Rt ε σ} {sv pv : Val} {spec : Spec} {s : Bytes}

theorem encodeLim_ok {env : PyEnv} {doc : Doc} {r : Bytes × EncDoc} (h : (encodeLim env spec doc).1 = .ok r) :
    encode env spec doc = (.ok r, (encodeLim env spec doc).2) := by
  unfold encodeLim at h ⊢
  rcases he : encode env spec doc with ⟨x | r', d⟩
  all_goals rw [he] at h
  · cases x with
    | encodeError e =>
      simp only at h
      split at h <;> cases h
    | _ => cases h
  · simp only at h
    cases h; rfl

theorem decodeLim_ok {env : PyEnv} {r : DecDoc × EncDoc} : decodeLim env spec s = .ok r ↔ decode env spec s = .ok r := by
  unfold decodeLim
  rcases decode env spec s with x | r'
  · cases x with
    | decodeError e =>
      simp only
      split <;> simp
    | _ => simp
  · simp

/-- **C84**: when `encode(doc, spec)` of encoder.py returns, it returns a bytearray and an encoded dict, and
`decode` of decoder.py, called next in the same interpreter with this bytearray or with these bytes, returns a decoded dict and an
encoded dict.  The two encoded dicts have the same contents; the decoded dict has their keys, in the same
order, and the values the caller's dict has now, those of binary fields in upper case. -/
theorem encode_decode_source (hg : ∀ x, rt.globals x = none) (ho : ∀ xs, (rt.order xs).Perm xs) (hs : Sane rt.env)
    (hp : SpecVal pv spec) (hl : SpecLaws rt.env spec) (st st1 : St σ) {dd : Nat} {items : List (Val × Val)} {doc : Doc}
    (hd : st.heap[dd]? = some (.dict items)) (di : DocIs items doc) {v : Val}
    (he : program rt encoderDefs .encode [.ref dd, pv] [] st = (.ok v, st1)) :
    ∃ (sl de : Nat) (s : Bytes) (enc : EncDoc), v = .tuple [.ref sl, .ref de] ∧ st1.heap[sl]? = some (.barray s) ∧ HasEnc st1.heap de enc ∧
      ∀ sv, BytesIn st1.heap sv s → ∃ (dd2 de2 : Nat) (h2 : List Obj) (dec : DecDoc) (items' : List (Val × Val)),
        program rt decoderDefs .decode [sv, pv] [] st1 = (.ok (.tuple [.ref dd2, .ref de2]), { st1 with heap := h2 }) ∧
        HasDec h2 dd2 dec ∧ HasEnc h2 de2 enc ∧ dec.keys = enc.keys ∧ h2[dd]? = some (.dict items') ∧
        ∀ k ∈ enc.keys, ∃ fs x y, spec.get? k = some fs ∧ lookup items' (.str k) = some x ∧
          valOf x = some y ∧ dec.get? k = some (readBack fs y) := by
  obtain ⟨x, h, items', h1, -, h2, h3, -, h4⟩ := encode_source hg ho hs.digits hp st hd di
  rw [h1] at he
  have e1 : x = .ok v := congrArg Prod.fst he
  have e2 : st1 = { st with heap := h } := (congrArg Prod.snd he).symm
  subst e1 e2
  rcases hr : (encodeLim rt.env spec doc).1 with e | ⟨s, enc⟩
  · rw [hr] at h4
    rcases e with (e | _) | _
    all_goals simp [EncodeOut] at h4
  · rw [hr] at h4
    obtain ⟨sl, de, h5, h6, -, h7⟩ := h4
    cases h5
    refine ⟨sl, de, s, enc, rfl, h6, h7, fun sv hb => ?_⟩
    obtain ⟨dec, hdec, hk, hv⟩ := encode_decode hl (encodeLim_ok hr)
    obtain ⟨x, h', g1, g2, g3⟩ := decode_source hg ho hs hp { st with heap := h } hb
    rw [decodeLim_ok.2 hdec] at g3
    obtain ⟨dd2, de2, rfl, -, g4, g5⟩ := g3
    refine ⟨dd2, de2, h', dec, items', g1, g4, g5, hk, g2 dd _ h2, fun k hkk => ?_⟩
    obtain ⟨fs, y, a1, a2, a3⟩ := hv k hkk
    have := h3.get (k := k)
    rw [a2] at this
    obtain ⟨x, b1, b2⟩ := this
    exact ⟨fs, x, y, a1, b1, b2, a3⟩

/-- **C84**: when `decode(s, spec)` of decoder.py returns and the message was spelled the way `encode` spells
it, `encode` of encoder.py, called next in the same interpreter with the decoded dict, returns a bytearray with
the same bytes and an encoded dict with the same contents, and the decoded dict has the items it had. -/
theorem decode_encode_source (hg : ∀ x, rt.globals x = none) (ho : ∀ xs, (rt.order xs).Perm xs) (hs : Sane rt.env) (hn : AsciiNumeric rt.env)
    (hp : SpecVal pv spec) (st : St σ) (hb : BytesIn st.heap sv s) {dec : DecDoc} {enc : EncDoc} (hd : decode rt.env spec s = .ok (dec, enc))
    (hc : CanonicalMessage rt.env spec dec enc) :
    ∃ (dd de : Nat) (h : List Obj) (sl de2 : Nat) (h2 : List Obj) (items' : List (Val × Val)),
      program rt decoderDefs .decode [sv, pv] [] st = (.ok (.tuple [.ref dd, .ref de]), { st with heap := h }) ∧
      HasDec h dd dec ∧ HasEnc h de enc ∧
      program rt encoderDefs .encode [.ref dd, pv] [] { st with heap := h } = (.ok (.tuple [.ref sl, .ref de2]), { st with heap := h2 }) ∧
      h2[sl]? = some (.barray s) ∧ HasEnc h2 de2 enc ∧ h2[dd]? = some (.dict items') ∧
      ∀ k, lookup items' (.str k) = (dec.get? k).map .str := by
  obtain ⟨x, h, h1, -, h3⟩ := decode_source hg ho hs hp st hb
  rw [decodeLim_ok.2 hd] at h3
  obtain ⟨dd, de, rfl, -, h5, h6⟩ := h3
  obtain ⟨doc', a1, a2⟩ := decode_encode hn (by have := hs.digits; omega) hd hc
  have di : ∀ d : DecDoc, DocIs (d.map fun p => (Val.str p.1, Val.str p.2)) (asDoc d) := by
    intro d
    induction d with
    | nil => trivial
    | cons p t ih => exact ⟨rfl, rfl, ih⟩
  obtain ⟨x, h', items', g1, -, g2, g3, -, g5⟩ := encode_source hg ho hs.digits hp { st with heap := h } h5 (di dec)
  have hlim : encodeLim rt.env spec (asDoc dec) = (.ok (s, enc), doc') := by simp [encodeLim, a1]
  rw [hlim] at g3 g5
  obtain ⟨sl, de2, rfl, g6, -, g7⟩ := g5
  refine ⟨dd, de, h, sl, de2, h', items', h1, h5, h6, g1, g6, g7, g2, fun k => ?_⟩
  have h8 := g3.get (k := k)
  have h9 : ∀ d : DecDoc, (asDoc d).get? (.str k) = (d.get? k).map Iso8583.Val.str := by
    intro d
    induction d with
    | nil => rfl
    | cons p t ih =>
      simp only [asDoc, List.map_cons, Dict.get?, Key.str.injEq] at ih ⊢
      split
      · rfl
      · exact ih
  rw [a2 (.str k), h9] at h8
  cases hk : dec.get? k with
  | none => rw [hk] at h8; exact h8
  | some t =>
    rw [hk] at h8
    obtain ⟨x, b1, b2⟩ := h8
    rw [b1]
    cases x with
    | str u => cases b2; rfl
    | obj c r n => cases n <;> cases b2
    | thing l k => cases l <;> cases k <;> cases b2
    | _ => cases b2

/-! ## The hypotheses are met -/

theorem barray_unique {h : List Obj} {l : Nat} {a b : Bytes} (h1 : h[l]? = some (.barray a)) (h2 : h[l]? = some (.barray b)) : a = b := by
  rw [h1] at h2
  cases h2; rfl

/-- The bytearray `encode` returns is decoded again. -/
theorem encode_decode_ok (hg : ∀ x, rt.globals x = none) (ho : ∀ xs, (rt.order xs).Perm xs) (hs : Sane rt.env) (hp : SpecVal pv spec) (hl : SpecLaws rt.env spec)
    (st : St σ) {dd : Nat} {items : List (Val × Val)} {doc doc' : Doc} {enc : EncDoc} (hd : st.heap[dd]? = some (.dict items)) (di : DocIs items doc)
    (he : encode rt.env spec doc = (.ok (s, enc), doc')) : ∃ (sl de dd2 de2 : Nat) (h h2 : List Obj) (dec : DecDoc),
    program rt encoderDefs .encode [.ref dd, pv] [] st = (.ok (.tuple [.ref sl, .ref de]), { st with heap := h }) ∧ h[sl]? = some (.barray s) ∧
    program rt decoderDefs .decode [.ref sl, pv] [] { st with heap := h } = (.ok (.tuple [.ref dd2, .ref de2]), { st with heap := h2 }) ∧
    HasDec h2 dd2 dec := by
  obtain ⟨x, h, items', h1, -, -, -, -, h4⟩ := encode_source hg ho hs.digits hp st hd di
  have hr : encodeLim rt.env spec doc = (.ok (s, enc), doc') := by rw [encodeLim, he]
  rw [hr] at h4
  obtain ⟨sl, de, rfl, h5, -⟩ := h4
  obtain ⟨sl', de', s', enc', g1, g2, -, g3⟩ := encode_decode_source hg ho hs hp hl st _ hd di h1
  cases g1
  cases barray_unique g2 h5
  obtain ⟨dd2, de2, h2, dec, _, g4, g5, -⟩ := g3 (.ref sl) (.inr ⟨sl, rfl, h5⟩)
  exact ⟨sl, de, dd2, de2, h, h2, dec, h1, h5, g4, g5⟩

/-- The demo message of `Props/Demo.lean`, encoded and decoded again. -/
example (st : St Unit) (hd : st.heap[0]? = some (.dict (docVal demoDoc))) : ∃ (sl de dd2 de2 : Nat) (h h2 : List Obj) (dec : DecDoc),
    program plainRt encoderDefs .encode [.ref 0, specVal demoSpec] [] st = (.ok (.tuple [.ref sl, .ref de]), { st with heap := h }) ∧ h[sl]? = some (.barray demoMsg) ∧
    program plainRt decoderDefs .decode [.ref sl, specVal demoSpec] [] { st with heap := h } = (.ok (.tuple [.ref dd2, .ref de2]), { st with heap := h2 }) ∧
    HasDec h2 dd2 dec :=
  encode_decode_ok (rt := plainRt) (fun _ => rfl) (fun _ => .refl _) cpython_sane (specVal_is demoSpec) demo_laws st hd (docVal_is demoDoc) demo_encode

/-- Decoded and encoded again. -/
example (st : St Unit) : ∃ (dd de : Nat) (h : List Obj) (sl de2 : Nat) (h2 : List Obj),
    program plainRt decoderDefs .decode [.bytes demoMsg, specVal demoSpec] [] st = (.ok (.tuple [.ref dd, .ref de]), { st with heap := h }) ∧
    program plainRt encoderDefs .encode [.ref dd, specVal demoSpec] [] { st with heap := h } = (.ok (.tuple [.ref sl, .ref de2]), { st with heap := h2 }) ∧
    h2[sl]? = some (.barray demoMsg) := by
  obtain ⟨dd, de, h, sl, de2, h2, _, g1, -, -, g2, g3, -⟩ := decode_encode_source (rt := plainRt) (fun _ => rfl) (fun _ => .refl _) cpython_sane cpython_ascii
    (specVal_is demoSpec) st (.inl (.inl rfl)) demo_decode demo_canonicalMessage
  exact ⟨dd, de, h, sl, de2, h2, g1, g2, g3⟩

/-- An instance of `encode_decode_source`. -/
example (st : St Unit) (hd : st.heap[0]? = some (.dict (docVal demoDoc))) (st1 : St Unit) (v : Val)
    (he : program plainRt encoderDefs .encode [.ref 0, specVal demoSpec] [] st = (.ok v, st1)) : ∃ (sl de : Nat) (s : Bytes) (x : Val) (st2 : St Unit),
    v = .tuple [.ref sl, .ref de] ∧ st1.heap[sl]? = some (.barray s) ∧ program plainRt decoderDefs .decode [.bytes s, specVal demoSpec] [] st1 = (.ok x, st2) := by
  obtain ⟨sl, de, s, enc, h1, h2, -, h3⟩ := encode_decode_source (rt := plainRt) (fun _ => rfl) (fun _ => .refl _) cpython_sane (specVal_is demoSpec) demo_laws st st1 hd (docVal_is demoDoc) he
  obtain ⟨_, _, _, _, _, h4, -⟩ := h3 (.bytes s) (.inl (.inl rfl))
  exact ⟨sl, de, s, _, _, h1, h2, h4⟩

end Iso8583.Src
