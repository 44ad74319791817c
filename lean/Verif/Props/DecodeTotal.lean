import Verif.Lemmas.Fails
import Verif.Props.DecodeFraming
import Verif.Props.Grammar
/-!
# What decode does on every input (C58)
-/

namespace Iso8583
open PyM

/-- The exception a decoder step raises, as it leaves `decode`. -/
def DecRaise.exc (s : Bytes) (items : List Item) : DecRaise → DecodeExc
  | .err m pos k => .decodeError ⟨m, s, decOf items, encOf items, pos, k⟩
  | .keyError k => .keyError k

theorem decode_of_core {env : PyEnv} {spec : Spec} {s : Bytes} {r : DecRaise} {items : List Item}
    (h : decodeCore env spec s (.of []) = (.error r, .of items)) : decode env spec s = .error (r.exc s items) := by
  unfold decode
  rw [decodeBody_eq, ← of_nil, h]
  cases r <;> rfl

theorem decode_of_extra {env : PyEnv} {spec : Spec} {s : Bytes} {ps : List Part} {k : Str} (hm : Message env spec ps)
    (hp : partsWire ps <+: s) (hne : partsWire ps ≠ s) (hk : ps.getLast?.map Part.key = some k) :
    decode env spec s =
      .error (.decodeError ⟨.extraData, s, partsDec ps, partsEnc ps, (partsWire ps).length, k⟩) := by
  rw [partsWire_eq] at hp hne
  obtain ⟨last, hrun⟩ := decodeCore_of_reads (msgReads_iff.2 hm) hp
  have hl : (wireOf (itemsOf ps)).length ≠ s.length := fun e => hne (hp.eq_of_length e)
  have hd : decode env spec s = .error (.decodeError ⟨.extraData, s, partsDec ps, partsEnc ps, (partsWire ps).length, last⟩) := by
    unfold decode
    rw [decodeBody_eq, ← of_nil, hrun]
    simp only [hl, ne_eq, not_false_eq_true, if_true]
    rw [partsWire_eq, ← decOf_items, ← encOf_items]; rfl
  rcases decode_error_cases hd with ⟨items, l, _, _, _, hl, hx⟩ | ⟨m, pos, its, it, _, _, _, hm, _, _, hx⟩ | ⟨k, _, _, hx⟩
  · simp only [DecodeExc.decodeError.injEq, DecodeError.mk.injEq] at hx
    obtain ⟨_, _, h2, _, _, h3⟩ := hx
    subst h3
    have hke : keysOf items = keysOf (itemsOf ps) := by
      have := congrArg Dict.keys h2
      simpa [← decOf_items] using this.symm
    have : (keysOf items).getLast? = (keysOf (itemsOf ps)).getLast? := by rw [hke]
    have hlast : some last = some k := by
      rw [← hl, ← hk]
      simp only [keysOf, List.getLast?_map] at this
      rw [this]
      cases ps.getLast? <;> rfl
    cases hlast
    exact hd
  · simp only [DecodeExc.decodeError.injEq, DecodeError.mk.injEq] at hx
    exact absurd hx.1.symm hm
  · cases hx

theorem decode_of_fails {env : PyEnv} {spec : Spec} {s : Bytes} {e : DecodeError} (h : DecodeFails env spec s e) :
    decode env spec s = .error (.decodeError e) := by
  obtain ⟨m, s', dd, de, pos, k⟩ := e
  obtain ⟨hs', h⟩ := h
  dsimp only at hs'
  subst hs'
  unfold FailsExtra FailsAt FailsSecondHalf at h
  dsimp only at h
  rcases h with ⟨ps, hm, hp, hne, rfl, rfl, rfl, rfl, hk⟩ | ⟨ps, fs, ent, v, off, hx, hp, hs, hf, rfl, rfl, rfl⟩ |
    ⟨ps, q, fs, D, v, hx, hp, hs, hf, rfl, rfl, rfl, rfl⟩
  · exact decode_of_extra hm hp hne hk
  · rw [decode_of_core (decodeCore_of_expects hx hp hs hf), DecRaise.exc, decOf_append, encOf_append, decOf_items, encOf_items]
    rfl
  · rw [decode_of_core (decodeCore_of_second_half hx hp hs hf), DecRaise.exc, decOf_append, encOf_append, decOf_items, encOf_items]
    rfl

theorem decode_of_lacks {env : PyEnv} {spec : Spec} {s : Bytes} {k : Str} (h : DecodeLacks env spec s k) :
    decode env spec s = .error (.keyError k) := by
  obtain ⟨ps, hx, hp, hs⟩ := h
  exact decode_of_core (decodeCore_of_lack hx hp hs)

/-- On every input `decode` succeeds, fails with a `DecodeError`, or misses a specification entry. -/
theorem decode_total (env : PyEnv) (spec : Spec) (s : Bytes) :
    (∃ ps, Message env spec ps ∧ partsWire ps = s) ∨ (∃ e, DecodeFails env spec s e) ∨ ∃ k, DecodeLacks env spec s k := by
  rcases message_or_stops env spec s with ⟨ps, hm, hp⟩ | ⟨k, h⟩ | ⟨ps, k, fs, ent, v, m, off, hx, hp, hs, hf⟩ |
    ⟨ps, q, fs, D, v, m, hx, hp, hs, hf⟩
  · by_cases he : partsWire ps = s
    · exact .inl ⟨ps, hm, he⟩
    · right; left
      have hne : ps ≠ [] := by
        obtain ⟨h, t, b, f, P, F, rfl, _⟩ := hm
        simp
      exact ⟨⟨.extraData, s, partsDec ps, partsEnc ps, (partsWire ps).length, (ps.getLast hne).key⟩, rfl,
        .inl ⟨ps, hm, hp, he, rfl, rfl, rfl, rfl, by rw [List.getLast?_eq_some_getLast hne]; rfl⟩⟩
  · exact .inr (.inr ⟨k, h⟩)
  · exact .inr (.inl ⟨⟨m, s, partsDec ps ++ [(k, v)], partsEnc ps ++ [(k, ent)], (partsWire ps).length + off, k⟩, rfl, .inr (.inl ⟨ps, fs, ent, v, off, hx, hp, hs, hf, rfl, rfl, rfl⟩)⟩)
  · exact .inr (.inl ⟨⟨m, s, partsDec ps ++ [(q.key, q.text ++ v)], partsEnc ps ++ [(q.key, ⟨[], q.entry.data ++ D⟩)],
      (partsWire (ps ++ [q])).length, q.key⟩, rfl, .inr (.inr ⟨ps, q, fs, D, v, hx, hp, hs, hf, rfl, rfl, rfl, rfl⟩)⟩)

theorem decode_cases (env : PyEnv) (spec : Spec) (s : Bytes) :
    (∃ r, decode env spec s = .ok r) ∨ (∃ e, DecodeFails env spec s e ∧ decode env spec s = .error (.decodeError e)) ∨
      ∃ k, DecodeLacks env spec s k ∧ decode env spec s = .error (.keyError k) := by
  rcases decode_total env spec s with ⟨ps, hm, hp⟩ | ⟨e, h⟩ | ⟨k, h⟩
  · exact .inl ⟨_, decode_iff.2 ⟨ps, hm, rfl, rfl, hp.symm⟩⟩
  · exact .inr (.inl ⟨e, h, decode_of_fails h⟩)
  · exact .inr (.inr ⟨k, h, decode_of_lacks h⟩)

/-- **C58**: `decode` raises exactly the `DecodeError`s that reading the message calls for. -/
theorem decode_error_iff {env : PyEnv} {spec : Spec} {s : Bytes} {e : DecodeError} :
    decode env spec s = .error (.decodeError e) ↔ DecodeFails env spec s e := by
  refine ⟨fun h => ?_, decode_of_fails⟩
  rcases decode_cases env spec s with ⟨r, h'⟩ | ⟨e', he, h'⟩ | ⟨k, _, h'⟩ <;> rw [h] at h'
  · cases h'
  · cases h'; exact he
  · cases h'

/-- **C58**: `decode` raises `KeyError` exactly when the message gets to an entry the specification
lacks. -/
theorem decode_keyError_iff {env : PyEnv} {spec : Spec} {s : Bytes} {k : Str} :
    decode env spec s = .error (.keyError k) ↔ DecodeLacks env spec s k := by
  refine ⟨fun h => ?_, decode_of_lacks⟩
  rcases decode_cases env spec s with ⟨r, h'⟩ | ⟨e', _, h'⟩ | ⟨k', hk, h'⟩ <;> rw [h] at h'
  · cases h'
  · cases h'
  · cases h'; exact hk

/-- **C58**: nothing else leaves `decode`. -/
theorem decode_no_typeError {env : PyEnv} {spec : Spec} {s : Bytes} {c : Str} : decode env spec s ≠ .error (.typeError c) := by
  intro h
  rcases decode_cases env spec s with ⟨r, h'⟩ | ⟨e', _, h'⟩ | ⟨k', hk, h'⟩ <;> rw [h] at h' <;> cases h'

/-! ## Examples -/

/-- The cut message fails in field 70. -/
example : DecodeFails cpython demoSpec (demoMsg.take 57) ⟨.dataShort 1 py"bytes" 3, demoMsg.take 57,
    demoDec.take 6 ++ [(py"70", [])], demoEnc.take 6 ++ [(py"70", ⟨[0xF0, 0xF3], [0xA7]⟩)], 56, py"70"⟩ :=
  decode_error_iff.1 demo_decode_cut

/-- Without field 70 in the specification, the same input gets to field 70 and stops there. -/
example : DecodeLacks cpython (demoSpec.pop py"70") demoMsg py"70" := decode_keyError_iff.1 (by decide +kernel)

/-- The message with a tertiary bitmap cut off after its first byte. -/
example : ∃ e, DecodeFails cpython demoSpec (demoMsg.take 13 ++ py"8000000000000000F".map Nat.toUInt8) e ∧
    e.msg = .fieldDataBytes 17 32 ∧ e.field = py"1" ∧ e.pos = 29 := by
  have h : (match decode cpython demoSpec (demoMsg.take 13 ++ py"8000000000000000F".map Nat.toUInt8) with
    | .error (.decodeError e) => e.msg == .fieldDataBytes 17 32 && e.field == py"1" && e.pos == 29
    | _ => false) = true := by decide +kernel
  split at h
  · next e he =>
    simp at h
    exact ⟨e, decode_error_iff.1 he, h.1.1, h.1.2, h.2⟩
  · cases h

/-- An instance of `decode_no_typeError`. -/
example (c : Str) : decode cpython demoSpec (demoMsg.take 57) ≠ .error (.typeError c) := decode_no_typeError

end Iso8583
