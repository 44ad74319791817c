import Verif.Lemmas.Incremental
import Verif.Props.Findings
/-!
# Errors and further input (C62, C63)
-/

namespace Iso8583

/-! ## C62 -/

/-- **C62**: an error that does not complain about missing bytes is final: whatever is received
afterwards, `decode` raises it again, with the same message, position, field and partial results.
(Not so for negative lengths; see `decode_negative`.) -/
theorem decode_final {env : PyEnv} {spec : Spec} {s : Bytes} {e : DecodeError}
    (h : decode env spec s = .error (.decodeError e)) (hm : e.msg.missing = none) (hn : e.msg.negative = false) (t : Bytes) :
    decode env spec (s ++ t) = .error (.decodeError { e with s := s ++ t }) := by
  refine decode_error_iff.2 ⟨rfl, ?_⟩
  obtain ⟨_, ⟨ps, hx, hp, hne, h1, h2⟩ | ⟨ps, fs, ent, v, off, hx, hp, hfs, hf, h1⟩ |
      ⟨ps, q, fs, D, v, hx, hp, hfs, hf, h1⟩⟩ := decode_error_iff.1 h
  · refine .inl ⟨ps, hx, hp.trans (List.prefix_append _ _), ?_, h1, h2⟩
    intro he
    have hl := hp.length_le
    have := congrArg List.length he
    simp only [List.length_append] at this
    exact hne (hp.eq_of_length (by omega))
  · refine .inr (.inl ⟨ps, fs, ent, v, off, hx, hp.trans (List.prefix_append _ _), hfs, ?_, h1⟩)
    unfold DecSimpleFault at hf ⊢
    dsimp only
    by_cases ht : e.field = py"t"
    · rw [if_pos ht] at hf ⊢
      exact ⟨hf.1.ext t hm, hf.2⟩
    · rw [if_neg ht] at hf ⊢
      by_cases hb : e.field = py"p" ∨ e.field = py"1"
      · rw [if_pos hb] at hf ⊢
        exact ⟨hf.1, hf.2.1.ext t hm, hf.2.2⟩
      · rw [if_neg hb] at hf ⊢
        exact ⟨hf.1.ext t hm hn, hf.2⟩
  · exact .inr (.inr ⟨ps, q, fs, D, v, hx, hp.trans (List.prefix_append _ _), hfs, hf.ext t hm, h1⟩)

/-- **C62**: so is a `KeyError`. -/
theorem decode_keyError_final {env : PyEnv} {spec : Spec} {s : Bytes} {k : Str} (h : decode env spec s = .error (.keyError k))
    (t : Bytes) : decode env spec (s ++ t) = .error (.keyError k) := by
  obtain ⟨ps, hx, hp, hs⟩ := decode_keyError_iff.1 h
  exact decode_keyError_iff.2 ⟨ps, hx, hp.trans (List.prefix_append _ _), hs⟩

/-- **C62**: a negative length stays one: only what the error shows as data may change. -/
theorem decode_negative {env : PyEnv} {spec : Spec} {s : Bytes} {e : DecodeError} {a : Nat} {u : Str} {n : Int}
    (h : decode env spec s = .error (.decodeError e)) (hm : e.msg = .dataShort a u n) (hn : n < 0) (t : Bytes) :
    ∃ e' a', decode env spec (s ++ t) = .error (.decodeError e') ∧ e'.msg = .dataShort a' u n ∧ e'.field = e.field ∧
      e'.pos = e.pos ∧ e'.docDec = e.docDec := by
  obtain ⟨_, ⟨ps, hx, hp, hne, h1, h2⟩ | ⟨ps, fs, ent, v, off, hx, hp, hfs, hf, h1, h2, h3⟩ |
      ⟨ps, q, fs, D, v, hx, hp, hfs, hf, h1⟩⟩ := decode_error_iff.1 h
  · rw [hm] at h1; cases h1
  · unfold DecSimpleFault at hf
    rw [hm] at hf
    by_cases ht : e.field = py"t"
    · rw [if_pos ht] at hf; exact hf.1.elim
    · rw [if_neg ht] at hf
      by_cases hb : e.field = py"p" ∨ e.field = py"1"
      · rw [if_pos hb] at hf; exact hf.2.1.elim
      · rw [if_neg hb] at hf
        obtain ⟨⟨c1, c2, c3, c4, c5, c6, c7, c8⟩, hoff⟩ := hf
        have hlen : bytesFor fs n < 0 ∨ bytesFor fs n = 0 := by unfold bytesFor; split <;> omega
        have hneg : bytesFor fs n < 0 := by
          rcases hlen with h | h
          · exact h
          · exfalso
            rw [h] at c4 c5
            rw [show (((partsWire ps).length + fs.lenType : Nat) : Int) + 0 =
              (((partsWire ps).length + fs.lenType : Nat) : Int) + ((0 : Nat) : Int) from rfl, slice_nat, List.take_zero] at c4
            rw [c4] at c5; exact c5 rfl
        refine ⟨⟨.dataShort (if fs.inNibbles then 2 * (slice (s ++ t) ((partsWire ps).length + fs.lenType)
            (((partsWire ps).length + fs.lenType : Nat) + bytesFor fs n)).length else (slice (s ++ t) ((partsWire ps).length + fs.lenType)
            (((partsWire ps).length + fs.lenType : Nat) + bytesFor fs n)).length) u n, s ++ t, partsDec ps ++ [(e.field, v)],
            partsEnc ps ++ [(e.field, ⟨ent.len, slice (s ++ t) ((partsWire ps).length + fs.lenType)
              (((partsWire ps).length + fs.lenType : Nat) + bytesFor fs n)⟩)], (partsWire ps).length + off, e.field⟩, _,
          decode_error_iff.2 ⟨rfl, .inr (.inl ⟨ps, fs, _, v, off, hx, hp.trans (List.prefix_append _ _), hfs, ?_, rfl, rfl, rfl⟩)⟩,
          rfl, rfl, h3.symm, h1.symm⟩
        unfold DecSimpleFault
        rw [if_neg ht, if_neg hb]
        exact ⟨⟨c1.ext t, c2, c3, rfl, by omega, c6, rfl, c8⟩, hoff⟩
  · rw [hm] at hf; exact hf.elim

/-- **C62**: while fewer bytes arrive than are missing, the same field is reported at the same
position, and so many fewer are missing. -/
theorem decode_still_short {env : PyEnv} {spec : Spec} {s t : Bytes} {e : DecodeError} {n : Nat}
    (h : decode env spec s = .error (.decodeError e)) (hm : e.msg.missing = some n) (ht : t.length < n) :
    ∃ e', decode env spec (s ++ t) = .error (.decodeError e') ∧ e'.field = e.field ∧ e'.pos = e.pos ∧
      e'.msg.missing = some (n - t.length) :=
  shortOf_iff.2 ((shortOf_iff.1 ⟨e, h, rfl, rfl, hm⟩).ext ht)

/-- **C62**: once they have arrived, `decode` gets further: if bytes are missing again, it is at a
later position. -/
theorem decode_gets_further {env : PyEnv} {spec : Spec} {s t : Bytes} {e e' : DecodeError} {n n' : Nat}
    (h : decode env spec s = .error (.decodeError e)) (hm : e.msg.missing = some n) (ht : n ≤ t.length)
    (h' : decode env spec (s ++ t) = .error (.decodeError e')) (hm' : e'.msg.missing = some n') : e.pos < e'.pos := by
  have hpos := (decode_error_pos h).1
  rcases Nat.lt_or_ge e.pos e'.pos with h1 | h1
  · exact h1
  · obtain ⟨e'', h2, _, _, h3⟩ := shortOf_iff.2 ((shortOf_iff.1 ⟨e', h', rfl, rfl, hm'⟩).cut (by omega))
    rw [h] at h2
    cases h2
    rw [hm] at h3
    cases h3
    have : 0 < n' := (shortOf_iff.1 ⟨e', h', rfl, rfl, hm'⟩).some_missing
    omega

/-- **C62**: a cut message is reported as cut, and never more is asked for than was cut off. -/
theorem decode_cut_short {env : PyEnv} {spec : Spec} {s t : Bytes} {r : DecDoc × EncDoc}
    (h : decode env spec (s ++ t) = .ok r) (ht : t ≠ []) :
    ∃ e n, decode env spec s = .error (.decodeError e) ∧ e.msg.missing = some n ∧ 0 < n ∧ n ≤ t.length := by
  obtain ⟨e, he⟩ := decode_truncated h (List.prefix_append s t) (by simpa using ht)
  cases hm : e.msg.missing with
  | none =>
    exfalso
    cases hn : e.msg.negative with
    | false => rw [decode_final he hm hn t] at h; cases h
    | true =>
      cases hmsg : e.msg with
      | dataShort a u n =>
        rw [hmsg] at hn
        obtain ⟨e', _, h', _⟩ := decode_negative he hmsg (by simpa [DecMsg.negative] using hn) t
        rw [h'] at h; cases h
      | _ => rw [hmsg] at hn; cases hn
  | some n =>
    refine ⟨e, n, he, hm, (shortOf_iff.1 ⟨e, he, rfl, rfl, hm⟩).some_missing, ?_⟩
    rcases Nat.lt_or_ge t.length n with h1 | h1
    · obtain ⟨e', h', _⟩ := decode_still_short he hm h1
      rw [h'] at h; cases h
    · exact h1

theorem pull_from {env : PyEnv} {spec : Spec} {m rest : Bytes} {r : DecDoc × EncDoc} (h : decode env spec m = .ok r) :
    ∀ (n : Nat) (a b : Bytes), a ++ b = m → b.length < n → pull env spec n a (b ++ rest) = some (m, rest) := by
  intro n
  induction n with
  | zero => intro a b _ h; omega
  | succ n ih =>
    intro a b hab hn
    by_cases hb : b = []
    · subst hb
      simp only [List.append_nil] at hab
      subst hab
      simp only [pull, h, List.nil_append]
    · obtain ⟨e, k, he, hm, hk, hkb⟩ := decode_cut_short (t := b) (hab ▸ h) hb
      simp only [pull, he, hm]
      rw [List.take_append_of_le_length hkb, List.drop_append_of_le_length hkb]
      exact ih _ _ (by rw [List.append_assoc, List.take_append_drop, hab]) (by simp; omega)

/-- **C62**: a reader that takes from the connection what `decode` says is missing, and tries
again, ends up with exactly the first message, whatever follows it. -/
theorem pull_message {env : PyEnv} {spec : Spec} {m rest : Bytes} {r : DecDoc × EncDoc} (h : decode env spec m = .ok r) :
    pull env spec (m.length + 1) [] (m ++ rest) = some (m, rest) :=
  pull_from h _ _ _ rfl (by omega)

/-! ## C63 -/

theorem decode_nonempty {env : PyEnv} {spec : Spec} {r : DecDoc × EncDoc} : decode env spec [] ≠ .ok r := by
  intro h
  obtain ⟨dec, enc⟩ := r
  obtain ⟨ps, ⟨h, t, b, f, P, F, rfl, _, ⟨fs, D, v, _, rfl, hl, _⟩, _⟩, _, he, hw⟩ := decode_iff.1 h
  have := congrArg List.length hw
  rw [he] at this
  simp only [List.length_nil, wire, partsEnc, List.map_append, List.map_cons, List.flatMap_append, List.flatMap_cons,
    List.length_append, hl, typeBytes] at this
  split at this <;> omega

/-- **C63**: a sequence of messages can be taken apart in one way only. -/
theorem messages_unique {env : PyEnv} {spec : Spec} : ∀ {ms ms' : List Bytes}, (∀ m ∈ ms, ∃ r, decode env spec m = .ok r) →
    (∀ m ∈ ms', ∃ r, decode env spec m = .ok r) → ms.flatten = ms'.flatten → ms = ms'
  | [], [], _, _, _ => rfl
  | [], m :: ms', _, h', he => by
    obtain ⟨r, hr⟩ := h' m (by simp)
    have : m = [] := by
      have := congrArg List.length he
      simp only [List.flatten_nil, List.flatten_cons, List.length_nil, List.length_append] at this
      exact List.eq_nil_of_length_eq_zero (by omega)
    exact absurd (this ▸ hr) decode_nonempty
  | m :: ms, [], h, _, he => by
    obtain ⟨r, hr⟩ := h m (by simp)
    have : m = [] := by
      have := congrArg List.length he
      simp only [List.flatten_nil, List.flatten_cons, List.length_nil, List.length_append] at this
      exact List.eq_nil_of_length_eq_zero (by omega)
    exact absurd (this ▸ hr) decode_nonempty
  | m :: ms, m' :: ms', h, h', he => by
    obtain ⟨r, hr⟩ := h m (by simp)
    obtain ⟨r', hr'⟩ := h' m' (by simp)
    simp only [List.flatten_cons] at he
    have hm : m = m' := by
      rcases Nat.le_total m.length m'.length with hl | hl
      · exact decode_prefix_free hr hr' (List.prefix_of_prefix_length_le (List.prefix_append m ms.flatten) (he ▸ List.prefix_append m' ms'.flatten) hl)
      · exact (decode_prefix_free hr' hr (List.prefix_of_prefix_length_le (List.prefix_append m' ms'.flatten) (he ▸ List.prefix_append m ms.flatten) hl)).symm
    subst hm
    rw [messages_unique (fun x hx => h x (by simp [hx])) (fun x hx => h' x (by simp [hx])) (List.append_cancel_left he)]

/-- **C63**: the first of several messages is found by its length, and its dicts are in the error. -/
theorem decode_first {env : PyEnv} {spec : Spec} {m rest : Bytes} {dec : DecDoc} {enc : EncDoc}
    (h : decode env spec m = .ok (dec, enc)) (hr : rest ≠ []) :
    ∃ e, decode env spec (m ++ rest) = .error (.decodeError e) ∧ e.msg = .extraData ∧ e.docDec = dec ∧ e.docEnc = enc ∧
      (m ++ rest).take e.pos = m ∧ (m ++ rest).drop e.pos = rest := by
  obtain ⟨k, hk, _⟩ := decode_extended h hr
  exact ⟨_, hk, rfl, rfl, rfl, List.take_left, List.drop_left⟩

/-- **C63**: taking a sequence of messages apart where `decode` reports extra data yields the
messages. -/
theorem split_messages {env : PyEnv} {spec : Spec} : ∀ {ms : List Bytes}, ms ≠ [] → (∀ m ∈ ms, ∃ r, decode env spec m = .ok r) →
    splitStream env spec ms.length ms.flatten = some ms
  | [], h, _ => absurd rfl h
  | [m], _, h => by
    obtain ⟨r, hr⟩ := h m (by simp)
    simp [splitStream, hr]
  | m :: m' :: ms, _, h => by
    obtain ⟨⟨dec, enc⟩, hr⟩ := h m (by simp)
    obtain ⟨r', hr'⟩ := h m' (by simp)
    have hne : (m' :: ms).flatten ≠ [] := by
      intro he
      have : m' = [] := by simp at he; exact he.1
      exact decode_nonempty (this ▸ hr')
    obtain ⟨e, he, hm, _, _, ht, hd⟩ := decode_first hr hne
    have ih := split_messages (ms := m' :: ms) (by simp) (fun x hx => h x (by simp [hx]))
    rw [List.flatten_cons, List.length_cons, splitStream, he]
    simp only [hm, if_true, ht, hd, ih, Option.map_some]

/-- Only sequences of messages are taken apart. -/
theorem split_sound {env : PyEnv} {spec : Spec} : ∀ {n : Nat} {s : Bytes} {ms : List Bytes}, splitStream env spec n s = some ms →
    ms.flatten = s ∧ ∀ m ∈ ms, ∃ r, decode env spec m = .ok r
  | 0, _, _, h => by cases h
  | n + 1, s, ms, h => by
    unfold splitStream at h
    cases hd : decode env spec s with
    | ok r =>
      rw [hd] at h; cases h
      exact ⟨by simp, by simpa using ⟨r.1, r.2, hd⟩⟩
    | error x =>
      rw [hd] at h
      cases x with
      | decodeError e =>
        simp only at h
        by_cases hm : e.msg = .extraData
        · rw [if_pos hm] at h
          obtain ⟨ms', h1, rfl⟩ := Option.map_eq_some_iff.1 h
          obtain ⟨h2, h3⟩ := split_sound h1
          refine ⟨by rw [List.flatten_cons, h2, List.take_append_drop], ?_⟩
          intro m hx
          rcases List.mem_cons.1 hx with rfl | hx
          · obtain ⟨_, ⟨ps, c1, c2, c3, _, c4, c5, c6, _⟩ | ⟨ps, fs, ent, v, off, hx, hp, hfs, hf, _⟩ |
              ⟨ps, q, fs, D, v, hx, hp, hfs, hf, _⟩⟩ := decode_error_iff.1 hd
            · refine ⟨_, decode_iff.2 ⟨ps, c1, rfl, rfl, ?_⟩⟩
              obtain ⟨r, rfl⟩ := c2
              rw [c6, List.take_left]; rfl
            · exfalso
              rw [hm] at hf; unfold DecSimpleFault at hf
              split at hf
              · exact hf.1
              · split at hf
                · exact hf.2.1
                · exact hf.1
            · rw [hm] at hf; exact hf.elim
          · exact h3 m hx
        · rw [if_neg hm] at h; cases h
      | _ => cases h

/-! ## Examples -/

/-- The worked message cut in field 70 lacks two bytes. -/
example : ∃ e', decode cpython demoSpec (demoMsg.take 57 ++ [0xA8]) = .error (.decodeError e') ∧ e'.field = py"70" ∧
    e'.pos = 56 ∧ e'.msg.missing = some 1 :=
  decode_still_short demo_decode_cut (n := 2) rfl (by decide)

/-- Read from a connection on which 200 zero bytes follow. -/
example : pull cpython demoSpec (demoMsg.length + 1) [] (demoMsg ++ List.replicate 200 0) = some (demoMsg, List.replicate 200 0) :=
  pull_message demo_decode

example : splitStream cpython demoSpec [demoMsg, demoMsg, demoMsg].length [demoMsg, demoMsg, demoMsg].flatten = some [demoMsg, demoMsg, demoMsg] :=
  split_messages (by simp) (by rintro m hm; simp only [List.mem_cons, List.not_mem_nil, or_false, or_self] at hm; exact ⟨_, hm ▸ demo_decode⟩)

/-- A bitmap that cannot be decoded stays an error. -/
example (t : Bytes) : ∃ e, decode cpython (demoSpec.set py"p" { dataEnc := py"ascii", lenEnc := py"ascii", lenType := 0, maxLen := 16 })
    (demoMsg ++ t) = .error (.decodeError e) ∧ e.msg = .invalidData := by
  obtain ⟨e, he, hm⟩ : ∃ e, decode cpython (demoSpec.set py"p" { dataEnc := py"ascii", lenEnc := py"ascii", lenType := 0, maxLen := 16 })
    demoMsg = .error (.decodeError e) ∧ e.msg = .invalidData := ⟨_, rfl, by decide +kernel⟩
  exact ⟨_, decode_final he (by rw [hm]; rfl) (by rw [hm]; rfl) t, hm⟩

/-- After the two bytes it lacks, the message lacks field 130, later on. -/
example : ∃ e', decode cpython demoSpec (demoMsg.take 57 ++ (demoMsg.drop 57).take 2) = .error (.decodeError e') ∧ 56 < e'.pos := by
  obtain ⟨e', h', n', hn'⟩ : ∃ e', decode cpython demoSpec (demoMsg.take 57 ++ (demoMsg.drop 57).take 2) = .error (.decodeError e') ∧
    ∃ n', e'.msg.missing = some n' := ⟨_, rfl, _, rfl⟩
  exact ⟨e', h', decode_gets_further demo_decode_cut (n := 2) rfl (by decide) h' hn'⟩

example : ∃ e n, decode cpython demoSpec (demoMsg.take 20) = .error (.decodeError e) ∧ e.msg.missing = some n ∧ 0 < n ∧
    n ≤ (demoMsg.drop 20).length :=
  decode_cut_short (by rw [List.take_append_drop]; exact demo_decode) (by decide)

/-- Without field 70 in the specification, nothing helps. -/
example (t : Bytes) : decode cpython (demoSpec.pop py"70") (demoMsg ++ t) = .error (.keyError py"70") :=
  decode_keyError_final (by decide +kernel) t

/-- Minus one byte of text stays an error. -/
example (t : Bytes) : ∃ e' a', decode cpython (oneField { dataEnc := py"ascii", lenEnc := py"ascii", lenType := 2, maxLen := 9 })
    (ascii py"02004000000000000000-1" ++ t) = .error (.decodeError e') ∧ e'.msg = .dataShort a' py"bytes" (-1) := by
  obtain ⟨e, he, hm⟩ : ∃ e, decode cpython (oneField { dataEnc := py"ascii", lenEnc := py"ascii", lenType := 2, maxLen := 9 })
    (ascii py"02004000000000000000-1") = .error (.decodeError e) ∧ e.msg = .dataShort 0 py"bytes" (-1) := ⟨_, rfl, by decide +kernel⟩
  obtain ⟨e', a', h1, h2, _⟩ := decode_negative he hm (by decide) t
  exact ⟨e', a', h1, h2⟩

/-- An instance of `messages_unique`. -/
example (m m' : Bytes) (h : ∃ r, decode cpython demoSpec m = .ok r) (h' : ∃ r, decode cpython demoSpec m' = .ok r)
    (he : m ++ m' = demoMsg ++ demoMsg) : m = demoMsg := by
  have := messages_unique (ms := [m, m']) (ms' := [demoMsg, demoMsg]) (by simp only [List.forall_mem_cons]; exact ⟨h, h', by simp⟩)
    (by simp only [List.forall_mem_cons]; exact ⟨⟨_, demo_decode⟩, ⟨_, demo_decode⟩, by simp⟩) (by simpa using he)
  exact (List.cons.inj this).1

/-- An instance of `decode_first`. -/
example : ∃ e, decode cpython demoSpec (demoMsg ++ [7, 8]) = .error (.decodeError e) ∧ (demoMsg ++ [7, 8]).drop e.pos = [7, 8] := by
  obtain ⟨e, h, _, _, _, _, h'⟩ := decode_first (rest := [7, 8]) demo_decode (by decide)
  exact ⟨e, h, h'⟩

/-- An instance of `split_sound`. -/
example (ms : List Bytes) (h : splitStream cpython demoSpec 2 (demoMsg ++ demoMsg) = some ms) : ms.flatten = demoMsg ++ demoMsg :=
  (split_sound h).1

end Iso8583
