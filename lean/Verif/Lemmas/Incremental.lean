import Verif.Spec.Incremental
import Verif.Props.DecodeTotal
import Verif.Props.DecodeFailure
/-!
# Faults of an input and of its extensions
-/

namespace Iso8583

theorem take_ext {s t : Bytes} {i n : Nat} (h : i + n ≤ s.length) : ((s ++ t).drop i).take n = (s.drop i).take n := by
  rw [List.drop_append_of_le_length (by omega), List.take_append_of_le_length (by simp; omega)]

theorem prefix_ext {s t D : Bytes} {i : Nat} (hi : i ≤ s.length) (h : D <+: s.drop i) : D <+: (s ++ t).drop i := by
  rw [List.drop_append_of_le_length hi]; exact h.trans (List.prefix_append _ _)

section
variable {env : PyEnv} {fs : FieldSpec} {s : Bytes} {idx : Nat} {e : EncEntry} {v : Str} {m : DecMsg}

theorem PrefixHeld.ext (t : Bytes) (h : PrefixHeld fs s idx e) : PrefixHeld fs (s ++ t) idx e :=
  ⟨by have := h.1; simp; omega, by rw [h.2, take_ext h.1]⟩

theorem PrefixHeld.cut {t : Bytes} (h : PrefixHeld fs (s ++ t) idx e) (hl : idx + fs.lenType ≤ s.length) : PrefixHeld fs s idx e :=
  ⟨hl, by rw [h.2, take_ext hl]⟩

theorem OnlyPrefix.ext (t : Bytes) (h : OnlyPrefix fs s idx e v) : OnlyPrefix fs (s ++ t) idx e v :=
  ⟨h.1, h.2.1.ext t, h.2.2⟩

theorem DataHeld.ext (t : Bytes) {n : Int} (h : DataHeld env fs s idx e n) : DataHeld env fs (s ++ t) idx e n :=
  ⟨h.1.ext t, h.2.1, h.2.2.1, h.2.2.2.1, prefix_ext h.1.1 h.2.2.2.2⟩

theorem DecFieldFault.ext (t : Bytes) (h : DecFieldFault env fs s idx e v m) (hm : m.missing = none) (hn : m.negative = false) :
    DecFieldFault env fs (s ++ t) idx e v m := by
  cases m with
  | lenWidth => cases hm
  | dataShort a u n => exfalso; simp only [DecMsg.missing, DecMsg.negative, decide_eq_false_iff_not] at hm hn; rw [if_neg hn] at hm; cases hm
  | lenInvalidBcd => exact ⟨h.1.ext t, h.2⟩
  | lenUnknownEncoding => exact ⟨h.1.ext t, h.2⟩
  | lenInvalidData => exact ⟨h.1.ext t, h.2⟩
  | lenNonNumeric => exact ⟨h.1.ext t, h.2⟩
  | tooLong => exact ⟨h.1.ext t, h.2⟩
  | padMissing => exact ⟨h.1.ext t, h.2⟩
  | unknownEncoding => obtain ⟨n, h, h2⟩ := h; exact ⟨n, h.ext t, h2⟩
  | invalidData => obtain ⟨n, h, h2⟩ := h; exact ⟨n, h.ext t, h2⟩
  | _ => cases h

theorem DecTypeFault.ext (t : Bytes) (h : DecTypeFault env fs s idx e v m) (hm : m.missing = none) :
    DecTypeFault env fs (s ++ t) idx e v m := by
  cases m with
  | fieldDataBytes => cases hm
  | unknownEncoding => obtain ⟨h1, h2, h3⟩ := h; exact ⟨by simp; omega, by rw [take_ext h1]; exact h2, h3⟩
  | invalidData => obtain ⟨h1, h2, h3⟩ := h; exact ⟨by simp; omega, by rw [take_ext h1]; exact h2, h3⟩
  | _ => cases h

theorem DecBitmapFault.ext (t : Bytes) {old mult : Nat} {D : Bytes} (h : DecBitmapFault env fs s idx old mult D v m)
    (hm : m.missing = none) : DecBitmapFault env fs (s ++ t) idx old mult D v m := by
  cases m with
  | fieldDataBytes => cases hm
  | unknownEncoding => obtain ⟨h1, h2, h3⟩ := h; exact ⟨by simp; omega, by rw [take_ext h1]; exact h2, h3⟩
  | invalidData => obtain ⟨h1, h2, h3⟩ := h; exact ⟨by simp; omega, by rw [take_ext h1]; exact h2, h3⟩
  | nonHexBitmap => obtain ⟨h1, h2, h3⟩ := h; exact ⟨by simp; omega, by rw [take_ext h1]; exact h2, h3⟩
  | _ => cases h

/-! ## Missing bytes -/

theorem missing_dataShort {a : Nat} {u : Str} {n : Int} {k : Nat} (h : (DecMsg.dataShort a u n).missing = some k) :
    0 ≤ n ∧ k = if u = py"nibbles" then ((n + 1) / 2).toNat - a / 2 else n.toNat - a := by
  unfold DecMsg.missing at h
  by_cases hn : n < 0
  · simp [hn] at h
  · simp only [if_neg hn, Option.some.injEq] at h
    exact ⟨by omega, h.symm⟩

theorem unit_nibbles : fs.lenCount.getD py"bytes" = py"nibbles" ↔ fs.inNibbles := by
  unfold FieldSpec.inNibbles
  cases fs.lenCount with
  | none => simp
  | some x => simp

theorem slice_all {s : Bytes} {i : Nat} {n : Int} (h0 : 0 ≤ n) (hl : (s.length : Int) ≤ i + n) : slice s i (i + n) = s.drop i := by
  have : n = (n.toNat : Int) := by omega
  rw [this, slice_nat, List.take_of_length_le]
  simp; omega

/-- A field is short of `k` bytes: its prefix is, or the data is. -/
theorem fieldFault_missing_iff {k off : Nat} (hi : idx ≤ s.length) :
    (∃ e v m, DecFieldFault env fs s idx e v m ∧ m.missing = some k ∧ off = if m.aboutData then fs.lenType else 0) ↔
      (off = 0 ∧ 0 < k ∧ s.length + k = idx + fs.lenType) ∨
      (off = fs.lenType ∧ idx + fs.lenType ≤ s.length ∧ ∃ n, UnitsRead env fs ((s.drop idx).take fs.lenType) n ∧ 0 < k ∧
        0 < n ∧ (s.length + k : Int) = idx + fs.lenType + bytesFor fs n) := by
  constructor
  · rintro ⟨e, v, m, h, hm, ho⟩
    cases m with
    | lenWidth a x =>
      obtain ⟨h1, _, _, rfl, rfl⟩ := h
      simp only [DecMsg.missing, Option.some.injEq] at hm
      exact .inl ⟨ho, by omega, by omega⟩
    | dataShort a u n =>
      obtain ⟨hn, hk⟩ := missing_dataShort hm
      obtain ⟨h1, h2⟩ := dataShort_is_rest h hn
      obtain ⟨hp, hu, hn0, _, _, _, ha, hun⟩ := h
      refine .inr ⟨ho, hp.1, n, hp.2 ▸ hu, ?_, by omega, ?_⟩
      all_goals
        have hl := congrArg List.length h1
        simp only [List.length_drop] at hl
        have hp1 := hp.1
        rw [hun] at hk
        simp only [unit_nibbles] at hk
        unfold bytesFor at h2
        try unfold bytesFor
        by_cases hb : fs.inNibbles
        · simp only [if_pos hb] at hk ha h2 ⊢; omega
        · simp only [if_neg hb] at hk ha h2 ⊢; omega
    | fieldDataBytes => cases h
    | _ => cases hm
  · rintro (⟨rfl, hk, hl⟩ | ⟨rfl, hp, n, hu, hk, hn, hl⟩)
    · exact ⟨⟨s.drop idx, []⟩, [], .lenWidth (s.length - idx) fs.lenType, ⟨by omega, rfl, rfl, rfl, rfl⟩,
        by simp only [DecMsg.missing, Option.some.injEq]; omega, rfl⟩
    · have h0 : 0 < bytesFor fs n := by unfold bytesFor; split <;> omega
      have hs := slice_all (s := s) (i := idx + fs.lenType) (n := bytesFor fs n) (by omega) (by omega)
      refine ⟨⟨(s.drop idx).take fs.lenType, s.drop (idx + fs.lenType)⟩, [],
        .dataShort (if fs.inNibbles then 2 * (s.drop (idx + fs.lenType)).length else (s.drop (idx + fs.lenType)).length)
          (fs.lenCount.getD py"bytes") n, ⟨⟨hp, rfl⟩, hu, by omega, hs.symm, ?_, rfl, rfl, rfl⟩, ?_, rfl⟩
      · simp; omega
      · unfold DecMsg.missing
        simp only [unit_nibbles, if_neg (show ¬ n < 0 by omega), Option.some.injEq, List.length_drop]
        unfold bytesFor at hl
        by_cases hb : fs.inNibbles
        · simp only [if_pos hb] at hl ⊢; omega
        · simp only [if_neg hb] at hl ⊢; omega

theorem typeFault_missing_iff {k : Nat} (hi : idx ≤ s.length) :
    (∃ e v m, DecTypeFault env fs s idx e v m ∧ m.missing = some k) ↔ 0 < k ∧ s.length + k = idx + typeBytes fs := by
  constructor
  · rintro ⟨e, v, m, h, hm⟩
    cases m with
    | fieldDataBytes a x =>
      obtain ⟨h1, _, _, rfl, rfl⟩ := h
      simp only [DecMsg.missing, Option.some.injEq] at hm
      omega
    | dataShort => cases h
    | lenWidth => cases h
    | _ => cases hm
  · rintro ⟨hk, hl⟩
    exact ⟨⟨[], s.drop idx⟩, [], .fieldDataBytes (s.length - idx) (typeBytes fs), ⟨by omega, rfl, rfl, rfl, rfl⟩,
      by simp only [DecMsg.missing, Option.some.injEq]; omega⟩

theorem bitmapFault_missing_iff {k mult old : Nat} (hi : idx ≤ s.length) (hmul : bitmapBytes fs * mult = old + bitmapBytes fs) :
    (∃ D v m, DecBitmapFault env fs s idx old mult D v m ∧ m.missing = some k) ↔
      0 < k ∧ s.length + k = idx + bitmapBytes fs := by
  constructor
  · rintro ⟨e, v, m, h, hm⟩
    cases m with
    | fieldDataBytes a x =>
      obtain ⟨h1, _, _, rfl, rfl⟩ := h
      simp only [DecMsg.missing, Option.some.injEq, hmul] at hm
      omega
    | dataShort => cases h
    | lenWidth => cases h
    | _ => cases hm
  · rintro ⟨hk, hl⟩
    exact ⟨s.drop idx, [], .fieldDataBytes (old + (s.length - idx)) (bitmapBytes fs * mult), ⟨by omega, rfl, rfl, rfl, rfl⟩,
      by simp only [DecMsg.missing, Option.some.injEq, hmul]; omega⟩

end

/-- `decode` reports field `k` at `pos` to be short of `n` bytes. -/
def ShortOf (env : PyEnv) (spec : Spec) (s : Bytes) (k : Str) (pos n : Nat) : Prop :=
  ∃ e, decode env spec s = .error (.decodeError e) ∧ e.field = k ∧ e.pos = pos ∧ e.msg.missing = some n

/-- The same, said by the format: the parts before and what is short. -/
inductive ShortAt (env : PyEnv) (spec : Spec) (s : Bytes) : Str → Nat → Nat → Prop
  | prefix {ps : List Part} {k : Str} {fs : FieldSpec} {n : Nat} : Expects env spec ps k → partsWire ps <+: s →
      spec.get? k = some fs → k ≠ py"t" → k ≠ py"p" → k ≠ py"1" → 0 < n → s.length + n = (partsWire ps).length + fs.lenType →
      ShortAt env spec s k (partsWire ps).length n
  | data {ps : List Part} {k : Str} {fs : FieldSpec} {L : Bytes} {u : Int} {n : Nat} : Expects env spec ps k → partsWire ps ++ L <+: s →
      spec.get? k = some fs → k ≠ py"t" → k ≠ py"p" → k ≠ py"1" → L.length = fs.lenType → UnitsRead env fs L u → 0 < u → 0 < n →
      (s.length + n : Int) = (partsWire ps).length + fs.lenType + bytesFor fs u →
      ShortAt env spec s k ((partsWire ps).length + fs.lenType) n
  | type {ps : List Part} {fs : FieldSpec} {n : Nat} : Expects env spec ps py"t" → partsWire ps <+: s →
      spec.get? py"t" = some fs → 0 < n → s.length + n = (partsWire ps).length + typeBytes fs →
      ShortAt env spec s py"t" (partsWire ps).length n
  | bitmap {ps : List Part} {k : Str} {fs : FieldSpec} {n : Nat} : Expects env spec ps k → partsWire ps <+: s →
      spec.get? k = some fs → (k = py"p" ∨ k = py"1") → 0 < n → s.length + n = (partsWire ps).length + bitmapBytes fs →
      ShortAt env spec s k (partsWire ps).length n
  | half {ps : List Part} {q : Part} {fs : FieldSpec} {n : Nat} : ExpectsSecondHalf env spec ps q →
      partsWire (ps ++ [q]) <+: s → spec.get? q.key = some fs → 0 < n →
      s.length + n = (partsWire (ps ++ [q])).length + bitmapBytes fs →
      ShortAt env spec s q.key (partsWire (ps ++ [q])).length n

theorem shortOf_iff {env : PyEnv} {spec : Spec} {s : Bytes} {k : Str} {pos n : Nat} :
    ShortOf env spec s k pos n ↔ ShortAt env spec s k pos n := by
  constructor
  · rintro ⟨e, h, rfl, rfl, hm⟩
    obtain ⟨hs, ⟨ps, _, _, _, hmsg, _⟩ | ⟨ps, fs, ent, v, off, hx, hp, hfs, hf, _, _, hpos⟩ |
      ⟨ps, q, fs, D, v, hx, hp, hfs, hf, hk, _, _, hpos⟩⟩ := decode_error_iff.1 h
    · rw [hmsg] at hm; cases hm
    · have hi := hp.length_le
      rw [hpos]
      unfold DecSimpleFault at hf
      by_cases ht : e.field = py"t"
      · rw [if_pos ht] at hf
        rw [ht] at hx hfs ⊢
        obtain ⟨hf, rfl⟩ := hf
        obtain ⟨h1, h2⟩ := (typeFault_missing_iff hi).1 ⟨_, _, _, hf, hm⟩
        exact .type hx hp hfs h1 h2
      · rw [if_neg ht] at hf
        by_cases hb : e.field = py"p" ∨ e.field = py"1"
        · rw [if_pos hb] at hf
          obtain ⟨_, hf, rfl⟩ := hf
          obtain ⟨h1, h2⟩ := (bitmapFault_missing_iff hi (by simp)).1 ⟨_, _, _, hf, hm⟩
          exact .bitmap hx hp hfs hb h1 h2
        · rw [if_neg hb] at hf
          obtain ⟨hf, hoff⟩ := hf
          simp only [not_or] at hb
          rcases (fieldFault_missing_iff hi).1 ⟨_, _, _, hf, hm, hoff⟩ with ⟨h0, h1, h2⟩ | ⟨h0, h1, u, h2, h3, h4, h5⟩
          · rw [h0]; exact .prefix hx hp hfs ht hb.1 hb.2 h1 h2
          · rw [h0]
            have hl : ((s.drop (partsWire ps).length).take fs.lenType).length = fs.lenType := by simp; omega
            refine .data hx ?_ hfs ht hb.1 hb.2 hl h2 h4 h3 h5
            obtain ⟨r, rfl⟩ := hp
            rw [List.drop_left, List.prefix_append_right_inj]
            exact List.take_prefix _ _
    · rw [hk, hpos]
      obtain ⟨h1, h2⟩ := (bitmapFault_missing_iff hp.length_le (by omega)).1 ⟨_, _, _, hf, hm⟩
      exact .half hx hp hfs h1 h2
  · intro h
    cases h with
    | @«prefix» ps k fs n hx hp hfs h1 h2 h3 hn hl =>
      obtain ⟨ent, v, m, hf, hm, hoff⟩ := (fieldFault_missing_iff (env := env) (off := 0) hp.length_le).2 (.inl ⟨rfl, hn, hl⟩)
      refine ⟨⟨m, s, partsDec ps ++ [(k, v)], partsEnc ps ++ [(k, ent)], (partsWire ps).length + 0, k⟩,
        decode_error_iff.2 ⟨rfl, .inr (.inl ⟨ps, fs, ent, v, 0, hx, hp, hfs, ?_, rfl, rfl, rfl⟩)⟩, rfl, rfl, hm⟩
      unfold DecSimpleFault
      rw [if_neg h1, if_neg (by simp [h2, h3])]
      exact ⟨hf, hoff⟩
    | @data ps k fs L u n hx hp hfs h1 h2 h3 hL hu hu0 hn hl =>
      have hp' : partsWire ps <+: s := (List.prefix_append _ _).trans hp
      have hll := hp.length_le
      rw [List.length_append, hL] at hll
      have hLe : (s.drop (partsWire ps).length).take fs.lenType = L := by
        obtain ⟨r, rfl⟩ := hp
        rw [List.append_assoc, List.drop_left, ← hL, List.take_left]
      obtain ⟨ent, v, m, hf, hm, hoff⟩ := (fieldFault_missing_iff (env := env) (fs := fs) (off := fs.lenType) (k := n) hp'.length_le).2
        (.inr ⟨rfl, hll, u, by rw [hLe]; exact hu, hn, hu0, hl⟩)
      refine ⟨⟨m, s, partsDec ps ++ [(k, v)], partsEnc ps ++ [(k, ent)], (partsWire ps).length + fs.lenType, k⟩,
        decode_error_iff.2 ⟨rfl, .inr (.inl ⟨ps, fs, ent, v, fs.lenType, hx, hp', hfs, ?_, rfl, rfl, rfl⟩)⟩, rfl, rfl, hm⟩
      unfold DecSimpleFault
      rw [if_neg h1, if_neg (by simp [h2, h3])]
      exact ⟨hf, hoff⟩
    | @type ps fs n hx hp hfs hn hl =>
      obtain ⟨ent, v, m, hf, hm⟩ := (typeFault_missing_iff (env := env) hp.length_le).2 ⟨hn, hl⟩
      refine ⟨⟨m, s, partsDec ps ++ [(py"t", v)], partsEnc ps ++ [(py"t", ent)], (partsWire ps).length + 0, py"t"⟩,
        decode_error_iff.2 ⟨rfl, .inr (.inl ⟨ps, fs, ent, v, 0, hx, hp, hfs, ?_, rfl, rfl, rfl⟩)⟩, rfl, rfl, hm⟩
      unfold DecSimpleFault
      rw [if_pos rfl]
      exact ⟨hf, rfl⟩
    | @bitmap ps k fs n hx hp hfs hk hn hl =>
      obtain ⟨D, v, m, hf, hm⟩ := (bitmapFault_missing_iff (env := env) (old := 0) (mult := 1) hp.length_le (by simp)).2 ⟨hn, hl⟩
      refine ⟨⟨m, s, partsDec ps ++ [(k, v)], partsEnc ps ++ [(k, ⟨[], D⟩)], (partsWire ps).length + 0, k⟩,
        decode_error_iff.2 ⟨rfl, .inr (.inl ⟨ps, fs, ⟨[], D⟩, v, 0, hx, hp, hfs, ?_, rfl, rfl, rfl⟩)⟩, rfl, rfl, hm⟩
      unfold DecSimpleFault
      rw [if_neg (by rcases hk with rfl | rfl <;> simp), if_pos hk]
      exact ⟨rfl, hf, rfl⟩
    | @half ps q fs n hx hp hfs hn hl =>
      obtain ⟨D, v, m, hf, hm⟩ := (bitmapFault_missing_iff (env := env) (old := bitmapBytes fs) (mult := 2) hp.length_le (by omega)).2 ⟨hn, hl⟩
      exact ⟨⟨m, s, partsDec ps ++ [(q.key, q.text ++ v)], partsEnc ps ++ [(q.key, ⟨[], q.entry.data ++ D⟩)],
        (partsWire (ps ++ [q])).length, q.key⟩,
        decode_error_iff.2 ⟨rfl, .inr (.inr ⟨ps, q, fs, D, v, hx, hp, hfs, hf, rfl, rfl, rfl, rfl⟩)⟩, rfl, rfl, hm⟩

theorem ShortAt.some_missing {env : PyEnv} {spec : Spec} {s : Bytes} {k : Str} {pos n : Nat}
    (h : ShortAt env spec s k pos n) : 0 < n := by
  cases h <;> assumption

theorem prefix_cut {x s t : Bytes} (h : x <+: s ++ t) (hl : x.length ≤ s.length) : x <+: s :=
  List.prefix_of_prefix_length_le h (List.prefix_append _ _) hl

/-- Receiving less than what is missing. -/
theorem ShortAt.ext {env : PyEnv} {spec : Spec} {s t : Bytes} {k : Str} {pos n : Nat}
    (h : ShortAt env spec s k pos n) (ht : t.length < n) : ShortAt env spec (s ++ t) k pos (n - t.length) := by
  have pe : ∀ {x : Bytes}, x <+: s → x <+: s ++ t := fun h => h.trans (List.prefix_append _ _)
  cases h with
  | «prefix» hx hp hfs h1 h2 h3 hn hl => exact .prefix hx (pe hp) hfs h1 h2 h3 (by omega) (by simp; omega)
  | data hx hp hfs h1 h2 h3 hL hu hu0 hn hl => exact .data hx (pe hp) hfs h1 h2 h3 hL hu hu0 (by omega) (by simp; omega)
  | type hx hp hfs hn hl => exact .type hx (pe hp) hfs (by omega) (by simp; omega)
  | bitmap hx hp hfs hk hn hl => exact .bitmap hx (pe hp) hfs hk (by omega) (by simp; omega)
  | half hx hp hfs hn hl => exact .half hx (pe hp) hfs (by omega) (by simp; omega)

/-- Cutting a message that is short already. -/
theorem ShortAt.cut {env : PyEnv} {spec : Spec} {s t : Bytes} {k : Str} {pos n : Nat}
    (h : ShortAt env spec (s ++ t) k pos n) (hpos : pos ≤ s.length) : ShortAt env spec s k pos (n + t.length) := by
  cases h with
  | «prefix» hx hp hfs h1 h2 h3 hn hl =>
    simp at hl; exact .prefix hx (prefix_cut hp hpos) hfs h1 h2 h3 (by omega) (by omega)
  | data hx hp hfs h1 h2 h3 hL hu hu0 hn hl =>
    simp at hl; exact .data hx (prefix_cut hp (by simp [hL]; exact hpos)) hfs h1 h2 h3 hL hu hu0 (by omega) (by omega)
  | type hx hp hfs hn hl => simp at hl; exact .type hx (prefix_cut hp hpos) hfs (by omega) (by omega)
  | bitmap hx hp hfs hk hn hl => simp at hl; exact .bitmap hx (prefix_cut hp hpos) hfs hk (by omega) (by omega)
  | half hx hp hfs hn hl => simp only [List.length_append] at hl; exact .half hx (prefix_cut hp hpos) hfs (by omega) (by omega)

end Iso8583
