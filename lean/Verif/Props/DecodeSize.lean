import Verif.Props.DecodeContent
import Verif.Props.DecodeFailure
import Verif.Props.Demo
import Verif.Props.Codecs
/-!
# C94: what decode builds is no larger than twice its input

Whatever lengths a message declares, the texts `decode` puts into its dict, or into the dict of the
exception it raises, are together at most twice as long as the input.
-/

namespace Iso8583

/-- No text codec of the specification yields more characters than bytes. -/
def BoundedTexts (env : PyEnv) (spec : Spec) : Prop :=
  ∀ k fs, spec.get? k = some fs → ¬ fs.isBinary → ∀ c, env.codec fs.dataEnc = some c → ∀ b t, c.decode b = some t → t.length ≤ b.length

variable {env : PyEnv} {spec : Spec}

theorem plainSays_size (hb : BoundedTexts env spec) {k : Str} {fs : FieldSpec} (hf : spec.get? k = some fs) {D : Bytes} {v : Str} (h : PlainSays env fs D v) :
    v.length ≤ 2 * D.length := by
  unfold PlainSays at h
  by_cases hbin : fs.isBinary
  · rw [if_pos hbin] at h; rw [h, hexText_length]; exact Nat.le_refl _
  · rw [if_neg hbin] at h
    obtain ⟨c, hc, hd⟩ := h
    have := hb k fs hf hbin c hc D v hd
    omega

/-- A value is at most twice as long as the data it stands for. -/
theorem entrySays_size (hb : BoundedTexts env spec) {k : Str} {e : EncEntry} {v : Str} (h : EntrySays env spec k e v) : v.length ≤ 2 * e.data.length := by
  obtain ⟨fs, hf, h⟩ := h
  by_cases ht : k = py"t"
  · rw [if_pos ht] at h; exact plainSays_size hb hf h.2.2
  rw [if_neg ht] at h
  by_cases hp : k = py"p" ∨ k = py"1"
  · rw [if_pos hp] at h
    rcases h.2 with ⟨-, h⟩ | ⟨hl, v1, v2, rfl, h1, h2⟩
    · exact plainSays_size hb hf h
    · have s1 := plainSays_size hb hf h1
      have s2 := plainSays_size hb hf h2
      rw [List.length_take] at s1
      rw [List.length_drop] at s2
      rw [List.length_append]; omega
  · rw [if_neg hp] at h
    obtain ⟨n, -, -, h⟩ := h
    unfold DataSays at h
    by_cases hd : e.data = []
    · rw [if_pos hd] at h; rw [h]; simp
    rw [if_neg hd] at h
    by_cases hbin : fs.isBinary
    · rw [if_pos hbin] at h
      have hl := hexText_length e.data
      by_cases hn : fs.inNibbles ∧ n % 2 = 1
      · rw [if_pos hn] at h
        by_cases hq : firstPad fs.leftPad = (hexText e.data).head?
        · rw [if_pos hq] at h
          obtain ⟨c, h⟩ := h
          rw [h, List.length_cons] at hl; omega
        · rw [if_neg hq] at h
          obtain ⟨c, -, h⟩ := h
          rw [h, List.length_append] at hl; omega
      · rw [if_neg hn] at h; rw [h, hl]; exact Nat.le_refl _
    · rw [if_neg hbin] at h
      obtain ⟨c, hc, h⟩ := h
      have := hb k fs hf hbin c hc _ v h
      omega

theorem bitmapFault_size (hb : BoundedTexts env spec) {k : Str} {fs : FieldSpec} (hf : spec.get? k = some fs) {s D : Bytes} {idx old mult : Nat} {v : Str} {m : DecMsg}
    (h : DecBitmapFault env fs s idx old mult D v m) : v.length ≤ 2 * D.length := by
  cases m with
  | fieldDataBytes a x => obtain ⟨-, -, rfl, -⟩ := h; simp
  | unknownEncoding => obtain ⟨-, -, rfl, -⟩ := h; simp
  | invalidData => obtain ⟨-, -, rfl, -⟩ := h; simp
  | nonHexBitmap =>
    obtain ⟨-, -, hbin, ⟨c, hc, hd⟩, -⟩ := h
    have := hb k fs hf hbin c hc D v hd
    omega
  | _ => exact h.elim

/-- The same for the value of the field that is at fault. -/
theorem entryFault_size (hb : BoundedTexts env spec) {s : Bytes} {idx : Nat} {k : Str} {e : EncEntry} {v : Str} {m : DecMsg} (h : DecEntryFault env spec s idx k e v m) :
    v.length ≤ 2 * e.data.length := by
  obtain ⟨fs, hf, h⟩ := h
  by_cases ht : k = py"t"
  · rw [if_pos ht] at h
    cases m with
    | fieldDataBytes a x => obtain ⟨-, -, rfl, -⟩ := h; simp
    | unknownEncoding => obtain ⟨-, -, rfl, -⟩ := h; simp
    | invalidData => obtain ⟨-, -, rfl, -⟩ := h; simp
    | _ => exact h.elim
  rw [if_neg ht] at h
  by_cases hp : k = py"p" ∨ k = py"1"
  · rw [if_pos hp] at h
    rcases h.2 with h | ⟨v1, v2, rfl, -, -, -, h1, h2⟩
    · exact bitmapFault_size hb hf h
    · have s1 := plainSays_size hb hf h1
      have s2 := bitmapFault_size hb hf h2
      rw [List.length_take] at s1
      rw [List.length_drop] at s2
      rw [List.length_append]; omega
  · rw [if_neg hp] at h
    cases m with
    | lenWidth a x => obtain ⟨-, -, rfl, -⟩ := h; simp
    | lenInvalidBcd => obtain ⟨⟨-, -, -, rfl⟩, -⟩ := h; simp
    | lenUnknownEncoding => obtain ⟨⟨-, -, -, rfl⟩, -⟩ := h; simp
    | lenInvalidData => obtain ⟨⟨-, -, -, rfl⟩, -⟩ := h; simp
    | lenNonNumeric => obtain ⟨⟨-, -, -, rfl⟩, -⟩ := h; simp
    | tooLong n u l => obtain ⟨⟨-, -, -, rfl⟩, -⟩ := h; simp
    | dataShort a u n => obtain ⟨-, -, -, -, -, rfl, -⟩ := h; simp
    | padMissing a n => obtain ⟨-, -, -, -, -, -, rfl, -⟩ := h; rw [hexText_length]; exact Nat.le_refl _
    | unknownEncoding => obtain ⟨n, -, -, -, -, rfl⟩ := h; simp
    | invalidData => obtain ⟨n, -, -, -, -, rfl⟩ := h; simp
    | _ => exact h.elim

theorem values_size : ∀ {dec : DecDoc} {enc : EncDoc}, dec.keys = enc.keys → enc.keys.Nodup →
    (∀ k e, enc.get? k = some e → ∃ v, dec.get? k = some v ∧ v.length ≤ 2 * e.data.length) → (dec.map fun p => p.2.length).sum ≤ 2 * (wire enc).length
  | [], _, _, _, _ => by simp
  | (k, v) :: d, [], hk, _, _ => by simp [Dict.keys] at hk
  | (k, v) :: d, (k', e) :: t, hk, nd, h => by
    simp only [Dict.keys, List.map_cons, List.cons.injEq] at hk nd
    obtain ⟨rfl, hk⟩ := hk
    rw [List.nodup_cons] at nd
    have h0 := h k e (by simp [Dict.get?])
    obtain ⟨v', hv, hl⟩ := h0
    rw [show Dict.get? ((k, v) :: d) k = some v by simp [Dict.get?]] at hv
    cases hv
    have ih := values_size (dec := d) (enc := t) hk nd.2 (by
      intro k2 e2 h2
      have hne : k ≠ k2 := by
        rintro rfl
        exact nd.1 (Dict.get?_isSome.1 (by rw [h2]; rfl))
      obtain ⟨v2, h3, h4⟩ := h k2 e2 (by rw [← h2]; simp [Dict.get?, hne])
      exact ⟨v2, by rw [← h3]; simp [Dict.get?, hne], h4⟩)
    simp only [List.map_cons, List.sum_cons, wire, List.flatMap_cons, List.length_append] at ih ⊢
    omega

/-- **C94**: each value `decode` returns is at most twice as long as the data of its field, and together they
are at most twice as long as the input. -/
theorem decode_value_size (hb : BoundedTexts env spec) {s : Bytes} {dec : DecDoc} {enc : EncDoc} (h : decode env spec s = .ok (dec, enc)) :
    (∀ k e, enc.get? k = some e → ∃ v, dec.get? k = some v ∧ v.length ≤ 2 * e.data.length) ∧ (dec.map fun p => p.2.length).sum ≤ 2 * s.length := by
  obtain ⟨hk, nd, hv⟩ := decode_entries h
  have hp : ∀ k e, enc.get? k = some e → ∃ v, dec.get? k = some v ∧ v.length ≤ 2 * e.data.length := by
    intro k e he
    obtain ⟨v, h1, h2⟩ := hv k e he
    exact ⟨v, h1, entrySays_size hb h2⟩
  refine ⟨hp, ?_⟩
  have := values_size hk (hk ▸ nd) hp
  rwa [decode_wire h] at this

/-- **C94** (failure): so are the values of the dict of a `DecodeError`, including that of the field at fault. -/
theorem decode_error_size (hb : BoundedTexts env spec) {s : Bytes} {e : DecodeError} (h : decode env spec s = .error (.decodeError e)) :
    (∀ k ent, e.docEnc.get? k = some ent → ∃ v, e.docDec.get? k = some v ∧ v.length ≤ 2 * ent.data.length) ∧
    (e.docDec.map fun p => p.2.length).sum ≤ 2 * s.length := by
  obtain ⟨-, hw, hk, nd, hl⟩ := decode_error_result h
  have hp : ∀ k ent, e.docEnc.get? k = some ent → ∃ v, e.docDec.get? k = some v ∧ v.length ≤ 2 * ent.data.length := by
    rcases decode_error_truthful h with ⟨-, -, h'⟩ | ⟨-, pre, ent', preDec, v', he, hd, hf⟩
    · exact (decode_value_size hb h').1
    · intro k ent hg
      by_cases hne : k = e.field
      · subst hne
        have m1 : (e.field, ent') ∈ e.docEnc := by rw [he]; simp
        have m2 : (e.field, v') ∈ e.docDec := by rw [hd]; simp
        have g1 := Dict.get?_of_mem nd m1
        have g2 := Dict.get?_of_mem (show Dict.NoDup e.docDec from by unfold Dict.NoDup; rw [hk]; exact nd) m2
        rw [g1] at hg; cases hg
        exact ⟨v', g2, entryFault_size hb hf⟩
      · obtain ⟨v, h1, h2⟩ := decode_error_before h hg hne
        exact ⟨v, h1, entrySays_size hb h2⟩
  refine ⟨hp, ?_⟩
  have := values_size hk nd hp
  have hl := hw.length_le
  omega

/-- With ascii, latin-1, cp500, cp037 and utf-8 every specification is such. -/
theorem cpython_boundedTexts (spec : Spec) : BoundedTexts cpython spec := fun _ _ _ _ c hc => (cpython_codecs_lawful _ c hc).bounded

/-- The demo message. -/
example : (demoDec.map fun p => p.2.length).sum ≤ 2 * demoMsg.length := (decode_value_size (cpython_boundedTexts demoSpec) demo_decode).2

/-- The demo message cut short in field 70. -/
example : ((demoDec.take 6 ++ [(py"70", [])] : List (Str × Str)).map fun p => p.2.length).sum ≤ 2 * (demoMsg.take 57).length :=
  (decode_error_size (cpython_boundedTexts demoSpec) demo_decode_cut).2

/-- Binary data attains the bound. -/
example : ∃ v, demoDec.get? py"130" = some v ∧ v.length = 2 * 2 := ⟨_, rfl, rfl⟩

end Iso8583
