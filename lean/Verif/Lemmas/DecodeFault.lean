import Verif.Lemmas.Bridge
import Verif.Spec.DecodeFault
/-! # Decode failures, described without the decoder's helpers -/

namespace Iso8583

theorem slice_length_ne {s : Bytes} {idx w : Nat} (h : idx ≤ s.length) :
    (slice s idx (idx + w)).length ≠ w ↔ s.length < idx + w := by
  rw [slice_nat]; simp; omega

theorem slice_short {s : Bytes} {idx w : Nat} (h : s.length < idx + w) : slice s idx (idx + w) = s.drop idx := by
  rw [slice_nat, List.take_of_length_le]; simp; omega

theorem bytesDecode_lookup {env : PyEnv} {enc : Str} {D : Bytes} :
    bytesDecode env enc D = .error .lookup ↔ D ≠ [] ∧ env.codec enc = none := by
  unfold bytesDecode
  split
  · next h => simp [h]
  · next h =>
    cases env.codec enc with
    | none => simp [h]
    | some c => cases hd : c.decode D <;> simp [hd]

theorem bytesDecode_invalid {env : PyEnv} {enc : Str} {D : Bytes} :
    bytesDecode env enc D = .error .invalid ↔ D ≠ [] ∧ ∃ c, env.codec enc = some c ∧ c.decode D = none := by
  unfold bytesDecode
  split
  · next h => simp [h]
  · next h =>
    cases env.codec enc with
    | none => simp
    | some c => cases hd : c.decode D <;> simp [h, hd]

theorem bytesDecode_ok {env : PyEnv} {enc : Str} {D : Bytes} {t : Str} (hD : D ≠ []) :
    bytesDecode env enc D = .ok t ↔ ∃ c, env.codec enc = some c ∧ c.decode D = some t := by
  unfold bytesDecode
  rw [if_neg hD]
  cases env.codec enc with
  | none => simp
  | some c => cases hd : c.decode D <;> simp [hd]

theorem lenValue_ok_iff {env : PyEnv} {fs : FieldSpec} {L : Bytes} {n : Int} (hL : L ≠ []) :
    lenValue env fs L = .ok n ↔ declared env fs L = some n ∧ (fs.lenEnc = py"bcd" → ¬ tooManyDigits env (2 * L.length)) := by
  constructor
  · intro h
    refine ⟨declared_of_lenValue hL h, fun hc ht => ?_⟩
    unfold lenValue at h
    rw [if_neg (by rw [hc]; decide), if_pos hc] at h
    cases hp : pyInt env (bytesHex L) with
    | none => simp [hp] at h
    | some m =>
      have := (pyInt_hex_iff.1 hp).2.2
      unfold tooManyDigits at ht
      omega
  · rintro ⟨h, ht⟩
    unfold declared at h
    unfold lenValue
    by_cases hb : fs.lenEnc = py"b"
    · rw [if_pos hb] at h ⊢
      rw [beValue_eq]; simpa using h
    · rw [if_neg hb] at h ⊢
      by_cases hc : fs.lenEnc = py"bcd"
      · rw [if_pos hc] at h ⊢
        have ht := ht hc
        cases hm : bcdValue L with
        | none => simp [hm] at h
        | some m =>
          simp only [hm, Option.map_some, Option.some.injEq, Int.ofNat_eq_natCast] at h
          have : pyInt env (bytesHex L) = some n := by
            refine pyInt_hex_iff.2 ⟨hL, ⟨m, hm, h.symm⟩, ?_⟩
            unfold tooManyDigits at ht
            omega
          rw [this]
      · rw [if_neg hc] at h ⊢
        cases he : env.codec fs.lenEnc with
        | none => simp [he] at h
        | some c =>
          simp only [he] at h
          cases hd : c.decode L with
          | none => simp [hd] at h
          | some t =>
            simp only [hd, Option.bind_some] at h
            rw [(bytesDecode_ok hL).2 ⟨c, he, hd⟩]
            simp [h]

theorem lenValue_error_iff {env : PyEnv} {fs : FieldSpec} {L : Bytes} {m : DecMsg} (hL : L ≠ []) :
    lenValue env fs L = .error m ↔
      (m = .lenInvalidBcd ∧ fs.lenEnc = py"bcd" ∧ (bcdValue L = none ∨ tooManyDigits env (2 * L.length))) ∨
      (fs.textLen ∧
        ((m = .lenUnknownEncoding ∧ env.codec fs.lenEnc = none) ∨
         (m = .lenInvalidData ∧ ∃ c, env.codec fs.lenEnc = some c ∧ c.decode L = none) ∨
         (m = .lenNonNumeric ∧ ∃ c t, env.codec fs.lenEnc = some c ∧ c.decode L = some t ∧ pyInt env t = none))) := by
  unfold lenValue FieldSpec.textLen
  by_cases hb : fs.lenEnc = py"b"
  · simp [hb]
  · rw [if_neg hb]
    by_cases hc : fs.lenEnc = py"bcd"
    · rw [if_pos hc]
      have : pyInt env (bytesHex L) = none ↔ (bcdValue L = none ∨ tooManyDigits env (2 * L.length)) := by
        constructor
        · intro h
          cases hm : bcdValue L with
          | none => exact .inl rfl
          | some k =>
            right
            apply Classical.byContradiction
            intro ht
            have : pyInt env (bytesHex L) = some (k : Int) := by
              refine pyInt_hex_iff.2 ⟨hL, ⟨k, hm, rfl⟩, ?_⟩
              unfold tooManyDigits at ht
              omega
            rw [h] at this; cases this
        · intro h
          cases hp : pyInt env (bytesHex L) with
          | none => rfl
          | some n =>
            obtain ⟨_, ⟨k, hk, _⟩, hl⟩ := pyInt_hex_iff.1 hp
            rw [hk] at h
            unfold tooManyDigits at h
            rcases h with h | h
            · cases h
            · omega
      rw [← this]
      cases pyInt env (bytesHex L) with
      | none => simp [hc]; exact eq_comm
      | some n => simp [hc]
    · rw [if_neg hc]
      simp only [hb, hc, ne_eq, not_false_eq_true, and_self, true_and, false_and, and_false, false_or]
      cases he : env.codec fs.lenEnc with
      | none => rw [bytesDecode_lookup.2 ⟨hL, he⟩]; simp [eq_comm]
      | some c =>
        cases hd : c.decode L with
        | none => rw [bytesDecode_invalid.2 ⟨hL, c, he, hd⟩]; simp [eq_comm, hd]
        | some t =>
          rw [(bytesDecode_ok hL).2 ⟨c, he, hd⟩]
          cases hp : pyInt env t <;> simp [eq_comm, hd, hp]

theorem unitsOf_ok_iff {env : PyEnv} {fs : FieldSpec} {L : Bytes} {n : Int} (hw : L.length = fs.lenType) :
    unitsOf env fs L = .ok n ↔ UnitsRead env fs L n := by
  unfold unitsOf UnitsRead UnitsAre
  by_cases h0 : fs.lenType = 0
  · have : L = [] := List.length_eq_zero_iff.1 (by omega)
    simp [h0, this]; exact eq_comm
  · have hL : L ≠ [] := by rintro rfl; simp at hw; omega
    simp only [if_false, hw, true_and, ne_eq, h0, not_false_eq_true, true_imp_iff]
    constructor
    · intro h
      cases hl : lenValue env fs L with
      | error m => simp [hl] at h
      | ok k =>
        simp only [hl] at h
        split at h
        · cases h
        · cases h
          obtain ⟨h1, h2⟩ := (lenValue_ok_iff hL).1 hl
          rw [hw] at h2
          exact ⟨⟨h1, by omega⟩, h2⟩
    · rintro ⟨⟨h1, h2⟩, h3⟩
      rw [(lenValue_ok_iff hL).2 ⟨h1, by rwa [hw]⟩]
      simp; omega

theorem unitsOf_error_iff {env : PyEnv} {fs : FieldSpec} {L : Bytes} {m : DecMsg} (hw : L.length = fs.lenType) :
    unitsOf env fs L = .error m ↔ fs.lenType ≠ 0 ∧
      ((m = .lenInvalidBcd ∧ fs.lenEnc = py"bcd" ∧ (bcdValue L = none ∨ tooManyDigits env (2 * fs.lenType))) ∨
      (fs.textLen ∧
        ((m = .lenUnknownEncoding ∧ env.codec fs.lenEnc = none) ∨
         (m = .lenInvalidData ∧ ∃ c, env.codec fs.lenEnc = some c ∧ c.decode L = none) ∨
         (m = .lenNonNumeric ∧ ∃ c t, env.codec fs.lenEnc = some c ∧ c.decode L = some t ∧ pyInt env t = none))) ∨
      (∃ n, m = .tooLong n fs.count fs.maxLen ∧ declared env fs L = some n ∧
        (fs.lenEnc = py"bcd" → ¬ tooManyDigits env (2 * fs.lenType)) ∧ fs.maxLen < n)) := by
  unfold unitsOf
  by_cases h0 : fs.lenType = 0
  · simp [h0]
  · have hL : L ≠ [] := by rintro rfl; simp at hw; omega
    have key := @lenValue_error_iff env fs L m hL
    rw [hw] at key
    simp only [if_false, ne_eq, h0, not_false_eq_true, true_and]
    rw [← or_assoc, ← key]
    cases hl : lenValue env fs L with
    | error m' =>
      simp only [Except.error.injEq]
      constructor
      · exact .inl
      · rintro (h | ⟨n, _, h1, h2, _⟩)
        · exact h
        · have := (lenValue_ok_iff hL).2 ⟨h1, by rwa [hw]⟩
          rw [hl] at this; cases this
    | ok n =>
      obtain ⟨h1, h2⟩ := (lenValue_ok_iff hL).1 hl
      rw [hw] at h2
      simp only [reduceCtorEq, false_or]
      constructor
      · intro h
        split at h
        · cases h; exact ⟨n, rfl, h1, h2, by omega⟩
        · cases h
      · rintro ⟨k, rfl, h3, _, h4⟩
        rw [h1] at h3; cases h3
        rw [if_pos h4]

theorem stripPad_error_iff {fs : FieldSpec} {n : Int} {cur : Str} {m : DecMsg} :
    stripPad fs n cur = .error m ↔ m = .padMissing cur.length n ∧
      (∀ c, firstPad fs.leftPad = some c → cur.head? ≠ some c) ∧
      (∀ c, firstPad fs.rightPad = some c → cur.getLast? ≠ some c) := by
  have hl : ((padChar fs.leftPad).length > 0 ∧ cur.take 1 = padChar fs.leftPad) ↔
      ¬ ∀ c, firstPad fs.leftPad = some c → cur.head? ≠ some c := by
    rw [padChar_eq]
    cases firstPad fs.leftPad <;> cases cur <;> simp
  have hr : ((padChar fs.rightPad).length > 0 ∧ cur.drop (cur.length - 1) = padChar fs.rightPad) ↔
      ¬ ∀ c, firstPad fs.rightPad = some c → cur.getLast? ≠ some c := by
    rw [padChar_eq]
    rcases list_concat_cases cur with rfl | ⟨t, x, rfl⟩
    · cases firstPad fs.rightPad <;> simp
    · cases firstPad fs.rightPad <;> simp
  unfold stripPad
  by_cases h1 : (padChar fs.leftPad).length > 0 ∧ cur.take 1 = padChar fs.leftPad
  · rw [if_pos h1]
    have := hl.1 h1
    simp only [reduceCtorEq, false_iff, not_and]
    intro _ h; exact absurd h this
  · rw [if_neg h1]
    have h1' := Classical.not_not.1 (mt hl.2 h1)
    by_cases h2 : (padChar fs.rightPad).length > 0 ∧ cur.drop (cur.length - 1) = padChar fs.rightPad
    · rw [if_pos h2]
      have := hr.1 h2
      simp only [reduceCtorEq, false_iff, not_and]
      intro _ _ h; exact absurd h this
    · rw [if_neg h2]
      have h2' := Classical.not_not.1 (mt hr.2 h2)
      simp only [Except.error.injEq]
      exact ⟨fun h => ⟨h.symm, h1', h2'⟩, fun h => h.1.symm⟩

theorem dataValue_error_iff {env : PyEnv} {fs : FieldSpec} {n : Int} {D : Bytes} {m : DecMsg} {v : Str} :
    dataValue env fs n D = .error (m, v) ↔
      (m = .padMissing (2 * D.length) n ∧ fs.isBinary ∧ fs.inNibbles ∧ n % 2 = 1 ∧
        (∀ c, firstPad fs.leftPad = some c → (hexText D).head? ≠ some c) ∧
        (∀ c, firstPad fs.rightPad = some c → (hexText D).getLast? ≠ some c) ∧ v = hexText D) ∨
      (¬ fs.isBinary ∧ D ≠ [] ∧ v = [] ∧
        ((m = .unknownEncoding ∧ env.codec fs.dataEnc = none) ∨
         (m = .invalidData ∧ ∃ c, env.codec fs.dataEnc = some c ∧ c.decode D = none))) := by
  unfold dataValue
  by_cases hb : fs.isBinary
  · rw [if_pos (show fs.dataEnc = py"b" from hb), hexText_eq]
    simp only [hb, not_true_eq_false, false_and, or_false, true_and]
    by_cases hc : fs.inNibbles ∧ n % 2 = 1
    · rw [if_pos ⟨(count_nibbles fs).2 hc.1, hc.2⟩]
      simp only [hc.1, hc.2, true_and]
      have := @stripPad_error_iff fs n (hexText D)
      rw [hexText_length] at this
      cases hs : stripPad fs n (hexText D) with
      | ok v' =>
        simp only [reduceCtorEq, false_iff, not_and]
        intro h1 h2 h3
        have := (this (m := m)).2 ⟨h1, h2, h3⟩
        rw [hs] at this; cases this
      | error m' =>
        obtain ⟨h1, h2, h3⟩ := this.1 hs
        simp only [Except.error.injEq, Prod.mk.injEq]
        constructor
        · rintro ⟨rfl, rfl⟩; exact ⟨h1, h2, h3, rfl⟩
        · rintro ⟨rfl, _, _, rfl⟩; exact ⟨h1, rfl⟩
    · rw [if_neg (fun h => hc ⟨(count_nibbles fs).1 h.1, h.2⟩)]
      simp only [reduceCtorEq, false_iff]
      rintro ⟨_, h1, h2, _⟩; exact hc ⟨h1, h2⟩
  · rw [if_neg (show ¬ fs.dataEnc = py"b" from hb)]
    simp only [hb, false_and, and_false, false_or, not_false_eq_true, true_and]
    cases hd : bytesDecode env fs.dataEnc D with
    | ok t =>
      simp only [reduceCtorEq, false_iff]
      rintro ⟨h1, _, ⟨_, h2⟩ | ⟨_, h2⟩⟩
      · rw [bytesDecode_lookup.2 ⟨h1, h2⟩] at hd; cases hd
      · rw [bytesDecode_invalid.2 ⟨h1, h2⟩] at hd; cases hd
    | error x =>
      cases x with
      | lookup =>
        obtain ⟨h1, h2⟩ := bytesDecode_lookup.1 hd
        simp [h1, h2, eq_comm, and_comm]
      | invalid =>
        obtain ⟨h1, c, h2, h3⟩ := bytesDecode_invalid.1 hd
        simp [h1, h2, h3, eq_comm, and_comm]

/-- A field fails exactly when some message is true of it, and with that message. -/
theorem fieldOut_error_iff {env : PyEnv} {s : Bytes} {idx pos : Nat} {fs : FieldSpec} {v : Str} {e : EncEntry}
    {m : DecMsg} (hidx : idx ≤ s.length) :
    fieldOut env s idx fs = (.error (m, pos), v, e) ↔
      DecFieldFault env fs s idx e v m ∧ pos = idx + if m.aboutData then fs.lenType else 0 := by
  obtain ⟨eL, eD⟩ := e
  by_cases hw : s.length < idx + fs.lenType
  · have hne := (slice_length_ne hidx).2 hw
    simp only [fieldOut, ne_eq, hne, not_false_eq_true, if_true]
    rw [slice_short hw]
    simp only [Prod.mk.injEq, Except.error.injEq, EncEntry.mk.injEq, List.length_drop]
    constructor
    · rintro ⟨⟨rfl, rfl⟩, rfl, rfl, rfl⟩
      exact ⟨⟨hw, rfl, rfl, rfl, rfl⟩, rfl⟩
    · rintro ⟨h, rfl⟩
      cases m <;> simp only [DecFieldFault] at h <;>
        first
        | (obtain ⟨_, ⟨rfl, rfl⟩, rfl, rfl, rfl⟩ := h; simp [DecMsg.aboutData])
        | (exfalso
           simp only [OnlyPrefix, PrefixHeld, DataHeld] at h
           first
           | omega
           | (obtain ⟨_, h⟩ := h; omega))
  · have heq := Decidable.not_not.1 (mt (slice_length_ne hidx).1 hw)
    simp only [fieldOut, ne_eq, heq, not_true_eq_false, if_false]
    rw [slice_nat] at heq ⊢
    have hle : idx + fs.lenType ≤ s.length := by omega
    generalize hL : (s.drop idx).take fs.lenType = L at heq ⊢
    have hheld : ∀ D, PrefixHeld fs s idx ⟨L, D⟩ := fun D => ⟨hle, hL.symm⟩
    have hheld' : ∀ {L' D}, PrefixHeld fs s idx ⟨L', D⟩ → L' = L := fun h => h.2.trans hL
    cases hu : unitsOf env fs L with
    | error m' =>
      have hu' := (unitsOf_error_iff heq).1 hu
      simp only [Prod.mk.injEq, Except.error.injEq, EncEntry.mk.injEq]
      constructor
      · rintro ⟨⟨rfl, rfl⟩, rfl, rfl, rfl⟩
        have hop : fs.lenType ≠ 0 → OnlyPrefix fs s idx ⟨L, []⟩ [] := fun h0 => ⟨h0, hheld _, rfl, rfl⟩
        obtain ⟨h0, ⟨rfl, h1, h2⟩ | ⟨ht, ⟨rfl, h1⟩ | ⟨rfl, h1⟩ | ⟨rfl, h1⟩⟩ | ⟨n, rfl, h1, h2, h3⟩⟩ := hu'
        · exact ⟨⟨hop h0, h1, h2⟩, rfl⟩
        · exact ⟨⟨hop h0, ht, h1⟩, rfl⟩
        · exact ⟨⟨hop h0, ht, h1⟩, rfl⟩
        · exact ⟨⟨hop h0, ht, h1⟩, rfl⟩
        · exact ⟨⟨hop h0, h1, h2, h3, rfl, rfl⟩, rfl⟩
      · rintro ⟨h, rfl⟩
        have fin : ∀ m'', unitsOf env fs L = .error m'' → m' = m'' := by
          intro m'' h''; rw [hu] at h''; exact Except.error.inj h''
        have nofin : ∀ {n}, ¬ UnitsRead env fs L n := by
          intro n h''
          rw [(unitsOf_ok_iff heq).2 h''] at hu; cases hu
        cases m with
        | lenWidth a x => exact absurd h.1 hw
        | lenInvalidBcd =>
          obtain ⟨⟨h0, hp, rfl, rfl⟩, h⟩ := h
          obtain rfl := hheld' hp
          exact ⟨⟨fin _ ((unitsOf_error_iff heq).2 ⟨h0, .inl ⟨rfl, h⟩⟩), rfl⟩, rfl, rfl, rfl⟩
        | lenUnknownEncoding =>
          obtain ⟨⟨h0, hp, rfl, rfl⟩, ht, h⟩ := h
          obtain rfl := hheld' hp
          exact ⟨⟨fin _ ((unitsOf_error_iff heq).2 ⟨h0, .inr (.inl ⟨ht, .inl ⟨rfl, h⟩⟩)⟩), rfl⟩, rfl, rfl, rfl⟩
        | lenInvalidData =>
          obtain ⟨⟨h0, hp, rfl, rfl⟩, ht, h⟩ := h
          obtain rfl := hheld' hp
          exact ⟨⟨fin _ ((unitsOf_error_iff heq).2 ⟨h0, .inr (.inl ⟨ht, .inr (.inl ⟨rfl, h⟩)⟩)⟩), rfl⟩, rfl, rfl, rfl⟩
        | lenNonNumeric =>
          obtain ⟨⟨h0, hp, rfl, rfl⟩, ht, h⟩ := h
          obtain rfl := hheld' hp
          exact ⟨⟨fin _ ((unitsOf_error_iff heq).2 ⟨h0, .inr (.inl ⟨ht, .inr (.inr ⟨rfl, h⟩)⟩)⟩), rfl⟩, rfl, rfl, rfl⟩
        | tooLong n u x =>
          obtain ⟨⟨h0, hp, rfl, rfl⟩, h1, h2, h3, rfl, rfl⟩ := h
          obtain rfl := hheld' hp
          exact ⟨⟨fin _ ((unitsOf_error_iff heq).2 ⟨h0, .inr (.inr ⟨n, rfl, h1, h2, h3⟩)⟩), rfl⟩, rfl, rfl, rfl⟩
        | dataShort a u n =>
          obtain ⟨hp, h, _⟩ := h
          obtain rfl := hheld' hp
          exact absurd h nofin
        | padMissing a n =>
          obtain ⟨⟨hp, h, _⟩, _⟩ := h
          obtain rfl := hheld' hp
          exact absurd h nofin
        | unknownEncoding =>
          obtain ⟨n, ⟨hp, h, _⟩, _⟩ := h
          obtain rfl := hheld' hp
          exact absurd h nofin
        | invalidData =>
          obtain ⟨n, ⟨hp, h, _⟩, _⟩ := h
          obtain rfl := hheld' hp
          exact absurd h nofin
        | fieldDataBytes a x => exact h.elim
        | nonHexBitmap => exact h.elim
        | extraData => exact h.elim
    | ok n =>
      have hu' := (unitsOf_ok_iff heq).1 hu
      simp only
      have nofin : ∀ m'', unitsOf env fs L ≠ .error m'' := by
        intro m'' h''; rw [hu] at h''; cases h''
      have uniq : ∀ {n'}, UnitsRead env fs L n' → n' = n := by
        intro n' h
        have := (unitsOf_ok_iff heq).2 h
        rw [hu] at this; exact (Except.ok.inj this).symm
      have lenmsg : m.aboutLen = true → ¬ DecFieldFault env fs s idx ⟨eL, eD⟩ v m := by
        intro hm h
        cases m with
        | lenWidth a x => exact absurd h.1 hw
        | lenInvalidBcd =>
          obtain ⟨⟨h0, hp, _⟩, h⟩ := h
          obtain rfl := hheld' hp
          exact nofin _ ((unitsOf_error_iff heq).2 ⟨h0, .inl ⟨rfl, h⟩⟩)
        | lenUnknownEncoding =>
          obtain ⟨⟨h0, hp, _⟩, ht, h⟩ := h
          obtain rfl := hheld' hp
          exact nofin _ ((unitsOf_error_iff heq).2 ⟨h0, .inr (.inl ⟨ht, .inl ⟨rfl, h⟩⟩)⟩)
        | lenInvalidData =>
          obtain ⟨⟨h0, hp, _⟩, ht, h⟩ := h
          obtain rfl := hheld' hp
          exact nofin _ ((unitsOf_error_iff heq).2 ⟨h0, .inr (.inl ⟨ht, .inr (.inl ⟨rfl, h⟩)⟩)⟩)
        | lenNonNumeric =>
          obtain ⟨⟨h0, hp, _⟩, ht, h⟩ := h
          obtain rfl := hheld' hp
          exact nofin _ ((unitsOf_error_iff heq).2 ⟨h0, .inr (.inl ⟨ht, .inr (.inr ⟨rfl, h⟩)⟩)⟩)
        | tooLong n u x =>
          obtain ⟨⟨h0, hp, _⟩, h1, h2, h3, _⟩ := h
          obtain rfl := hheld' hp
          exact nofin _ ((unitsOf_error_iff heq).2 ⟨h0, .inr (.inr ⟨n, rfl, h1, h2, h3⟩)⟩)
        | _ => simp [DecMsg.aboutLen] at hm
      by_cases hn : n = 0
      · rw [if_pos hn]
        simp only [Prod.mk.injEq, reduceCtorEq, false_and, false_iff, not_and]
        intro h
        exfalso
        cases hm : m.aboutLen with
        | true => exact lenmsg hm h
        | false =>
          cases m with
          | dataShort a u k =>
            obtain ⟨hp, h, h0, _⟩ := h
            obtain rfl := hheld' hp
            exact h0 (by rw [uniq h, hn])
          | padMissing a k =>
            obtain ⟨⟨hp, h, h0, _⟩, _⟩ := h
            obtain rfl := hheld' hp
            exact h0 (by rw [uniq h, hn])
          | unknownEncoding =>
            obtain ⟨k, ⟨hp, h, h0, _⟩, _⟩ := h
            obtain rfl := hheld' hp
            exact h0 (by rw [uniq h, hn])
          | invalidData =>
            obtain ⟨k, ⟨hp, h, h0, _⟩, _⟩ := h
            obtain rfl := hheld' hp
            exact h0 (by rw [uniq h, hn])
          | fieldDataBytes a x => exact h.elim
          | nonHexBitmap => exact h.elim
          | extraData => exact h.elim
          | _ => simp [DecMsg.aboutLen] at hm
      · rw [if_neg hn, bytesFor_eq]
        generalize hD : slice s (idx + fs.lenType) (((idx + fs.lenType : Nat) : Int) + bytesFor fs n) = D
        by_cases hd : (D.length : Int) = bytesFor fs n
        · rw [if_neg (by simpa using hd)]
          have hDp : D <+: s.drop (idx + fs.lenType) := by rw [← hD]; exact slice_prefix _ _ _
          have hheldD : DataHeld env fs s idx ⟨L, D⟩ n := ⟨hheld _, hu', hn, hd, hDp⟩
          have uniqD : ∀ {L' D' n'}, DataHeld env fs s idx ⟨L', D'⟩ n' → L' = L ∧ D' = D ∧ n' = n := by
            rintro L' D' n' ⟨hp, h, h0, hl, hpre⟩
            obtain rfl := hheld' hp
            obtain rfl := uniq h
            refine ⟨rfl, ?_, rfl⟩
            have hll : D'.length = D.length := by simp only at hl; omega
            rw [List.prefix_iff_eq_take] at hDp hpre
            rw [hDp]; simp only at hpre; rw [hpre, hll]
          cases hv : dataValue env fs n D with
          | ok v' =>
            simp only [Prod.mk.injEq, reduceCtorEq, false_and, false_iff, not_and]
            intro h
            exfalso
            have nov : ∀ mv, dataValue env fs n D ≠ .error mv := by intro mv h; rw [hv] at h; cases h
            cases hm : m.aboutLen with
            | true => exact lenmsg hm h
            | false =>
              cases m with
              | dataShort a u k =>
                obtain ⟨hp, h, h0, hsl, hne, _⟩ := h
                obtain rfl := hheld' hp
                obtain rfl := uniq h
                simp only at hsl
                rw [hD] at hsl
                subst hsl
                exact hne hd
              | padMissing a k =>
                obtain ⟨hh, h1, h2, h3, h4, h5, rfl, rfl⟩ := h
                obtain ⟨rfl, rfl, rfl⟩ := uniqD hh
                exact nov _ (dataValue_error_iff.2 (.inl ⟨rfl, h1, h2, h3, h4, h5, rfl⟩))
              | unknownEncoding =>
                obtain ⟨k, hh, h1, h2, h3, rfl⟩ := h
                obtain ⟨rfl, rfl, rfl⟩ := uniqD hh
                exact nov _ (dataValue_error_iff.2 (.inr ⟨h1, h2, rfl, .inl ⟨rfl, h3⟩⟩))
              | invalidData =>
                obtain ⟨k, hh, h1, h2, h3, rfl⟩ := h
                obtain ⟨rfl, rfl, rfl⟩ := uniqD hh
                exact nov _ (dataValue_error_iff.2 (.inr ⟨h1, h2, rfl, .inr ⟨rfl, h3⟩⟩))
              | fieldDataBytes a x => exact h.elim
              | nonHexBitmap => exact h.elim
              | extraData => exact h.elim
              | _ => simp [DecMsg.aboutLen] at hm
          | error mv =>
            obtain ⟨m', v'⟩ := mv
            simp only [Prod.mk.injEq, Except.error.injEq, EncEntry.mk.injEq]
            constructor
            · rintro ⟨⟨rfl, rfl⟩, rfl, rfl, rfl⟩
              rcases dataValue_error_iff.1 hv with ⟨rfl, h1, h2, h3, h4, h5, rfl⟩ | ⟨h1, h2, rfl, ⟨rfl, h3⟩ | ⟨rfl, h3⟩⟩
              · exact ⟨⟨hheldD, h1, h2, h3, h4, h5, rfl, rfl⟩, rfl⟩
              · exact ⟨⟨n, hheldD, h1, h2, h3, rfl⟩, rfl⟩
              · exact ⟨⟨n, hheldD, h1, h2, h3, rfl⟩, rfl⟩
            · rintro ⟨h, rfl⟩
              have fin : ∀ {m'' v''}, dataValue env fs n D = .error (m'', v'') → m' = m'' ∧ v' = v'' := by
                intro m'' v'' h; rw [hv] at h; simpa using h
              cases hm : m.aboutLen with
              | true => exact absurd h (lenmsg hm)
              | false =>
                cases m with
                | dataShort a u k =>
                  exfalso
                  obtain ⟨hp, h, h0, hsl, hne, _⟩ := h
                  obtain rfl := hheld' hp
                  obtain rfl := uniq h
                  simp only at hsl
                  rw [hD] at hsl
                  subst hsl
                  exact hne hd
                | padMissing a k =>
                  obtain ⟨hh, h1, h2, h3, h4, h5, rfl, rfl⟩ := h
                  obtain ⟨rfl, rfl, rfl⟩ := uniqD hh
                  obtain ⟨rfl, rfl⟩ := fin (dataValue_error_iff.2 (.inl ⟨rfl, h1, h2, h3, h4, h5, rfl⟩))
                  exact ⟨⟨rfl, rfl⟩, rfl, rfl, rfl⟩
                | unknownEncoding =>
                  obtain ⟨k, hh, h1, h2, h3, rfl⟩ := h
                  obtain ⟨rfl, rfl, rfl⟩ := uniqD hh
                  obtain ⟨rfl, rfl⟩ := fin (dataValue_error_iff.2 (.inr ⟨h1, h2, rfl, .inl ⟨rfl, h3⟩⟩))
                  exact ⟨⟨rfl, rfl⟩, rfl, rfl, rfl⟩
                | invalidData =>
                  obtain ⟨k, hh, h1, h2, h3, rfl⟩ := h
                  obtain ⟨rfl, rfl, rfl⟩ := uniqD hh
                  obtain ⟨rfl, rfl⟩ := fin (dataValue_error_iff.2 (.inr ⟨h1, h2, rfl, .inr ⟨rfl, h3⟩⟩))
                  exact ⟨⟨rfl, rfl⟩, rfl, rfl, rfl⟩
                | fieldDataBytes a x => exact h.elim
                | nonHexBitmap => exact h.elim
                | extraData => exact h.elim
                | _ => simp [DecMsg.aboutLen] at hm
        · rw [if_pos (by simpa using hd)]
          simp only [Prod.mk.injEq, Except.error.injEq, EncEntry.mk.injEq]
          have hcnt : (if fs.count = py"nibbles" then D.length * 2 else D.length) =
              (if fs.inNibbles then 2 * D.length else D.length) := by
            by_cases hc : fs.inNibbles
            · rw [if_pos ((count_nibbles fs).2 hc), if_pos hc, Nat.mul_comm]
            · rw [if_neg (fun h => hc ((count_nibbles fs).1 h)), if_neg hc]
          rw [hcnt]
          constructor
          · rintro ⟨⟨rfl, rfl⟩, rfl, rfl, rfl⟩
            exact ⟨⟨hheld _, hu', hn, hD.symm, hd, rfl, rfl, rfl⟩, rfl⟩
          · rintro ⟨h, rfl⟩
            have noD : ∀ {L' D' n'}, DataHeld env fs s idx ⟨L', D'⟩ n' → False := by
              rintro L' D' n' ⟨hp, h, h0, hl, hpre⟩
              obtain rfl := hheld' hp
              obtain rfl := uniq h
              apply hd
              simp only at hl hpre
              have h1 : D = D' := by
                rw [← hD, ← hl, slice_nat]
                rw [List.prefix_iff_eq_take] at hpre
                exact hpre.symm
              rw [h1, hl]
            cases hm : m.aboutLen with
            | true => exact absurd h (lenmsg hm)
            | false =>
              cases m with
              | dataShort a u k =>
                obtain ⟨hp, h, h0, hsl, hne, rfl, rfl, rfl⟩ := h
                obtain rfl := hheld' hp
                obtain rfl := uniq h
                simp only at hsl
                rw [hD] at hsl
                subst hsl
                exact ⟨⟨rfl, rfl⟩, rfl, rfl, rfl⟩
              | padMissing a k => exact (noD h.1).elim
              | unknownEncoding => obtain ⟨k, hh, _⟩ := h; exact (noD hh).elim
              | invalidData => obtain ⟨k, hh, _⟩ := h; exact (noD hh).elim
              | fieldDataBytes a x => exact h.elim
              | nonHexBitmap => exact h.elim
              | extraData => exact h.elim
              | _ => simp [DecMsg.aboutLen] at hm

/-! ## Message type and bitmaps -/

theorem plainValue_error_iff {env : PyEnv} {fs : FieldSpec} {D : Bytes} {m : DecMsg} (hD : D ≠ []) :
    plainValue env fs D = .error m ↔ ¬ fs.isBinary ∧
      ((m = .unknownEncoding ∧ env.codec fs.dataEnc = none) ∨
       (m = .invalidData ∧ ∃ c, env.codec fs.dataEnc = some c ∧ c.decode D = none)) := by
  unfold plainValue
  by_cases hb : fs.isBinary
  · rw [if_pos (show fs.dataEnc = py"b" from hb)]; simp [hb]
  · rw [if_neg (show ¬ fs.dataEnc = py"b" from hb)]
    cases he : env.codec fs.dataEnc with
    | none => rw [bytesDecode_lookup.2 ⟨hD, he⟩]; simp [hb, eq_comm]
    | some c =>
      cases hd : c.decode D with
      | none => rw [bytesDecode_invalid.2 ⟨hD, c, he, hd⟩]; simp [hb, eq_comm, hd]
      | some t => rw [(bytesDecode_ok hD).2 ⟨c, he, hd⟩]; simp [hd]

theorem plainValue_ok_iff {env : PyEnv} {fs : FieldSpec} {D : Bytes} {t : Str} (hD : D ≠ []) :
    plainValue env fs D = .ok t ↔ PlainSays env fs D t := by
  unfold plainValue PlainSays
  by_cases hb : fs.isBinary
  · rw [if_pos (show fs.dataEnc = py"b" from hb), if_pos hb, hexText_eq]; simp [eq_comm]
  · rw [if_neg (show ¬ fs.dataEnc = py"b" from hb), if_neg hb, ← bytesDecode_ok hD]
    cases bytesDecode env fs.dataEnc D with
    | ok t => simp
    | error x => cases x <;> simp

theorem typeBytes_pos (fs : FieldSpec) : 0 < typeBytes fs := by unfold typeBytes; split <;> omega
theorem bitmapBytes_pos (fs : FieldSpec) : 0 < bitmapBytes fs := by unfold bitmapBytes; split <;> omega

theorem typeOut_error_iff {env : PyEnv} {s : Bytes} {idx pos : Nat} {fs : FieldSpec} {v : Str} {e : EncEntry}
    {m : DecMsg} (hidx : idx ≤ s.length) :
    typeOut env s idx fs = (.error (m, pos), v, e) ↔ DecTypeFault env fs s idx e v m ∧ pos = idx := by
  obtain ⟨eL, eD⟩ := e
  have hwd : typeWidth fs = typeBytes fs := rfl
  have hpos := typeBytes_pos fs
  by_cases hw : s.length < idx + typeBytes fs
  · have hne := (slice_length_ne hidx).2 hw
    simp only [typeOut, hwd, ne_eq, hne, not_false_eq_true, if_true]
    rw [slice_short hw]
    simp only [Prod.mk.injEq, Except.error.injEq, EncEntry.mk.injEq, List.length_drop]
    constructor
    · rintro ⟨⟨rfl, rfl⟩, rfl, rfl, rfl⟩
      exact ⟨⟨hw, rfl, rfl, rfl, rfl⟩, rfl⟩
    · rintro ⟨h, rfl⟩
      cases m with
      | fieldDataBytes a x => obtain ⟨_, he, rfl, rfl, rfl⟩ := h; cases he; simp
      | unknownEncoding => exact absurd h.1 (by omega)
      | invalidData => exact absurd h.1 (by omega)
      | _ => exact h.elim
  · have heq := Decidable.not_not.1 (mt (slice_length_ne hidx).1 hw)
    simp only [typeOut, hwd, ne_eq, heq, not_true_eq_false, if_false]
    rw [slice_nat] at heq ⊢
    generalize hD : (s.drop idx).take (typeBytes fs) = D at heq ⊢
    have hDne : D ≠ [] := by rintro rfl; simp at heq; omega
    cases hv : plainValue env fs D with
    | ok t =>
      simp only [Prod.mk.injEq, reduceCtorEq, false_and, false_iff, not_and]
      intro h
      have nov : ∀ m, plainValue env fs D ≠ .error m := by intro m h; rw [hv] at h; cases h
      cases m with
      | fieldDataBytes a x => exact absurd h.1 hw
      | unknownEncoding =>
        obtain ⟨_, he, _, h1, h2⟩ := h
        exact absurd ((plainValue_error_iff hDne).2 ⟨h1, .inl ⟨rfl, h2⟩⟩) (nov _)
      | invalidData =>
        obtain ⟨_, he, _, h1, h2⟩ := h
        cases he
        rw [hD] at h2
        exact absurd ((plainValue_error_iff hDne).2 ⟨h1, .inr ⟨rfl, h2⟩⟩) (nov _)
      | _ => exact h.elim
    | error m' =>
      simp only [Prod.mk.injEq, Except.error.injEq, EncEntry.mk.injEq]
      constructor
      · rintro ⟨⟨rfl, rfl⟩, rfl, rfl, rfl⟩
        obtain ⟨h1, ⟨rfl, h2⟩ | ⟨rfl, h2⟩⟩ := (plainValue_error_iff hDne).1 hv
        · exact ⟨⟨by omega, by rw [hD], rfl, h1, h2⟩, rfl⟩
        · exact ⟨⟨by omega, by rw [hD], rfl, h1, h2⟩, rfl⟩
      · rintro ⟨h, rfl⟩
        have fin : ∀ {m''}, plainValue env fs D = .error m'' → m' = m'' := by
          intro m'' h; rw [hv] at h; exact Except.error.inj h
        cases m with
        | fieldDataBytes a x => exact absurd h.1 hw
        | unknownEncoding =>
          obtain ⟨_, he, rfl, h1, h2⟩ := h
          cases he
          exact ⟨⟨fin ((plainValue_error_iff hDne).2 ⟨h1, .inl ⟨rfl, h2⟩⟩), rfl⟩, rfl, rfl, hD.symm⟩
        | invalidData =>
          obtain ⟨_, he, rfl, h1, h2⟩ := h
          cases he
          simp only at h2
          rw [hD] at h2
          exact ⟨⟨fin ((plainValue_error_iff hDne).2 ⟨h1, .inr ⟨rfl, h2⟩⟩), rfl⟩, rfl, rfl, hD.symm⟩
        | _ => exact h.elim

theorem bitmapOut_error_iff {env : PyEnv} {s : Bytes} {idx pos : Nat} {fs : FieldSpec} {old mult : Nat} {v : Str} {D : Bytes}
    {m : DecMsg} (hidx : idx ≤ s.length) :
    bitmapOut env s idx fs old mult = (.error (m, pos), v, D) ↔ DecBitmapFault env fs s idx old mult D v m ∧ pos = idx := by
  have hwd : bitmapWidth fs = bitmapBytes fs := rfl
  have hpos := bitmapBytes_pos fs
  by_cases hw : s.length < idx + bitmapBytes fs
  · have hne := (slice_length_ne hidx).2 hw
    simp only [bitmapOut, hwd, ne_eq, hne, not_false_eq_true, if_true]
    rw [slice_short hw]
    simp only [Prod.mk.injEq, Except.error.injEq, List.length_drop]
    constructor
    · rintro ⟨⟨rfl, rfl⟩, rfl, rfl⟩
      exact ⟨⟨hw, rfl, rfl, rfl, rfl⟩, rfl⟩
    · rintro ⟨h, rfl⟩
      cases m with
      | fieldDataBytes a x => obtain ⟨_, rfl, rfl, rfl, rfl⟩ := h; simp
      | unknownEncoding => exact absurd h.1 (by omega)
      | invalidData => exact absurd h.1 (by omega)
      | nonHexBitmap => exact absurd h.1 (by omega)
      | _ => exact h.elim
  · have heq := Decidable.not_not.1 (mt (slice_length_ne hidx).1 hw)
    simp only [bitmapOut, hwd, ne_eq, heq, not_true_eq_false, if_false]
    rw [slice_nat] at heq ⊢
    generalize hD' : (s.drop idx).take (bitmapBytes fs) = D' at heq ⊢
    have hDne : D' ≠ [] := by rintro rfl; simp at heq; omega
    have noshort : ∀ {a x}, ¬ DecBitmapFault env fs s idx old mult D v (.fieldDataBytes a x) := fun h => absurd h.1 hw
    cases hv : plainValue env fs D' with
    | ok t =>
      have nov : ∀ m, plainValue env fs D' ≠ .error m := by intro m h; rw [hv] at h; cases h
      have hpl := (plainValue_ok_iff hDne).1 hv
      simp only
      have key : (match bitmapBits fs D' t with
          | none => ((.error (.nonHexBitmap, idx), t, D') : Except (DecMsg × Nat) (Nat × Bytes) × Str × Bytes)
          | some bm => (.ok (idx + bitmapBytes fs, bm), t, D')) = (.error (m, pos), v, D) ↔
          ¬ fs.isBinary ∧ fromHex t = none ∧ m = .nonHexBitmap ∧ pos = idx ∧ v = t ∧ D = D' := by
        unfold bitmapBits
        by_cases hb : fs.isBinary
        · rw [if_pos (show fs.dataEnc = py"b" from hb)]; simp [hb]
        · rw [if_neg (show ¬ fs.dataEnc = py"b" from hb)]
          cases fromHex t with
          | none => simp [hb, eq_comm, and_assoc]
          | some bm => simp
      refine Iff.trans key ?_
      constructor
      · rintro ⟨hb, hh, rfl, rfl, rfl, rfl⟩
        refine ⟨⟨by omega, hD'.symm, hb, ?_, hh⟩, rfl⟩
        unfold PlainSays at hpl
        rwa [if_neg hb] at hpl
      · rintro ⟨h, rfl⟩
        cases m with
        | fieldDataBytes a x => exact absurd h noshort
        | unknownEncoding =>
          obtain ⟨_, _, _, h1, h2⟩ := h
          exact absurd ((plainValue_error_iff hDne).2 ⟨h1, .inl ⟨rfl, h2⟩⟩) (nov _)
        | invalidData =>
          obtain ⟨_, rfl, _, h1, h2⟩ := h
          rw [hD'] at h2
          exact absurd ((plainValue_error_iff hDne).2 ⟨h1, .inr ⟨rfl, h2⟩⟩) (nov _)
        | nonHexBitmap =>
          obtain ⟨_, rfl, hb, h1, h2⟩ := h
          rw [hD'] at h1 ⊢
          have : PlainSays env fs D' v := by unfold PlainSays; rw [if_neg hb]; exact h1
          have := (plainValue_ok_iff hDne).2 this
          rw [hv] at this
          cases this
          exact ⟨hb, h2, rfl, rfl, rfl, rfl⟩
        | _ => exact h.elim
    | error m' =>
      simp only [Prod.mk.injEq, Except.error.injEq]
      constructor
      · rintro ⟨⟨rfl, rfl⟩, rfl, rfl⟩
        obtain ⟨h1, ⟨rfl, h2⟩ | ⟨rfl, h2⟩⟩ := (plainValue_error_iff hDne).1 hv
        · exact ⟨⟨by omega, hD'.symm, rfl, h1, h2⟩, rfl⟩
        · exact ⟨⟨by omega, hD'.symm, rfl, h1, h2⟩, rfl⟩
      · rintro ⟨h, rfl⟩
        have fin : ∀ {m''}, plainValue env fs D' = .error m'' → m' = m'' := by
          intro m'' h; rw [hv] at h; exact Except.error.inj h
        cases m with
        | fieldDataBytes a x => exact absurd h noshort
        | unknownEncoding =>
          obtain ⟨_, rfl, rfl, h1, h2⟩ := h
          exact ⟨⟨fin ((plainValue_error_iff hDne).2 ⟨h1, .inl ⟨rfl, h2⟩⟩), rfl⟩, rfl, hD'.symm⟩
        | invalidData =>
          obtain ⟨_, rfl, rfl, h1, h2⟩ := h
          rw [hD'] at h2
          exact ⟨⟨fin ((plainValue_error_iff hDne).2 ⟨h1, .inr ⟨rfl, h2⟩⟩), rfl⟩, rfl, hD'.symm⟩
        | nonHexBitmap =>
          exfalso
          obtain ⟨_, rfl, hb, h1, h2⟩ := h
          rw [hD'] at h1
          have : PlainSays env fs D' v := by unfold PlainSays; rw [if_neg hb]; exact h1
          rw [(plainValue_ok_iff hDne).2 this] at hv
          cases hv
        | _ => exact h.elim

/-! ## A fault after fields that were read -/

open PyM

theorem decodeField_of_fault {env : PyEnv} {s : Bytes} {idx pos : Nat} {key : Str} {fs : FieldSpec} {items : List Item}
    {m : DecMsg} {v : Str} {e : EncEntry} (hk : key ∉ keysOf items) (h : fieldOut env s idx fs = (.error (m, pos), v, e)) :
    decodeField env s idx key fs (.of items) = (.error (.err m pos key), .of (items ++ [⟨key, e.len, e.data, v⟩])) := by
  rw [decodeField_run, h, ← DecState.set_of (it := ⟨key, e.len, e.data, v⟩) hk]
  rfl

theorem decodeFields_of_fault {env : PyEnv} {spec : Spec} {s : Bytes} {pre post : List Nat} {i : Nat} {its : List Item}
    {m : DecMsg} {pos : Nat} {v : Str} {e : EncEntry} {fs : FieldSpec} (hs : spec.get? (natStr i) = some fs)
    (hr : FieldsRead env spec pre its) : ∀ {idx : Nat} {last : Str} {items : List Item},
    (keysOf (items ++ its) ++ [natStr i]).Nodup → wireOf its <+: s.drop idx →
    fieldOut env s (idx + (wireOf its).length) fs = (.error (m, pos), v, e) →
    decodeFields env spec s idx last (pre ++ i :: post) (.of items) =
      (.error (.err m pos (natStr i)), .of (items ++ its ++ [⟨natStr i, e.len, e.data, v⟩])) := by
  induction hr with
  | nil =>
    intro idx last items hnd _ hf
    simp only [List.nil_append, decodeFields, decSpec, hs, run_bind, run_pure]
    rw [decodeField_of_fault (by
      intro hmem
      simp [List.nodup_append] at hnd
      exact hnd.2 _ hmem rfl) (by simpa using hf)]
    simp
  | @cons j is it its fs' n hs' hk hr _ ih =>
    intro idx last items hnd hp hf
    rw [wireOf_cons, prefix_drop_append] at hp
    have hfresh : it.key ∉ keysOf items := by
      simp [List.nodup_append] at hnd
      intro hmem
      exact (hnd.2.2 _ hmem).1 rfl
    simp only [List.cons_append, decodeFields, decSpec, hs', run_bind, run_pure]
    rw [← hk, decodeField_of_reads hfresh hr hp.1]
    simp only
    rw [ih (by simpa using hnd) hp.2 (by simpa [Nat.add_assoc] using hf)]
    simp

theorem FieldsRead.split {env : PyEnv} {spec : Spec} : ∀ {is : List Nat} {a : List Item} {it : Item} {b : List Item},
    FieldsRead env spec is (a ++ it :: b) →
    ∃ pre i post, is = pre ++ i :: post ∧ FieldsRead env spec pre a ∧ it.key = natStr i
  | _, [], it, b, h => by
    cases h with
    | cons hs hk hr h => exact ⟨[], _, _, rfl, .nil, hk⟩
  | _, x :: a, it, b, h => by
    cases h with
    | cons hs hk hr h =>
      obtain ⟨pre, i, post, rfl, h1, h2⟩ := FieldsRead.split h
      exact ⟨_ :: pre, i, post, rfl, .cons hs hk hr h1, h2⟩

/-- The items before `it` can be read, and `it` is the header or a field: a fault there is what
`decodeCore` raises. -/
theorem decodeCore_of_fault {env : PyEnv} {spec : Spec} {s : Bytes} {its post : List Item} {it : Item}
    (h : MsgReads env spec (its ++ it :: post)) (hp : wireOf its <+: s) (h1 : it.key ≠ py"t") (h2 : it.key ≠ py"p")
    (h3 : it.key ≠ py"1") {fs : FieldSpec} (hs : spec.get? it.key = some fs) {m : DecMsg} {pos : Nat} {v : Str}
    {e : EncEntry} (hf : fieldOut env s (wireOf its).length fs = (.error (m, pos), v, e)) :
    decodeCore env spec s (.of []) = (.error (.err m pos it.key), .of (its ++ [⟨it.key, e.len, e.data, v⟩])) := by
  obtain ⟨hdr, ty, bms, flds, F, hsplit, hh, ht, hb, hfl⟩ := h.parts
  have hK := hh.keys
  have hB := hb.keys
  obtain ⟨hF, hF1, _, _⟩ := hb.fields
  have hty : ty.key = py"t" := ht.choose_spec.2.1
  -- where is `it`?
  have hcases : (its = [] ∧ hdr = [it]) ∨ ∃ a b, its = hdr ++ ty :: bms ++ a ∧ flds = a ++ it :: b := by
    rcases List.append_eq_append_iff.1 hsplit with ⟨c, hc1, hc2⟩ | ⟨c, hc1, hc2⟩
    · -- `it` within hdr ++ ty :: bms
      cases c with
      | nil =>
        right
        exact ⟨[], post, by simpa using hc1.symm, by simpa using hc2.symm⟩
      | cons x c =>
        left
        simp only [List.cons_append, List.cons.injEq] at hc2
        obtain ⟨rfl, hc2⟩ := hc2
        rcases hK with hK | hK
        · have : hdr = [] := by cases hdr with
            | nil => rfl
            | cons => simp at hK
          subst this
          exfalso
          have hmem : it ∈ ty :: bms := by
            rw [show ty :: bms = its ++ it :: c by simpa using hc1]; simp
          rcases List.mem_cons.1 hmem with rfl | hmem
          · exact h1 hty
          · have : it.key ∈ keysOf bms := List.mem_map_of_mem hmem
            rcases hB with hB | hB <;> rw [hB] at this <;> simp [h2, h3] at this
        · obtain ⟨y, rfl⟩ : ∃ y, hdr = [y] := by
            cases hdr with
            | nil => simp at hK
            | cons y t => cases t with
              | nil => exact ⟨y, rfl⟩
              | cons => simp at hK
          cases its with
          | nil =>
            have := hc1
            simp only [List.cons_append, List.nil_append, List.cons.injEq] at this
            exact ⟨rfl, by rw [this.1]⟩
          | cons z zs =>
            exfalso
            simp only [List.cons_append, List.nil_append, List.cons.injEq] at hc1
            have hmem : it ∈ ty :: bms := by rw [hc1.2]; simp
            rcases List.mem_cons.1 hmem with rfl | hmem
            · exact h1 hty
            · have : it.key ∈ keysOf bms := List.mem_map_of_mem hmem
              rcases hB with hB | hB <;> rw [hB] at this <;> simp [h2, h3] at this
    · right
      exact ⟨c, post, hc1, hc2⟩
  rcases hcases with ⟨rfl, rfl⟩ | ⟨a, b, rfl, rfl⟩
  · have hit : it.key = py"h" := by
      rcases hK with hK | hK <;> simp at hK
      exact hK
    obtain ⟨fsh, hsh, hh⟩ := hh
    have : fsh = fs := by rw [hit] at hs; rw [hsh] at hs; exact Option.some.inj hs
    subst this
    have hm : ¬ fsh.maxLen ≤ 0 := by
      intro hm; rw [if_pos hm] at hh; cases hh
    simp only [decodeCore, run_bind, decodeHeader, decSpec, hsh, run_pure, run_ite, if_neg hm]
    rw [decodeField_of_fault (by simp) (by simpa using hf), hit]
  · obtain ⟨pre, i, post', hsp, hpre, hkey⟩ := hfl.split
    have hp0 : wireOf hdr ++ (ty.wire ++ (wireOf bms ++ wireOf a)) <+: s.drop 0 := by simpa using hp
    rw [prefix_drop_append, prefix_drop_append, prefix_drop_append] at hp0
    obtain ⟨p1, p2, p3, p4⟩ := hp0
    simp only [decodeCore, run_bind]
    rw [decodeHeader_of_reads hh (by simpa using p1)]
    simp only
    rw [decodeType_of_reads ht (by rcases hK with h | h <;> simp [h]) (by simpa using p2)]
    simp only
    rw [decodeBitmaps_of_reads hb (by rcases hK with h | h <;> simp [h, hty]) (by rcases hK with h | h <;> simp [h, hty])
      (by simpa using p3)]
    simp only
    rw [hsp, decodeFields_of_fault (by rw [← hkey]; exact hs) hpre ?_ (by simpa using p4)
      (by simpa [Nat.add_assoc] using hf)]
    · simp [hkey]
    · have hsub : (pre ++ [i]).Sublist (sortedNat F) := by rw [hsp]; simp
      have := nodup_msg_keys (F := pre ++ [i]) hK hB (hsub.nodup (sortedNat_nodup hF))
        (fun h => hF1 (by simpa using hsub.subset h))
      simpa [hty, hpre.keys] using this

theorem decodeBitmap_of_fault {env : PyEnv} {s : Bytes} {idx pos : Nat} {key : Str} {fs : FieldSpec} {off : Nat}
    {fields : List Nat} {items : List Item} {D : Bytes} {t : Str} {m : DecMsg} (hk : key ∉ keysOf items)
    (h : bitmapOut env s idx fs 0 1 = (.error (m, pos), t, D)) :
    decodeBitmap env s idx key fs off false fields (.of items) =
      (.error (.err m pos key), .of (items ++ [⟨key, [], D, t⟩])) := by
  rw [decodeBitmap_run, h, ← DecState.set_of (it := ⟨key, [], D, t⟩) hk]
  rfl

theorem length_eq_of_split {α : Type} {x : α} : ∀ {a b c d : List α}, a ++ x :: b = c ++ x :: d → x ∉ a → x ∉ c →
    a.length = c.length
  | [], _, [], _, _, _, _ => rfl
  | [], _, y :: c, _, h, _, hc => by simp at h; exact absurd (by simp [h.1]) hc
  | y :: a, _, [], _, h, ha, _ => by simp at h; exact absurd (by simp [h.1]) ha
  | y :: a, b, z :: c, d, h, ha, hc => by
    simp only [List.cons_append, List.cons.injEq] at h
    simp only [List.mem_cons, not_or] at ha hc
    simp [length_eq_of_split h.2 ha.2 hc.2]

/-- The items before `it` can be read, and `it` is the type or a bitmap: a fault there is what
`decodeCore` raises. -/
theorem decodeCore_of_type_fault {env : PyEnv} {spec : Spec} {s : Bytes} {its post : List Item} {it : Item}
    (h : MsgReads env spec (its ++ it :: post)) (hp : wireOf its <+: s) (h1 : it.key = py"t")
    {fs : FieldSpec} (hs : spec.get? it.key = some fs) {m : DecMsg} {pos : Nat} {v : Str}
    {e : EncEntry} (hf : typeOut env s (wireOf its).length fs = (.error (m, pos), v, e)) :
    decodeCore env spec s (.of []) = (.error (.err m pos it.key), .of (its ++ [⟨it.key, e.len, e.data, v⟩])) := by
  obtain ⟨hdr, ty, bms, flds, F, hsplit, hh, ht, hb, hfl⟩ := h.parts
  have hK := hh.keys
  have hB := hb.keys
  obtain ⟨hF, hF1, _, _⟩ := hb.fields
  have hty : ty.key = py"t" := ht.choose_spec.2.1
  have hnd := nodup_msg_keys (F := sortedNat F) hK hB (sortedNat_nodup hF) (by simpa using hF1)
  have hkeys : keysOf its ++ py"t" :: keysOf post = keysOf hdr ++ py"t" :: (keysOf bms ++ (sortedNat F).map natStr) := by
    have := congrArg keysOf hsplit
    simpa [h1, hty, hfl.keys] using this
  have hits : its = hdr := by
    have hlen : its.length = hdr.length := by
      have hn : (keysOf its ++ py"t" :: keysOf post).Nodup := by
        rw [hkeys]; simpa using hnd
      have := length_eq_of_split hkeys (fun hmem => (List.nodup_append.1 hn).2.2 _ hmem _ (by simp) rfl)
        (by rcases hK with hK | hK <;> simp [hK])
      simpa [keysOf] using this
    have : its ++ it :: post = hdr ++ (ty :: bms ++ flds) := by rw [hsplit]; simp
    exact (List.append_inj this hlen).1
  subst hits
  simp only [decodeCore, run_bind]
  rw [decodeHeader_of_reads hh hp]
  simp only
  rw [decodeType_run, ← h1, hs]
  simp only
  rw [hf, ← DecState.set_of (it := ⟨it.key, e.len, e.data, v⟩) (by rw [h1]; rcases hK with hK | hK <;> simp [hK])]
  rfl

theorem decodeCore_of_bitmap_fault {env : PyEnv} {spec : Spec} {s : Bytes} {its post : List Item} {it : Item}
    (h : MsgReads env spec (its ++ it :: post)) (hp : wireOf its <+: s) (h1 : it.key = py"p" ∨ it.key = py"1")
    {fs : FieldSpec} (hs : spec.get? it.key = some fs) {m : DecMsg} {pos : Nat} {v : Str}
    {D : Bytes} (hf : bitmapOut env s (wireOf its).length fs 0 1 = (.error (m, pos), v, D)) :
    decodeCore env spec s (.of []) = (.error (.err m pos it.key), .of (its ++ [⟨it.key, [], D, v⟩])) := by
  obtain ⟨hdr, ty, bms, flds, F, hsplit, hh, ht, hb, hfl⟩ := h.parts
  have hK := hh.keys
  have hB := hb.keys
  obtain ⟨hF, hF1, _, _⟩ := hb.fields
  have hty : ty.key = py"t" := ht.choose_spec.2.1
  have hnot : it.key ∉ keysOf flds := by
    intro hmem
    rw [hfl.keys, List.mem_map] at hmem
    obtain ⟨i, hi, hk⟩ := hmem
    rcases h1 with h1 | h1
    · exact natStr_ne_letter (by decide) (hk.trans h1)
    · apply hF1
      have : i = 1 := natStr_inj.1 (hk.trans (h1.trans (show py"1" = natStr 1 by decide)))
      rw [← this]; simpa using hi
  have hnot2 : it.key ∉ keysOf (hdr ++ [ty]) := by
    rcases h1 with h1 | h1 <;> rcases hK with hK | hK <;> simp [h1, hK, hty]
  -- `it` is one of the bitmap items
  have hcases : ∃ a b, its = hdr ++ [ty] ++ a ∧ bms = a ++ it :: b := by
    have e : its ++ it :: post = (hdr ++ [ty]) ++ (bms ++ flds) := by rw [hsplit]; simp
    rcases List.append_eq_append_iff.1 e with ⟨c, hc1, hc2⟩ | ⟨c, hc1, hc2⟩
    · cases c with
      | nil =>
        rw [List.nil_append] at hc2
        have hne : bms ≠ [] := by rintro rfl; rcases hB with h | h <;> simp at h
        obtain ⟨y, ys, rfl⟩ := List.exists_cons_of_ne_nil hne
        simp only [List.cons_append, List.cons.injEq] at hc2
        exact ⟨[], ys, by simpa using hc1.symm, by rw [hc2.1]; rfl⟩
      | cons x c =>
        exfalso
        simp only [List.cons_append, List.cons.injEq] at hc2
        apply hnot2
        rw [hc1, ← hc2.1]; simp
    · rcases List.append_eq_append_iff.1 hc2 with ⟨d, hd1, hd2⟩ | ⟨d, hd1, hd2⟩
      · exfalso
        apply hnot
        rw [hd2]; simp
      · cases d with
        | nil =>
          exfalso
          apply hnot
          rw [List.nil_append] at hd2
          rw [← hd2]; simp
        | cons x d =>
          simp only [List.cons_append, List.cons.injEq] at hd2
          exact ⟨c, d, hc1, by rw [hd1, hd2.1]⟩
  obtain ⟨a, b, rfl, rfl⟩ := hcases
  have hp0 : wireOf hdr ++ (ty.wire ++ wireOf a) <+: s.drop 0 := by simpa using hp
  rw [prefix_drop_append, prefix_drop_append] at hp0
  obtain ⟨p1, p2, p3⟩ := hp0
  have hkp : py"p" ∉ keysOf (hdr ++ [ty]) := by rcases hK with h | h <;> simp [h, hty]
  have hk1 : py"1" ∉ keysOf (hdr ++ [ty]) := by rcases hK with h | h <;> simp [h, hty]
  simp only [decodeCore, run_bind]
  rw [decodeHeader_of_reads hh (by simpa using p1)]
  simp only
  rw [decodeType_of_reads ht (by rcases hK with h | h <;> simp [h]) (by simpa using p2)]
  simp only [decodeBitmaps]
  cases a with
  | nil =>
    have hit : it.key = py"p" := by
      rcases hB with h | h <;> simp at h <;> exact h.1
    rw [hit] at hs
    simp only [run_bind, decSpec, hs, run_pure]
    rw [decodeBitmap_of_fault hkp (by simpa using hf)]
    simp [hit]
  | cons x xs =>
    have hxs : xs = [] ∧ b = [] ∧ x.key = py"p" ∧ it.key = py"1" := by
      rcases hB with h | h
      · simp at h
      · simp only [List.cons_append, keysOf_cons, keysOf_append, List.cons.injEq] at h
        obtain ⟨hx, h⟩ := h
        cases xs with
        | nil => simp at h; exact ⟨rfl, by cases b with
            | nil => rfl
            | cons => simp at h, hx, h.1⟩
        | cons => simp at h
    obtain ⟨rfl, rfl, hx, hit⟩ := hxs
    rw [hit] at hs
    have hread : ∃ fs' bm, x.len = [] ∧ spec.get? py"p" = some fs' ∧ BitmapReads env fs' x.data x.val bm ∧ 1 ∈ fields0 bm := by
      generalize hbe : [x] ++ [it] = bb at hb
      cases hb with
      | primary => simp at hbe
      | oddPrimary => simp at hbe
      | secondary hs' hr h1' _ _ _ => simp at hbe; obtain ⟨rfl, _⟩ := hbe; exact ⟨_, _, rfl, hs', hr, h1'⟩
      | tertiary hs' hr h1' _ _ _ _ => simp at hbe; obtain ⟨rfl, _⟩ := hbe; exact ⟨_, _, rfl, hs', hr, h1'⟩
    obtain ⟨fs', bm, hxl, hs', hr, hin⟩ := hread
    have hxw : x = ⟨py"p", [], x.data, x.val⟩ := by cases x; simp at hx hxl; simp [hx, hxl]
    rw [hxw] at p3 hf ⊢
    simp only [wireOf_cons, wireOf_nil, List.append_nil, Item.wire, List.nil_append] at p3
    simp only [run_bind, decSpec, hs', run_pure]
    rw [decodeBitmap_of_reads hkp hr (by simpa [Item.wire] using p3)]
    simp only [run_ite]
    rw [if_pos (show 1 ∈ setUpdate [] (bitmapFields 0 bm) from hin)]
    simp only [run_bind, hs, run_pure]
    rw [decodeBitmap_of_fault (by rcases hK with h | h <;> simp [h, hty])
      (by simpa [Item.wire, Nat.add_assoc] using hf)]
    simp [hit]

end Iso8583
