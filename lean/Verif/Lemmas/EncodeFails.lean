import Verif.Spec.EncodeFails
import Verif.Lemmas.GrammarEncode
import Verif.Lemmas.EncodeFault
/-! # How an encode fails, in terms of parts -/

namespace Iso8583

/-! ## Values -/

theorem hasPad_iff {fs : FieldSpec} : fs.hasPad ↔ (padChar fs.leftPad).length > 0 ∨ (padChar fs.rightPad).length > 0 := by
  unfold FieldSpec.hasPad
  rw [padChar_length, padChar_length]

theorem addPadField_not_str {fs : FieldSpec} {v : Val} (h : ∀ t, v ≠ .str t) :
    addPadField v fs = if fs.hasPad then none else some v := by
  unfold addPadField
  by_cases h1 : (padChar fs.leftPad).length > 0
  · rw [if_pos h1, if_pos (hasPad_iff.2 (.inl h1))]
    cases v <;> simp_all
  · by_cases h2 : (padChar fs.rightPad).length > 0
    · rw [if_neg h1, if_pos h2, if_pos (hasPad_iff.2 (.inr h2))]
      cases v <;> simp_all
    · rw [if_neg h1, if_neg h2, if_neg (by rw [hasPad_iff]; simp_all)]

/-- Text-like values are encoded as their text is. -/
theorem encData_textLike {env : PyEnv} {key : Str} {fs : FieldSpec} {v : Val} (h : v.TextLike fs) :
    encData env key fs v = encData env key fs (.str v.text) := by
  by_cases hb : fs.isBinary
  · rcases h.1 hb with ⟨t, rfl⟩ | ⟨b, rfl, hp⟩
    · rfl
    · unfold encData
      rw [if_pos (show fs.dataEnc = py"b" from hb), if_pos (show fs.dataEnc = py"b" from hb), binary_str]
      unfold encodeBinaryField
      by_cases hn : fs.inNibbles
      · have hc := (count_nibbles fs).2 hn
        have hd : (if b.length % 2 = 1 then addPadField (.bytes b) fs else some (.bytes b)) = some (.bytes b) := by
          by_cases ho : b.length % 2 = 1
          · rw [if_pos ho, addPadField_not_str (by simp), if_neg (fun h : fs.hasPad => hp ⟨hn, ho, h⟩)]
          · rw [if_neg ho]
        have hpd : paddedDigits fs (Val.bytes b).text = (Val.bytes b).text := by
          unfold paddedDigits
          by_cases ho : (Val.bytes b).text.length % 2 = 1
          · rw [if_pos ⟨hn, ho⟩]
            have hnp : ¬ fs.hasPad := fun h => hp ⟨hn, by simpa [Val.text] using ho, h⟩
            unfold FieldSpec.hasPad at hnp
            cases h1 : firstPad fs.leftPad <;> cases h2 : firstPad fs.rightPad <;> simp_all
          · rw [if_neg (fun h => ho h.2)]
        rw [hpd]
        simp only [if_pos hc, Val.len?, if_pos hn, hd, Option.bind_some, Val.a2bHex, Val.text]
        cases a2bHex (b.map UInt8.toNat) with
        | none => simp [binaryHandler, Val.len?, hc, hn]
        | some D => simp
      · have hc : ¬ fs.count = py"nibbles" := fun h => hn ((count_nibbles fs).1 h)
        have hpd : paddedDigits fs (Val.bytes b).text = (Val.bytes b).text := by
          unfold paddedDigits; rw [if_neg (fun h => hn h.1)]
        rw [hpd]
        simp only [if_neg hc, if_neg hn, Option.bind_some, Val.a2bHex, Val.text]
        cases a2bHex (b.map UInt8.toNat) with
        | none => simp [binaryHandler, Val.len?, hc, hn]
        | some D => simp
  · obtain ⟨t, rfl⟩ := h.2 hb
    rfl

/-- What is raised for all other values. -/
theorem encData_notText {env : PyEnv} {key : Str} {fs : FieldSpec} {v : Val} (h : ¬ v.TextLike fs) {x} :
    encData env key fs v = x ↔ ∃ r, NotText fs key v r ∧ x = .error r := by
  suffices H : ∃ r, NotText fs key v r ∧ encData env key fs v = .error r ∧ ∀ r', NotText fs key v r' → r' = r by
    obtain ⟨r, h1, h2, h3⟩ := H
    rw [h2]
    constructor
    · rintro rfl; exact ⟨r, h1, rfl⟩
    · rintro ⟨r', h4, rfl⟩; rw [h3 r' h4]
  unfold encData
  by_cases hb : fs.isBinary
  · rw [if_pos (show fs.dataEnc = py"b" from hb)]
    by_cases hn : fs.inNibbles
    · have hc := (count_nibbles fs).2 hn
      cases v with
      | str t => exact absurd ⟨fun _ => .inl ⟨t, rfl⟩, fun _ => ⟨t, rfl⟩⟩ h
      | unsized =>
        refine ⟨_, .noNibbles hb hn, ?_, ?_⟩
        · simp [encodeBinaryField, hc, Val.len?, binaryHandler]
        · rintro r' h'; cases h' <;> first | rfl | contradiction
      | bytes b =>
        have hp : fs.inNibbles ∧ b.length % 2 = 1 ∧ fs.hasPad := by
          refine Classical.byContradiction fun hp => h ⟨fun _ => .inr ⟨b, rfl, hp⟩, fun h => absurd hb h⟩
        refine ⟨_, .padBytes hb hn hp.2.1 hp.2.2, ?_, ?_⟩
        · have := addPadField_not_str (fs := fs) (v := .bytes b) (by simp)
          rw [if_pos hp.2.2] at this
          simp [encodeBinaryField, hc, Val.len?, binaryHandler, hp.2.1, this]
        · rintro r' h'; cases h' <;> first | rfl | contradiction
      | sized n =>
        have := addPadField_not_str (fs := fs) (v := .sized n) (by simp)
        by_cases ho : n % 2 = 1
        · by_cases hp : fs.hasPad
          · rw [if_pos hp] at this
            refine ⟨_, .padSized hb hn ho hp, ?_, ?_⟩
            · simp [encodeBinaryField, hc, Val.len?, binaryHandler, ho, this]
            · rintro r' h'; cases h' <;> first | rfl | contradiction | omega
          · rw [if_neg hp] at this
            refine ⟨_, .oddSized hb hn ho hp, ?_, ?_⟩
            · simp [encodeBinaryField, hc, Val.len?, Val.a2bHex, binaryHandler, ho, this]
            · rintro r' h'; cases h' <;> first | rfl | contradiction | omega
        · refine ⟨_, .evenSized hb (by omega), ?_, ?_⟩
          · simp [encodeBinaryField, hc, Val.len?, Val.a2bHex, binaryHandler, ho]
          · rintro r' h'; cases h' <;> first | rfl | contradiction | omega
    · have hc : ¬ fs.count = py"nibbles" := fun h => hn ((count_nibbles fs).1 h)
      cases v with
      | str t => exact absurd ⟨fun _ => .inl ⟨t, rfl⟩, fun _ => ⟨t, rfl⟩⟩ h
      | bytes b => exact absurd ⟨fun _ => .inr ⟨b, rfl, fun h => hn h.1⟩, fun h => absurd hb h⟩ h
      | unsized =>
        refine ⟨_, .noLen hb hn, ?_, ?_⟩
        · simp [encodeBinaryField, hc, Val.len?, Val.a2bHex, binaryHandler]
        · rintro r' h'; cases h' <;> first | rfl | contradiction
      | sized n =>
        by_cases ho : n % 2 = 1
        · refine ⟨_, .oddHexSized hb hn ho, ?_, ?_⟩
          · simp [encodeBinaryField, hc, Val.len?, Val.a2bHex, binaryHandler, ho]
          · rintro r' h'; cases h' <;> first | rfl | contradiction | omega
        · refine ⟨_, .evenSized hb (by omega), ?_, ?_⟩
          · simp [encodeBinaryField, hc, Val.len?, Val.a2bHex, binaryHandler, ho]
          · rintro r' h'; cases h' <;> first | rfl | contradiction | omega
  · rw [if_neg (show ¬ fs.dataEnc = py"b" from hb)]
    have hv : ∀ t, v ≠ .str t := by
      rintro t rfl
      exact h ⟨fun h => absurd h hb, fun _ => ⟨t, rfl⟩⟩
    refine ⟨_, .noEncode hb hv, ?_, ?_⟩
    · cases v <;> simp_all [encodeTextField]
    · rintro r' h'; cases h' <;> first | rfl | contradiction

theorem notText_not_textLike {fs : FieldSpec} {key : Str} {v : Val} {r : EncRaise} (h : NotText fs key v r) : ¬ v.TextLike fs := by
  rintro ⟨h1, h2⟩
  cases h with
  | noEncode hb hv => obtain ⟨t, rfl⟩ := h2 hb; exact hv t rfl
  | noLen hb _ => rcases h1 hb with ⟨t, h⟩ | ⟨b, h, _⟩ <;> cases h
  | noNibbles hb _ => rcases h1 hb with ⟨t, h⟩ | ⟨b, h, _⟩ <;> cases h
  | padBytes hb hn ho hp =>
    rcases h1 hb with ⟨t, h⟩ | ⟨b, h, hno⟩ <;> cases h
    exact hno ⟨hn, ho, hp⟩
  | padSized hb _ _ _ => rcases h1 hb with ⟨t, h⟩ | ⟨b, h, _⟩ <;> cases h
  | oddSized hb _ _ _ => rcases h1 hb with ⟨t, h⟩ | ⟨b, h, _⟩ <;> cases h
  | oddHexSized hb _ _ => rcases h1 hb with ⟨t, h⟩ | ⟨b, h, _⟩ <;> cases h
  | evenSized hb _ => rcases h1 hb with ⟨t, h⟩ | ⟨b, h, _⟩ <;> cases h

theorem encOut_error_iff {env : PyEnv} {key : Str} {fs : FieldSpec} {v : Val} {r : EncRaise} {e : EncEntry} :
    encOut env key fs v = (.error r, e) ↔ FieldStops env fs key v e r := by
  unfold FieldStops
  by_cases h : v.TextLike fs
  · have : encOut env key fs v = encOut env key fs (.str v.text) := by
      unfold encOut; rw [encData_textLike h]
    rw [this, encOut_str_error_iff]
    constructor
    · intro h'; exact .inl ⟨h, h'⟩
    · rintro (⟨_, h'⟩ | ⟨h', _⟩)
      · exact h'
      · exact absurd h (notText_not_textLike h')
  · obtain ⟨r', h1, h2⟩ := (encData_notText (env := env) (key := key) h).1 rfl
    unfold encOut
    rw [h2]
    simp only [Prod.mk.injEq, Except.error.injEq]
    constructor
    · rintro ⟨rfl, rfl⟩; exact .inr ⟨h1, rfl⟩
    · rintro (⟨h', _⟩ | ⟨h', rfl⟩)
      · exact absurd h' h
      · have := (encData_notText (env := env) (key := key) h).2 ⟨r, h', rfl⟩
        rw [h2] at this
        cases this
        exact ⟨rfl, rfl⟩

theorem typeEnc_error_iff {env : PyEnv} {fs : FieldSpec} {v : Val} {r : EncRaise} {D : Bytes} :
    typeEnc env fs v = (.error r, D) ↔ TypeStops env fs v D r := by
  unfold TypeStops
  by_cases h : v.TextLike (asType fs)
  · have : typeEnc env fs v = typeEnc env fs (.str v.text) := by
      rw [typeEnc_eq, typeEnc_eq, encData_textLike h]
    rw [this, typeEnc_str_error_iff]
    constructor
    · intro h'; exact .inl ⟨h, h'⟩
    · rintro (⟨_, h'⟩ | ⟨h', _⟩)
      · exact h'
      · exact absurd h (notText_not_textLike h')
  · obtain ⟨r', h1, h2⟩ := (encData_notText (env := env) (key := py"t") h).1 rfl
    rw [typeEnc_eq, h2]
    simp only [Prod.mk.injEq, Except.error.injEq]
    constructor
    · rintro ⟨rfl, rfl⟩; exact .inr ⟨h1, rfl⟩
    · rintro (⟨h', _⟩ | ⟨h', rfl⟩)
      · exact absurd h' h
      · have := (encData_notText (env := env) (key := py"t") h).2 ⟨r, h', rfl⟩
        rw [h2] at this
        cases this
        exact ⟨rfl, rfl⟩

/-! ## Keys -/

theorem keys_cleaned {doc : Doc} (nd : doc.NoDup) :
    (cleaned doc).keys = doc.keys.filter fun k => k ≠ .str py"1" ∧ k ≠ .str py"65" := by
  unfold cleaned
  rw [Dict.pop_eq_filter (nd.pop _), Dict.pop_eq_filter nd]
  unfold Dict.keys
  rw [List.filter_filter, List.filter_map]
  congr 1
  apply List.filter_congr
  intro p _
  simp [Bool.and_comm]

theorem objKeys_cleaned {doc : Doc} (nd : doc.NoDup) : objKeys (cleaned doc).keys = objKeys doc.keys := by
  rw [keys_cleaned nd]
  unfold objKeys
  rw [List.filterMap_filter]
  congr 1
  funext k
  cases k with
  | obj r => simp
  | str s => by_cases h : Key.str s ≠ .str py"1" ∧ Key.str s ≠ .str py"65" <;> simp

/-- The error of the list comprehension comes from the first key it cannot go past. -/
theorem numericKeys_error_iff {env : PyEnv} {all : List Key} {r : EncRaise} : ∀ {ks : List Key},
    numericKeys env all (ks.filter fun k => k ≠ .str py"1" ∧ k ≠ .str py"65") = .error r ↔
      ∃ a k c, ks = a ++ k :: c ∧ (∀ x ∈ a, KeyPasses env x) ∧
        ((∃ x, k = .obj x ∧ r = .err (.invalidFields (objKeys all)) py"p") ∨
         (∃ s, k = .str s ∧ ¬ ignoredKey k ∧ isNumeric env s = true ∧ pyInt env s = none ∧ r = .valueError))
  | [] => by
    simp only [List.filter_nil, numericKeys, reduceCtorEq, false_iff]
    rintro ⟨a, k, c, h, _⟩
    cases a <;> simp at h
  | .obj x :: t => by
    rw [List.filter_cons_of_pos (by simp)]
    simp only [numericKeys, Except.error.injEq]
    constructor
    · intro h; exact ⟨[], .obj x, t, rfl, by simp, .inl ⟨x, rfl, h.symm⟩⟩
    · rintro ⟨a, k, c, h, ha, hk⟩
      cases a with
      | nil =>
        simp only [List.nil_append, List.cons.injEq] at h
        obtain ⟨rfl, rfl⟩ := h
        rcases hk with ⟨_, _, h⟩ | ⟨_, h, _⟩
        · exact h.symm
        · cases h
      | cons y a =>
        simp only [List.cons_append, List.cons.injEq] at h
        obtain ⟨rfl, rfl⟩ := h
        rcases ha (.obj x) (by simp) with (h | h) | ⟨s, h, _⟩ <;> cases h
  | .str s :: t => by
    have ih := numericKeys_error_iff (env := env) (all := all) (r := r) (ks := t)
    have step : KeyPasses env (.str s) → ((∃ a k c, .str s :: t = a ++ k :: c ∧ (∀ x ∈ a, KeyPasses env x) ∧
        ((∃ x, k = .obj x ∧ r = .err (.invalidFields (objKeys all)) py"p") ∨
         (∃ s, k = .str s ∧ ¬ ignoredKey k ∧ isNumeric env s = true ∧ pyInt env s = none ∧ r = .valueError))) ↔
        ∃ a k c, t = a ++ k :: c ∧ (∀ x ∈ a, KeyPasses env x) ∧
        ((∃ x, k = .obj x ∧ r = .err (.invalidFields (objKeys all)) py"p") ∨
         (∃ s, k = .str s ∧ ¬ ignoredKey k ∧ isNumeric env s = true ∧ pyInt env s = none ∧ r = .valueError))) := by
      intro hp
      constructor
      · rintro ⟨a, k, c, h, ha, hk⟩
        cases a with
        | nil =>
          simp only [List.nil_append, List.cons.injEq] at h
          obtain ⟨rfl, rfl⟩ := h
          rcases hk with ⟨_, h, _⟩ | ⟨s', h, h1, h2, h3, _⟩
          · cases h
          · cases h
            rcases hp with h | ⟨s', h, h4⟩
            · exact absurd h h1
            · cases h
              obtain ⟨n, h4⟩ := h4 h2
              rw [h3] at h4; cases h4
        | cons y a =>
          simp only [List.cons_append, List.cons.injEq] at h
          obtain ⟨rfl, h⟩ := h
          exact ⟨a, k, c, h, fun x hx => ha x (by simp [hx]), hk⟩
      · rintro ⟨a, k, c, rfl, ha, hk⟩
        refine ⟨.str s :: a, k, c, rfl, ?_, hk⟩
        intro x hx
        rcases List.mem_cons.1 hx with rfl | hx
        · exact hp
        · exact ha x hx
    by_cases hi : ignoredKey (.str s)
    · rw [List.filter_cons_of_neg (by rcases hi with h | h <;> simp [h]), ih, step (.inl hi)]
    · rw [List.filter_cons_of_pos (by
        unfold ignoredKey at hi
        simp only [not_or] at hi
        simp [hi])]
      rw [numericKeys]
      by_cases hn : isNumeric env s = true
      · rw [if_pos hn]
        cases hp : pyInt env s with
        | none =>
          dsimp only
          constructor
          · intro h
            cases h
            exact ⟨[], .str s, t, rfl, by simp, .inr ⟨s, rfl, hi, hn, hp, rfl⟩⟩
          · rintro ⟨a, k, c, h, ha, hk⟩
            cases a with
            | nil =>
              simp only [List.nil_append, List.cons.injEq] at h
              obtain ⟨rfl, rfl⟩ := h
              rcases hk with ⟨_, h, _⟩ | ⟨_, _, _, _, _, h⟩
              · cases h
              · rw [h]
            | cons y a =>
              simp only [List.cons_append, List.cons.injEq] at h
              obtain ⟨rfl, rfl⟩ := h
              rcases ha (.str s) (by simp) with h | ⟨s', h, h4⟩
              · exact absurd h hi
              · cases h
                obtain ⟨n, h4⟩ := h4 hn
                rw [hp] at h4; cases h4
        | some n =>
          rw [step (.inr ⟨s, rfl, fun _ => ⟨n, hp⟩⟩), ← ih]
          dsimp only
          cases numericKeys env all (t.filter fun k => k ≠ .str py"1" ∧ k ≠ .str py"65") <;> simp
      · rw [if_neg hn, ih, step (.inr ⟨s, rfl, fun h => absurd h hn⟩)]

theorem numsOf_error_iff {env : PyEnv} {doc : Doc} (nd : doc.NoDup) {r : EncRaise} :
    numsOf env doc = .error r ↔ KeysStop env doc r := by
  unfold numsOf
  rw [numericKeys_all (objKeys_cleaned nd), keys_cleaned nd, numericKeys_error_iff]
  constructor
  · rintro ⟨a, k, c, h, ha, ⟨x, rfl, rfl⟩ | ⟨s, rfl, h1, h2, h3, rfl⟩⟩
    · exact .notString h ha
    · exact .notNumber h ha h1 h2 h3
  · intro h
    cases h with
    | notString h ha => exact ⟨_, _, _, h, ha, .inl ⟨_, rfl, rfl⟩⟩
    | notNumber h ha h1 h2 h3 => exact ⟨_, _, _, h, ha, .inr ⟨_, rfl, h1, h2, h3, rfl⟩⟩

/-! ## Bitmaps -/

theorem bitmapText_iff {A : Nat → Prop} {off : Nat} {F : List Nat} {t : Str}
    (hF : ∀ f ∈ F, off + 1 ≤ f ∧ f ≤ off + 64) (hA : ∀ i, off < i → i ≤ off + 64 → (i ∈ F ↔ A i)) :
    BitmapText A off t ↔ t = hexText (bitmapOf off F) := by
  -- a bitmap with this text is what a binary bitmap field writes
  have h := fun D => bitmapWritten_iff (env := ⟨fun _ => none, fun _ => false, fun _ => none, fun _ => false, fun _ => false, 0⟩)
    (fs := ⟨py"b", [], 0, 0, none, none, none, none⟩) (D := D) (t := t) hF hA
  constructor
  · rintro ⟨bm, hl, hb, ht⟩
    exact ((h bm).1 ⟨bm, hl, hb, ht, by rw [if_pos (by rfl)]⟩).2
  · rintro rfl
    obtain ⟨bm, hl, hb, ht, _⟩ := (h (bitmapOf off F)).2 ⟨by unfold BitmapWrites; rw [if_pos (by rfl)], rfl⟩
    exact ⟨bm, hl, hb, ht⟩

/-- The texts of parts. -/
def textsOfParts (b : List Part) : List (Str × Str) := b.map fun p => (p.key, p.text)

theorem bmsPure_error_iff {env : PyEnv} {spec : Spec} {A : Nat → Prop} {F : List Nat}
    (hF : ∀ x ∈ F, 1 ≤ x ∧ x ≤ 192) (hA : ∀ i, 1 ≤ i → (i ∈ f2Of F ↔ A i)) {r : EncRaise} {tail : EncDoc}
    {texts : List (Str × Str)} :
    bmsPure env spec (priOf F) (secOf F) (terOf F) (1 ∈ f2Of F) (65 ∈ f2Of F) = (.error r, tail, texts) ↔
      ∃ b, BitmapsStop env spec A b r ∧ tail = partsEnc b ∧ texts = textsOfParts b := by
  have hF' : ∀ x ∈ F, x ≤ 192 := fun x hx => (hF x hx).2
  have pF : ∀ f ∈ priOf F, 0 + 1 ≤ f ∧ f ≤ 0 + 64 := fun f hf => by have := ((mem_priOf hF').1 hf).2; omega
  have sF : ∀ f ∈ secOf F, 64 + 1 ≤ f ∧ f ≤ 64 + 64 := fun f hf => by have := ((mem_secOf hF').1 hf).2; omega
  have tF : ∀ f ∈ terOf F, 128 + 1 ≤ f ∧ f ≤ 128 + 64 := fun f hf => by have := (mem_terOf.1 hf).2; omega
  have pA : ∀ i, 0 < i → i ≤ 0 + 64 → (i ∈ priOf F ↔ A i) := fun i h1 h2 => by
    rw [← hA i (by omega)]; unfold priOf; rw [mem_setInter]; exact ⟨fun h => h.1, fun h => ⟨h, by omega, by omega⟩⟩
  have sA : ∀ i, 64 < i → i ≤ 64 + 64 → (i ∈ secOf F ↔ A i) := fun i h1 h2 => by
    rw [← hA i (by omega), mem_secOf hF', mem_f2Of hF']
    constructor
    · rintro ⟨h | h, _⟩
      · exact .inl h
      · exact .inr (.inl h)
    · rintro (h | h | ⟨rfl, _⟩)
      · exact ⟨.inl h, by omega, by omega⟩
      · exact ⟨.inr h, by omega, by omega⟩
      · omega
  have tA : ∀ i, 128 < i → i ≤ 128 + 64 → (i ∈ terOf F ↔ A i) := fun i h1 h2 => by
    rw [← hA i (by omega), mem_terOf, mem_f2Of hF']
    constructor
    · rintro ⟨h, _⟩; exact .inl h
    · rintro (h | ⟨rfl, _⟩ | ⟨rfl, _⟩)
      · exact ⟨h, by omega, by omega⟩
      · omega
      · omega
  have pW := fun fs D t => bitmapWritten_iff (env := env) (fs := fs) (D := D) (t := t) pF pA
  have sW := fun fs D t => bitmapWritten_iff (env := env) (fs := fs) (D := D) (t := t) sF sA
  have pT := fun t => bitmapText_iff (t := t) pF pA
  have sT := fun t => bitmapText_iff (t := t) sF sA
  have tT := fun t => bitmapText_iff (t := t) tF tA
  have a1 := hA 1 (by decide)
  have a65 := hA 65 (by decide)
  unfold bmsPure
  constructor
  · intro h
    cases hp : spec.get? py"p" with
    | none =>
      simp only [hp, Prod.mk.injEq, Except.error.injEq] at h
      obtain ⟨rfl, rfl, rfl⟩ := h
      exact ⟨[], .lackPrimary hp, rfl, rfl⟩
    | some fs =>
      simp only [hp] at h
      cases hd : bmData env py"p" fs (bitmapOf 0 (priOf F)) with
      | error r =>
        simp only [hd, Prod.mk.injEq, Except.error.injEq] at h
        obtain ⟨rfl, rfl, rfl⟩ := h
        obtain ⟨m, rfl, hf⟩ := bmData_error_iff.1 hd
        exact ⟨_, .primary hp ((pT _).2 rfl) hf, rfl, by rw [hexUp_eq_hexText]; rfl⟩
      | ok D =>
        have hw := (pW fs D _).2 ⟨bmData_ok_iff.1 hd, rfl⟩
        simp only [hd] at h
        by_cases h1 : 1 ∈ f2Of F
        · simp only [h1, decide_true, if_true] at h
          cases hs1 : spec.get? py"1" with
          | none =>
            simp only [hs1, Prod.mk.injEq, Except.error.injEq] at h
            obtain ⟨rfl, rfl, rfl⟩ := h
            exact ⟨_, .lackSecondary hp hw (a1.1 h1) hs1, rfl, by rw [hexUp_eq_hexText]; rfl⟩
          | some fs1 =>
            simp only [hs1] at h
            cases hd1 : bmData env py"1" fs1 (bitmapOf 64 (secOf F)) with
            | error r =>
              simp only [hd1, Prod.mk.injEq, Except.error.injEq] at h
              obtain ⟨rfl, rfl, rfl⟩ := h
              obtain ⟨m, rfl, hf⟩ := bmData_error_iff.1 hd1
              exact ⟨_, .secondary hp hw (a1.1 h1) hs1 ((sT _).2 rfl) hf, rfl, by rw [hexUp_eq_hexText, hexUp_eq_hexText]; rfl⟩
            | ok D1 =>
              have hw1 := (sW fs1 D1 _).2 ⟨bmData_ok_iff.1 hd1, rfl⟩
              simp only [hd1] at h
              by_cases h65 : 65 ∈ f2Of F
              · simp only [h65, decide_true, if_true] at h
                cases hd2 : bmData env py"1" fs1 (bitmapOf 128 (terOf F)) with
                | error r =>
                  simp only [hd2, Prod.mk.injEq, Except.error.injEq] at h
                  obtain ⟨rfl, rfl, rfl⟩ := h
                  obtain ⟨m, rfl, hf⟩ := bmData_error_iff.1 hd2
                  exact ⟨_, .tertiary hp hw (a1.1 h1) hs1 hw1 (a65.1 h65) ((tT _).2 rfl) hf, rfl,
                    by rw [hexUp_eq_hexText, hexUp_eq_hexText, hexUp_eq_hexText]; rfl⟩
                | ok D2 => simp [hd2] at h
              · simp [h65] at h
        · simp [h1] at h
  · rintro ⟨b, h, rfl, rfl⟩
    cases h with
    | lackPrimary hp => simp [hp, partsEnc, textsOfParts]
    | primary hp ht hf =>
      obtain rfl := (pT _).1 ht
      simp [hp, bmData_error_iff.2 ⟨_, rfl, hf⟩, partsEnc, textsOfParts, hexUp_eq_hexText]
    | lackSecondary hp hw h1 hs1 =>
      obtain ⟨hv, rfl⟩ := (pW _ _ _).1 hw
      simp [hp, bmData_ok_iff.2 hv, a1.2 h1, hs1, partsEnc, textsOfParts, hexUp_eq_hexText]
    | secondary hp hw h1 hs1 ht hf =>
      obtain ⟨hv, rfl⟩ := (pW _ _ _).1 hw
      obtain rfl := (sT _).1 ht
      simp [hp, bmData_ok_iff.2 hv, a1.2 h1, hs1, bmData_error_iff.2 ⟨_, rfl, hf⟩, partsEnc, textsOfParts, hexUp_eq_hexText]
    | tertiary hp hw h1 hs1 hw1 h65 ht hf =>
      obtain ⟨hv, rfl⟩ := (pW _ _ _).1 hw
      obtain ⟨hv1, rfl⟩ := (sW _ _ _).1 hw1
      obtain rfl := (tT _).1 ht
      simp [hp, bmData_ok_iff.2 hv, a1.2 h1, hs1, bmData_ok_iff.2 hv1, a65.2 h65, bmData_error_iff.2 ⟨_, rfl, hf⟩, partsEnc,
        textsOfParts, hexUp_eq_hexText]

/-! ## The whole message -/

theorem leaves_eq (doc : Doc) (enc : EncDoc) (r : EncRaise) : r.leaves doc enc = excOf doc enc r := by cases r <;> rfl

theorem docAfter_texts (doc : Doc) (b : List Part) : docAfter doc b = applySets (cleaned doc) (textsOfParts b) := by
  unfold docAfter applySets cleaned textsOfParts
  rw [List.foldl_map]

theorem nums_facts {env : PyEnv} {doc : Doc} (nd : doc.NoDup) {ns : List Int} (hn : numsOf env doc = .ok ns)
    (hr : (setUpdate [] ns).all inRange = true) :
    (∀ x ∈ (setUpdate [] ns).map Int.toNat, 1 ≤ x ∧ x ≤ 192) ∧
    (∀ i : Nat, i ∈ (setUpdate [] ns).map Int.toNat ↔ Numbered env doc i) ∧ (∀ n, Numbered env doc n → 1 ≤ n ∧ n ≤ 192) ∧
    (∀ i : Nat, i ∈ f2Of ((setUpdate [] ns).map Int.toNat) ↔ Flagged env doc i) ∧
    ((setUpdate [] ns).map Int.toNat).Nodup := by
  have hm := (numsOf_ok hn (nd := nd)).2
  have hrange : ∀ n ∈ ns, 1 ≤ n ∧ n ≤ 192 := by
    intro n hn
    have := List.all_eq_true.1 hr n (mem_setUpdate.2 (.inr hn))
    simp [inRange] at this
    omega
  have k1 : ∀ x ∈ (setUpdate [] ns).map Int.toNat, 1 ≤ x ∧ x ≤ 192 := by
    intro x hx
    obtain ⟨y, hy, rfl⟩ := List.mem_map.1 hx
    have := hrange y (by simpa [mem_setUpdate] using hy)
    omega
  have k2 : ∀ i : Nat, i ∈ (setUpdate [] ns).map Int.toNat ↔ Numbered env doc i := by
    intro i
    rw [← hm]
    constructor
    · intro hx
      obtain ⟨y, hy, rfl⟩ := List.mem_map.1 hx
      have hy : y ∈ ns := by simpa [mem_setUpdate] using hy
      have := hrange y hy
      rwa [Int.toNat_of_nonneg (by omega)]
    · intro hi
      exact List.mem_map.2 ⟨(i : Int), by simpa [mem_setUpdate] using hi, by simp⟩
  refine ⟨k1, k2, fun n hn => hrange n ((hm n).2 hn), ?_, toNat_nodup (nodup_setUpdate List.nodup_nil) hr⟩
  intro i
  rw [mem_f2Of (fun x hx => (k1 x hx).2)]
  unfold Flagged
  simp only [k2]
  constructor
  · rintro (h | ⟨h, y, h3, h4⟩ | ⟨h, y, h3, h4⟩)
    · exact .inl h
    · exact .inr (.inl ⟨h, y, h4, h3⟩)
    · exact .inr (.inr ⟨h, y, h4, h3⟩)
  · rintro (h | ⟨h, y, h3, h4⟩ | ⟨h, y, h3, h4⟩)
    · exact .inl h
    · exact .inr (.inl ⟨h, y, h4, h3⟩)
    · exact .inr (.inr ⟨h, y, h4, h3⟩)

theorem nums_of_range {env : PyEnv} {doc : Doc} (nd : doc.NoDup) (hp : NumbersParse env doc)
    (hr : ∀ n, Numbered env doc n → 1 ≤ n ∧ n ≤ 192) :
    ∃ ns, numsOf env doc = .ok ns ∧ (setUpdate [] ns).all inRange = true := by
  obtain ⟨ns, hn⟩ := numsOf_of_parse nd hp
  refine ⟨ns, hn, ?_⟩
  rw [List.all_eq_true]
  intro x hx
  have := hr x (((numsOf_ok nd hn).2 x).1 (by simpa [mem_setUpdate] using hx))
  simp [inRange]
  omega

theorem back_items (l : List Item) : (l.map Item.part).map Part.item = l := by
  rw [List.map_map]; exact List.map_id l

theorem mem_sortedBy {α : Type} {key : α → Int} {l : List α} {x : α} : x ∈ sortedBy key l ↔ x ∈ l :=
  (sortedBy_perm key l).mem_iff

theorem sortedBy_id_lt {l : List Int} (nd : l.Nodup) : (sortedBy id l).Pairwise (· < ·) := by
  have h1 := sortedBy_sorted id l
  have h2 : (sortedBy id l).Nodup := (sortedBy_perm id l).nodup_iff.2 nd
  rw [List.nodup_iff_pairwise_ne] at h2
  refine (h1.and h2).imp ?_
  rintro a b ⟨h, h'⟩
  simp only [id] at h
  omega

theorem int_sorted_ext : ∀ {l l' : List Int}, l.Pairwise (· < ·) → l'.Pairwise (· < ·) → (∀ x, x ∈ l ↔ x ∈ l') → l = l'
  | [], [], _, _, _ => rfl
  | [], b :: t, _, _, h => by have := (h b).2 (by simp); cases this
  | a :: t, [], _, _, h => by have := (h a).1 (by simp); cases this
  | a :: t, b :: u, h1, h2, h => by
    rw [List.pairwise_cons] at h1 h2
    have hab : a = b := by
      rcases List.mem_cons.1 ((h a).1 (by simp)) with e | e
      · exact e
      · rcases List.mem_cons.1 ((h b).2 (by simp)) with e' | e'
        · exact e'.symm
        · have := h1.1 b e'
          have := h2.1 a e
          omega
    subst hab
    congr 1
    refine int_sorted_ext h1.2 h2.2 fun x => ?_
    constructor
    · intro hx
      rcases List.mem_cons.1 ((h x).1 (by simp [hx])) with rfl | h'
      · have := h1.1 x hx; omega
      · exact h'
    · intro hx
      rcases List.mem_cons.1 ((h x).2 (by simp [hx])) with rfl | h'
      · have := h2.1 x hx; omega
      · exact h'

/-- `Faults` and `EncodeStops` say the same. -/
theorem faults_iff {env : PyEnv} {spec : Spec} {doc : Doc} (nd : doc.NoDup) {enc : EncDoc} {texts : List (Str × Str)}
    {r : EncRaise} :
    (∃ items tail, Faults env spec (lookup doc) (numsOf env doc) items tail texts r ∧ enc = encOf items ++ tail) ↔
      ∃ ps b f tail, EncodeStops env spec doc ps b f tail r ∧ texts = textsOfParts b ∧ enc = partsEnc (ps ++ b ++ f) ++ tail := by
  constructor
  · rintro ⟨items, tail, h, rfl⟩
    cases h with
    | specHeader hs => exact ⟨[], [], [], [], .lackHeader hs, rfl, rfl⟩
    | noHeader hs hm hg => exact ⟨[], [], [], [], .noHeader hs hm hg, rfl, rfl⟩
    | header hs hm hg he => exact ⟨[], [], [], _, .header hs hm hg (encOut_error_iff.1 he), rfl, rfl⟩
    | noType hh hg =>
      rw [← back_items items] at hh
      exact ⟨_, [], [], [], .noType (headerWrites_iff.1 hh) hg, rfl, by simp [encOf, partsEnc, Item.part]⟩
    | specType hh hg hs =>
      rw [← back_items items] at hh
      exact ⟨_, [], [], [], .lackType (headerWrites_iff.1 hh) hg hs, rfl, by simp [encOf, partsEnc, Item.part]⟩
    | type hh hs hg he =>
      rw [← back_items items] at hh
      exact ⟨_, [], [], _, .type (headerWrites_iff.1 hh) hs hg (typeEnc_error_iff.1 he), rfl,
        by simp [encOf, partsEnc, Item.part]⟩
    | @keys hdr ty _ hh ht hn =>
      rw [← back_items hdr] at hh
      exact ⟨_, [], [], [], .keys (headerWrites_iff.1 hh) (typeWrites_iff (t := ty.part) |>.1 ht) ((numsOf_error_iff nd).1 hn), rfl,
        by simp [encOf, partsEnc, Item.part]⟩
    | @range hdr ty ns hh ht hn hr =>
      rw [← back_items hdr] at hh
      have hm := (numsOf_ok nd hn).2
      refine ⟨_, [], [], [], .range (headerWrites_iff.1 hh) (typeWrites_iff (t := ty.part) |>.1 ht) (numsOf_ok nd hn).1 ?_ ?_ ?_, rfl,
        by simp [encOf, partsEnc, Item.part]⟩
      · intro e
        rw [List.all_eq_false] at hr
        obtain ⟨x, hx, hx'⟩ := hr
        have : x ∈ sortedBy id ((setUpdate [] ns).filter fun n => ¬ inRange n) := by
          rw [mem_sortedBy]; simp [hx, hx']
        rw [e] at this; cases this
      · exact sortedBy_id_lt ((nodup_setUpdate List.nodup_nil).filter _)
      · intro x
        rw [mem_sortedBy, List.mem_filter, mem_setUpdate, ← hm]
        simp [inRange]
        omega
    | @bitmaps hdr ty ns _ _ _ hh ht hn hr hb =>
      rw [← back_items hdr] at hh
      obtain ⟨k1, k2, k3, k4, k5⟩ := nums_facts nd hn hr
      obtain ⟨b, hB, rfl, rfl⟩ := (bmsPure_error_iff k1 (fun i _ => k4 i)).1 hb
      exact ⟨_, b, [], [], .bitmaps (headerWrites_iff.1 hh) (typeWrites_iff (t := ty.part) |>.1 ht) (numsOf_ok nd hn).1 k3 hB, rfl,
        by simp [encOf, partsEnc, Item.part]⟩
    | @field hdr ty ns bms flds is js i _ _ hh ht hn hr hb hsort hf hor =>
      rw [← back_items hdr] at hh
      rw [← back_items bms] at hb
      rw [← back_items flds] at hf
      obtain ⟨k1, k2, k3, k4, k5⟩ := nums_facts nd hn hr
      have hb := (bitmapsWrite_iff k1 fun i _ => k4 i).1 hb
      obtain ⟨f1, f2⟩ := fieldsWrite_iff.1 hf
      have hlt := sortedNat_lt (restOf_nodup k5)
      have hmem : ∀ j : Nat, j ∈ sortedNat (restOf ((setUpdate [] ns).map Int.toNat)) ↔ Numbered env doc j ∧ j ≠ 1 ∧ j ≠ 65 := by
        intro j; rw [mem_sortedNat, mem_restOf, k2]
      rw [hsort] at hlt hmem
      have ht := typeWrites_iff (t := ty.part) |>.1 ht
      have hh := headerWrites_iff.1 hh
      have e1 : textsOf bms = textsOfParts (bms.map Item.part) := by
        simp [textsOf, textsOfParts, Item.part]
      have e2 : ∀ tail, encOf (hdr ++ ty :: bms ++ flds) ++ tail =
          partsEnc ((hdr.map Item.part ++ [ty.part]) ++ bms.map Item.part ++ flds.map Item.part) ++ tail := by
        intro tail; simp [encOf, partsEnc, Function.comp_def, Item.part]
      rcases hor with ⟨hs, rfl, rfl⟩ | ⟨fs, hs, hg, rfl, rfl⟩ | ⟨fs, v, e, hs, hg, he, rfl⟩
      · exact ⟨_, _, _, _, .lackField hh ht (numsOf_ok nd hn).1 k3 hb hlt hmem f1 f2 (.inl ⟨hs, rfl⟩) rfl, e1, e2 _⟩
      · exact ⟨_, _, _, _, .lackField hh ht (numsOf_ok nd hn).1 k3 hb hlt hmem f1 f2 (.inr ⟨by rw [hs]; rfl, hg, rfl⟩) rfl, e1, e2 _⟩
      · exact ⟨_, _, _, _, .field hh ht (numsOf_ok nd hn).1 k3 hb hlt hmem f1 f2 hs hg (encOut_error_iff.1 he), e1, e2 _⟩
  · rintro ⟨ps, b, f, tail, h, rfl, rfl⟩
    cases h with
    | lackHeader hs => exact ⟨[], [], .specHeader hs, rfl⟩
    | noHeader hs hm hg => exact ⟨[], [], .noHeader hs hm hg, rfl⟩
    | header hs hm hg he => exact ⟨[], _, .header hs hm hg (encOut_error_iff.2 he), rfl⟩
    | noType hh hg => exact ⟨_, _, .noType (headerWrites_iff.2 hh) hg, by rw [encOf_items]; simp⟩
    | lackType hh hg hs => exact ⟨_, _, .specType (headerWrites_iff.2 hh) hg hs, by rw [encOf_items]; simp⟩
    | type hh hs hg he => exact ⟨_, _, .type (headerWrites_iff.2 hh) hs hg (typeEnc_error_iff.2 he), by rw [encOf_items]; simp⟩
    | @keys h t _ hh ht hk =>
      exact ⟨_, _, .keys (headerWrites_iff.2 hh) (typeWrites_iff.2 ht) ((numsOf_error_iff nd).2 hk), by
        simp [encOf, partsEnc, Function.comp_def, Part.item, Item.entry]⟩
    | @range h t l hh ht hp hne hlt hl =>
      obtain ⟨ns, hn⟩ := numsOf_of_parse nd hp
      have hm := (numsOf_ok nd hn).2
      have hall : (setUpdate [] ns).all inRange = false := by
        obtain ⟨x, hx⟩ := List.exists_mem_of_ne_nil l hne
        rw [List.all_eq_false]
        refine ⟨x, by rw [mem_setUpdate]; exact .inr ((hm x).2 ((hl x).1 hx).1), ?_⟩
        have := ((hl x).1 hx).2
        simp [inRange]; omega
      have e : sortedBy id ((setUpdate [] ns).filter fun n => ¬ inRange n) = l := by
        refine int_sorted_ext (sortedBy_id_lt ((nodup_setUpdate List.nodup_nil).filter _)) hlt fun x => ?_
        rw [mem_sortedBy, List.mem_filter, mem_setUpdate, hl, ← hm]
        simp [inRange]
        omega
      rw [← e]
      exact ⟨_, _, .range (headerWrites_iff.2 hh) (typeWrites_iff.2 ht) hn hall, by
        simp [encOf, partsEnc, Function.comp_def, Part.item, Item.entry]⟩
    | @bitmaps h t _ _ hh ht hp hr hb =>
      obtain ⟨ns, hn, hall⟩ := nums_of_range nd hp hr
      obtain ⟨k1, k2, k3, k4, k5⟩ := nums_facts nd hn hall
      exact ⟨_, _, .bitmaps (headerWrites_iff.2 hh) (typeWrites_iff.2 ht) hn hall
        ((bmsPure_error_iff k1 (fun i _ => k4 i)).2 ⟨b, hb, rfl, rfl⟩), by
        simp [encOf, partsEnc, Function.comp_def, Part.item, Item.entry]⟩
    | @lackField h t _ _ done rest i _ _ hh ht hp hr hb hlt hmem f1 f2 hor he =>
      obtain ⟨ns, hn, hall⟩ := nums_of_range nd hp hr
      obtain ⟨k1, k2, k3, k4, k5⟩ := nums_facts nd hn hall
      have hsort : sortedNat (restOf ((setUpdate [] ns).map Int.toNat)) = done ++ i :: rest :=
        sorted_lt_ext (sortedNat_lt (restOf_nodup k5)) hlt fun x => by rw [mem_sortedNat, mem_restOf, k2, hmem]
      have e1 : textsOf (b.map Part.item) = textsOfParts b := by
        simp [textsOf, textsOfParts, Part.item]
      rw [← e1]
      refine ⟨_, tail, .field (headerWrites_iff.2 hh) (typeWrites_iff.2 ht) hn hall ((bitmapsWrite_iff k1 fun i _ => k4 i).2 hb)
        hsort (fieldsWrite_iff.2 ⟨f1, f2⟩) ?_, ?_⟩
      · rcases hor with ⟨hs, h2⟩ | ⟨hs, hg, h2⟩
        · exact .inl ⟨hs, h2, he⟩
        · obtain ⟨fs, hs⟩ := Option.isSome_iff_exists.1 hs
          exact .inr (.inl ⟨fs, hs, hg, h2, he⟩)
      · simp [encOf, partsEnc, Function.comp_def, Part.item, Item.entry]
    | @field h t _ _ done rest i fs v e _ hh ht hp hr hb hlt hmem f1 f2 hs hg he =>
      obtain ⟨ns, hn, hall⟩ := nums_of_range nd hp hr
      obtain ⟨k1, k2, k3, k4, k5⟩ := nums_facts nd hn hall
      have hsort : sortedNat (restOf ((setUpdate [] ns).map Int.toNat)) = done ++ i :: rest :=
        sorted_lt_ext (sortedNat_lt (restOf_nodup k5)) hlt fun x => by rw [mem_sortedNat, mem_restOf, k2, hmem]
      have e1 : textsOf (b.map Part.item) = textsOfParts b := by
        simp [textsOf, textsOfParts, Part.item]
      rw [← e1]
      refine ⟨_, _, .field (headerWrites_iff.2 hh) (typeWrites_iff.2 ht) hn hall ((bitmapsWrite_iff k1 fun i _ => k4 i).2 hb) hsort
        (fieldsWrite_iff.2 ⟨f1, f2⟩) (.inr (.inr ⟨fs, v, e, hs, hg, encOut_error_iff.2 he, rfl⟩)), ?_⟩
      simp [encOf, partsEnc, Function.comp_def, Part.item, Item.entry]

theorem encode_fails_iff' {env : PyEnv} {spec : Spec} {doc doc' : Doc} {x : EncodeExc} (nd : doc.NoDup) :
    encode env spec doc = (.error x, doc') ↔ EncodeFails env spec doc x doc' := by
  rw [encode_error_iff]
  unfold EncodeFails
  constructor
  · rintro ⟨items, tail, texts, r, h, rfl, rfl⟩
    obtain ⟨ps, b, f, tail', h1, rfl, h3⟩ := (faults_iff nd).1 ⟨items, tail, h, rfl⟩
    exact ⟨ps, b, f, tail', r, h1, (docAfter_texts doc b).symm, by rw [h3, leaves_eq]⟩
  · rintro ⟨ps, b, f, tail, r, h, rfl, rfl⟩
    obtain ⟨items, tail', h1, h2⟩ := (faults_iff nd).2 ⟨ps, b, f, tail, h, rfl, rfl⟩
    exact ⟨items, tail', _, r, h1, docAfter_texts doc b, by rw [leaves_eq, h2]⟩

end Iso8583
