import Verif.Props.AddRemove
/-!
# Translating messages between specifications (C70)

A gateway decodes a message with one specification and encodes the result with another.
-/

namespace Iso8583

section
variable {env : PyEnv} {A B : Spec} {s s' : Bytes} {dec : DecDoc} {enc enc' : EncDoc} {doc' : Doc}

/-- The keys of a decoded message, bitmaps aside. -/
theorem mem_decode_keys (h : decode env A s = .ok (dec, enc)) : ∃ F : List Nat, (∀ i ∈ F, 2 ≤ i ∧ i ≠ 65) ∧
    ∀ x, x ∈ dec.keys ↔ (hasHeader A ∧ x = py"h") ∨ x = py"t" ∨ x = py"p" ∨ (x = py"1" ∧ py"1" ∈ dec.keys) ∨ ∃ i ∈ F, x = natStr i := by
  obtain ⟨F, _, hF, hk, H, B, hH, hB, he⟩ := decode_keys h
  refine ⟨F, hF, fun x => ?_⟩
  have n1 : ¬ ∃ i ∈ F, natStr i = py"1" := by
    rintro ⟨i, hi, e⟩
    exact natStr_ne_one (by have := hF i hi; omega) e
  rw [hk, he]
  rcases hH with ⟨hh, rfl⟩ | ⟨hh, rfl⟩ <;> rcases hB with rfl | rfl <;>
    simp [hh, n1, or_assoc, eq_comm (a := x)]

theorem decode_canonical (hn : AsciiNumeric env) (h : decode env A s = .ok (dec, enc)) : CanonicalKeys env (asDoc dec) := by
  obtain ⟨F, _, hk⟩ := mem_decode_keys h
  intro k hm _ hall
  rw [asDoc_keys] at hm
  obtain ⟨k', hk', e⟩ := List.mem_map.1 hm
  obtain rfl := Key.str.inj e
  rcases (hk _).1 hk' with ⟨_, rfl⟩ | rfl | rfl | ⟨rfl, _⟩ | ⟨i, _, rfl⟩
  · exact absurd (hall 104 (by simp)) (by rw [hn 104 (by omega)]; simp)
  · exact absurd (hall 116 (by simp)) (by rw [hn 116 (by omega)]; simp)
  · exact absurd (hall 112 (by simp)) (by rw [hn 112 (by omega)]; simp)
  · exact ⟨1, rfl⟩
  · exact ⟨i, rfl⟩

/-- Binary data is decoded to upper-case hex digits. -/
theorem decode_binary_upper (h : decode env A s = .ok (dec, enc)) {x w : Str} {fs : FieldSpec} (hw : dec.get? x = some w)
    (hs : A.get? x = some fs) (hb : fs.isBinary) : upperCase w = w := by
  obtain ⟨hk, _, hsay⟩ := decode_entries h
  have hx : x ∈ enc.keys := by rw [← hk]; exact Dict.mem_keys_iff.2 ⟨w, hw⟩
  obtain ⟨e, he⟩ := Dict.mem_keys_iff.1 hx
  obtain ⟨v, hv, fs', hs', hE⟩ := hsay x e he
  rw [hw] at hv; cases hv
  rw [hs] at hs'; cases hs'
  have plain : ∀ {D v}, PlainSays env fs D v → upperCase v = v := by
    intro D v h
    rw [PlainSays, if_pos hb] at h
    rw [h, hexText_upper]
  by_cases ht : x = py"t"
  · rw [if_pos ht] at hE
    exact plain hE.2.2
  · rw [if_neg ht] at hE
    by_cases hp : x = py"p" ∨ x = py"1"
    · rw [if_pos hp] at hE
      rcases hE.2 with ⟨_, h⟩ | ⟨_, v1, v2, rfl, h1, h2⟩
      · exact plain h
      · rw [upperCase_append, plain h1, plain h2]
    · rw [if_neg hp] at hE
      obtain ⟨n, _, _, hd⟩ := hE
      have hh := hexText_upper e.data
      unfold DataSays at hd
      by_cases hD : e.data = []
      · rw [if_pos hD] at hd; rw [hd]; rfl
      · rw [if_neg hD, if_pos hb] at hd
        by_cases ho : fs.inNibbles ∧ n % 2 = 1
        · rw [if_pos ho] at hd
          by_cases hp : firstPad fs.leftPad = (hexText e.data).head?
          · rw [if_pos hp] at hd
            obtain ⟨c, hc⟩ := hd
            rw [hc] at hh
            simp only [upperCase, List.map_cons, List.cons.injEq] at hh
            exact hh.2
          · rw [if_neg hp] at hd
            obtain ⟨c, _, hc⟩ := hd
            rw [hc, upperCase_append] at hh
            exact (List.append_inj' hh rfl).1
        · rw [if_neg ho] at hd
          rw [hd, hh]

/-- **C70**: what one specification decoded and another encoded is decoded by the other to the same
fields.  Texts that become binary data are turned to upper case.  Header: as the other
specification wants it; without one it is dropped. -/
theorem gateway (hl : SpecLaws env B) (hn : AsciiNumeric env) (h : decode env A s = .ok (dec, enc))
    (h' : encode env B (asDoc dec) = (.ok (s', enc'), doc')) :
    ∃ dec', decode env B s' = .ok (dec', enc') ∧ (hasHeader B → hasHeader A) ∧ (¬ hasHeader B → dec'.get? py"h" = none) ∧
      ∀ x, x ≠ py"p" → x ≠ py"1" → (x = py"h" → hasHeader B) →
        match dec.get? x with
        | none => dec'.get? x = none
        | some w => ∃ fs, B.get? x = some fs ∧ dec'.get? x = some (readBack fs (.str w)) := by
  have hd := decode_entries h
  have nd : (asDoc dec).NoDup := asDoc_nodup hd.2.1
  obtain ⟨F, hF, hkA⟩ := mem_decode_keys h
  have hkB : ∀ x, x ≠ py"p" → x ≠ py"1" → (x ∈ enc'.keys ↔ (hasHeader B ∧ x = py"h") ∨ x = py"t" ∨ ∃ i ∈ F, x = natStr i) := by
    intro x hp h1
    rw [mem_encode_keys nd hn.digits (decode_canonical hn h) h' hp h1]
    refine or_congr Iff.rfl (or_congr Iff.rfl ?_)
    have hm : ∀ j, hasField (asDoc dec) j ↔ natStr j ∈ dec.keys := by
      intro j; unfold hasField; rw [asDoc_keys]; simp
    constructor
    · rintro ⟨j, rfl, hj, a, b⟩
      rcases (hkA _).1 ((hm j).1 hj) with ⟨_, e⟩ | e | e | ⟨e, _⟩ | ⟨i, hi, e⟩
      · exact absurd e (natStr_ne_letter (by omega))
      · exact absurd e (natStr_ne_letter (by omega))
      · exact absurd e hp
      · exact absurd e h1
      · exact ⟨i, hi, e⟩
    · rintro ⟨i, hi, rfl⟩
      have := hF i hi
      exact ⟨i, rfl, (hm i).2 ((hkA _).2 (.inr (.inr (.inr (.inr ⟨i, hi, rfl⟩))))), by omega, this.2⟩
  obtain ⟨dec', hr, hk, hv⟩ := encode_decode hl h'
  have vals : ∀ x, x ≠ py"p" → x ≠ py"1" → x ∈ enc'.keys → ∃ fs w, B.get? x = some fs ∧ dec.get? x = some w ∧
      dec'.get? x = some (readBack fs (.str w)) := by
    intro x hp h1 hx
    obtain ⟨fs, v, a1, a2, a3⟩ := hv x hx
    have n65 : x ≠ py"65" := by
      rintro rfl
      rcases (hkB _ hp h1).1 hx with ⟨_, e⟩ | e | ⟨i, hi, e⟩
      · exact absurd e (by decide)
      · exact absurd e (by decide)
      · exact (hF i hi).2 (natStr_inj.1 (e.symm.trans (show py"65" = natStr 65 from rfl)))
    have := encode_keeps_values env B (asDoc dec) (k := .str x) (by simpa using hp) (by simpa using h1) (by simpa using n65)
    rw [h', a2, asDoc_get?] at this
    cases hw : dec.get? x with
    | none => rw [hw] at this; cases this
    | some w =>
      rw [hw] at this
      cases this
      exact ⟨fs, w, a1, rfl, a3⟩
  have hhdr : hasHeader B → hasHeader A := by
    intro hb
    obtain ⟨_, w, _, hw, _⟩ := vals py"h" (by decide) (by decide) ((hkB _ (by decide) (by decide)).2 (.inl ⟨hb, rfl⟩))
    have : py"h" ∈ dec.keys := Dict.mem_keys_iff.2 ⟨w, hw⟩
    rcases (hkA _).1 this with ⟨h, _⟩ | e | e | ⟨e, _⟩ | ⟨i, _, e⟩
    · exact h
    · exact absurd e (by decide)
    · exact absurd e (by decide)
    · exact absurd e (by decide)
    · exact absurd e.symm (natStr_ne_letter (by omega))
  refine ⟨dec', hr, hhdr, ?_, ?_⟩
  · intro hb
    rw [Dict.get?_eq_none, hk, hkB _ (by decide) (by decide)]
    rintro (⟨h, _⟩ | e | ⟨i, _, e⟩)
    · exact hb h
    · exact absurd e (by decide)
    · exact absurd e.symm (natStr_ne_letter (by omega))
  · intro x hp h1 hx
    have hiff : x ∈ enc'.keys ↔ x ∈ dec.keys := by
      rw [hkB x hp h1, hkA]
      constructor
      · rintro (⟨h, rfl⟩ | h | h)
        · exact .inl ⟨hhdr h, rfl⟩
        · exact .inr (.inl h)
        · exact .inr (.inr (.inr (.inr h)))
      · rintro (⟨_, h⟩ | h | h | ⟨h, _⟩ | h)
        · exact .inl ⟨hx h, h⟩
        · exact .inr (.inl h)
        · exact absurd h hp
        · exact absurd h h1
        · exact .inr (.inr h)
    cases hw : dec.get? x with
    | none =>
      show dec'.get? x = none
      rw [Dict.get?_eq_none, hk, hiff, ← Dict.get?_eq_none, hw]
    | some w =>
      obtain ⟨fs, w', a1, a2, a3⟩ := vals x hp h1 (hiff.2 (Dict.mem_keys_iff.2 ⟨w, hw⟩))
      rw [hw] at a2; cases a2
      exact ⟨fs, a1, a3⟩

/-- **C70**: if moreover the header is kept and no lower-case letter is turned to upper case, the
fields read are the same texts, and the first specification writes them the same as it writes the
original ones. -/
theorem gateway_back (hl : SpecLaws env B) (hn : AsciiNumeric env) (h : decode env A s = .ok (dec, enc))
    (h' : encode env B (asDoc dec) = (.ok (s', enc'), doc')) (hh : hasHeader A → hasHeader B)
    (hup : ∀ x w fs, dec.get? x = some w → B.get? x = some fs → fs.isBinary → upperCase w = w) :
    ∃ dec', decode env B s' = .ok (dec', enc') ∧ (∀ x, x ≠ py"p" → x ≠ py"1" → dec'.get? x = dec.get? x) ∧
      ∀ r, (∃ d, encode env A (asDoc dec') = (.ok r, d)) ↔ ∃ d, encode env A (asDoc dec) = (.ok r, d) := by
  obtain ⟨dec', hr, _, hno, hx⟩ := gateway hl hn h h'
  have same : ∀ x, x ≠ py"p" → x ≠ py"1" → dec'.get? x = dec.get? x := by
    intro x hp h1
    by_cases hc : x = py"h" → hasHeader B
    · have := hx x hp h1 hc
      cases hw : dec.get? x with
      | none => rw [hw] at this; exact this
      | some w =>
        rw [hw] at this
        obtain ⟨fs, hs, e⟩ := this
        rw [e]
        unfold readBack
        split
        · next hb => rw [Val.text, hup x w fs hw hs hb]
        · rfl
    · have hxh : x = py"h" := Classical.byContradiction fun e => hc fun h => absurd h e
      have hb : ¬ hasHeader B := fun h => hc fun _ => h
      subst hxh
      rw [hno hb, eq_comm, Dict.get?_eq_none]
      exact ((decode_header h).2 fun ha => hb (hh ha)).2.1
  refine ⟨dec', hr, same, fun r => ?_⟩
  have nd := asDoc_nodup (decode_entries h).2.1
  have nd' := asDoc_nodup (decode_entries hr).2.1
  have get : ∀ k, isBitmapKey k = false → (asDoc dec').get? k = (asDoc dec).get? k := by
    intro k hk
    cases k with
    | obj r => rw [asDoc_get?_obj, asDoc_get?_obj]
    | str k =>
      rw [← Bool.not_eq_true', not_bitmapKey] at hk
      rw [asDoc_get?, asDoc_get?, same k (fun e => hk.1 (by rw [e])) (fun e => hk.2.1 (by rw [e]))]
  have out : ∀ d : Doc, outcome env A d = .ok r ↔ ∃ d', encode env A d = (.ok r, d') := by
    intro d
    unfold outcome
    cases he : encode env A d with
    | mk q d' =>
      cases q with
      | ok q =>
        constructor
        · intro e; cases e; exact ⟨d', rfl⟩
        · rintro ⟨_, e⟩; cases e; rfl
      | error x =>
        constructor
        · intro e; cases e
        · rintro ⟨_, e⟩; cases e
  rw [← out, ← out]
  exact ⟨outcome_of_same hn nd' nd get, outcome_of_same hn nd nd' fun k hk => (get k hk).symm⟩

end

/-! ## The shipped specifications -/

/-- Entry by entry, `default_ascii` has room for the hex digits of what `default` has. -/
def hexRoom (p : Str × FieldSpec) : Bool :=
  match defaultAsciiSpec.get? p.1 with
  | none => false
  | some b => decide (p.2.lenType = b.lenType) &&
      if p.2.isBinary then decide (¬ b.isBinary ∧ b.maxLen = 2 * p.2.maxLen) else decide (¬ b.isBinary ∧ b.maxLen = p.2.maxLen)

theorem hexRoom_all {k : Str} {a : FieldSpec} (h : defaultSpec.get? k = some a) : ∃ b, defaultAsciiSpec.get? k = some b ∧
    b.lenType = a.lenType ∧ ¬ b.isBinary ∧ b.maxLen = if a.isBinary then 2 * a.maxLen else a.maxLen := by
  have hall : ∀ p ∈ defaultSpec, hexRoom p = true := by decide +kernel
  have := hall _ (Dict.mem_of_get? h)
  unfold hexRoom at this
  dsimp only at this
  cases hb : defaultAsciiSpec.get? k with
  | none => rw [hb] at this; cases this
  | some b =>
    rw [hb] at this
    simp only [Bool.and_eq_true, decide_eq_true_eq] at this
    refine ⟨b, rfl, this.1.symm, ?_⟩
    by_cases hi : a.isBinary
    · rw [if_pos hi] at this ⊢; simpa using this.2
    · rw [if_neg hi] at this ⊢; simpa using this.2

/-- **C70**: every message of `default` can be translated to `default_ascii`, has the same fields
there, and translated back it is what `default` writes for the original. -/
theorem default_to_ascii {env : PyEnv} (hn : AsciiNumeric env) (ha : env.codec py"ascii" = some asciiCodec)
    (hd : env.maxStrDigits = 0 ∨ 8 ≤ env.maxStrDigits) {s : Bytes} {dec : DecDoc} {enc : EncDoc}
    (h : decode env defaultSpec s = .ok (dec, enc)) :
    ∃ s' enc' d' dec' r d1 d2, encode env defaultAsciiSpec (asDoc dec) = (.ok (s', enc'), d') ∧
      decode env defaultAsciiSpec s' = .ok (dec', enc') ∧ (∀ x, x ≠ py"p" → x ≠ py"1" → dec'.get? x = dec.get? x) ∧
      encode env defaultSpec (asDoc dec) = (.ok r, d1) ∧ encode env defaultSpec (asDoc dec') = (.ok r, d2) := by
  have nd : (asDoc dec).NoDup := asDoc_nodup (decode_entries h).2.1
  obtain ⟨s1, enc1, doc1, _, _, he, _⟩ := shipped_reencode (.inl rfl) hn ha hd h
  obtain ⟨h1, h2, h3, h4⟩ := (shipped_encode_iff (.inl rfl) ha nd).1 ⟨_, _, he⟩
  obtain ⟨⟨s', enc'⟩, d', h'⟩ := (shipped_encode_iff (.inr rfl) ha nd).2 ⟨h1, h2, h3, fun i hi a b => by
    obtain ⟨fs, v, hs, hv, n, hsz, hp⟩ := h4 i hi a b
    obtain ⟨b, hb, hlt, hnb, hmx⟩ := hexRoom_all hs
    refine ⟨b, v, hb, hv, if fs.isBinary then 2 * n else n, ?_, ?_⟩
    · rw [hlt, hmx]
      by_cases hbin : fs.isBinary
      · simp only [if_pos hbin]
        split at hsz
        · next h0 => rw [if_pos h0]; omega
        · next h0 => rw [if_neg h0]; omega
      · simp only [if_neg hbin]; exact hsz
    · rw [if_neg hnb]
      by_cases hbin : fs.isBinary
      · rw [if_pos hbin] at hp ⊢
        obtain ⟨_, hl, hx⟩ := hp
        rw [asDoc_get?] at hv
        cases hw : dec.get? (natStr i) with
        | none => rw [hw] at hv; cases hv
        | some w =>
          rw [hw] at hv
          cases hv
          refine ⟨w, rfl, hl, fun c hc => ?_⟩
          have := hx c hc
          simp only [isHexDigit, Bool.or_eq_true, Bool.and_eq_true, decide_eq_true_eq] at this
          omega
      · rw [if_neg hbin] at hp ⊢; exact hp⟩
  have hw := defaultAscii_wellFormed
  have hno : ∀ {spec}, WellFormed spec → ¬ hasHeader spec := by
    rintro spec w ⟨fs, hs, hm⟩
    have := w.header fs hs
    omega
  obtain ⟨dec', hr, hsame, hback⟩ := gateway_back (wellFormed_laws hw ha hd) hn h h' (fun hh => absurd hh (hno default_wellFormed)) (by
    intro x w b hx hb hbin
    obtain ⟨_, _, hsay⟩ := decode_entries h
    have hk : x ∈ enc.keys := by rw [← (decode_entries h).1]; exact Dict.mem_keys_iff.2 ⟨w, hx⟩
    obtain ⟨e, he⟩ := Dict.mem_keys_iff.1 hk
    obtain ⟨_, _, fs, hs, _⟩ := hsay x e he
    obtain ⟨b', hb', _, hnb, _⟩ := hexRoom_all hs
    rw [hb] at hb'; cases hb'
    exact absurd hbin hnb)
  obtain ⟨d2, h2⟩ := (hback _).2 ⟨_, he⟩
  exact ⟨s', enc', d', dec', _, _, d2, h', hr, hsame, he, h2⟩

/-! ## Examples -/

/-- Another specification for the fields of the worked message: EBCDIC text, no header, text
bitmaps, other prefixes, fields 3 and 130 as text. -/
def otherSpec : Spec := [
  (py"h", { dataEnc := py"cp500", lenEnc := py"b", lenType := 0, maxLen := 0 }),
  (py"t", { dataEnc := py"cp500", lenEnc := py"b", lenType := 0, maxLen := 4 }),
  (py"p", { dataEnc := py"cp500", lenEnc := py"b", lenType := 0, maxLen := 16 }),
  (py"1", { dataEnc := py"b", lenEnc := py"b", lenType := 0, maxLen := 8 }),
  (py"2", { dataEnc := py"cp500", lenEnc := py"b", lenType := 1, maxLen := 19 }),
  (py"3", { dataEnc := py"ascii", lenEnc := py"ascii", lenType := 3, maxLen := 9 }),
  (py"70", { dataEnc := py"ascii", lenEnc := py"bcd", lenType := 2, maxLen := 10 }),
  (py"130", { dataEnc := py"ascii", lenEnc := py"ascii", lenType := 0, maxLen := 4 })]

theorem other_laws : SpecLaws cpython otherSpec := specLaws_of_lawful cpython_codecs_lawful (by decide) (by decide)

/-- The worked message can be translated; its header is dropped and field 3 keeps its text. -/
example : ∃ r d dec', encode cpython otherSpec (asDoc demoDec) = (.ok r, d) ∧ decode cpython otherSpec r.1 = .ok (dec', r.2) ∧
    dec'.get? py"h" = none ∧ dec'.get? py"3" = some py"ABC" := by
  have hok : (encode cpython otherSpec (asDoc demoDec)).1.isOk = true := by decide +kernel
  cases he : encode cpython otherSpec (asDoc demoDec) with
  | mk q d =>
    rw [he] at hok
    cases q with
    | error x => cases hok
    | ok r =>
      obtain ⟨dec', h1, _, h2, h3⟩ := gateway other_laws cpython_ascii demo_decode he
      refine ⟨r, d, dec', rfl, h1, h2 ?_, ?_⟩
      · rintro ⟨fs, hs, hm⟩
        cases hs
        exact absurd hm (by decide)
      · obtain ⟨fs, hs, e⟩ := h3 py"3" (by decide) (by decide) (fun h => absurd h (by decide))
        cases hs
        exact e

/-- A PIN block of eight bytes becomes sixteen hex digits. -/
example : (match decode cpython defaultSpec [0x30, 0x32, 0x30, 0x30, 0, 0, 0, 0, 0, 0, 0x10, 0, 0x12, 0x34, 0x56, 0x78, 0x9A, 0xBC, 0xDE, 0xF0] with
    | .ok (dec, _) => (match encode cpython defaultAsciiSpec (asDoc dec) with
      | (.ok (s', _), _) => decide (s' = (py"02000000000000001000123456789ABCDEF0").map UInt8.ofNat)
      | _ => false)
    | _ => false) = true := by decide +kernel

/-- An instance of `decode_binary_upper`. -/
example (w : Str) (h : demoDec.get? py"3" = some w) : upperCase w = w :=
  decode_binary_upper demo_decode h (fs := (demoSpec.get? py"3").get (by decide)) (by decide) (by decide)

/-- An instance of `gateway_back`. -/
example : ∃ r d dec', encode cpython demoSpec (asDoc demoDec) = (.ok r, d) ∧ decode cpython demoSpec r.1 = .ok (dec', r.2) ∧
    ∃ d', encode cpython demoSpec (asDoc dec') = (.ok r, d') := by
  have hok : (encode cpython demoSpec (asDoc demoDec)).1.isOk = true := by decide +kernel
  cases he : encode cpython demoSpec (asDoc demoDec) with
  | mk q d =>
    rw [he] at hok
    cases q with
    | error x => cases hok
    | ok r =>
      obtain ⟨dec', h1, _, h2⟩ := gateway_back demo_laws cpython_ascii demo_decode he id
        (fun x w fs hw hs hb => decode_binary_upper demo_decode hw hs hb)
      exact ⟨r, d, dec', rfl, h1, (h2 r).2 ⟨d, he⟩⟩

end Iso8583
