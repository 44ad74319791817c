import Verif.Lemmas.EncodeRun
import Verif.Lemmas.Bridge
import Verif.Spec.Encode
/-!
# Encoding one field: what success means, and reading it back
-/

namespace Iso8583

theorem upperAscii_eq_upperCase (t : Str) : upperAscii t = upperCase t := rfl

theorem a2bHex_hexText {t : Str} {b : Bytes} (h : a2bHex t = some b) : hexText b = upperCase t := by
  rw [← hexText_eq, a2bHex_inv h]; rfl

theorem a2bHex_of_hexText {t : Str} {b : Bytes} (h : hexText b = upperCase t) : a2bHex t = some b := by
  rw [← a2bHex_upper, upperAscii_eq_upperCase, ← h, ← hexText_eq]
  exact a2bHex_bytesHex_upper b

theorem a2bHex_iff {t : Str} {b : Bytes} : a2bHex t = some b ↔ hexText b = upperCase t :=
  ⟨a2bHex_hexText, a2bHex_of_hexText⟩

theorem hexText_inj {a b : Bytes} (h : hexText a = hexText b) : a = b := by
  rw [← hexText_eq, ← hexText_eq] at h
  exact bytesHex_upper_inj h

theorem upperCase_length (t : Str) : (upperCase t).length = t.length := by simp [upperCase]

theorem upperCase_append (a b : Str) : upperCase (a ++ b) = upperCase a ++ upperCase b := by simp [upperCase]

/-- The value is text or bytes: something `len` and `a2b_hex` accept. -/
theorem Val.a2bHex_iff {v : Val} {b : Bytes} :
    v.a2bHex = some b ↔ ((∃ t, v = .str t) ∨ ∃ x, v = .bytes x) ∧ hexText b = upperCase v.text := by
  cases v with
  | str t => simp [Val.a2bHex, Val.text, Iso8583.a2bHex_iff]
  | bytes x => simp [Val.a2bHex, Val.text, Iso8583.a2bHex_iff]
  | sized n => simp [Val.a2bHex]
  | unsized => simp [Val.a2bHex]

theorem Val.text_length {v : Val} (h : (∃ t, v = .str t) ∨ ∃ x, v = .bytes x) : v.len? = some v.text.length := by
  rcases h with ⟨t, rfl⟩ | ⟨x, rfl⟩ <;> simp [Val.len?, Val.text]

theorem padChar_length (p : Option Str) : (padChar p).length > 0 ↔ (firstPad p).isSome := by
  rw [padChar_eq]; cases firstPad p <;> simp

/-- Data and units of a successful field. -/
theorem encData_ok {env : PyEnv} {key : Str} {fs : FieldSpec} {v : Val} {D : Bytes} {n : Nat} :
    encData env key fs v = .ok (D, n) ↔ DataWrites env fs v n D ∧ (fs.isBinary → v.Hexable fs) := by
  unfold encData DataWrites
  by_cases hb : fs.dataEnc = py"b"
  · have hb' : fs.isBinary := hb
    rw [if_pos hb, if_pos hb']
    simp only [hb', true_implies]
    unfold encodeBinaryField
    by_cases hn : fs.count = py"nibbles"
    · have hn' : fs.inNibbles := (count_nibbles fs).1 hn
      simp only [if_pos hn, if_pos hn']
      have hodd : ∀ m : Nat, m % 2 = 1 → ∀ b : Bytes, hexText b = upperCase v.text → m ≠ v.text.length := by
        intro m hm b hb e
        have := congrArg List.length hb
        rw [hexText_length, upperCase_length] at this
        omega
      cases hl : v.len? with
      | none =>
        have hv : v = .unsized := by cases v <;> simp [Val.len?] at hl ⊢
        subst hv
        simp [Val.Hexable]
      | some m =>
        simp only
        by_cases hm : m % 2 = 1
        · rw [if_pos hm]
          unfold addPadField
          simp only [padChar_length]
          cases hL : firstPad fs.leftPad with
          | some c =>
            have hpl : padChar fs.leftPad = [c] := by rw [padChar_eq, hL]; rfl
            simp only [Option.isSome_some, if_true, hpl]
            cases v with
            | str t =>
              simp only [Val.len?, Option.some.injEq] at hl
              subst hl
              simp only [Option.bind_some, Val.a2bHex, List.cons_append, List.nil_append, Val.text]
              cases ha : a2bHex (c :: t) with
              | none =>
                simp only [reduceCtorEq, false_iff]
                rintro ⟨⟨rfl, h⟩, _⟩
                rw [if_pos hm] at h
                rw [a2bHex_iff.2 h] at ha; cases ha
              | some b =>
                simp only [Except.ok.injEq, Prod.mk.injEq]
                constructor
                · rintro ⟨rfl, rfl⟩
                  exact ⟨⟨rfl, by rw [if_pos hm]; exact a2bHex_iff.1 ha⟩, Or.inl ⟨t, rfl⟩⟩
                · rintro ⟨⟨rfl, h⟩, _⟩
                  rw [if_pos hm] at h
                  rw [a2bHex_iff.2 h] at ha
                  exact ⟨(Option.some.inj ha).symm, rfl⟩
            | bytes b =>
              simp only [Val.len?, Option.some.injEq] at hl
              subst hl
              simp only [Option.bind_none, reduceCtorEq, false_iff]
              rintro ⟨_, h⟩
              rcases h with ⟨t, h⟩ | ⟨b', h, hc⟩
              · cases h
              · cases h; exact hc ⟨hn', hm, by simp [hL]⟩
            | sized k =>
              simp only [Option.bind_none, reduceCtorEq, false_iff]
              rintro ⟨_, h⟩
              rcases h with ⟨t, h⟩ | ⟨b', h, hc⟩ <;> cases h
            | unsized => simp [Val.len?] at hl
          | none =>
            simp only [Option.isSome_none, Bool.false_eq_true, if_false]
            cases hR : firstPad fs.rightPad with
            | some c =>
              have hpl : padChar fs.rightPad = [c] := by rw [padChar_eq, hR]; rfl
              simp only [Option.isSome_some, if_true, hpl]
              cases v with
              | str t =>
                simp only [Val.len?, Option.some.injEq] at hl
                subst hl
                simp only [Option.bind_some, Val.a2bHex, Val.text]
                cases ha : a2bHex (t ++ [c]) with
                | none =>
                  simp only [reduceCtorEq, false_iff]
                  rintro ⟨⟨rfl, h⟩, _⟩
                  rw [if_pos hm] at h
                  rw [a2bHex_iff.2 h] at ha; cases ha
                | some b =>
                  simp only [Except.ok.injEq, Prod.mk.injEq]
                  constructor
                  · rintro ⟨rfl, rfl⟩
                    exact ⟨⟨rfl, by rw [if_pos hm]; exact a2bHex_iff.1 ha⟩, Or.inl ⟨t, rfl⟩⟩
                  · rintro ⟨⟨rfl, h⟩, _⟩
                    rw [if_pos hm] at h
                    rw [a2bHex_iff.2 h] at ha
                    exact ⟨(Option.some.inj ha).symm, rfl⟩
              | bytes b =>
                simp only [Val.len?, Option.some.injEq] at hl
                subst hl
                simp only [Option.bind_none, reduceCtorEq, false_iff]
                rintro ⟨_, h⟩
                rcases h with ⟨t, h⟩ | ⟨b', h, hc⟩
                · cases h
                · cases h; exact hc ⟨hn', hm, by simp [hR]⟩
              | sized k =>
                simp only [Option.bind_none, reduceCtorEq, false_iff]
                rintro ⟨_, h⟩
                rcases h with ⟨t, h⟩ | ⟨b', h, hc⟩ <;> cases h
              | unsized => simp [Val.len?] at hl
            | none =>
              simp only [Option.isSome_none, Bool.false_eq_true, if_false, Option.bind_some]
              cases ha : v.a2bHex with
              | none =>
                simp only [reduceCtorEq, false_iff]
                rintro ⟨⟨rfl, h⟩, hv⟩
                have hv' : (∃ t, v = .str t) ∨ ∃ x, v = .bytes x := by
                  rcases hv with h | ⟨b, h, _⟩
                  · exact Or.inl h
                  · exact Or.inr ⟨b, h⟩
                rw [Val.text_length hv'] at hl
                cases hl
                rw [if_pos hm] at h
                exact h
              | some b =>
                obtain ⟨hv, hx⟩ := Val.a2bHex_iff.1 ha
                rw [Val.text_length hv] at hl
                cases hl
                exact absurd rfl (hodd _ hm b hx)
        · rw [if_neg hm]
          simp only [Option.bind_some]
          cases ha : v.a2bHex with
          | none =>
            simp only [reduceCtorEq, false_iff]
            rintro ⟨⟨rfl, h⟩, hv⟩
            have hv' : (∃ t, v = .str t) ∨ ∃ x, v = .bytes x := by
              rcases hv with h | ⟨b, h, _⟩
              · exact Or.inl h
              · exact Or.inr ⟨b, h⟩
            rw [Val.text_length hv'] at hl
            cases hl
            rw [if_neg hm] at h
            rw [Val.a2bHex_iff.2 ⟨hv', h⟩] at ha; cases ha
          | some b =>
            obtain ⟨hv, hx⟩ := Val.a2bHex_iff.1 ha
            rw [Val.text_length hv] at hl
            cases hl
            simp only [Except.ok.injEq, Prod.mk.injEq]
            constructor
            · rintro ⟨rfl, rfl⟩
              refine ⟨⟨rfl, by rw [if_neg hm]; exact hx⟩, ?_⟩
              rcases hv with h | ⟨b, rfl⟩
              · exact Or.inl h
              · exact Or.inr ⟨b, rfl, by simp only [Val.text, List.length_map] at hm; simp [hm]⟩
            · rintro ⟨⟨rfl, h⟩, _⟩
              rw [if_neg hm] at h
              exact ⟨hexText_inj (hx.trans h.symm), rfl⟩
    · have hn' : ¬ fs.inNibbles := fun h => hn ((count_nibbles fs).2 h)
      simp only [if_neg hn, if_neg hn', Option.bind_some]
      have hx : v.Hexable fs ↔ ((∃ t, v = .str t) ∨ ∃ x, v = .bytes x) := by
        simp [Val.Hexable, hn']
      rw [hx]
      cases ha : v.a2bHex with
      | none =>
        simp only [reduceCtorEq, false_iff]
        rintro ⟨⟨h, _⟩, hv⟩
        rw [Val.a2bHex_iff.2 ⟨hv, h⟩] at ha; cases ha
      | some b =>
        obtain ⟨hv, hx⟩ := Val.a2bHex_iff.1 ha
        simp only [Except.ok.injEq, Prod.mk.injEq]
        constructor
        · rintro ⟨rfl, rfl⟩; exact ⟨⟨hx, rfl⟩, hv⟩
        · rintro ⟨⟨h, rfl⟩, _⟩
          have := hexText_inj (hx.trans h.symm)
          exact ⟨this, by rw [this]⟩
  · have hb' : ¬ fs.isBinary := hb
    rw [if_neg hb, if_neg hb']
    simp only [hb', false_implies, and_true]
    unfold encodeTextField
    cases v with
    | str t =>
      simp only [Val.str.injEq]
      unfold strEncode
      cases hc : env.codec fs.dataEnc with
      | none => simp
      | some c =>
        simp only
        cases he : c.encode t with
        | none => simp [he]
        | some b =>
          simp only [Except.ok.injEq, Prod.mk.injEq]
          constructor
          · rintro ⟨rfl, rfl⟩
            refine ⟨t, c, rfl, rfl, he, ?_⟩
            by_cases hn : fs.inNibbles
            · rw [if_pos hn, if_pos ((count_nibbles fs).2 hn)]; omega
            · rw [if_neg hn, if_neg (fun h => hn ((count_nibbles fs).1 h))]
          · rintro ⟨t', c', rfl, hc', he', rfl⟩
            cases hc'
            rw [he] at he'
            cases he'
            refine ⟨rfl, ?_⟩
            by_cases hn : fs.inNibbles
            · rw [if_pos hn, if_pos ((count_nibbles fs).2 hn)]; omega
            · rw [if_neg hn, if_neg (fun h => hn ((count_nibbles fs).1 h))]
    | bytes b => simp
    | sized k => simp
    | unsized => simp

/-! ## Length prefixes -/

theorem bcdValue_lt {b : Bytes} {n : Nat} (h : bcdValue b = some n) : n < 100 ^ b.length := by
  induction b generalizing n with
  | nil => simp [bcdValue] at h; simp [← h]
  | cons x t ih =>
    rw [bcdValue] at h
    split at h
    · next hx =>
      cases ht : bcdValue t with
      | none => simp [ht] at h
      | some r =>
        simp only [ht, Option.map_some, Option.some.injEq] at h
        have := ih ht
        rw [List.length_cons, Nat.pow_succ, ← h]
        have h1 : x.toNat / 16 * 10 + x.toNat % 16 ≤ 99 := by omega
        have h2 := Nat.mul_le_mul_right (100 ^ t.length) h1
        omega
    · cases h

theorem bcdValue_bytesHex {b : Bytes} (h : ∀ c ∈ bytesHex b, isAsciiDigit c = true) :
    bcdValue b = some (decVal (bytesHex b)) := by
  obtain ⟨n, hn⟩ := (bcdValue_some_iff b).2 h
  rw [hn, bcdValue_decVal hn]

theorem zeroPad_of_digits {s : Str} (hs : s ≠ []) (h : ∀ c ∈ s, isAsciiDigit c = true) :
    zeroPad s.length (decVal s) = s := by
  have key : ∀ (a b : Str), a.length = b.length → (∀ c ∈ a, isAsciiDigit c = true) → (∀ c ∈ b, isAsciiDigit c = true) →
      decVal a = decVal b → a = b := by
    intro a
    induction hk : a.length generalizing a with
    | zero => intro b hl _ _ _; rw [List.length_eq_zero_iff.1 hk, List.length_eq_zero_iff.1 hl.symm]
    | succ k ih =>
      intro b hl ha hb he
      rcases list_concat_cases a with rfl | ⟨a', x, rfl⟩
      · simp at hk
      rcases list_concat_cases b with rfl | ⟨b', y, rfl⟩
      · simp at hl
      rw [decVal_append, decVal_append] at he
      have hx := ha x (by simp)
      have hy := hb y (by simp)
      simp [isAsciiDigit] at hx hy
      simp at hk hl
      have h1 : decVal a' = decVal b' := by omega
      have h2 : x = y := by omega
      rw [ih a' hk b' (by omega) (fun c hc => ha c (by simp [hc])) (fun c hc => hb c (by simp [hc])) h1, h2]
  refine key _ _ ?_ (zeroPad_digits _ _) h (by simp)
  have hpos : 1 ≤ s.length := by
    cases s with
    | nil => exact absurd rfl hs
    | cons a t => simp
  refine zeroPad_length_of_lt hpos ?_
  have : ∀ (s : Str), (∀ c ∈ s, isAsciiDigit c = true) → decVal s < 10 ^ s.length := by
    intro s
    induction hk : s.length generalizing s with
    | zero => intro _; rw [List.length_eq_zero_iff.1 hk]; simp [decVal]
    | succ k ih =>
      intro h
      rcases list_concat_cases s with rfl | ⟨s', x, rfl⟩
      · simp at hk
      simp at hk
      have := ih s' hk (fun c hc => h c (by simp [hc]))
      have hx := h x (by simp)
      simp [isAsciiDigit] at hx
      rw [decVal_append, Nat.pow_succ]
      omega
  exact this s h

theorem lenOut_ok_iff {env : PyEnv} {key : Str} {fs : FieldSpec} {n : Nat} {L : Bytes} (h0 : fs.lenType ≠ 0) :
    lenOut env key fs n = (.ok (), L) ↔ PrefixWrites env fs n L := by
  unfold lenOut PrefixWrites
  split
  · cases hb : toBytesBE n fs.lenType with
    | none =>
      simp only [Prod.mk.injEq, reduceCtorEq, false_and, false_iff]
      rintro ⟨h1, h2⟩
      rw [← h2, ← beValue_eq, ← h1, toBytesBE_fromBytesBE] at hb
      cases hb
    | some l =>
      obtain ⟨h1, h2⟩ := toBytesBE_some hb
      simp only [Prod.mk.injEq, true_and]
      constructor
      · rintro rfl; exact ⟨h1, by rw [← beValue_eq, h2]⟩
      · rintro ⟨h3, h4⟩
        have := toBytesBE_fromBytesBE L
        rw [beValue_eq, h4, h3, hb] at this
        exact Option.some.inj this
  · split
    · by_cases hl : (zeroPad (fs.lenType * 2) n).length > fs.lenType * 2
      · simp only [if_pos hl, Prod.mk.injEq, reduceCtorEq, false_and, false_iff]
        rintro ⟨h1, h2⟩
        have h3 := bcdValue_lt h2
        rw [h1] at h3
        have h4 : n < 10 ^ (fs.lenType * 2) := by
          rw [Nat.mul_comm, Nat.pow_mul]; exact h3
        rw [zeroPad_length_of_lt (by omega) h4] at hl
        omega
      · simp only [if_neg hl]
        have hlen : (zeroPad (fs.lenType * 2) n).length = fs.lenType * 2 := by
          have := zeroPad_length (fs.lenType * 2) n
          omega
        obtain ⟨l, hb⟩ := a2bHex_isSome_of_digits (by omega) (zeroPad_digits (fs.lenType * 2) n)
        simp only [hb, Prod.mk.injEq, true_and]
        have hh := a2bHex_digits_inv (zeroPad_digits (fs.lenType * 2) n) hb
        have hll := a2bHex_length hb
        constructor
        · rintro rfl
          refine ⟨by omega, ?_⟩
          rw [bcdValue_bytesHex (by rw [hh]; exact zeroPad_digits _ _), hh, decVal_zeroPad]
        · rintro ⟨h1, h2⟩
          have hd := (bcdValue_some_iff L).1 ⟨n, h2⟩
          have hv := bcdValue_decVal h2
          have hne : bytesHex L ≠ [] := by
            intro e
            have := bytesHex_length L
            rw [e] at this; simp at this; omega
          have := zeroPad_of_digits hne hd
          rw [hv, bytesHex_length, h1, Nat.mul_comm, ← hh] at this
          have h3 := a2bHex_bytesHex l
          rw [this, a2bHex_bytesHex] at h3
          exact (Option.some.inj h3).symm
    · unfold strEncode
      cases hc : env.codec fs.lenEnc with
      | none => simp
      | some c =>
        simp only
        cases he : c.encode (zeroPad fs.lenType n) with
        | none => simp [he]
        | some l =>
          simp only [Option.some.injEq]
          split
          · next hgt =>
            simp only [Prod.mk.injEq, reduceCtorEq, false_and, false_iff]
            rintro ⟨c', rfl, h1, h2⟩
            rw [he] at h1; cases h1; omega
          · next hle =>
            simp only [Prod.mk.injEq, true_and]
            constructor
            · rintro rfl; exact ⟨c, rfl, he, by omega⟩
            · rintro ⟨c', rfl, h1, h2⟩
              rw [he] at h1; exact Option.some.inj h1

theorem encOut_ok_iff {env : PyEnv} {key : Str} {fs : FieldSpec} {v : Val} {e : EncEntry} :
    encOut env key fs v = (.ok (), e) ↔ ∃ n, FieldWrites env fs v n e.len e.data := by
  unfold encOut
  constructor
  · intro h
    cases hd : encData env key fs v with
    | error r => simp [hd] at h
    | ok dn =>
      obtain ⟨D, n⟩ := dn
      obtain ⟨h1, h2⟩ := encData_ok.1 hd
      simp only [hd] at h
      by_cases h0 : fs.lenType = 0
      · rw [if_pos h0] at h
        split at h
        · cases h
        · next hm =>
          cases h
          exact ⟨n, h1, h2, by rw [if_pos h0]; exact ⟨by omega, rfl⟩⟩
      · rw [if_neg h0] at h
        split at h
        · cases h
        · next hm =>
          simp only [Prod.mk.injEq] at h
          obtain ⟨h3, rfl⟩ := h
          refine ⟨n, h1, h2, ?_⟩
          rw [if_neg h0]
          exact ⟨by omega, (lenOut_ok_iff (key := key) h0).1 (Prod.ext h3 rfl)⟩
  · rintro ⟨n, h1, h2, h3⟩
    rw [encData_ok.2 ⟨h1, h2⟩]
    simp only
    by_cases h0 : fs.lenType = 0
    · rw [if_pos h0] at h3 ⊢
      rw [if_neg (by omega)]
      obtain ⟨_, h3⟩ := h3
      cases e; simp_all
    · rw [if_neg h0] at h3 ⊢
      rw [if_neg (by omega), (lenOut_ok_iff h0).2 h3.2]

/-! ## Reading back -/

theorem PrefixWrites.reads {env : PyEnv} {fs : FieldSpec} {n : Nat} {L : Bytes} (h0 : fs.lenType ≠ 0)
    (hl : FieldLaws env fs) (h : PrefixWrites env fs n L) :
    L.length = fs.lenType ∧ lenValue env fs L = .ok (n : Int) := by
  unfold PrefixWrites at h
  unfold lenValue
  by_cases hb : fs.lenEnc = py"b"
  · rw [if_pos hb] at h ⊢
    exact ⟨h.1, by rw [beValue_eq, h.2]⟩
  rw [if_neg hb] at h ⊢
  have hdig := hl.prefixDigits h0 hb
  by_cases hc : fs.lenEnc = py"bcd"
  · rw [if_pos hc] at h ⊢
    refine ⟨h.1, ?_⟩
    have : pyInt env (bytesHex L) = some (n : Int) := by
      refine pyInt_hex_iff.2 ⟨?_, ⟨n, h.2, rfl⟩, by rw [h.1]; exact hdig⟩
      rintro rfl
      simp at h; omega
    rw [this]
  · rw [if_neg hc] at h ⊢
    obtain ⟨c, hcc, he, hle⟩ := h
    obtain ⟨hrt, hw⟩ := hl.prefixCodec h0 hb hc c hcc
    obtain ⟨b, hb1, hb2⟩ := hw (zeroPad fs.lenType n) (fun x hx => by
      have := zeroPad_digits _ _ x hx
      simp [isAsciiDigit] at this
      simp [isHexDigit]; omega)
    rw [he] at hb1
    cases hb1
    have hlen := zeroPad_length fs.lenType n
    have hL : L.length = fs.lenType := by omega
    refine ⟨hL, ?_⟩
    have hne : L ≠ [] := by rintro rfl; simp at hL; omega
    have hdec := hrt.decode_encode _ _ he
    have : bytesDecode env fs.lenEnc L = .ok (zeroPad fs.lenType n) := by
      simp [bytesDecode, hne, hcc, hdec]
    rw [this]
    simp only
    rw [pyInt_zeroPad env fs.lenType n (by rcases hdig with h | h <;> omega)]

theorem upperCase_of_not_lower {c : Nat} (h : ¬ (97 ≤ c ∧ c ≤ 122)) : (if 97 ≤ c ∧ c ≤ 122 then c - 32 else c) = c := if_neg h

/-- What encode writes for a field, decode reads back. -/
theorem FieldWrites.reads {env : PyEnv} {fs : FieldSpec} {v : Val} {n : Nat} {L D : Bytes} (hl : FieldLaws env fs)
    (h : FieldWrites env fs v n L D) : FieldReads env fs (n : Int) L D (readBack fs v) := by
  obtain ⟨hd, hx, hs⟩ := h
  have hunits : L.length = fs.lenType ∧ unitsOf env fs L = .ok (n : Int) := by
    unfold unitsOf
    by_cases h0 : fs.lenType = 0
    · rw [if_pos h0] at hs ⊢
      exact ⟨by rw [hs.2, h0]; rfl, by rw [hs.1]⟩
    · rw [if_neg h0] at hs ⊢
      obtain ⟨h1, h2⟩ := hs.2.reads h0 hl
      refine ⟨h1, ?_⟩
      rw [h2]
      simp only
      rw [if_neg (by omega)]
  unfold DataWrites at hd
  have htd : ∀ {t : Str} {c : Codec}, ¬ fs.isBinary → env.codec fs.dataEnc = some c → c.encode t = some D →
      (D = [] → t = []) ∧ (D ≠ [] → bytesDecode env fs.dataEnc D = .ok t) := by
    intro t c hb hc he
    have := hl.data hb c hc
    refine ⟨?_, ?_⟩
    · rintro rfl; exact this.nonempty _ he
    · intro hne
      simp [bytesDecode, hne, hc, this.decode_encode _ _ he]
  have hcnt : ∀ {x y : Int}, (if fs.count = py"nibbles" then x else y) = if fs.inNibbles then x else y := by
    intro x y
    by_cases hn : fs.inNibbles
    · rw [if_pos hn, if_pos ((count_nibbles fs).2 hn)]
    · rw [if_neg hn, if_neg (fun h => hn ((count_nibbles fs).1 h))]
  by_cases hb : fs.isBinary
  · rw [if_pos hb] at hd
    have hrb : readBack fs v = upperCase v.text := by rw [readBack, if_pos hb]
    by_cases hn : fs.inNibbles
    · rw [if_pos hn] at hd
      obtain ⟨hn1, hd⟩ := hd
      have hdl : (D.length : Int) = byteFieldLen fs n := by
        rw [byteFieldLen_eq, hcnt, if_pos hn]
        have : 2 * D.length = n + n % 2 := by
          by_cases ho : n % 2 = 1
          · rw [if_pos ho] at hd
            cases hL : firstPad fs.leftPad with
            | some c =>
              simp only [hL] at hd
              have := congrArg List.length hd
              rw [hexText_length, upperCase_length, List.length_cons] at this
              omega
            | none =>
              cases hR : firstPad fs.rightPad with
              | some c =>
                simp only [hL, hR] at hd
                have := congrArg List.length hd
                rw [hexText_length, upperCase_length, List.length_append, List.length_singleton] at this
                omega
              | none => simp [hL, hR] at hd
          · rw [if_neg ho] at hd
            have := congrArg List.length hd
            rw [hexText_length, upperCase_length] at this
            omega
        omega
      refine ⟨hunits.1, hunits.2, ?_, hdl, ?_⟩
      · intro h0
        have h0' : n = 0 := by omega
        have hv : v.text = [] := List.length_eq_zero_iff.1 (by omega)
        rw [hrb, hv]
        rw [h0, byteFieldLen_zero] at hdl
        exact ⟨List.length_eq_zero_iff.1 (by omega), rfl⟩
      · intro h0
        unfold dataValue
        rw [if_pos (show fs.dataEnc = py"b" from hb), hexText_eq, hrb]
        by_cases ho : n % 2 = 1
        · rw [if_pos ⟨(count_nibbles fs).2 hn, by omega⟩]
          rw [if_pos ho] at hd
          unfold stripPad
          simp only [padChar_eq]
          cases hL : firstPad fs.leftPad with
          | some c =>
            simp only [hL] at hd
            have hc := hl.pads c (Or.inl hL)
            have : hexText D = c :: upperCase v.text := by
              rw [hd]; simp only [upperCase, List.map_cons]; rw [if_neg hc]
            rw [this]; simp
          | none =>
            cases hR : firstPad fs.rightPad with
            | some c =>
              simp only [hL, hR] at hd
              have hc := hl.pads c (Or.inr hR)
              have : hexText D = upperCase v.text ++ [c] := by
                rw [hd, upperCase_append]; simp only [upperCase, List.map_cons, List.map_nil]; rw [if_neg hc]
              rw [this]; simp
            | none => simp [hL, hR] at hd
        · rw [if_neg (by rintro ⟨_, h⟩; omega)]
          rw [if_neg ho] at hd
          rw [hd]
    · rw [if_neg hn] at hd
      obtain ⟨hd, hn1⟩ := hd
      have hdl : (D.length : Int) = byteFieldLen fs n := by rw [byteFieldLen_eq, hcnt, if_neg hn, hn1]
      refine ⟨hunits.1, hunits.2, ?_, hdl, ?_⟩
      · intro h0
        have : D = [] := List.length_eq_zero_iff.1 (by omega)
        subst this
        exact ⟨rfl, by rw [hrb, ← hd]; rfl⟩
      · intro h0
        unfold dataValue
        rw [if_pos (show fs.dataEnc = py"b" from hb), hexText_eq, hrb,
          if_neg (by rintro ⟨h, _⟩; exact hn ((count_nibbles fs).1 h)), hd]
  · rw [if_neg hb] at hd
    obtain ⟨t, c, rfl, hc, he, hn1⟩ := hd
    obtain ⟨he1, he2⟩ := htd hb hc he
    have hrb : readBack fs (.str t) = t := by rw [readBack, if_neg hb]; rfl
    have hdl : (D.length : Int) = byteFieldLen fs n := by
      rw [byteFieldLen_eq, hcnt, hn1]
      by_cases hn : fs.inNibbles
      · rw [if_pos hn, if_pos hn]; omega
      · rw [if_neg hn, if_neg hn]
    have hn0 : n = 0 ↔ D = [] := by
      rw [hn1, ← List.length_eq_zero_iff]
      split <;> omega
    refine ⟨hunits.1, hunits.2, ?_, hdl, ?_⟩
    · intro h0
      have h0 := hn0.1 (by omega)
      exact ⟨h0, by rw [hrb]; exact he1 h0⟩
    · intro h0
      unfold dataValue
      rw [if_neg (show ¬ fs.dataEnc = py"b" from hb), he2 (fun h => h0 (by have := hn0.2 h; omega)), hrb]

/-- The value and the data determine the number of units. -/
theorem dataWrites_units {env : PyEnv} {a : FieldSpec} {v : Val} {n m : Nat} {D : Bytes} (h : DataWrites env a v n D) (h' : DataWrites env a v m D) : n = m := by
  unfold DataWrites at h h'
  by_cases hb : a.isBinary
  · rw [if_pos hb] at h h'
    by_cases hn : a.inNibbles
    · rw [if_pos hn] at h h'; rw [h.1, h'.1]
    · rw [if_neg hn] at h h'; rw [h.2, h'.2]
  · rw [if_neg hb] at h h'
    obtain ⟨_, _, _, _, _, h⟩ := h
    obtain ⟨_, _, _, _, _, h'⟩ := h'
    rw [h, h']

end Iso8583
