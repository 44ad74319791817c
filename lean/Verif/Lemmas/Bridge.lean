import Verif.Lemmas.Decode
import Verif.Spec.Laws
/-! # Model helpers in terms of the specification vocabulary -/

namespace Iso8583

theorem hexText_eq (b : Bytes) : upperAscii (bytesHex b) = hexText b := by
  induction b with
  | nil => rfl
  | cons x t ih =>
    have h : ∀ n : Fin 16, (if 97 ≤ hexDigitLower n ∧ hexDigitLower n ≤ 122 then hexDigitLower n - 32 else hexDigitLower n)
        = hexChar n := by decide
    have h1 : x.toNat / 16 < 16 := by have := x.toNat_lt; omega
    have h2 : x.toNat % 16 < 16 := by omega
    rw [bytesHex_cons, hexText, ← ih]
    simp only [upperAscii, List.map_cons, List.cons.injEq, and_true]
    exact ⟨h ⟨_, h1⟩, h ⟨_, h2⟩⟩

theorem hexUp_eq (b : Bytes) : upperAscii (bytesHex b) = hexText b := hexText_eq b

@[simp] theorem hexText_length (b : Bytes) : (hexText b).length = 2 * b.length := by
  rw [← hexText_eq]; simp

theorem count_nibbles (fs : FieldSpec) : fs.count = py"nibbles" ↔ fs.inNibbles := by
  unfold FieldSpec.count FieldSpec.inNibbles
  cases fs.lenCount <;> simp

theorem bytesFor_eq (fs : FieldSpec) (n : Int) : byteFieldLen fs n = bytesFor fs n := by
  rw [byteFieldLen_eq, bytesFor]
  by_cases h : fs.count = py"nibbles"
  · rw [if_pos h, if_pos ((count_nibbles fs).1 h)]
  · rw [if_neg h, if_neg (fun h' => h ((count_nibbles fs).2 h'))]

theorem beValue_append (a : Bytes) (x : UInt8) : beValue (a ++ [x]) = beValue a * 256 + x.toNat := by
  induction a with
  | nil => simp [beValue]
  | cons b t ih =>
    simp only [List.cons_append, beValue, ih, List.length_append, List.length_singleton, Nat.pow_succ,
      Nat.add_mul, Nat.add_assoc, Nat.mul_assoc]

theorem beValue_eq (b : Bytes) : fromBytesBE b = beValue b := by
  have key : ∀ n (b : Bytes), b.length = n → fromBytesBE b = beValue b := by
    intro n
    induction n with
    | zero => intro b hb; have := List.length_eq_zero_iff.1 hb; subst this; rfl
    | succ n ih =>
      intro b hb
      rcases list_concat_cases b with rfl | ⟨t, x, rfl⟩
      · simp at hb
      · rw [fromBytesBE_append, beValue_append, ih t (by simpa using hb)]
  exact key _ b rfl

/-! ## Packed decimal -/

theorem lower_digit_iff {n : Nat} (h : n < 16) : isAsciiDigit (hexDigitLower n) = true ↔ n ≤ 9 := by
  unfold hexDigitLower isAsciiDigit
  split <;> simp <;> omega

theorem bcdValue_some_iff (b : Bytes) : (∃ n, bcdValue b = some n) ↔ ∀ c ∈ bytesHex b, isAsciiDigit c = true := by
  induction b with
  | nil => simp [bcdValue]
  | cons x t ih =>
    have h1 : x.toNat / 16 < 16 := by have := x.toNat_lt; omega
    have h2 : x.toNat % 16 < 16 := by omega
    rw [bytesHex_cons, bcdValue]
    simp only [List.mem_cons, forall_eq_or_imp, lower_digit_iff h1, lower_digit_iff h2, ← ih]
    by_cases h : x.toNat / 16 ≤ 9 ∧ x.toNat % 16 ≤ 9
    · simp only [h, and_self, if_true, true_and]
      constructor
      · rintro ⟨n, hn⟩
        cases hr : bcdValue t with
        | none => simp [hr] at hn
        | some r => exact ⟨r, rfl⟩
      · rintro ⟨r, hr⟩; exact ⟨_, by rw [hr]; rfl⟩
    · simp only [h, if_false]
      constructor
      · rintro ⟨n, hn⟩; cases hn
      · rintro ⟨ha, hb, _⟩; exact absurd ⟨ha, hb⟩ h

theorem decVal_cons_cons (a b : Nat) (s : Str) : ∀ acc, (a :: b :: s).foldl (fun acc c => acc * 10 + (c - 48)) acc =
    (acc * 100 + (a - 48) * 10 + (b - 48)) * 10 ^ s.length + decVal s := by
  have key : ∀ (s : Str) acc, s.foldl (fun acc c => acc * 10 + (c - 48)) acc = acc * 10 ^ s.length + decVal s := by
    intro s
    induction s with
    | nil => simp [decVal]
    | cons c t ih =>
      intro acc
      simp only [decVal, List.foldl_cons, List.length_cons]
      rw [ih, ih (0 * 10 + (c - 48)), Nat.pow_succ]
      simp only [Nat.add_mul, Nat.zero_mul, Nat.zero_add, Nat.add_assoc]
      rw [Nat.mul_comm (10 ^ t.length) 10, Nat.mul_assoc]
  intro acc
  rw [List.foldl_cons, List.foldl_cons, key]
  congr 2
  omega

theorem bcdValue_decVal {b : Bytes} {n : Nat} (h : bcdValue b = some n) : decVal (bytesHex b) = n := by
  induction b generalizing n with
  | nil => simp [bcdValue] at h; subst h; rfl
  | cons x t ih =>
    rw [bcdValue] at h
    split at h
    · next hd =>
      cases hr : bcdValue t with
      | none => simp [hr] at h
      | some r =>
        simp [hr] at h
        rw [bytesHex_cons, decVal, decVal_cons_cons, bytesHex_length, ih hr, Nat.pow_mul, ← h]
        have h1 : hexDigitLower (x.toNat / 16) = 48 + x.toNat / 16 := by simp [hexDigitLower]; omega
        have h2 : hexDigitLower (x.toNat % 16) = 48 + x.toNat % 16 := by simp [hexDigitLower]; omega
        rw [h1, h2]
        simp
    · cases h

theorem bytesHex_chars (b : Bytes) : ∀ c ∈ bytesHex b, isAsciiDigit c = true ∨ (97 ≤ c ∧ c ≤ 102) := by
  intro c hc
  simp only [bytesHex, List.mem_flatMap] at hc
  obtain ⟨x, _, hx⟩ := hc
  have h1 : x.toNat / 16 < 16 := by have := x.toNat_lt; omega
  have h2 : x.toNat % 16 < 16 := by omega
  have h : ∀ n, n < 16 → isAsciiDigit (hexDigitLower n) = true ∨ (97 ≤ hexDigitLower n ∧ hexDigitLower n ≤ 102) := by
    intro n hn
    unfold hexDigitLower isAsciiDigit
    split <;> simp <;> omega
  simp at hx
  rcases hx with rfl | rfl
  · exact h _ h1
  · exact h _ h2

theorem digitsTail_some_digits : ∀ (s : Str) (acc cnt : Nat) (r : Nat × Nat), 95 ∉ s → digitsTail acc cnt s = some r →
    ∀ c ∈ s, isAsciiDigit c = true
  | [], _, _, _, _, _ => by simp
  | [c], acc, cnt, r, _, h => by
    rw [digitsTail] at h
    split at h
    · next hc => simpa using hc
    · cases h
  | c :: d :: t, acc, cnt, r, hu, h => by
    rw [digitsTail] at h
    split at h
    · next hc =>
      have := digitsTail_some_digits (d :: t) _ _ r (by simp at hu ⊢; exact ⟨hu.2.1, hu.2.2⟩) h
      intro x hx
      rcases List.mem_cons.1 hx with rfl | hx
      · exact hc
      · exact this x hx
    · have : c ≠ 95 := by rintro rfl; simp at hu
      simp [this] at h

theorem bytesHex_char_facts {b : Bytes} {c : Nat} (hc : c ∈ bytesHex b) :
    c < 127 ∧ isAsciiSpace c = false ∧ c ≠ 43 ∧ c ≠ 45 ∧ c ≠ 95 := by
  have := bytesHex_chars b c hc
  simp [isAsciiDigit] at this
  simp [isAsciiSpace]
  omega

/-- `int()` of hex text: decimal digits only. -/
theorem pyInt_hex_iff {env : PyEnv} {b : Bytes} {n : Int} : pyInt env (bytesHex b) = some n ↔
    b ≠ [] ∧ (∃ m : Nat, bcdValue b = some m ∧ n = m) ∧ (env.maxStrDigits = 0 ∨ 2 * b.length ≤ env.maxStrDigits) := by
  have hfacts := fun c => bytesHex_char_facts (b := b) (c := c)
  have hdig : ∀ n, pyInt env (bytesHex b) = some n → b ≠ [] ∧ ∀ c ∈ bytesHex b, isAsciiDigit c = true := by
    intro n h
    have hnorm : (bytesHex b).map (intNorm env) = bytesHex b := by
      have : (bytesHex b).map (intNorm env) = (bytesHex b).map id :=
        List.map_congr_left fun c hc => by simp [intNorm, (hfacts c hc).1]
      rw [this, List.map_id]
    have hdw : ∀ l : Str, (∀ c ∈ l, c ∈ bytesHex b) → l.dropWhile isAsciiSpace = l := by
      intro l hl
      cases l with
      | nil => rfl
      | cons c t => rw [List.dropWhile_cons_of_neg]; simp [(hfacts c (hl c (by simp))).2.1]
    have hstrip : stripSpace (bytesHex b) = bytesHex b := by
      rw [stripSpace, hdw _ (fun _ h => h), hdw _ (fun c hc => by simpa using hc), List.reverse_reverse]
    rw [pyInt] at h
    simp only [hnorm, hstrip] at h
    cases hb : bytesHex b with
    | nil => rw [hb] at h; simp [splitSign, digitsVal] at h
    | cons c t =>
      have hc := hfacts c (by rw [hb]; simp)
      rw [hb] at h
      simp only [splitSign, hc.2.2.1, hc.2.2.2.1, if_false, digitsVal] at h
      refine ⟨by rintro rfl; simp at hb, ?_⟩
      cases hd : isAsciiDigit c with
      | false => simp [hd] at h
      | true =>
        simp only [hd, if_true] at h
        cases ht : digitsTail (c - 48) 1 t with
        | none => simp [ht] at h
        | some r =>
          have := digitsTail_some_digits t _ _ r (fun h95 => (hfacts 95 (by rw [hb]; simp [h95])).2.2.2.2 rfl) ht
          intro x hx
          rcases List.mem_cons.1 hx with rfl | hx
          · exact hd
          · exact this x hx
  constructor
  · intro h
    obtain ⟨hne, hd⟩ := hdig n h
    obtain ⟨m, hm⟩ := (bcdValue_some_iff b).2 hd
    have hne' : bytesHex b ≠ [] := by
      intro h0; have := congrArg List.length h0; simp at this; exact hne (List.length_eq_zero_iff.1 (by omega))
    rw [pyInt_digits env hne' hd] at h
    split at h
    · cases h
    · next hl =>
      refine ⟨hne, ⟨m, hm, ?_⟩, ?_⟩
      · rw [bcdValue_decVal hm] at h; exact (Option.some.inj h).symm
      · rw [bytesHex_length] at hl; omega
  · rintro ⟨hne, ⟨m, hm, rfl⟩, hl⟩
    have hne' : bytesHex b ≠ [] := by
      intro h0; have := congrArg List.length h0; simp at this; exact hne (List.length_eq_zero_iff.1 (by omega))
    rw [pyInt_digits env hne' ((bcdValue_some_iff b).1 ⟨m, hm⟩), bcdValue_decVal hm, if_neg]
    rw [bytesHex_length]; omega

theorem declared_of_lenValue {env : PyEnv} {fs : FieldSpec} {L : Bytes} {n : Int} (hL : L ≠ [])
    (h : lenValue env fs L = .ok n) : declared env fs L = some n := by
  unfold lenValue at h
  unfold declared
  split at h
  · next hb => rw [if_pos hb, ← beValue_eq]; simpa using h
  · next hb =>
    rw [if_neg hb]
    split at h
    · next hc =>
      rw [if_pos hc]
      cases hp : pyInt env (bytesHex L) with
      | none => simp [hp] at h
      | some m =>
        simp only [hp, Except.ok.injEq] at h
        subst h
        obtain ⟨_, ⟨m', hm, rfl⟩, _⟩ := pyInt_hex_iff.1 hp
        rw [hm]; rfl
    · next hc =>
      rw [if_neg hc]
      rw [bytesDecode, if_neg hL] at h
      cases he : env.codec fs.lenEnc with
      | none => simp [he] at h
      | some c =>
        simp only [he] at h ⊢
        cases hd : c.decode L with
        | none => simp [hd] at h
        | some t =>
          simp only [hd] at h
          cases hp : pyInt env t with
          | none => simp [hp] at h
          | some m =>
            simp only [hp, Except.ok.injEq] at h
            simp [hp, h]

theorem declared_nonneg {env : PyEnv} {fs : FieldSpec} {L : Bytes} {n : Int}
    (he : fs.lenEnc = py"b" ∨ fs.lenEnc = py"bcd") (h : declared env fs L = some n) : 0 ≤ n := by
  unfold declared at h
  rcases he with he | he
  · simp [he] at h; omega
  · rw [he, if_neg (by decide), if_pos rfl] at h
    cases hm : bcdValue L with
    | none => simp [hm] at h
    | some m => simp [hm] at h; omega

theorem unitsAre_of {env : PyEnv} {fs : FieldSpec} {L : Bytes} {n : Int} (hw : L.length = fs.lenType)
    (h : unitsOf env fs L = .ok n) : UnitsAre env fs L n := by
  refine ⟨hw, ?_⟩
  unfold unitsOf at h
  split at h
  · next h0 => rw [if_pos h0]; simpa using h.symm
  · next h0 =>
    rw [if_neg h0]
    cases hl : lenValue env fs L with
    | error m => simp [hl] at h
    | ok m =>
      simp only [hl] at h
      split at h
      · cases h
      · next hm =>
        cases h
        refine ⟨declared_of_lenValue (by rintro rfl; simp at hw; omega) hl, by omega⟩

theorem padChar_eq (p : Option Str) : padChar p = (firstPad p).toList := by
  cases p with
  | none => rfl
  | some s => cases s <;> rfl

theorem dataSays_of {env : PyEnv} {fs : FieldSpec} {n : Int} {D : Bytes} {v : Str} (hD : D ≠ [])
    (h : dataValue env fs n D = .ok v) : DataSays env fs n D v := by
  unfold dataValue at h
  unfold DataSays
  rw [if_neg hD]
  have hx : ∃ a t, hexText D = a :: t := by
    cases D with
    | nil => exact absurd rfl hD
    | cons b t => exact ⟨_, _, rfl⟩
  obtain ⟨a, t, hx⟩ := hx
  split at h
  · next hb =>
    rw [if_pos (show fs.isBinary from hb)]
    rw [hexText_eq] at h
    by_cases hc : fs.count = py"nibbles" ∧ n % 2 = 1
    · rw [if_pos hc] at h
      rw [if_pos ⟨(count_nibbles fs).1 hc.1, hc.2⟩]
      cases hs : stripPad fs n (hexText D) with
      | error m => simp [hs] at h
      | ok v' =>
        simp only [hs, Except.ok.injEq] at h
        subst h
        unfold stripPad at hs
        rw [padChar_eq, padChar_eq] at hs
        split at hs
        · next hl =>
          have : firstPad fs.leftPad = (hexText D).head? := by
            cases hf : firstPad fs.leftPad with
            | none => simp [hf] at hl
            | some c => simp [hf, hx] at hl; simp [hx, hl]
          rw [if_pos this]
          cases hs
          exact ⟨a, by simp [hx]⟩
        · next hl =>
          have : firstPad fs.leftPad ≠ (hexText D).head? := by
            intro he
            apply hl
            rw [he, hx]; simp
          rw [if_neg this]
          split at hs
          · next hr =>
            cases hs
            cases hf : firstPad fs.rightPad with
            | none => simp [hf] at hr
            | some c =>
              refine ⟨c, rfl, ?_⟩
              simp only [hf, Option.toList] at hr
              have := List.take_append_drop ((hexText D).length - 1) (hexText D)
              rw [hr.2] at this
              exact this.symm
          · cases hs
    · rw [if_neg hc] at h
      rw [if_neg (fun hc' => hc ⟨(count_nibbles fs).2 hc'.1, hc'.2⟩)]
      cases h; rfl
  · next hb =>
    rw [if_neg (show ¬ fs.isBinary from hb)]
    rw [bytesDecode, if_neg hD] at h
    cases he : env.codec fs.dataEnc with
    | none => simp [he] at h
    | some c =>
      simp only [he] at h
      cases hd : c.decode D with
      | none => simp [hd] at h
      | some t =>
        simp only [hd, Except.ok.injEq] at h
        exact ⟨c, rfl, by rw [hd, h]⟩

/-- A decoded field in the vocabulary of the specification. -/
theorem FieldReads.says {env : PyEnv} {fs : FieldSpec} {n : Int} {L D : Bytes} {v : Str}
    (h : FieldReads env fs n L D v) :
    UnitsAre env fs L n ∧ (D.length : Int) = bytesFor fs n ∧ DataSays env fs n D v := by
  refine ⟨unitsAre_of h.lenWidth h.units, by rw [h.dataLen, bytesFor_eq], ?_⟩
  by_cases h0 : n = 0
  · obtain ⟨rfl, rfl⟩ := h.empty h0
    simp [DataSays]
  · by_cases hD : D = []
    · subst hD
      have := h.data h0
      unfold dataValue at this
      simp only [DataSays, if_true]
      split at this
      · split at this
        · simp [stripPad, padChar_eq, upperAscii] at this
          cases hl : firstPad fs.leftPad <;> cases hr : firstPad fs.rightPad <;> simp [hl, hr] at this
        · simpa [upperAscii] using this.symm
      · simpa [bytesDecode] using this.symm
    · exact dataSays_of hD (h.data h0)

/-! ## Bitmaps as hex text -/

theorem hexVal?_hexDigitValue {c x : Nat} (h : hexVal? c = some x) : hexDigitValue c = x ∧ x < 16 := by
  unfold hexVal? at h
  unfold hexDigitValue
  split at h
  · cases h; constructor
    · rw [if_pos (by omega)]
    · omega
  · split at h
    · cases h; constructor
      · rw [if_neg (by omega), if_pos (by omega)]
      · omega
    · split at h
      · cases h; constructor
        · rw [if_neg (by omega), if_neg (by omega)]
        · omega
      · cases h

theorem a2bHex_getElem : ∀ {t : Str} {b : Bytes}, a2bHex t = some b → ∀ j,
    (∀ x, b[j]? = some x → ∃ c d u v, t[2 * j]? = some c ∧ t[2 * j + 1]? = some d ∧ hexVal? c = some u ∧
      hexVal? d = some v ∧ x.toNat = u * 16 + v) ∧ (b[j]? = none → t[2 * j]? = none ∧ t[2 * j + 1]? = none)
  | [], b, h, j => by cases h; simp
  | [_], b, h, j => by cases h
  | p :: q :: t, b, h, j => by
    obtain ⟨x, y, r, hx, hy, hr, rfl⟩ := a2bHex_cons_inv h
    have ih := a2bHex_getElem hr
    cases j with
    | zero =>
      have := (hexVal?_hexDigitValue hx).2
      have := (hexVal?_hexDigitValue hy).2
      refine ⟨?_, by simp⟩
      intro z hz
      simp only [List.getElem?_cons_zero, Option.some.injEq] at hz
      subst hz
      exact ⟨p, q, x, y, rfl, rfl, hx, hy, u8_toNat (by omega)⟩
    | succ j =>
      have e1 : 2 * (j + 1) = (2 * j + 1) + 1 := by omega
      rw [e1]
      simp only [List.getElem?_cons_succ]
      exact ih j

theorem testBit_nibbles {u v k : Nat} (hv : v < 16) :
    (u * 16 + v).testBit k = if k < 4 then v.testBit k else u.testBit (k - 4) := by
  rw [show u * 16 + v = 2 ^ 4 * u + v by omega, Nat.testBit_two_pow_mul_add u (by omega : v < 2 ^ 4)]

theorem bitOn_eq_hexBit {t : Str} {b : Bytes} (h : a2bHex t = some b) {i : Nat} : bitOn b i = hexBit t i := by
  have key := a2bHex_getElem h ((i - 1) / 8)
  unfold bitOn hexBit
  cases hb : b[(i - 1) / 8]? with
  | none =>
    obtain ⟨h1, h2⟩ := key.2 hb
    have : (i - 1) / 4 = 2 * ((i - 1) / 8) ∨ (i - 1) / 4 = 2 * ((i - 1) / 8) + 1 := by omega
    rcases this with e | e <;> simp [e, h1, h2]
  | some x =>
    obtain ⟨c, d, u, v, h1, h2, hu, hv, hx⟩ := key.1 x hb
    obtain ⟨hc, _⟩ := hexVal?_hexDigitValue hu
    obtain ⟨hd, hv16⟩ := hexVal?_hexDigitValue hv
    simp only [hx]
    rw [testBit_nibbles hv16]
    have : (i - 1) / 4 = 2 * ((i - 1) / 8) ∧ (i - 1) % 8 < 4 ∨ (i - 1) / 4 = 2 * ((i - 1) / 8) + 1 ∧ 4 ≤ (i - 1) % 8 := by
      omega
    rcases this with ⟨e, hlt⟩ | ⟨e, hge⟩
    · rw [e, h1, if_neg (by omega)]
      simp only [hc]
      congr 1; omega
    · rw [e, h2, if_pos (by omega)]
      simp only [hd]
      congr 1; omega

theorem hexBit_append_left {a b : Str} {i : Nat} (h : i ≤ 4 * a.length) (hi : 1 ≤ i) : hexBit (a ++ b) i = hexBit a i := by
  unfold hexBit
  rw [List.getElem?_append_left (by omega)]

theorem hexBit_append_right {a b : Str} {i : Nat} (hi : 1 ≤ i) :
    hexBit (a ++ b) (4 * a.length + i) = hexBit b i := by
  unfold hexBit
  rw [List.getElem?_append_right (by omega)]
  have e1 : (4 * a.length + i - 1) / 4 - a.length = (i - 1) / 4 := by omega
  have e2 : (4 * a.length + i - 1) % 4 = (i - 1) % 4 := by omega
  rw [e1, e2]

theorem hexBit_le {t : Str} {i : Nat} (hi : 1 ≤ i) (h : hexBit t i = true) : i ≤ 4 * t.length := by
  unfold hexBit at h
  split at h
  · next c hc =>
    have := (List.getElem?_eq_some_iff.1 hc).1
    omega
  · cases h

end Iso8583
