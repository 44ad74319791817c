import Verif.Model.Py
/-! # Lemmas about decimal text, `int()`, hex text and binary integers -/

namespace Iso8583

/-! ## Decimal text -/

theorem decAux_fuel : ∀ (f g n : Nat), n < f → n < g → decAux f n = decAux g n := by
  intro f
  induction f with
  | zero => intro g n h; omega
  | succ f ih =>
    intro g n hf hg
    cases g with
    | zero => omega
    | succ g =>
      simp only [decAux]
      split
      · rfl
      · rw [ih g (n / 10) (by omega) (by omega)]

theorem natStr_eq (n : Nat) : natStr n = if n < 10 then [48 + n] else natStr (n / 10) ++ [48 + n % 10] := by
  have h1 : natStr n = if n < 10 then [48 + n] else decAux n (n / 10) ++ [48 + n % 10] := rfl
  rw [h1]
  split
  · rfl
  · rw [natStr, decAux_fuel n (n / 10 + 1) (n / 10) (by omega) (by omega)]

/-- The number a list of decimal digit characters denotes. -/
def decVal (s : Str) : Nat := s.foldl (fun acc c => acc * 10 + (c - 48)) 0

theorem natStr_induct {P : Nat → Prop} (base : ∀ n, n < 10 → P n) (step : ∀ n, ¬ n < 10 → P (n / 10) → P n) : ∀ n, P n := by
  intro n
  induction n using Nat.strongRecOn with
  | _ n ih =>
    by_cases h : n < 10
    · exact base n h
    · exact step n h (ih _ (by omega))

theorem natStr_ne_nil (n : Nat) : natStr n ≠ [] := by
  rw [natStr_eq]; split <;> simp

theorem natStr_digits (n : Nat) : ∀ c ∈ natStr n, isAsciiDigit c = true := by
  induction n using natStr_induct with
  | base n h => rw [natStr_eq]; simp [h, isAsciiDigit]; omega
  | step n h ih =>
    rw [natStr_eq]; simp only [h, if_false]
    intro c hc
    rcases List.mem_append.1 hc with hc | hc
    · exact ih c hc
    · simp at hc; subst hc; simp [isAsciiDigit]; omega

theorem decVal_append (s : Str) (c : Nat) : decVal (s ++ [c]) = decVal s * 10 + (c - 48) := by
  simp [decVal, List.foldl_append]

@[simp] theorem decVal_natStr (n : Nat) : decVal (natStr n) = n := by
  induction n using natStr_induct with
  | base n h => rw [natStr_eq]; simp [h, decVal]
  | step n h ih =>
    rw [natStr_eq]; simp only [h, if_false]
    rw [decVal_append, ih]; omega

theorem natStr_inj {m n : Nat} : natStr m = natStr n ↔ m = n := by
  constructor
  · intro h; rw [← decVal_natStr m, h, decVal_natStr]
  · rintro rfl; rfl

theorem natStr_length_pos (n : Nat) : 0 < (natStr n).length := by
  have := natStr_ne_nil n
  cases h : natStr n with
  | nil => exact absurd h this
  | cons _ _ => simp

theorem natStr_length_le {w n : Nat} (hw : 1 ≤ w) : (natStr n).length ≤ w ↔ n < 10 ^ w := by
  induction n using natStr_induct generalizing w with
  | base n h =>
    rw [natStr_eq]; simp only [h, if_true, List.length_singleton]
    have : 10 ^ 1 ≤ 10 ^ w := Nat.pow_le_pow_right (by omega) hw
    constructor <;> intro <;> omega
  | step n h ih =>
    rw [natStr_eq]; simp only [h, if_false, List.length_append, List.length_singleton]
    have hl := natStr_length_pos (n / 10)
    cases w with
    | zero => omega
    | succ w =>
      by_cases hw1 : w = 0
      · subst hw1; constructor <;> intro hh
        · omega
        · simp at hh; omega
      · have := ih (w := w) (by omega)
        rw [Nat.add_le_add_iff_right, this, Nat.pow_succ]
        omega

theorem decVal_replicate_zero (k : Nat) (s : Str) : decVal (List.replicate k 48 ++ s) = decVal s := by
  induction k with
  | zero => simp
  | succ k ih =>
    rw [← ih]
    simp [decVal, List.replicate_succ]

@[simp] theorem decVal_zeroPad (w n : Nat) : decVal (zeroPad w n) = n := by
  simp [zeroPad, decVal_replicate_zero]

theorem zeroPad_digits (w n : Nat) : ∀ c ∈ zeroPad w n, isAsciiDigit c = true := by
  intro c hc
  rcases List.mem_append.1 hc with hc | hc
  · have := (List.mem_replicate.1 hc).2; subst this; decide
  · exact natStr_digits n c hc

theorem zeroPad_length (w n : Nat) : (zeroPad w n).length = max w (natStr n).length := by
  simp [zeroPad]; omega

theorem zeroPad_ne_nil (w n : Nat) : zeroPad w n ≠ [] := by
  have := natStr_ne_nil n
  simp [zeroPad, this]

theorem zeroPad_length_of_lt {w n : Nat} (hw : 1 ≤ w) (h : n < 10 ^ w) : (zeroPad w n).length = w := by
  rw [zeroPad_length]
  have := (natStr_length_le hw).2 h
  omega

/-! ## `int()` -/

theorem intNorm_digit (env : PyEnv) {c : Nat} (h : isAsciiDigit c = true) : intNorm env c = c := by
  simp [isAsciiDigit] at h
  simp [intNorm]; omega

theorem map_intNorm_digits (env : PyEnv) {s : Str} (h : ∀ c ∈ s, isAsciiDigit c = true) :
    s.map (intNorm env) = s := by
  induction s with
  | nil => rfl
  | cons c t ih =>
    simp at h
    simp [intNorm_digit env h.1, ih h.2]

theorem digit_not_space {c : Nat} (h : isAsciiDigit c = true) : isAsciiSpace c = false := by
  simp [isAsciiDigit] at h
  simp [isAsciiSpace]; omega

theorem digitsTail_digits : ∀ (s : Str) (acc cnt : Nat), (∀ c ∈ s, isAsciiDigit c = true) →
    digitsTail acc cnt s = some (s.foldl (fun acc c => acc * 10 + (c - 48)) acc, cnt + s.length)
  | [], acc, cnt, _ => by simp [digitsTail]
  | [c], acc, cnt, h => by simp at h; simp [digitsTail, h]
  | c :: d :: t, acc, cnt, h => by
    have hc := h c (by simp)
    have ht : ∀ x ∈ d :: t, isAsciiDigit x = true := fun x hx => h x (List.mem_cons_of_mem _ hx)
    rw [digitsTail]
    simp only [hc, if_true]
    rw [digitsTail_digits (d :: t) _ _ ht]
    simp; omega

theorem digitsVal_digits {s : Str} (hs : s ≠ []) (h : ∀ c ∈ s, isAsciiDigit c = true) :
    digitsVal s = some (decVal s, s.length) := by
  cases s with
  | nil => exact absurd rfl hs
  | cons c t =>
    simp at h
    simp only [digitsVal, h.1, if_true]
    rw [digitsTail_digits t _ _ h.2]
    simp [decVal, Nat.add_comm]

theorem dropWhile_digits {s : Str} (h : ∀ c ∈ s, isAsciiDigit c = true) : s.dropWhile isAsciiSpace = s := by
  cases s with
  | nil => rfl
  | cons c t => simp at h; simp [digit_not_space h.1]

/-- `int()` on a non-empty run of ASCII digits. -/
theorem pyInt_digits (env : PyEnv) {s : Str} (hs : s ≠ []) (h : ∀ c ∈ s, isAsciiDigit c = true) :
    pyInt env s = if env.maxStrDigits ≠ 0 ∧ s.length > env.maxStrDigits then none else some (decVal s : Int) := by
  have hr : ∀ c ∈ s.reverse, isAsciiDigit c = true := by simpa using h
  have hst : stripSpace s = s := by
    rw [stripSpace, dropWhile_digits h, dropWhile_digits hr, List.reverse_reverse]
  have hsg : splitSign s = (false, s) := by
    cases s with
    | nil => exact absurd rfl hs
    | cons c t =>
      have hc : isAsciiDigit c = true := h c (by simp)
      simp [isAsciiDigit] at hc
      have h43 : c ≠ 43 := by omega
      have h45 : c ≠ 45 := by omega
      simp [splitSign, h43, h45]
  unfold pyInt
  simp only [map_intNorm_digits env h, hst, hsg, digitsVal_digits hs h]
  simp

theorem pyInt_natStr (env : PyEnv) (n : Nat)
    (hl : env.maxStrDigits = 0 ∨ (natStr n).length ≤ env.maxStrDigits) : pyInt env (natStr n) = some (n : Int) := by
  rw [pyInt_digits env (natStr_ne_nil n) (natStr_digits n), decVal_natStr, if_neg]
  omega

theorem pyInt_zeroPad (env : PyEnv) (w n : Nat)
    (hl : env.maxStrDigits = 0 ∨ (zeroPad w n).length ≤ env.maxStrDigits) :
    pyInt env (zeroPad w n) = some (n : Int) := by
  rw [pyInt_digits env (zeroPad_ne_nil w n) (zeroPad_digits w n), decVal_zeroPad, if_neg]
  omega

theorem u8_toNat {n : Nat} (h : n < 256) : (UInt8.ofNat n).toNat = n := by
  simp; omega

/-! ## Hex text -/

/-- Upper-case one ASCII character. -/
def upC (c : Nat) : Nat := if 97 ≤ c ∧ c ≤ 122 then c - 32 else c

theorem upperAscii_eq (s : Str) : upperAscii s = s.map upC := rfl

theorem hexVal?_lower {n : Nat} (h : n < 16) : hexVal? (hexDigitLower n) = some n := by
  have : ∀ n : Fin 16, hexVal? (hexDigitLower n) = some n.1 := by decide
  exact this ⟨n, h⟩

theorem hexVal?_upper {n : Nat} (h : n < 16) : hexVal? (upC (hexDigitLower n)) = some n := by
  have : ∀ n : Fin 16, hexVal? (upC (hexDigitLower n)) = some n.1 := by decide
  exact this ⟨n, h⟩

theorem hexVal?_lt {c n : Nat} (h : hexVal? c = some n) : n < 16 := by
  unfold hexVal? at h
  split at h
  · simp at h; omega
  · split at h
    · simp at h; omega
    · split at h
      · simp at h; omega
      · simp at h

/-- A hex digit is determined, up to case, by its value. -/
theorem upC_of_hexVal? {c n : Nat} (h : hexVal? c = some n) : upC (hexDigitLower n) = upC c := by
  unfold hexVal? at h
  unfold hexDigitLower upC
  split at h
  · simp at h; subst h; split <;> split <;> split <;> omega
  · split at h
    · simp at h; subst h; split <;> split <;> split <;> omega
    · split at h
      · simp at h; subst h; split <;> split <;> split <;> omega
      · simp at h

theorem hexDigitLower_of_digit {c n : Nat} (hd : isAsciiDigit c = true) (h : hexVal? c = some n) :
    hexDigitLower n = c := by
  simp [isAsciiDigit] at hd
  simp [hexVal?, hd] at h
  subst h
  unfold hexDigitLower
  split <;> omega

theorem hexVal?_of_digit {c : Nat} (hd : isAsciiDigit c = true) : hexVal? c = some (c - 48) := by
  simp [isAsciiDigit] at hd
  simp [hexVal?, hd]

theorem byte_hi_lo (b : UInt8) : UInt8.ofNat (b.toNat / 16 * 16 + b.toNat % 16) = b := by
  have : b.toNat / 16 * 16 + b.toNat % 16 = b.toNat := by omega
  rw [this]; simp

@[simp] theorem bytesHex_nil : bytesHex [] = [] := rfl

theorem bytesHex_cons (b : UInt8) (t : Bytes) :
    bytesHex (b :: t) = hexDigitLower (b.toNat / 16) :: hexDigitLower (b.toNat % 16) :: bytesHex t := by
  simp [bytesHex]

theorem bytesHex_append (a b : Bytes) : bytesHex (a ++ b) = bytesHex a ++ bytesHex b := by
  simp [bytesHex]

theorem upperAscii_append (a b : Str) : upperAscii (a ++ b) = upperAscii a ++ upperAscii b := by
  simp [upperAscii]

@[simp] theorem bytesHex_length (b : Bytes) : (bytesHex b).length = 2 * b.length := by
  induction b with
  | nil => rfl
  | cons x t ih => simp [bytesHex_cons, ih]; omega

@[simp] theorem upperAscii_length (s : Str) : (upperAscii s).length = s.length := by simp [upperAscii]

theorem a2bHex_bytesHex (b : Bytes) : a2bHex (bytesHex b) = some b := by
  induction b with
  | nil => rfl
  | cons x t ih =>
    have h1 : x.toNat / 16 < 16 := by have := x.toNat_lt; omega
    have h2 : x.toNat % 16 < 16 := by omega
    rw [bytesHex_cons, a2bHex, hexVal?_lower h1, hexVal?_lower h2, ih]
    simp only [byte_hi_lo]

theorem a2bHex_upper (s : Str) : a2bHex (upperAscii s) = a2bHex s := by
  have hu : ∀ c, hexVal? (upC c) = hexVal? c := by
    intro c
    unfold upC hexVal?
    split
    · split
      · omega
      · split
        · split
          · omega
          · split
            · omega
            · split
              · simp; omega
              · omega
        · split
          · omega
          · split
            · omega
            · split
              · omega
              · split
                · omega
                · rfl
    · rfl
  have key : ∀ s : Str, a2bHex (s.map upC) = a2bHex s := by
    intro s
    induction s using a2bHex.induct with
    | case1 => rfl
    | case2 => rfl
    | case3 a b t x y r hr hy hx ih => simp only [List.map_cons, a2bHex, hu, ih]
    | case4 a b t h ih => simp only [List.map_cons, a2bHex, hu, ih]
  exact key s

theorem a2bHex_bytesHex_upper (b : Bytes) : a2bHex (upperAscii (bytesHex b)) = some b := by
  rw [a2bHex_upper, a2bHex_bytesHex]

theorem a2bHex_cons_inv {a b : Nat} {t : Str} {r : Bytes} (h : a2bHex (a :: b :: t) = some r) :
    ∃ x y r', hexVal? a = some x ∧ hexVal? b = some y ∧ a2bHex t = some r' ∧ r = UInt8.ofNat (x * 16 + y) :: r' := by
  rw [a2bHex] at h
  split at h
  · next x y r' hx hy hr => cases h; exact ⟨x, y, r', hx, hy, hr, rfl⟩
  · cases h

theorem a2bHex_inv : ∀ {t : Str} {b : Bytes}, a2bHex t = some b → upperAscii (bytesHex b) = upperAscii t
  | [], b, h => by cases h; rfl
  | [_], b, h => by cases h
  | x :: y :: t, b, h => by
    obtain ⟨u, v, r, hu, hv, hr, rfl⟩ := a2bHex_cons_inv h
    have hu' := hexVal?_lt hu
    have hv' := hexVal?_lt hv
    have ih := a2bHex_inv hr
    have h1 : (UInt8.ofNat (u * 16 + v)).toNat = u * 16 + v := u8_toNat (by omega)
    rw [bytesHex_cons, h1]
    have h2 : (u * 16 + v) / 16 = u := by omega
    have h3 : (u * 16 + v) % 16 = v := by omega
    simp only [h2, h3, upperAscii_eq, List.map_cons, upC_of_hexVal? hu, upC_of_hexVal? hv]
    rw [upperAscii_eq, upperAscii_eq] at ih
    rw [ih]

theorem a2bHex_length {t : Str} {b : Bytes} (h : a2bHex t = some b) : t.length = 2 * b.length := by
  have := congrArg List.length (a2bHex_inv h)
  simpa using this.symm

theorem a2bHex_digits_inv : ∀ {t : Str} {b : Bytes}, (∀ c ∈ t, isAsciiDigit c = true) →
    a2bHex t = some b → bytesHex b = t
  | [], b, _, h => by cases h; rfl
  | [_], b, _, h => by cases h
  | x :: y :: t, b, hd, h => by
    obtain ⟨u, v, r, hu, hv, hr, rfl⟩ := a2bHex_cons_inv h
    have hu' := hexVal?_lt hu
    have hv' := hexVal?_lt hv
    have ih := a2bHex_digits_inv (fun c hc => hd c (by simp [hc])) hr
    have h1 : (UInt8.ofNat (u * 16 + v)).toNat = u * 16 + v := u8_toNat (by omega)
    rw [bytesHex_cons, h1]
    have h2 : (u * 16 + v) / 16 = u := by omega
    have h3 : (u * 16 + v) % 16 = v := by omega
    rw [h2, h3, hexDigitLower_of_digit (hd x (by simp)) hu, hexDigitLower_of_digit (hd y (by simp)) hv, ih]

theorem a2bHex_isSome_of_hex : ∀ {t : Str}, t.length % 2 = 0 → (∀ c ∈ t, (hexVal? c).isSome) → ∃ b, a2bHex t = some b
  | [], _, _ => ⟨[], rfl⟩
  | [_], h, _ => by simp at h
  | x :: y :: t, hl, h => by
    obtain ⟨r, hr⟩ := a2bHex_isSome_of_hex (t := t) (by simp at hl; omega) (fun c hc => h c (by simp [hc]))
    have hx := h x (by simp)
    have hy := h y (by simp)
    obtain ⟨u, hu⟩ := Option.isSome_iff_exists.1 hx
    obtain ⟨v, hv⟩ := Option.isSome_iff_exists.1 hy
    exact ⟨_, by rw [a2bHex, hu, hv, hr]⟩

theorem a2bHex_isSome_of_digits {t : Str} (hl : t.length % 2 = 0) (h : ∀ c ∈ t, isAsciiDigit c = true) :
    ∃ b, a2bHex t = some b :=
  a2bHex_isSome_of_hex hl fun c hc => by simp [hexVal?_of_digit (h c hc)]

theorem a2bHex_hex : ∀ {t : Str} {b : Bytes}, a2bHex t = some b → ∀ c ∈ t, (hexVal? c).isSome
  | [], b, _ => by simp
  | [_], b, h => by cases h
  | x :: y :: t, b, h => by
    obtain ⟨u, v, r, hu, hv, hr, rfl⟩ := a2bHex_cons_inv h
    have ih := a2bHex_hex hr
    intro c hc
    simp at hc
    rcases hc with rfl | rfl | hc
    · simp [hu]
    · simp [hv]
    · exact ih c hc

theorem hexVal?_not_space {c : Nat} (h : (hexVal? c).isSome) : isAsciiSpace c = false := by
  unfold hexVal? at h
  simp only [isAsciiSpace]
  split at h
  · simp; omega
  · split at h
    · simp; omega
    · split at h
      · simp; omega
      · simp at h

/-- Without white space `bytes.fromhex` and `a2b_hex` agree. -/
theorem fromHex_eq_a2bHex {t : Str} (h : ∀ c ∈ t, isAsciiSpace c = false) : fromHex t = a2bHex t := by
  induction t using a2bHex.induct with
  | case1 => rfl
  | case2 a => simp at h; simp [fromHex, a2bHex, h]
  | case3 a b t x y r hr hy hx ih =>
    have := ih (fun c hc => h c (by simp [hc]))
    simp [fromHex, a2bHex, h a (by simp), this]
  | case4 a b t hn ih =>
    have := ih (fun c hc => h c (by simp [hc]))
    simp [fromHex, a2bHex, h a (by simp), this]

theorem fromHex_of_a2bHex {t : Str} {b : Bytes} (h : a2bHex t = some b) : fromHex t = some b := by
  rw [fromHex_eq_a2bHex (fun c hc => hexVal?_not_space (a2bHex_hex h c hc)), h]

theorem fromHex_bytesHex_upper (b : Bytes) : fromHex (upperAscii (bytesHex b)) = some b :=
  fromHex_of_a2bHex (a2bHex_bytesHex_upper b)

theorem bytesHex_upper_inj {a b : Bytes} (h : upperAscii (bytesHex a) = upperAscii (bytesHex b)) : a = b := by
  have := congrArg a2bHex h
  simpa [a2bHex_bytesHex_upper] using this

/-! ## Binary integers -/

@[simp] theorem toBytesAux_length (w n : Nat) : (toBytesAux w n).length = w := by
  induction w generalizing n with
  | zero => rfl
  | succ w ih => simp [toBytesAux, ih]

theorem fromBytesBE_append (a : Bytes) (x : UInt8) : fromBytesBE (a ++ [x]) = fromBytesBE a * 256 + x.toNat := by
  simp [fromBytesBE, List.foldl_append]

theorem fromBytesBE_toBytesAux (w n : Nat) (h : n < 256 ^ w) : fromBytesBE (toBytesAux w n) = n := by
  induction w generalizing n with
  | zero => simp at h; subst h; rfl
  | succ w ih =>
    rw [toBytesAux, fromBytesBE_append, ih (n / 256) (by rw [Nat.pow_succ] at h; omega),
      u8_toNat (by omega)]
    omega

theorem toBytesBE_some {n w : Nat} {b : Bytes} (h : toBytesBE n w = some b) :
    b.length = w ∧ fromBytesBE b = n := by
  unfold toBytesBE at h
  split at h
  · next hlt => cases h; exact ⟨toBytesAux_length w n, fromBytesBE_toBytesAux w n hlt⟩
  · cases h

theorem list_concat_cases {α : Type} : ∀ (l : List α), l = [] ∨ ∃ t x, l = t ++ [x] := by
  intro l
  induction l with
  | nil => exact Or.inl rfl
  | cons a t ih =>
    rcases ih with rfl | ⟨t', x, rfl⟩
    · exact Or.inr ⟨[], a, rfl⟩
    · exact Or.inr ⟨a :: t', x, rfl⟩

theorem fromBytesBE_lt (b : Bytes) : fromBytesBE b < 256 ^ b.length := by
  have key : ∀ n (b : Bytes), b.length = n → fromBytesBE b < 256 ^ n := by
    intro n
    induction n with
    | zero => intro b hb; have := List.length_eq_zero_iff.1 hb; subst this; decide
    | succ n ih =>
      intro b hb
      rcases list_concat_cases b with rfl | ⟨t, x, rfl⟩
      · simp at hb
      · have := ih t (by simpa using hb)
        rw [fromBytesBE_append, Nat.pow_succ]
        have := x.toNat_lt
        omega
  exact key _ b rfl

theorem toBytesAux_fromBytesBE (b : Bytes) : toBytesAux b.length (fromBytesBE b) = b := by
  have key : ∀ n (b : Bytes), b.length = n → toBytesAux n (fromBytesBE b) = b := by
    intro n
    induction n with
    | zero => intro b hb; have := List.length_eq_zero_iff.1 hb; subst this; rfl
    | succ n ih =>
      intro b hb
      rcases list_concat_cases b with rfl | ⟨t, x, rfl⟩
      · simp at hb
      · have := ih t (by simpa using hb)
        have hx := x.toNat_lt
        rw [fromBytesBE_append, toBytesAux]
        have h1 : (fromBytesBE t * 256 + x.toNat) / 256 = fromBytesBE t := by omega
        have h2 : (fromBytesBE t * 256 + x.toNat) % 256 = x.toNat := by omega
        rw [h1, h2, this]; simp
  exact key _ b rfl

theorem toBytesBE_fromBytesBE (b : Bytes) : toBytesBE (fromBytesBE b) b.length = some b := by
  rw [toBytesBE, if_pos (fromBytesBE_lt b), toBytesAux_fromBytesBE]

end Iso8583
