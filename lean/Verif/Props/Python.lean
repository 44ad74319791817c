import Verif.Spec.Python
import Verif.Model.Codecs
import Verif.Lemmas.Num
/-!
# `int`, `str`, `bytes.fromhex` and slices do what the Python reference says (C77)
-/

namespace Iso8583

/-! ## `int` -/

theorem blank_norm {env : PyEnv} (hs : SaneDigits env) {c : Nat} : isAsciiSpace (intNorm env c) = true ↔ Blank env c := by
  unfold Blank isAsciiSpace intNorm
  simp only [Bool.or_eq_true, Bool.and_eq_true, decide_eq_true_eq, beq_iff_eq]
  by_cases h : c < 127
  · rw [if_pos h]; omega
  · rw [if_neg h]
    cases hsp : env.isSpaceCp c with
    | true => simp; omega
    | false =>
      simp only [Bool.false_eq_true, if_false, and_false, or_false]
      cases hd : env.decimalCp c with
      | none => simp; omega
      | some d => have := hs _ _ hd; simp; omega

theorem digit_norm {env : PyEnv} (hs : SaneDigits env) {c d : Nat} : (isAsciiDigit (intNorm env c) = true ∧ d = intNorm env c - 48) ↔ DigitOf env c d := by
  unfold DigitOf isAsciiDigit intNorm
  simp only [Bool.and_eq_true, decide_eq_true_eq]
  by_cases h : c < 127
  · rw [if_pos h]; omega
  · rw [if_neg h]
    cases hsp : env.isSpaceCp c with
    | true => simp; omega
    | false =>
      simp only [Bool.false_eq_true, if_false]
      cases hd : env.decimalCp c with
      | none => simp; omega
      | some e => have := hs _ _ hd; simp; omega

theorem mark_norm {env : PyEnv} (hs : SaneDigits env) {c m : Nat} (hm : m = 43 ∨ m = 45 ∨ m = 95) : intNorm env c = m ↔ c = m := by
  unfold intNorm
  by_cases h : c < 127
  · rw [if_pos h]
  · rw [if_neg h]
    cases hsp : env.isSpaceCp c with
    | true => simp; omega
    | false =>
      simp only [Bool.false_eq_true, if_false]
      cases hd : env.decimalCp c with
      | none => simp; omega
      | some e => have := hs _ _ hd; simp; omega

theorem foldl_digits (ds : List Nat) (a : Nat) : ds.foldl (fun acc d => acc * 10 + d) a = a * 10 ^ ds.length + digitsValue ds := by
  induction ds generalizing a with
  | nil => simp [digitsValue]
  | cons d t ih =>
    rw [List.foldl_cons, ih, digitsValue, List.length_cons, Nat.pow_succ, Nat.add_mul, Nat.mul_assoc, Nat.mul_comm 10, Nat.add_assoc]

theorem digitOf_notMark {env : PyEnv} {c d m : Nat} (h : DigitOf env c d) (hm : m = 43 ∨ m = 45 ∨ m = 95) : c ≠ m := by
  rintro rfl
  rcases h with h | h <;> omega

/-- Digits that follow a first one. -/
inductive DigitRest (env : PyEnv) : Str → List Nat → Prop
  | nil : DigitRest env [] []
  | next {c d : Nat} {t : Str} {ds : List Nat} : DigitOf env c d → DigitRest env t ds → DigitRest env (c :: t) (d :: ds)
  | under {c d : Nat} {t : Str} {ds : List Nat} : DigitOf env c d → DigitRest env t ds → DigitRest env (95 :: c :: t) (d :: ds)

theorem digitPart_rest {env : PyEnv} {t : Str} {ds : List Nat} :
    DigitPart env t ds ↔ ∃ c d u es, t = c :: u ∧ ds = d :: es ∧ DigitOf env c d ∧ DigitRest env u es := by
  constructor
  · intro h
    induction h with
    | last h => exact ⟨_, _, _, _, rfl, rfl, h, .nil⟩
    | next h _ ih =>
      obtain ⟨c, d, u, es, rfl, rfl, h1, h2⟩ := ih
      exact ⟨_, _, _, _, rfl, rfl, h, .next h1 h2⟩
    | under h _ ih =>
      obtain ⟨c, d, u, es, rfl, rfl, h1, h2⟩ := ih
      exact ⟨_, _, _, _, rfl, rfl, h, .under h1 h2⟩
  · rintro ⟨c, d, u, es, rfl, rfl, h1, h2⟩
    induction h2 generalizing c d with
    | nil => exact .last h1
    | next h _ ih => exact .next h1 (ih _ _ h)
    | under h _ ih => exact .under h1 (ih _ _ h)

theorem digitsTail_iff {env : PyEnv} (hs : SaneDigits env) : ∀ (t : Str) (a k n m : Nat),
    digitsTail a k (t.map (intNorm env)) = some (n, m) ↔
      ∃ ds, DigitRest env t ds ∧ n = ds.foldl (fun acc d => acc * 10 + d) a ∧ m = k + ds.length
  | [], a, k, n, m => by
    rw [List.map_nil, digitsTail]
    constructor
    · intro h; cases h; exact ⟨[], .nil, rfl, rfl⟩
    · rintro ⟨ds, h, rfl, rfl⟩; cases h; rfl
  | [c], a, k, n, m => by
    rw [List.map_cons, List.map_nil, digitsTail]
    by_cases hd : isAsciiDigit (intNorm env c) = true
    · rw [if_pos hd]
      have hc := (digit_norm hs).1 ⟨hd, rfl⟩
      constructor
      · intro h; cases h; exact ⟨_, .next hc .nil, rfl, rfl⟩
      · rintro ⟨ds, h, rfl, rfl⟩
        cases h with
        | next h1 h2 =>
          cases h2
          rw [((digit_norm hs).2 h1).2]; rfl
    · rw [if_neg hd]
      constructor
      · intro h; cases h
      · rintro ⟨ds, h, _⟩
        cases h with
        | next h1 h2 => exact absurd ((digit_norm hs).2 h1).1 hd
  | c :: e :: t, a, k, n, m => by
    rw [List.map_cons, List.map_cons, digitsTail]
    by_cases hd : isAsciiDigit (intNorm env c) = true
    · rw [if_pos hd, ← List.map_cons, digitsTail_iff hs (e :: t)]
      have hc := (digit_norm hs).1 ⟨hd, rfl⟩
      constructor
      · rintro ⟨ds, h, rfl, rfl⟩
        exact ⟨_, .next hc h, rfl, by simp; omega⟩
      · rintro ⟨ds, h, rfl, rfl⟩
        cases h with
        | next h1 h2 =>
          rw [← ((digit_norm hs).2 h1).2]
          exact ⟨_, h2, rfl, by simp; omega⟩
        | under h1 h2 => exact absurd hd (by simp [intNorm, isAsciiDigit])
    · rw [if_neg hd]
      by_cases hu : c = 95 ∧ isAsciiDigit (intNorm env e) = true
      · rw [if_pos (by simp [(mark_norm hs (.inr (.inr rfl))).2 hu.1, hu.2]), digitsTail_iff hs t]
        obtain ⟨rfl, hu⟩ := hu
        have hc := (digit_norm hs).1 ⟨hu, rfl⟩
        constructor
        · rintro ⟨ds, h, rfl, rfl⟩
          exact ⟨_, .under hc h, rfl, by simp; omega⟩
        · rintro ⟨ds, h, rfl, rfl⟩
          cases h with
          | next h1 h2 => exact absurd rfl (digitOf_notMark h1 (.inr (.inr rfl)))
          | under h1 h2 =>
            rw [← ((digit_norm hs).2 h1).2]
            exact ⟨_, h2, rfl, by simp; omega⟩
      · rw [if_neg (by simpa [mark_norm hs (.inr (.inr rfl))] using hu)]
        constructor
        · intro h; cases h
        · rintro ⟨ds, h, _⟩
          cases h with
          | next h1 h2 => exact absurd ((digit_norm hs).2 h1).1 hd
          | under h1 h2 => exact absurd ⟨rfl, ((digit_norm hs).2 h1).1⟩ hu

theorem digitsVal_iff {env : PyEnv} (hs : SaneDigits env) {t : Str} {n m : Nat} :
    digitsVal (t.map (intNorm env)) = some (n, m) ↔ ∃ ds, DigitPart env t ds ∧ n = digitsValue ds ∧ m = ds.length := by
  cases t with
  | nil =>
    rw [List.map_nil, digitsVal]
    constructor
    · intro h; cases h
    · rintro ⟨ds, h, _⟩; cases h
  | cons c u =>
    rw [List.map_cons, digitsVal]
    by_cases hd : isAsciiDigit (intNorm env c) = true
    · rw [if_pos hd, digitsTail_iff hs]
      have hc := (digit_norm hs).1 ⟨hd, rfl⟩
      constructor
      · rintro ⟨ds, h, rfl, rfl⟩
        refine ⟨_, digitPart_rest.2 ⟨_, _, _, _, rfl, rfl, hc, h⟩, ?_, by simp; omega⟩
        rw [foldl_digits]; rfl
      · rintro ⟨ds, h, rfl, rfl⟩
        obtain ⟨_, _, _, es, e, rfl, h1, h2⟩ := digitPart_rest.1 h
        cases e
        refine ⟨es, h2, ?_, by simp; omega⟩
        rw [foldl_digits, ← ((digit_norm hs).2 h1).2]; rfl
    · rw [if_neg hd]
      constructor
      · intro h; cases h
      · rintro ⟨ds, h, _⟩
        obtain ⟨_, _, _, es, e, rfl, h1, h2⟩ := digitPart_rest.1 h
        cases e
        exact absurd ((digit_norm hs).2 h1).1 hd

theorem dropWhile_blanks {p : Nat → Bool} : ∀ {pre m : Str}, (∀ c ∈ pre, p c = true) → (∀ c, m.head? = some c → p c = false) →
    (pre ++ m).dropWhile p = m
  | [], [], _, _ => rfl
  | [], c :: t, _, h => by
    have := h c rfl
    rw [List.nil_append, List.dropWhile_cons, if_neg (by rw [this]; decide)]
  | c :: t, m, hp, hm => by
    rw [List.cons_append, List.dropWhile_cons, if_pos (hp c (by simp))]
    exact dropWhile_blanks (fun d hd => hp d (by simp [hd])) hm

theorem stripSpace_of {pre m post : Str} (h1 : ∀ c ∈ pre, isAsciiSpace c = true) (h2 : ∀ c ∈ post, isAsciiSpace c = true)
    (h3 : ∀ c, m.head? = some c → isAsciiSpace c = false) (h4 : ∀ c, m.getLast? = some c → isAsciiSpace c = false) (hne : m ≠ []) :
    stripSpace (pre ++ m ++ post) = m := by
  unfold stripSpace
  rw [List.append_assoc, dropWhile_blanks h1, List.reverse_append, dropWhile_blanks, List.reverse_reverse]
  · intro c hc; exact h2 c (by simpa using hc)
  · intro c hc
    rw [List.head?_reverse] at hc
    exact h4 c hc
  · intro c hc
    cases m with
    | nil => exact absurd rfl hne
    | cons x t => exact h3 c (by simpa using hc)

/-- What is stripped, and what is left. -/
theorem stripSpace_split (t : Str) : ∃ pre post, t = pre ++ stripSpace t ++ post ∧
    (∀ c ∈ pre, isAsciiSpace c = true) ∧ ∀ c ∈ post, isAsciiSpace c = true := by
  have mem : ∀ (l : Str), ∀ c ∈ l.takeWhile isAsciiSpace, isAsciiSpace c = true := by
    intro l
    induction l with
    | nil => simp
    | cons x l ih =>
      intro c hc
      rw [List.takeWhile_cons] at hc
      by_cases hx : isAsciiSpace x = true
      · rw [if_pos hx] at hc
        rcases List.mem_cons.1 hc with rfl | hc
        · exact hx
        · exact ih c hc
      · rw [if_neg hx] at hc; cases hc
  refine ⟨t.takeWhile isAsciiSpace, ((t.dropWhile isAsciiSpace).reverse.takeWhile isAsciiSpace).reverse, ?_, mem _, ?_⟩
  · unfold stripSpace
    rw [List.append_assoc, ← List.reverse_append, List.takeWhile_append_dropWhile, List.reverse_reverse,
      List.takeWhile_append_dropWhile]
  · intro c hc
    exact mem _ c (by simpa using hc)

theorem digitPart_ends {env : PyEnv} {t : Str} {ds : List Nat} (h : DigitPart env t ds) :
    t ≠ [] ∧ (∃ c d, t.head? = some c ∧ DigitOf env c d) ∧ ∃ c d, t.getLast? = some c ∧ DigitOf env c d := by
  induction h with
  | last h => exact ⟨by simp, ⟨_, _, rfl, h⟩, _, _, rfl, h⟩
  | @next c d t ds h _ ih =>
    obtain ⟨h1, _, x, y, h3, h4⟩ := ih
    refine ⟨by simp, ⟨_, _, rfl, h⟩, x, y, ?_, h4⟩
    rw [List.getLast?_cons, h3]; rfl
  | @under c d t ds h _ ih =>
    obtain ⟨h1, _, x, y, h3, h4⟩ := ih
    refine ⟨by simp, ⟨_, _, rfl, h⟩, x, y, ?_, h4⟩
    rw [List.getLast?_cons, List.getLast?_cons, h3]; rfl

theorem splitSign_map {env : PyEnv} (hs : SaneDigits env) (t : Str) :
    ∃ sign u, t = sign ++ u ∧ splitSign (t.map (intNorm env)) = (decide (sign = py"-"), u.map (intNorm env)) ∧
      (sign = [] ∨ sign = py"+" ∨ sign = py"-") := by
  cases t with
  | nil => exact ⟨[], [], rfl, rfl, .inl rfl⟩
  | cons c u =>
    rw [List.map_cons, splitSign]
    by_cases h1 : c = 43
    · exact ⟨[43], u, by rw [h1]; rfl, by rw [if_pos ((mark_norm hs (.inl rfl)).2 h1)]; rfl, .inr (.inl rfl)⟩
    · rw [if_neg (mt (mark_norm hs (.inl rfl)).1 h1)]
      by_cases h2 : c = 45
      · exact ⟨[45], u, by rw [h2]; rfl, by rw [if_pos ((mark_norm hs (.inr (.inl rfl))).2 h2)]; rfl, .inr (.inr rfl)⟩
      · rw [if_neg (mt (mark_norm hs (.inr (.inl rfl))).1 h2)]
        exact ⟨[], c :: u, rfl, rfl, .inl rfl⟩

theorem map_append_split {f : Nat → Nat} {t a b : Str} (h : t.map f = a ++ b) : ∃ x y, t = x ++ y ∧ x.map f = a ∧ y.map f = b := by
  refine ⟨t.take a.length, t.drop a.length, (List.take_append_drop _ _).symm, ?_, ?_⟩
  · rw [List.map_take, h]; simp
  · rw [List.map_drop, h]; simp

/-- **C77** (`int`): `int(text)` is `n` exactly when the text is white space, a sign, digits and
white space, and the digits denote `n`. -/
theorem pyInt_iff {env : PyEnv} (hs : SaneDigits env) {t : Str} {n : Int} : pyInt env t = some n ↔ IntText env t n := by
  constructor
  · intro h
    obtain ⟨pre', post', e, hp, hq⟩ := stripSpace_split (t.map (intNorm env))
    obtain ⟨xy, z, rfl, e1, e2⟩ := map_append_split e
    obtain ⟨x, y, rfl, e3, e4⟩ := map_append_split e1
    obtain ⟨sign, u, rfl, e5, hsg⟩ := splitSign_map hs y
    unfold pyInt at h
    rw [← e4, e5] at h
    dsimp only at h
    cases hd : digitsVal (u.map (intNorm env)) with
    | none => rw [hd] at h; cases h
    | some p =>
      obtain ⟨m, k⟩ := p
      rw [hd] at h
      dsimp only at h
      obtain ⟨ds, h1, rfl, rfl⟩ := (digitsVal_iff hs).1 hd
      by_cases hl : env.maxStrDigits ≠ 0 ∧ ds.length > env.maxStrDigits
      · rw [if_pos hl] at h; cases h
      · rw [if_neg hl, Option.some.injEq] at h
        refine ⟨x, sign, u, z, ds, by simp [List.append_assoc], ?_, ?_, h1, by omega, ?_⟩
        · intro c hc
          exact (blank_norm hs).1 (hp _ (by rw [← e3]; exact List.mem_map_of_mem hc))
        · intro c hc
          exact (blank_norm hs).1 (hq _ (by rw [← e2]; exact List.mem_map_of_mem hc))
        · rcases hsg with rfl | rfl | rfl
          · exact .inl ⟨.inl rfl, by simpa using h.symm⟩
          · exact .inl ⟨.inr rfl, by simpa using h.symm⟩
          · exact .inr ⟨rfl, by simpa using h.symm⟩
  · rintro ⟨pre, sign, body, post, ds, rfl, hp, hq, hb, hl, hn⟩
    obtain ⟨hne, ⟨c, d, hc, hcd⟩, c', d', hc', hcd'⟩ := digitPart_ends hb
    have hsign : sign = [] ∨ sign = py"+" ∨ sign = py"-" := by
      rcases hn with ⟨h | h, _⟩ | ⟨h, _⟩
      · exact .inl h
      · exact .inr (.inl h)
      · exact .inr (.inr h)
    have notBlank : ∀ {x y : Nat}, DigitOf env x y → isAsciiSpace (intNorm env x) = false :=
      fun h => digit_not_space ((digit_norm hs).2 h).1
    have hstrip : stripSpace ((pre ++ sign ++ body ++ post).map (intNorm env)) = (sign ++ body).map (intNorm env) := by
      rw [List.append_assoc pre, List.map_append, List.map_append]
      refine stripSpace_of ?_ ?_ ?_ ?_ (by simp [hne])
      · intro x hx
        obtain ⟨y, hy, rfl⟩ := List.mem_map.1 hx
        exact (blank_norm hs).2 (hp y hy)
      · intro x hx
        obtain ⟨y, hy, rfl⟩ := List.mem_map.1 hx
        exact (blank_norm hs).2 (hq y hy)
      · intro x hx
        rcases hsign with rfl | rfl | rfl
        · rw [List.nil_append, List.head?_map, hc] at hx
          cases hx
          exact notBlank hcd
        · simp only [List.cons_append, List.map_cons, List.head?_cons, Option.some.injEq] at hx
          rw [← hx]; rfl
        · simp only [List.cons_append, List.map_cons, List.head?_cons, Option.some.injEq] at hx
          rw [← hx]; rfl
      · intro x hx
        rw [List.getLast?_map, List.getLast?_append, hc'] at hx
        cases hx
        exact notBlank hcd'
    have hval := (digitsVal_iff hs).2 ⟨ds, hb, rfl, rfl⟩
    have hsplit : splitSign ((sign ++ body).map (intNorm env)) = (decide (sign = py"-"), body.map (intNorm env)) := by
      rcases hsign with rfl | rfl | rfl
      · cases body with
        | nil => exact absurd rfl hne
        | cons x t =>
          cases hc
          rw [List.nil_append, List.map_cons, splitSign, if_neg (mt (mark_norm hs (.inl rfl)).1 (digitOf_notMark hcd (.inl rfl))),
            if_neg (mt (mark_norm hs (.inr (.inl rfl))).1 (digitOf_notMark hcd (.inr (.inl rfl))))]
          rfl
      · rfl
      · rfl
    unfold pyInt
    rw [hstrip, hsplit]
    dsimp only
    rw [hval]
    dsimp only
    rw [if_neg (by omega)]
    rcases hn with ⟨rfl | rfl, rfl⟩ | ⟨rfl, rfl⟩ <;> rfl

/-! ## Decimal numerals -/

theorem decVal_digitsValue (t : Str) : decVal t = digitsValue (t.map (· - 48)) := by
  have := foldl_digits (t.map (· - 48)) 0
  rw [List.foldl_map, Nat.zero_mul, Nat.zero_add] at this
  exact this

theorem digitsValue_lt : ∀ {t : Str}, (∀ c ∈ t, 48 ≤ c ∧ c ≤ 57) → digitsValue (t.map (· - 48)) < 10 ^ t.length
  | [], _ => by simp [digitsValue]
  | c :: t, h => by
    have ih := digitsValue_lt (t := t) fun d hd => h d (by simp [hd])
    have hc := h c (by simp)
    rw [List.map_cons, digitsValue, List.length_map, List.length_cons, Nat.pow_succ]
    have : (c - 48) * 10 ^ t.length ≤ 9 * 10 ^ t.length := Nat.mul_le_mul_right _ (by omega)
    omega

/-- Numerals of one length with the same value are the same. -/
theorem numeral_unique : ∀ {s t : Str}, s.length = t.length → (∀ c ∈ s, 48 ≤ c ∧ c ≤ 57) → (∀ c ∈ t, 48 ≤ c ∧ c ≤ 57) →
    digitsValue (s.map (· - 48)) = digitsValue (t.map (· - 48)) → s = t
  | [], [], _, _, _, _ => rfl
  | [], _ :: _, h, _, _, _ => by simp at h
  | _ :: _, [], h, _, _, _ => by simp at h
  | a :: s, b :: t, h, hs, ht, e => by
    have hl : s.length = t.length := by simpa using h
    have ha := hs a (by simp)
    have hb := ht b (by simp)
    have h1 := digitsValue_lt fun d hd => hs d (List.mem_cons_of_mem _ hd)
    have h2 := digitsValue_lt fun d hd => ht d (List.mem_cons_of_mem _ hd)
    simp only [List.map_cons, digitsValue, List.length_map, hl] at e
    rw [hl] at h1
    have hab : a - 48 = b - 48 := by
      rcases Nat.lt_trichotomy (a - 48) (b - 48) with h | h | h
      · have : (a - 48 + 1) * 10 ^ t.length ≤ (b - 48) * 10 ^ t.length := Nat.mul_le_mul_right _ h
        rw [Nat.add_mul] at this
        omega
      · exact h
      · have : (b - 48 + 1) * 10 ^ t.length ≤ (a - 48) * 10 ^ t.length := Nat.mul_le_mul_right _ h
        rw [Nat.add_mul] at this
        omega
    rw [hab] at e
    rw [numeral_unique hl (fun d hd => hs d (by simp [hd])) (fun d hd => ht d (by simp [hd])) (by omega)]
    have : a = b := by omega
    rw [this]

theorem shortest_length {t : Str} {n : Nat} (h : Shortest t n) : ∀ w, 1 ≤ w → (t.length ≤ w ↔ n < 10 ^ w) := by
  obtain ⟨⟨hne, hd, rfl⟩, hz⟩ := h
  intro w hw
  constructor
  · intro hl
    exact Nat.lt_of_lt_of_le (digitsValue_lt hd) (Nat.pow_le_pow_right (by omega) hl)
  · intro hlt
    cases t with
    | nil => exact absurd rfl hne
    | cons c t =>
      by_cases h0 : c = 48
      · have := hz (by rw [h0]; rfl)
        simp only [List.cons.injEq] at this
        rw [this.2]; simpa using hw
      · have hc := hd c (by simp)
        simp only [List.map_cons, digitsValue, List.length_map] at hlt
        have h1 : 1 * 10 ^ t.length ≤ (c - 48) * 10 ^ t.length := Nat.mul_le_mul_right _ (by omega)
        have h2 : 10 ^ t.length < 10 ^ w := by omega
        have := (Nat.pow_lt_pow_iff_right (a := 10) (by omega)).1 h2
        simp only [List.length_cons]
        omega

theorem natStr_head (n : Nat) : (natStr n).head? = some 48 → n = 0 := by
  induction n using natStr_induct with
  | base n h => rw [natStr_eq]; simp only [h, if_true, List.head?_cons, Option.some.injEq]; omega
  | step n h ih =>
    rw [natStr_eq]; simp only [h, if_false]
    rw [List.head?_append]
    intro hh
    cases hx : natStr (n / 10) with
    | nil => exact absurd hx (natStr_ne_nil _)
    | cons a t =>
      rw [hx] at ih hh
      have := ih (by simpa using hh)
      omega

theorem natStr_shortest (n : Nat) : Shortest (natStr n) n := by
  refine ⟨⟨natStr_ne_nil n, ?_, ?_⟩, ?_⟩
  · intro c hc
    simpa [isAsciiDigit] using natStr_digits n c hc
  · rw [← decVal_digitsValue, decVal_natStr]
  · intro h; rw [natStr_head n h]; rfl

/-- **C77** (`str`): `str(n)` is the numeral of `n` without leading zeros. -/
theorem natStr_iff {n : Nat} {t : Str} : natStr n = t ↔ Shortest t n := by
  constructor
  · rintro rfl; exact natStr_shortest n
  · intro h
    have h' := natStr_shortest n
    refine numeral_unique ?_ h'.1.2.1 h.1.2.1 (h'.1.2.2.trans h.1.2.2.symm)
    have p1 := List.length_pos_iff.2 h.1.1
    have p2 := List.length_pos_iff.2 h'.1.1
    have a := (shortest_length h' t.length p1).2 ((shortest_length h t.length p1).1 (Nat.le_refl _))
    have b := (shortest_length h (natStr n).length p2).2 ((shortest_length h' (natStr n).length p2).1 (Nat.le_refl _))
    omega

/-- **C77** (`str`, any number). -/
theorem intStr_iff {n : Int} {t : Str} : intStr n = t ↔
    (0 ≤ n ∧ Shortest t n.toNat) ∨ (n < 0 ∧ ∃ u, t = 45 :: u ∧ Shortest u (-n).toNat) := by
  cases n with
  | ofNat m =>
    rw [intStr, natStr_iff]
    constructor
    · intro h; exact .inl ⟨by simp, h⟩
    · rintro (⟨_, h⟩ | ⟨h, _⟩)
      · exact h
      · exact absurd h (by simp)
  | negSucc m =>
    have e : (-Int.negSucc m).toNat = m + 1 := by simp [Int.neg_negSucc]
    rw [intStr, e]
    constructor
    · rintro rfl; exact .inr ⟨Int.negSucc_lt_zero _, _, rfl, natStr_shortest _⟩
    · rintro (⟨h, _⟩ | ⟨_, u, rfl, h⟩)
      · exact absurd h (by simp)
      · rw [natStr_iff.2 h]

/-- **C77** (zero-padded numbers): a number that fits in `w` digits is formatted as the only numeral
of that length. -/
theorem zeroPad_iff {w n : Nat} (hw : 1 ≤ w) (hn : n < 10 ^ w) {t : Str} : zeroPad w n = t ↔ Numeral t n ∧ t.length = w := by
  have h' : Numeral (zeroPad w n) n := by
    refine ⟨zeroPad_ne_nil w n, ?_, ?_⟩
    · intro c hc
      simpa [isAsciiDigit] using zeroPad_digits w n c hc
    · rw [← decVal_digitsValue, decVal_zeroPad]
  constructor
  · rintro rfl; exact ⟨h', zeroPad_length_of_lt hw hn⟩
  · rintro ⟨h, hl⟩
    exact numeral_unique ((zeroPad_length_of_lt hw hn).trans hl.symm) h'.2.1 h.2.1 (h'.2.2.trans h.2.2.symm)

/-- **C77** (zero-padded numbers): one that does not fit is written out in full. -/
theorem zeroPad_wide {w n : Nat} (hn : 10 ^ w ≤ n) : Shortest (zeroPad w n) n := by
  have : zeroPad w n = natStr n := by
    have hl : w ≤ (natStr n).length := by
      rcases Nat.lt_or_ge (natStr n).length w with h | h
      · have := (natStr_length_le (n := n) (w := (natStr n).length) (natStr_length_pos n)).1 (Nat.le_refl _)
        have := Nat.pow_le_pow_right (n := 10) (by omega) (Nat.le_of_lt h)
        omega
      · exact h
    rw [zeroPad, Nat.sub_eq_zero_of_le hl]; rfl
  rw [this]; exact natStr_shortest n

/-! ## `bytes.fromhex` -/

theorem hexVal_iff {c x : Nat} : hexVal? c = some x ↔ HexDigit c x := by
  unfold hexVal? HexDigit hexDigitValue
  by_cases h1 : 48 ≤ c ∧ c ≤ 57
  · rw [if_pos h1, if_pos h1.2, Option.some.injEq]; omega
  rw [if_neg h1]
  by_cases h2 : 65 ≤ c ∧ c ≤ 70
  · rw [if_pos h2, if_neg (by omega), if_pos h2.2, Option.some.injEq]; omega
  rw [if_neg h2]
  by_cases h3 : 97 ≤ c ∧ c ≤ 102
  · rw [if_pos h3, if_neg (by omega), if_neg (by omega), Option.some.injEq]; omega
  rw [if_neg h3]
  constructor
  · intro h; cases h
  · rintro ⟨h, _⟩; omega

theorem asciiSpace_iff {c : Nat} : isAsciiSpace c = true ↔ c = 32 ∨ (9 ≤ c ∧ c ≤ 13) := by
  simp [isAsciiSpace]; omega

theorem hexDigit_notSpace {c x : Nat} (h : HexDigit c x) : ¬ isAsciiSpace c = true := by
  rw [asciiSpace_iff]
  have := h.1
  omega

theorem HexBytes.blank {c : Nat} {t : Str} {b : Bytes} (hc : isAsciiSpace c = true) (h : HexBytes t b) : HexBytes (c :: t) b := by
  have hw : ∀ {w : Str}, (∀ c ∈ w, c = 32 ∨ (9 ≤ c ∧ c ≤ 13)) → ∀ d ∈ c :: w, d = 32 ∨ (9 ≤ d ∧ d ≤ 13) := by
    intro w hw d hd
    rcases List.mem_cons.1 hd with rfl | hd
    · exact asciiSpace_iff.1 hc
    · exact hw d hd
  cases h with
  | done h => exact .done (hw h)
  | @byte w _ _ _ _ _ _ h h1 h2 h3 => exact HexBytes.byte (w := c :: w) (hw h) h1 h2 h3

theorem fromHex_hexBytes : ∀ {t : Str} {b : Bytes}, fromHex t = some b → HexBytes t b
  | [], b, h => by cases h; exact .done (by simp)
  | [a], b, h => by
    rw [fromHex] at h
    by_cases ha : isAsciiSpace a = true
    · rw [if_pos ha] at h; cases h
      exact .done (by simpa using asciiSpace_iff.1 ha)
    · rw [if_neg ha] at h; cases h
  | a :: c :: t, b, h => by
    rw [fromHex] at h
    by_cases ha : isAsciiSpace a = true
    · rw [if_pos ha] at h
      exact .blank ha (fromHex_hexBytes h)
    · rw [if_neg ha] at h
      cases hx : hexVal? a with
      | none => rw [hx] at h; cases h
      | some x =>
        cases hy : hexVal? c with
        | none => rw [hx, hy] at h; cases h
        | some y =>
          cases hr : fromHex t with
          | none => rw [hx, hy, hr] at h; cases h
          | some r =>
            rw [hx, hy, hr] at h
            cases h
            rw [Nat.mul_comm]
            exact HexBytes.byte (w := []) (by simp) (hexVal_iff.1 hx) (hexVal_iff.1 hy) (fromHex_hexBytes hr)

theorem fromHex_blank {c : Nat} {t : Str} (hc : isAsciiSpace c = true) : fromHex (c :: t) = fromHex t := by
  cases t with
  | nil => simp [fromHex, hc]
  | cons d t => rw [fromHex, if_pos hc]

theorem fromHex_blanks {w t : Str} (h : ∀ c ∈ w, c = 32 ∨ (9 ≤ c ∧ c ≤ 13)) : fromHex (w ++ t) = fromHex t := by
  induction w with
  | nil => rfl
  | cons c w ih =>
    rw [List.cons_append, fromHex_blank (asciiSpace_iff.2 (h c (by simp))), ih fun d hd => h d (by simp [hd])]

/-- **C77** (`bytes.fromhex`): accepted are pairs of hex digits with white space around them. -/
theorem fromHex_iff {t : Str} {b : Bytes} : fromHex t = some b ↔ HexBytes t b := by
  constructor
  · exact fromHex_hexBytes
  · intro h
    induction h with
    | @done w h =>
      have := fromHex_blanks (t := []) h
      rwa [List.append_nil] at this
    | byte h h1 h2 _ ih =>
      rw [fromHex_blanks h, fromHex, if_neg (hexDigit_notSpace h1), hexVal_iff.2 h1, hexVal_iff.2 h2, ih, Nat.mul_comm]

/-! ## Slices -/

/-- **C77** (slices): `s[i:j]` holds what `s` holds from `i` on, up to `j`, or up to the place `j`
counts to from the end. -/
theorem slice_get (s : Bytes) (i : Nat) (j : Int) (k : Nat) : (slice s i j)[k]? =
    if ((i + k : Nat) : Int) < (if 0 ≤ j then j else s.length + j) then s[i + k]? else none := by
  have key : ∀ (a : Nat) (b : Int), (k < a - i ↔ ((i + k : Nat) : Int) < b) →
      ((s.drop i).take (a - i))[k]? = if ((i + k : Nat) : Int) < b then s[i + k]? else none := by
    intro a b h
    rw [List.getElem?_take]
    by_cases h' : k < a - i
    · rw [if_pos h', if_pos (h.1 h'), List.getElem?_drop]
    · rw [if_neg h', if_neg (mt h.2 h')]
  unfold slice
  dsimp only
  by_cases hj : j < 0
  · have e1 : (if j < 0 then (j + s.length).toNat else j.toNat) = (j + s.length).toNat := if_pos hj
    have e2 : (if 0 ≤ j then j else s.length + j) = s.length + j := if_neg (by omega)
    rw [e1, e2]
    exact key _ _ (by omega)
  · have e1 : (if j < 0 then (j + s.length).toNat else j.toNat) = j.toNat := if_neg hj
    have e2 : (if 0 ≤ j then j else s.length + j) = j := if_pos (by omega)
    rw [e1, e2]
    exact key _ _ (by omega)

/-! ## Use: what a text length prefix declares -/

/-- **C77** (length prefixes): a prefix in a text encoding declares `n` units exactly when it decodes
to a text `int` reads as `n`. -/
theorem declared_text_iff {env : PyEnv} (hs : SaneDigits env) {fs : FieldSpec} (h1 : fs.lenEnc ≠ py"b") (h2 : fs.lenEnc ≠ py"bcd")
    {L : Bytes} {n : Int} : declared env fs L = some n ↔
      ∃ c t, env.codec fs.lenEnc = some c ∧ c.decode L = some t ∧ IntText env t n := by
  unfold declared
  rw [if_neg h1, if_neg h2]
  cases hc : env.codec fs.lenEnc with
  | none => simp
  | some c =>
    simp only [Option.bind_eq_some_iff, Option.some.injEq, pyInt_iff hs]
    constructor
    · rintro ⟨t, ht, hi⟩; exact ⟨c, t, rfl, ht, hi⟩
    · rintro ⟨_, t, rfl, ht, hi⟩; exact ⟨t, ht, hi⟩

/-! ## The hypotheses are met -/

theorem cpython_saneDigits : SaneDigits cpython := by
  intro c d h
  simp only [cpython, isAsciiDigit, Bool.and_eq_true, decide_eq_true_eq] at h
  by_cases hc : 48 ≤ c ∧ c ≤ 57
  · rw [if_pos hc] at h; cases h; omega
  · rw [if_neg hc] at h; cases h

/-- A runtime that knows the Arabic-Indic digits. -/
def arabic : PyEnv := { cpython with decimalCp := fun c => if 0x660 ≤ c ∧ c ≤ 0x669 then some (c - 0x660) else cpython.decimalCp c }

theorem arabic_saneDigits : SaneDigits arabic := by
  intro c d h
  simp only [arabic] at h
  by_cases hc : 0x660 ≤ c ∧ c ≤ 0x669
  · rw [if_pos hc, Option.some.injEq] at h; omega
  · rw [if_neg hc] at h; exact cpython_saneDigits c d h

example : IntText arabic ([0x660, 0x661, 0x39] ++ py" \n") 19 := (pyInt_iff arabic_saneDigits).1 (by decide +kernel)

example : IntText cpython py" +1_0\t" 10 ∧ IntText cpython py"-07" (-7) ∧ (¬ ∃ n, IntText cpython py"1__0" n) ∧
    (¬ ∃ n, IntText cpython py"_1" n) ∧ (¬ ∃ n, IntText cpython py"+ 1" n) ∧ ¬ ∃ n, IntText cpython [] n := by
  refine ⟨(pyInt_iff cpython_saneDigits).1 (by decide), (pyInt_iff cpython_saneDigits).1 (by decide), ?_, ?_, ?_, ?_⟩ <;>
  · rintro ⟨n, h⟩
    have := (Eq.trans (by decide +kernel : none = _) ((pyInt_iff cpython_saneDigits).2 h))
    cases this

example : Shortest py"192" 192 ∧ Shortest py"0" 0 ∧ ¬ Shortest py"012" 12 :=
  ⟨natStr_iff.1 (by decide), natStr_iff.1 (by decide), fun h => absurd (natStr_iff.2 h) (by decide)⟩

example : intStr (-12) = py"-12" := intStr_iff.2 (.inr ⟨by decide, _, rfl, natStr_iff.1 (by decide)⟩)

example : Numeral py"007" 7 ∧ (py"007").length = 3 := (zeroPad_iff (by decide) (by decide)).1 (by decide)

example : Shortest (zeroPad 2 123) 123 := zeroPad_wide (by decide)

example : HexBytes py" 0a\nFF " [0x0a, 0xff] ∧ ¬ ∃ b, HexBytes py"0 a" b := by
  refine ⟨fromHex_iff.1 (by decide), ?_⟩
  rintro ⟨b, h⟩
  have := (Eq.trans (by decide +kernel : none = _) (fromHex_iff.2 h))
  cases this

example : (slice [1, 2, 3, 4] 1 (-1))[1]? = some 3 ∧ (slice [1, 2, 3, 4] 1 (-1))[2]? = none := by
  constructor <;> rw [slice_get] <;> rfl

example : ∃ c t, cpython.codec py"cp500" = some c ∧ c.decode [0xf0, 0xf7] = some t ∧ IntText cpython t 7 :=
  (declared_text_iff (fs := { dataEnc := py"ascii", lenEnc := py"cp500", lenType := 2, maxLen := 9 }) cpython_saneDigits
    (by decide) (by decide)).1 (by decide)

end Iso8583
