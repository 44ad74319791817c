import Verif.Spec.Literal
import Verif.Lemmas.PpRead
/-!
# `repr` writes literals
-/

namespace Iso8583

theorem hexDigitLower_range {n : Nat} (h : n < 16) :
    (48 ≤ hexDigitLower n ∧ hexDigitLower n ≤ 57) ∨ (97 ≤ hexDigitLower n ∧ hexDigitLower n ≤ 102) := by
  unfold hexDigitLower
  split <;> omega

theorem hexDigitValue_lower {n : Nat} (h : n < 16) : hexDigitValue (hexDigitLower n) = n := by
  unfold hexDigitValue hexDigitLower
  split <;> split <;> (try split) <;> omega

theorem hexPad_digits : ∀ (w n : Nat), ∀ c ∈ hexPad w n, (48 ≤ c ∧ c ≤ 57) ∨ (97 ≤ c ∧ c ≤ 102)
  | 0, _, c, h => by simp [hexPad] at h
  | w + 1, n, c, h => by
    rw [hexPad, List.mem_append] at h
    rcases h with h | h
    · exact hexPad_digits w _ c h
    · rw [List.mem_singleton] at h
      subst h
      exact hexDigitLower_range (Nat.mod_lt n (by decide))

theorem hexPad_value : ∀ (w n : Nat), n < 16 ^ w → (hexPad w n).foldl (fun a c => a * 16 + hexDigitValue c) 0 = n
  | 0, n, h => by simp at h; subst h; rfl
  | w + 1, n, h => by
    have ih := hexPad_value w (n / 16) (by rw [Nat.pow_succ] at h; omega)
    rw [hexPad, List.foldl_append, ih]
    simp only [List.foldl_cons, List.foldl_nil, hexDigitValue_lower (Nat.mod_lt n (by decide : 16 > 0))]
    omega

theorem hexRun_hexPad {w n : Nat} (h : n < 16 ^ w) (r : Str) : hexRun w (hexPad w n ++ r) = some (n, r) := by
  have hl := hexPad_length w n
  unfold hexRun
  rw [List.take_left' hl, List.drop_left' hl, hexPad_value w n h, if_pos]
  refine ⟨by simp [hl], ?_⟩
  rw [List.all_eq_true]
  intro c hc
  have := hexPad_digits w n c hc
  simp
  omega

theorem litElem_plain {bytes : Bool} {c : Nat} {r : Str} (h : c ≠ 92) (h0 : 32 ≤ c) (hb : bytes = true → c < 128) :
    litElem bytes (c :: r) = some ([c], r) := by
  unfold litElem
  dsimp only
  rw [if_neg h, if_neg]
  cases bytes
  · simp; omega
  · have := hb rfl
    simp; omega

theorem litElem_escape {bytes : Bool} {x : Nat} {r : Str} : litElem bytes (92 :: x :: r) = escaped bytes x r := rfl

theorem litElem_hex2 {bytes : Bool} {c : Nat} (h : c < 256) (r : Str) :
    litElem bytes (py"\\x" ++ hexPad 2 c ++ r) = some ([c], r) := by
  have := hexRun_hexPad (w := 2) (n := c) (by simpa using h) r
  simp [litElem, escaped, this]

theorem litElem_str {env : PyEnv} {q c : Nat} (hq : q = 39 ∨ q = 34) (hc : c < 0x110000) (r : Str) :
    litElem false (reprStrChar env q c ++ r) = some ([c], r) := by
  unfold reprStrChar
  by_cases h1 : c = q ∨ c = 92
  · rw [if_pos h1, List.cons_append, List.cons_append, List.nil_append, litElem_escape, escaped, if_neg (by omega), if_pos (by omega)]
  rw [if_neg h1]
  by_cases h2 : c = 9
  · subst h2; rfl
  rw [if_neg h2]
  by_cases h3 : c = 10
  · subst h3; rfl
  rw [if_neg h3]
  by_cases h4 : c = 13
  · subst h4; rfl
  rw [if_neg h4]
  by_cases h5 : c < 32 ∨ c = 127
  · rw [if_pos h5]; exact litElem_hex2 (by omega) r
  rw [if_neg h5]
  by_cases h6 : c < 127
  · rw [if_pos h6]; exact litElem_plain (by omega) (by omega) (by simp)
  rw [if_neg h6]
  by_cases h7 : env.isPrintableCp c = true
  · rw [if_pos h7]; exact litElem_plain (by omega) (by omega) (by simp)
  rw [if_neg h7]
  by_cases h8 : c ≤ 0xff
  · rw [if_pos h8]; exact litElem_hex2 (by omega) r
  rw [if_neg h8]
  by_cases h9 : c ≤ 0xffff
  · rw [if_pos h9]
    have := hexRun_hexPad (w := 4) (n := c) (by simp; omega) r
    simp [litElem, escaped, this]
  · rw [if_neg h9]
    have := hexRun_hexPad (w := 8) (n := c) (by simp; omega) r
    simp [litElem, escaped, this, hc]

theorem litElem_byte {q c : Nat} (hq : q = 39 ∨ q = 34) (hc : c < 256) (r : Str) :
    litElem true (reprByte q c ++ r) = some ([c], r) := by
  unfold reprByte
  by_cases h1 : c = q ∨ c = 92
  · rw [if_pos h1, List.cons_append, List.cons_append, List.nil_append, litElem_escape, escaped, if_neg (by omega), if_pos (by omega)]
  rw [if_neg h1]
  by_cases h2 : c = 9
  · subst h2; rfl
  rw [if_neg h2]
  by_cases h3 : c = 10
  · subst h3; rfl
  rw [if_neg h3]
  by_cases h4 : c = 13
  · subst h4; rfl
  rw [if_neg h4]
  by_cases h5 : c < 32 ∨ c ≥ 127
  · rw [if_pos h5]; exact litElem_hex2 hc r
  · rw [if_neg h5]; exact litElem_plain (by omega) (by omega) (by omega)

/-- Characters written by `code`, then the closing quote. -/
theorem litBody_read {bytes : Bool} {code : Nat → Str} {q : Nat} {D : Nat → Prop}
    (hr : ∀ c, D c → ∀ r, litElem bytes (code c ++ r) = some ([c], r)) (hh : ∀ c r r', code c ++ r ≠ q :: r') :
    ∀ {s r : Str} {n : Nat}, s.length < n → (∀ c ∈ s, D c) → litBody bytes q n (s.flatMap code ++ q :: r) = some (s, r)
  | _, _, 0, hn, _ => by omega
  | [], r, n + 1, _, _ => by simp [litBody]
  | c :: t, r, n + 1, hn, hd => by
    rw [List.flatMap_cons, List.append_assoc]
    have e := hr c (hd c (by simp)) (t.flatMap code ++ q :: r)
    have ih := litBody_read hr hh (s := t) (r := r) (n := n) (by simp at hn; omega) (fun x hx => hd x (by simp [hx]))
    cases hx : code c ++ (t.flatMap code ++ q :: r) with
    | nil => rw [hx] at e; cases e
    | cons x y =>
      have hne : x ≠ q := by
        rintro rfl
        exact hh c _ _ hx
      rw [hx] at e
      simp only [litBody, if_neg hne, e, Option.bind_some, ih, Option.map_some, List.singleton_append]

/-- The inside of a literal is at least as long as what it stands for. -/
theorem flatMap_code_length {code : Nat → Str} (h : ∀ c, code c ≠ []) : ∀ s : Str, s.length ≤ (s.flatMap code).length
  | [] => by simp
  | c :: t => by
    have := flatMap_code_length h t
    have h1 : 0 < (code c).length := List.length_pos_iff.2 (h c)
    simp only [List.flatMap_cons, List.length_append, List.length_cons]
    omega

theorem quoted_read_back {bytes : Bool} {code : Nat → Str} {q : Nat} (hq : q = 39 ∨ q = 34) {D : Nat → Prop}
    (hr : ∀ c, D c → ∀ r, litElem bytes (code c ++ r) = some ([c], r)) (hh : ∀ c r r', code c ++ r ≠ q :: r')
    (hne : ∀ c, code c ≠ []) {s r : Str} (hd : ∀ c ∈ s, D c) (hf : ∀ r', r ≠ q :: r') :
    quoted bytes (q :: (s.flatMap code ++ q :: r)) = some (s, r) := by
  have h3 : ¬ (s.flatMap code ++ q :: r).take 2 = [q, q] := by
    cases s with
    | nil =>
      rw [List.flatMap_nil, List.nil_append]
      cases r with
      | nil => simp
      | cons x r =>
        intro h
        simp at h
        exact hf r (by rw [h])
    | cons c t =>
      intro h
      rw [List.flatMap_cons, List.append_assoc] at h
      cases hx : code c ++ (t.flatMap code ++ q :: r) with
      | nil => rw [hx] at h; cases h
      | cons x y =>
        rw [hx] at h
        have : x = q := by
          cases y <;> simp at h
          exact h.1
        subst this
        exact hh c _ _ hx
  unfold quoted
  dsimp only
  rw [if_pos ⟨hq, h3⟩]
  refine litBody_read hr hh ?_ hd
  have := flatMap_code_length hne s
  simp only [List.length_append, List.length_cons]
  omega

theorem reprStrChar_ne_nil {env : PyEnv} {q c : Nat} : reprStrChar env q c ≠ [] := by
  unfold reprStrChar
  repeat' split
  all_goals simp

theorem reprByte_ne_nil {q c : Nat} : reprByte q c ≠ [] := by
  unfold reprByte
  repeat' split
  all_goals simp

/-- What may follow a literal: no quote. -/
def NoQuote (r : Str) : Prop := ∀ q r', q = 39 ∨ q = 34 → r ≠ q :: r'

theorem readLiteral_str {env : PyEnv} {s r : Str} (hs : IsText s) (hr : NoQuote r) :
    readLiteral (reprStr env s ++ r) = some (.str s, r) := by
  have hq := (reprQuote_cases s).symm
  have := quoted_read_back (bytes := false) (r := r) hq (fun c hc r => litElem_str (env := env) hq hc r)
    (fun c r r' => reprStrChar_head hq r r') (fun _ => reprStrChar_ne_nil) hs (fun r' => hr _ r' hq)
  unfold reprStr
  dsimp only
  simp only [List.cons_append, List.nil_append, List.append_assoc]
  unfold readLiteral
  split
  · next h => injection h with h _; omega
  · rw [this]; rfl

theorem readLiteral_bytes {b : Bytes} {r : Str} (hr : NoQuote r) :
    readLiteral (reprBytes b ++ r) = some (.bytes b, r) := by
  have hq := (reprQuote_cases (b.map UInt8.toNat)).symm
  have hb : ∀ c ∈ b.map UInt8.toNat, c < 256 := by
    intro c hc
    obtain ⟨x, _, rfl⟩ := List.mem_map.1 hc
    exact x.toNat_lt
  have := quoted_read_back (bytes := true) (r := r) hq (fun c hc r => litElem_byte hq hc r)
    (fun c r r' => reprByte_head hq r r') (fun _ => reprByte_ne_nil) hb (fun r' => hr _ r' hq)
  unfold reprBytes
  dsimp only
  simp only [List.cons_append, List.nil_append, List.append_assoc]
  have e : ∀ t, readLiteral (98 :: t) = (quoted true t).map fun p => (.bytes (p.1.map UInt8.ofNat), p.2) := fun _ => rfl
  rw [e, this]
  simp [Function.comp_def]

/-! ## Several literals -/

/-- The value of a piece. -/
def litVal : Str ⊕ Bytes → PpVal
  | .inl s => .str s
  | .inr b => .bytes b

theorem readLiteral_lit {env : PyEnv} {p : Str ⊕ Bytes} {r : Str} (hp : LitOk p) (hr : NoQuote r) :
    readLiteral (lit env p ++ r) = some (litVal p, r) := by
  cases p with
  | inl s => exact readLiteral_str hp hr
  | inr b => exact readLiteral_bytes hr

/-- A literal starts with a quote or `b`, not with a blank. -/
theorem lit_head {env : PyEnv} (p : Str ⊕ Bytes) : ∃ c t, lit env p = c :: t ∧ c ≠ 32 ∧ c ≠ 10 := by
  cases p with
  | inl s =>
    have := reprQuote_cases s
    exact ⟨reprQuote s, _, rfl, by omega, by omega⟩
  | inr b => exact ⟨98, _, rfl, by decide, by decide⟩

theorem dropWhile_blank (w : Str) (hw : ∀ c ∈ w, c = 32 ∨ c = 10) {c : Nat} {t : Str} (hc : c ≠ 32 ∧ c ≠ 10) :
    (w ++ c :: t).dropWhile (fun c => c = 32 || c = 10) = c :: t := by
  induction w with
  | nil => simp [hc]
  | cons x w ih =>
    have hx := hw x (by simp)
    rw [List.cons_append, List.dropWhile_cons_of_pos (by simpa using hx)]
    exact ih fun y hy => hw y (by simp [hy])

/-- Literals with a nonempty stretch of blanks in front of each but the first. -/
theorem readLiterals_pieces {env : PyEnv} : ∀ {qs : List (Str × (Str ⊕ Bytes))} {p : Str ⊕ Bytes} {w : Str} {n : Nat},
    (∀ c ∈ w, c = 32 ∨ c = 10) → LitOk p → (∀ q ∈ qs, q.1 ≠ [] ∧ (∀ c ∈ q.1, c = 32 ∨ c = 10) ∧ LitOk q.2) →
    qs.length + 1 < n →
    readLiterals n (w ++ lit env p ++ qs.flatMap fun q => q.1 ++ lit env q.2) = some (litVal p :: qs.map fun q => litVal q.2)
  | qs, p, w, 0, _, _, _, hn => by omega
  | qs, p, w, n + 1, hw, hp, hq, hn => by
    obtain ⟨c, t, hc, h1⟩ := lit_head (env := env) p
    have hnq : NoQuote (qs.flatMap fun q => q.1 ++ lit env q.2) := by
      intro x r' hx
      cases qs with
      | nil => simp
      | cons q qs =>
        obtain ⟨hne, hb, _⟩ := hq q (by simp)
        cases hq1 : q.1 with
        | nil => exact absurd hq1 hne
        | cons y z =>
          have := hb y (by rw [hq1]; simp)
          rw [List.flatMap_cons, hq1]
          intro h
          simp only [List.cons_append] at h
          injection h with h _
          omega
    have e := readLiteral_lit (env := env) hp hnq
    unfold readLiterals
    rw [List.append_assoc, hc, List.cons_append, dropWhile_blank w hw h1]
    dsimp only
    rw [← List.cons_append, ← hc, e, Option.bind_some]
    dsimp only
    cases qs with
    | nil =>
      cases n with
      | zero => simp at hn
      | succ n => simp [readLiterals]
    | cons q qs =>
      obtain ⟨_, hb, hl⟩ := hq q (by simp)
      rw [List.flatMap_cons, readLiterals_pieces (qs := qs) hb hl (fun x hx => hq x (by simp [hx])) (by simp at hn; omega)]
      rfl

theorem glue_str : ∀ {qs : List Str}, qs ≠ [] → glueLiterals (qs.map fun s => .str s) = some (.str qs.flatten)
  | [], h => absurd rfl h
  | [s], _ => by simp [glueLiterals]
  | s :: s' :: t, _ => by
    have ih := glue_str (qs := s' :: t) (by simp)
    rw [List.map_cons] at ih
    simp only [List.map_cons, glueLiterals, ih, List.flatten_cons]

theorem glue_bytes : ∀ {qs : List Bytes}, qs ≠ [] → glueLiterals (qs.map fun b => .bytes b) = some (.bytes qs.flatten)
  | [], h => absurd rfl h
  | [s], _ => by simp [glueLiterals]
  | s :: s' :: t, _ => by
    have ih := glue_bytes (qs := s' :: t) (by simp)
    rw [List.map_cons] at ih
    simp only [List.map_cons, glueLiterals, ih, List.flatten_cons]

end Iso8583
