import Verif.Lemmas.Pp
import Verif.Lemmas.Num
/-!
# Reading back what `pp` writes

`repr` can be undone from the left: whatever follows it, where it ends and what it shows are
determined.  The groups of lines of `pp` can therefore be taken apart again.
-/

namespace Iso8583

/-! ## One character -/

/-- The number written by hex digits. -/
def hexNum (ds : Str) : Nat := ds.foldl (fun a c => a * 16 + (hexVal? c).getD 0) 0

theorem hexPad_length : ∀ (w n : Nat), (hexPad w n).length = w
  | 0, _ => rfl
  | w + 1, n => by simp [hexPad, hexPad_length w]

theorem hexNum_hexPad : ∀ (w n : Nat), n < 16 ^ w → hexNum (hexPad w n) = n
  | 0, n, h => by simp at h; subst h; rfl
  | w + 1, n, h => by
    have ih := hexNum_hexPad w (n / 16) (by rw [Nat.pow_succ] at h; omega)
    unfold hexNum at ih ⊢
    rw [hexPad, List.foldl_append, ih]
    simp [hexVal?_lower (Nat.mod_lt n (by decide : 16 > 0))]
    omega

/-- Reads one character of the inside of a `repr`. -/
def readChar : Str → Option (Nat × Str)
  | [] => none
  | c :: r =>
    if c = 92 then
      match r with
      | [] => none
      | x :: r =>
        if x = 116 then some (9, r)
        else if x = 110 then some (10, r)
        else if x = 114 then some (13, r)
        else if x = 120 then some (hexNum (r.take 2), r.drop 2)
        else if x = 117 then some (hexNum (r.take 4), r.drop 4)
        else if x = 85 then some (hexNum (r.take 8), r.drop 8)
        else some (x, r)
    else some (c, r)

theorem readChar_hex (w n : Nat) (r : Str) (h : n < 16 ^ w) :
    hexNum ((hexPad w n ++ r).take w) = n ∧ (hexPad w n ++ r).drop w = r := by
  have := hexPad_length w n
  rw [List.take_left' this, List.drop_left' this]
  exact ⟨hexNum_hexPad w n h, rfl⟩

theorem readChar_str {env : PyEnv} {q c : Nat} (hq : q = 39 ∨ q = 34) (hc : c < 0x110000) (r : Str) :
    readChar (reprStrChar env q c ++ r) = some (c, r) := by
  unfold reprStrChar
  by_cases h1 : c = q ∨ c = 92
  · rw [if_pos h1]
    have : c ≠ 116 ∧ c ≠ 110 ∧ c ≠ 114 ∧ c ≠ 120 ∧ c ≠ 117 ∧ c ≠ 85 := by omega
    simp [readChar, this]
  rw [if_neg h1]
  have hx : ∀ c, c < 256 → readChar (py"\\x" ++ hexPad 2 c ++ r) = some (c, r) := by
    intro c hc
    have := readChar_hex 2 c r (by simpa using hc)
    simp [readChar, this]
  by_cases h2 : c = 9
  · subst h2; rfl
  rw [if_neg h2]
  by_cases h3 : c = 10
  · subst h3; rfl
  rw [if_neg h3]
  by_cases h4 : c = 13
  · subst h4; rfl
  rw [if_neg h4]
  have hp : readChar ([c] ++ r) = some (c, r) := by
    have : c ≠ 92 := fun h => h1 (.inr h)
    simp [readChar, this]
  by_cases h5 : c < 32 ∨ c = 127
  · rw [if_pos h5]; exact hx c (by omega)
  rw [if_neg h5]
  by_cases h6 : c < 127
  · rw [if_pos h6]; exact hp
  rw [if_neg h6]
  by_cases h7 : env.isPrintableCp c = true
  · rw [if_pos h7]; exact hp
  rw [if_neg h7]
  by_cases h8 : c ≤ 0xff
  · rw [if_pos h8]; exact hx c (by omega)
  rw [if_neg h8]
  by_cases h9 : c ≤ 0xffff
  · rw [if_pos h9]
    have := readChar_hex 4 c r (by simp; omega)
    simp [readChar, this]
  · rw [if_neg h9]
    have := readChar_hex 8 c r (by simp; omega)
    simp [readChar, this]

theorem readChar_byte {q c : Nat} (hq : q = 39 ∨ q = 34) (hc : c < 256) (r : Str) :
    readChar (reprByte q c ++ r) = some (c, r) := by
  unfold reprByte
  by_cases h1 : c = q ∨ c = 92
  · rw [if_pos h1]
    have : c ≠ 116 ∧ c ≠ 110 ∧ c ≠ 114 ∧ c ≠ 120 ∧ c ≠ 117 ∧ c ≠ 85 := by omega
    simp [readChar, this]
  rw [if_neg h1]
  by_cases h2 : c = 9
  · subst h2; rfl
  rw [if_neg h2]
  by_cases h3 : c = 10
  · subst h3; rfl
  rw [if_neg h3]
  by_cases h4 : c = 13
  · subst h4; rfl
  rw [if_neg h4]
  by_cases h5 : c < 32 ∨ c ≥ 127
  · rw [if_pos h5]
    have := readChar_hex 2 c r (by simpa using hc)
    simp [readChar, this]
  · rw [if_neg h5]
    have : c ≠ 92 := fun h => h1 (.inr h)
    simp [readChar, this]

/-- Neither kind of character starts with the quote. -/
theorem reprStrChar_head {env : PyEnv} {q c : Nat} (hq : q = 39 ∨ q = 34) (r r' : Str) :
    reprStrChar env q c ++ r ≠ q :: r' := by
  unfold reprStrChar
  intro h
  have e : ∀ {x : Nat} {t : Str}, x :: t = q :: r' → x = q := fun h => by injection h
  by_cases h1 : c = q ∨ c = 92
  · rw [if_pos h1] at h; have := e h; omega
  rw [if_neg h1] at h
  by_cases h2 : c = 9
  · rw [if_pos h2] at h; have := e h; omega
  rw [if_neg h2] at h
  by_cases h3 : c = 10
  · rw [if_pos h3] at h; have := e h; omega
  rw [if_neg h3] at h
  by_cases h4 : c = 13
  · rw [if_pos h4] at h; have := e h; omega
  rw [if_neg h4] at h
  by_cases h5 : c < 32 ∨ c = 127
  · rw [if_pos h5] at h; have := e h; omega
  rw [if_neg h5] at h
  by_cases h6 : c < 127
  · rw [if_pos h6] at h; exact h1 (.inl (e h))
  rw [if_neg h6] at h
  by_cases h7 : env.isPrintableCp c = true
  · rw [if_pos h7] at h; exact h1 (.inl (e h))
  rw [if_neg h7] at h
  by_cases h8 : c ≤ 0xff
  · rw [if_pos h8] at h; have := e h; omega
  rw [if_neg h8] at h
  by_cases h9 : c ≤ 0xffff
  · rw [if_pos h9] at h; have := e h; omega
  · rw [if_neg h9] at h; have := e h; omega

theorem reprByte_head {q c : Nat} (hq : q = 39 ∨ q = 34) (r r' : Str) : reprByte q c ++ r ≠ q :: r' := by
  unfold reprByte
  intro h
  have e : ∀ {x : Nat} {t : Str}, x :: t = q :: r' → x = q := fun h => by injection h
  by_cases h1 : c = q ∨ c = 92
  · rw [if_pos h1] at h; have := e h; omega
  rw [if_neg h1] at h
  by_cases h2 : c = 9
  · rw [if_pos h2] at h; have := e h; omega
  rw [if_neg h2] at h
  by_cases h3 : c = 10
  · rw [if_pos h3] at h; have := e h; omega
  rw [if_neg h3] at h
  by_cases h4 : c = 13
  · rw [if_pos h4] at h; have := e h; omega
  rw [if_neg h4] at h
  by_cases h5 : c < 32 ∨ c ≥ 127
  · rw [if_pos h5] at h; have := e h; omega
  · rw [if_neg h5] at h; exact h1 (.inl (e h))

/-! ## One literal -/

/-- Characters written by `code`, then the closing quote: what was written and what follows are
determined. -/
theorem quoted_read {code : Nat → Str} {q : Nat} {D : Nat → Prop} (hr : ∀ c, D c → ∀ r, readChar (code c ++ r) = some (c, r))
    (hh : ∀ c r r', code c ++ r ≠ q :: r') : ∀ {s s' r r' : Str}, (∀ c ∈ s, D c) → (∀ c ∈ s', D c) →
      s.flatMap code ++ q :: r = s'.flatMap code ++ q :: r' → s = s' ∧ r = r'
  | [], [], _, _, _, _, h => by simpa using h
  | [], c :: t, _, _, _, _, h => by
    rw [List.flatMap_nil, List.nil_append, List.flatMap_cons, List.append_assoc] at h
    exact absurd h.symm (hh c _ _)
  | c :: t, [], _, _, _, _, h => by
    rw [List.flatMap_nil, List.nil_append, List.flatMap_cons, List.append_assoc] at h
    exact absurd h (hh c _ _)
  | c :: t, c' :: t', r, r', h1, h2, h => by
    rw [List.flatMap_cons, List.flatMap_cons, List.append_assoc, List.append_assoc] at h
    have e := hr c (h1 c (by simp)) (t.flatMap code ++ q :: r)
    rw [h, hr c' (h2 c' (by simp))] at e
    injection e with e
    injection e with e1 e2
    obtain ⟨e3, e4⟩ := quoted_read hr hh (fun x hx => h1 x (by simp [hx])) (fun x hx => h2 x (by simp [hx])) e2.symm
    exact ⟨by rw [e1, e3], e4⟩

theorem reprStr_read {env : PyEnv} {s s' r r' : Str} (h1 : IsText s) (h2 : IsText s')
    (h : reprStr env s ++ r = reprStr env s' ++ r') : s = s' ∧ r = r' := by
  unfold reprStr at h
  dsimp only at h
  simp only [List.cons_append, List.nil_append, List.append_assoc] at h
  injection h with hq h
  rw [← hq] at h
  have hq' := (reprQuote_cases s).symm
  exact quoted_read (D := fun c => c < 0x110000) (fun c hc r => readChar_str hq' hc r)
    (fun c r r' => reprStrChar_head hq' r r') h1 h2 h

theorem reprBytes_read {b b' : Bytes} {r r' : Str} (h : reprBytes b ++ r = reprBytes b' ++ r') : b = b' ∧ r = r' := by
  unfold reprBytes at h
  dsimp only at h
  simp only [List.cons_append, List.nil_append, List.append_assoc] at h
  injection h with _ h
  injection h with hq h
  rw [← hq] at h
  have hq' := (reprQuote_cases (b.map UInt8.toNat)).symm
  have hb : ∀ b : Bytes, ∀ c ∈ b.map UInt8.toNat, c < 256 := by
    intro b c hc
    obtain ⟨x, _, rfl⟩ := List.mem_map.1 hc
    exact x.toNat_lt
  obtain ⟨e1, e2⟩ := quoted_read (D := fun c => c < 256) (fun c hc r => readChar_byte hq' hc r)
    (fun c r r' => reprByte_head hq' r r') (hb b) (hb b') h
  exact ⟨(List.map_inj_right (fun x y e => UInt8.toNat_inj.1 e)).1 e1, e2⟩

theorem reprStr_ne_bytes {env : PyEnv} {s : Str} {b : Bytes} {r r' : Str} : reprStr env s ++ r ≠ reprBytes b ++ r' := by
  unfold reprStr reprBytes
  dsimp only
  simp only [List.cons_append, List.nil_append, List.append_assoc]
  intro h
  injection h with h _
  have := reprQuote_cases s
  omega

/-! ## The lines of one value -/

/-- A literal written by `pp`: of a `str` or of `bytes`. -/
def lit (env : PyEnv) : Str ⊕ Bytes → Str
  | .inl s => reprStr env s
  | .inr b => reprBytes b

/-- The literal can be read back. -/
def LitOk : Str ⊕ Bytes → Prop
  | .inl s => IsText s
  | .inr _ => True

theorem lit_read {env : PyEnv} {x y : Str ⊕ Bytes} {r r' : Str} (hx : LitOk x) (hy : LitOk y)
    (h : lit env x ++ r = lit env y ++ r') : x = y ∧ r = r' := by
  cases x with
  | inl s =>
    cases y with
    | inl s' => obtain ⟨rfl, e⟩ := reprStr_read hx hy h; exact ⟨rfl, e⟩
    | inr b => exact absurd h reprStr_ne_bytes
  | inr b =>
    cases y with
    | inl s => exact absurd h.symm reprStr_ne_bytes
    | inr b' => obtain ⟨rfl, e⟩ := reprBytes_read h; exact ⟨rfl, e⟩

/-- Does not start with a space. -/
def Fresh (r : Str) : Prop := ∀ t, r ≠ 32 :: t

/-- The lines after the first: which they are, and what follows them, is determined. -/
theorem lines_read {env : PyEnv} {n : Nat} (hn : 0 < n) : ∀ {ps ps' : List (Str ⊕ Bytes)} {r r' : Str},
    (∀ p ∈ ps, LitOk p) → (∀ p ∈ ps', LitOk p) → Fresh r → Fresh r' →
    (ps.map (lit env)).flatMap (newLine n ++ ·) ++ 10 :: r = (ps'.map (lit env)).flatMap (newLine n ++ ·) ++ 10 :: r' →
    ps = ps' ∧ r = r'
  | [], [], _, _, _, _, _, _, h => by simpa using h
  | [], p :: t, r, r', _, _, hf, _, h => by
    exfalso
    cases n with
    | zero => omega
    | succ n =>
      simp only [List.map_nil, List.flatMap_nil, List.nil_append, List.map_cons, List.flatMap_cons, newLine,
        List.replicate_succ, List.cons_append, List.append_assoc] at h
      injection h with _ h
      exact hf _ h
  | p :: t, [], r, r', _, _, _, hf, h => by
    exfalso
    cases n with
    | zero => omega
    | succ n =>
      simp only [List.map_nil, List.flatMap_nil, List.nil_append, List.map_cons, List.flatMap_cons, newLine,
        List.replicate_succ, List.cons_append, List.append_assoc] at h
      injection h with _ h
      exact hf _ h.symm
  | p :: t, p' :: t', r, r', h1, h2, hf, hf', h => by
    simp only [List.map_cons, List.flatMap_cons, List.append_assoc] at h
    have h := List.append_cancel_left h
    obtain ⟨rfl, h3⟩ := lit_read (h1 p (by simp)) (h2 p' (by simp)) h
    obtain ⟨rfl, e⟩ := lines_read hn (fun x hx => h1 x (by simp [hx])) (fun x hx => h2 x (by simp [hx])) hf hf' h3
    exact ⟨rfl, e⟩

/-- The literals `ps` together are the value `v`. -/
def Glues (ps : List (Str ⊕ Bytes)) : PpVal → Prop
  | .str s => ∃ qs : List Str, ps = qs.map .inl ∧ qs.flatten = s
  | .bytes b => ∃ qs : List Bytes, ps = qs.map .inr ∧ qs.flatten = b
  | _ => False

/-- The value is one `pp` writes as literals that can be read back. -/
def ValOk : PpVal → Prop
  | .str s => IsText s
  | .bytes _ => True
  | .dict _ _ => True
  | .other _ => False

theorem glues_unique {ps : List (Str ⊕ Bytes)} {v v' : PpVal} (hne : ps ≠ []) (h : Glues ps v) (h' : Glues ps v') : v = v' := by
  cases v with
  | str s =>
    obtain ⟨qs, rfl, rfl⟩ := h
    cases qs with
    | nil => exact absurd rfl hne
    | cons q t =>
      cases v' with
      | str s' =>
        obtain ⟨qs', e, rfl⟩ := h'
        rw [(List.map_inj_right (fun _ _ e => Sum.inl.inj e)).1 e]
      | bytes b =>
        obtain ⟨qs', e, rfl⟩ := h'
        cases qs' <;> simp at e
      | dict _ _ => exact h'.elim
      | other _ => exact h'.elim
  | bytes b =>
    obtain ⟨qs, rfl, rfl⟩ := h
    cases qs with
    | nil => exact absurd rfl hne
    | cons q t =>
      cases v' with
      | bytes s' =>
        obtain ⟨qs', e, rfl⟩ := h'
        rw [(List.map_inj_right (fun _ _ e => Sum.inr.inj e)).1 e]
      | str b =>
        obtain ⟨qs', e, rfl⟩ := h'
        cases qs' <;> simp at e
      | dict _ _ => exact h'.elim
      | other _ => exact h'.elim
  | dict _ _ => exact h.elim
  | other _ => exact h.elim

theorem lit_inl (env : PyEnv) (qs : List Str) : (qs.map .inl).map (lit env) = qs.map (reprStr env) := by
  rw [List.map_map]; rfl

theorem lit_inr (env : PyEnv) (qs : List Bytes) : (qs.map .inr).map (lit env) = qs.map reprBytes := by
  rw [List.map_map]; rfl

/-- The text of a value is a first literal and lines below it. -/
theorem Shows.lines {env : PyEnv} {n : Nat} {w : Int} {v : PpVal} {body : Str} (h : Shows env n w v body) (hv : ValOk v) :
    ∃ p ps, body = lit env p ++ (ps.map (lit env)).flatMap (newLine n ++ ·) ∧ Glues (p :: ps) v ∧ ∀ x ∈ p :: ps, LitOk x := by
  cases h with
  | @strFits s h => exact ⟨.inl s, [], by simp [lit], ⟨[s], rfl, by simp⟩, by simpa [LitOk, ValOk] using hv⟩
  | @strFolds s ps h1 h2 hf =>
    cases ps with
    | nil => have := hf.whole; simp at this; subst this; simp at h2
    | cons q t =>
      refine ⟨.inl q, t.map .inl, ?_, ⟨q :: t, rfl, hf.whole⟩, ?_⟩
      · rw [List.map_cons, joinWith_cons, lit_inl]; rfl
      · intro x hx
        rw [← List.map_cons] at hx
        obtain ⟨y, hy, rfl⟩ := List.mem_map.1 hx
        intro c hc
        exact hv c (by rw [← hf.whole]; exact List.mem_flatten.2 ⟨y, hy, hc⟩)
  | @bytesFits s h => exact ⟨.inr s, [], by simp [lit], ⟨[s], rfl, by simp⟩, by simp [LitOk]⟩
  | @bytesFolds s ps h1 h2 hf =>
    cases ps with
    | nil => have := hf.whole; simp at this; subst this; simp at h2
    | cons q t =>
      refine ⟨.inr q, t.map .inr, ?_, ⟨q :: t, rfl, hf.whole⟩, ?_⟩
      · rw [List.map_cons, joinWith_cons, lit_inr]; rfl
      · intro x hx
        rw [← List.map_cons] at hx
        obtain ⟨y, hy, rfl⟩ := List.mem_map.1 hx
        trivial
  | other => exact hv.elim

theorem shows_read {env : PyEnv} {n : Nat} (hn : 0 < n) {w w' : Int} {v v' : PpVal} {body body' r r' : Str}
    (h : Shows env n w v body) (h' : Shows env n w' v' body') (hv : ValOk v) (hv' : ValOk v') (hf : Fresh r) (hf' : Fresh r')
    (e : body ++ 10 :: r = body' ++ 10 :: r') : v = v' ∧ r = r' := by
  obtain ⟨p, ps, rfl, g, ok⟩ := h.lines hv
  obtain ⟨p', ps', rfl, g', ok'⟩ := h'.lines hv'
  rw [List.append_assoc, List.append_assoc] at e
  obtain ⟨rfl, e1⟩ := lit_read (ok p (by simp)) (ok' p' (by simp)) e
  obtain ⟨rfl, e2⟩ := lines_read hn (fun x hx => ok x (by simp [hx])) (fun x hx => ok' x (by simp [hx])) hf hf' e1
  exact ⟨glues_unique (by simp) g g', e2⟩

/-- After its first literal the text of a value has a newline. -/
theorem shows_head {env : PyEnv} {n : Nat} {w : Int} {v : PpVal} {body : Str} (r : Str) (h : Shows env n w v body) (hv : ValOk v) :
    ∃ p t, body ++ 10 :: r = lit env p ++ 10 :: t ∧ LitOk p := by
  obtain ⟨p, ps, rfl, _, ok⟩ := h.lines hv
  refine ⟨p, ?_⟩
  cases ps with
  | nil => exact ⟨r, by simp, ok p (by simp)⟩
  | cons q t =>
    refine ⟨?_, ?e, ok p (by simp)⟩
    case e =>
      simp only [newLine, List.map_cons, List.flatMap_cons, List.append_assoc, List.cons_append]
      rfl

/-! ## One group of lines -/

theorem unpacks_ok {v v' : PpVal} {pre : Str} (h : Unpacks v pre v') (hv : ValOk v) :
    ValOk v' ∧ (pre = [] ∨ ∃ l, pre = reprBytes l ++ py" ") := by
  cases v with
  | str s => obtain ⟨rfl, rfl⟩ := h; exact ⟨hv, .inl rfl⟩
  | bytes s => obtain ⟨rfl, rfl⟩ := h; exact ⟨hv, .inl rfl⟩
  | other s => exact hv.elim
  | dict l d =>
    obtain ⟨rfl, rfl⟩ := h
    refine ⟨trivial, ?_⟩
    by_cases hl : l.getD [] = []
    · rw [if_pos hl]; exact .inl rfl
    · rw [if_neg hl]; exact .inr ⟨_, rfl⟩

/-- A key of a message: not empty, no space and no colon in it. -/
def KeyOk (k : Str) : Prop := k ≠ [] ∧ ∀ c ∈ k, c ≠ 32 ∧ c ≠ 58

theorem key_read : ∀ {k k' : Str} {z z' : Nat} {r r' : Str}, (∀ c ∈ k, c ≠ 32 ∧ c ≠ 58) → (∀ c ∈ k', c ≠ 32 ∧ c ≠ 58) →
    (z = 32 ∨ z = 58) → (z' = 32 ∨ z' = 58) → k ++ z :: r = k' ++ z' :: r' → k = k'
  | [], [], _, _, _, _, _, _, _, _, _ => rfl
  | [], c :: t, z, z', _, _, _, h, hz, _, e => by
    injection e with e _
    have := h c (by simp)
    omega
  | c :: t, [], z, z', _, _, h, _, _, hz, e => by
    injection e with e _
    have := h c (by simp)
    omega
  | c :: t, c' :: t', z, z', _, _, h, h', hz, hz', e => by
    injection e with e1 e2
    rw [e1, key_read (fun x hx => h x (by simp [hx])) (fun x hx => h' x (by simp [hx])) hz hz' e2]

theorem head_key {spec : Spec} {dw : Int} {k d : Str} (r : Str) (h : DescText spec dw k d) :
    ∃ z t, (z = 32 ∨ z = 58) ∧ padded 3 k ++ (d ++ (py": " ++ r)) = k ++ z :: t := by
  unfold padded
  cases hn : 3 - k.length with
  | succ n =>
    refine ⟨32, ?_, .inl rfl, ?e⟩
    case e =>
      simp only [List.replicate_succ, List.append_assoc, List.cons_append]
      rfl
  | zero =>
    rcases h with ⟨_, rfl⟩ | ⟨_, fs, x, _, _, rfl⟩
    · refine ⟨58, ?_, .inr rfl, ?e⟩
      case e =>
        simp only [List.replicate_zero, List.append_nil, List.nil_append, List.cons_append]
        rfl
    · refine ⟨32, ?_, .inl rfl, ?e⟩
      case e =>
        simp only [List.replicate_zero, List.append_nil, List.nil_append, List.cons_append]
        rfl

theorem descText_unique {spec : Spec} {dw : Int} {k d d' : Str} (h : DescText spec dw k d) (h' : DescText spec dw k d') : d = d' := by
  have a := descText_ok.2 h
  rw [descText_ok.2 h'] at a
  injection a with a
  exact a.symm

theorem lit_inr_eq {env : PyEnv} (l : Bytes) : reprBytes l = lit env (.inr l) := rfl

theorem group_read {env : PyEnv} {spec : Spec} {dw lw lw' : Int} {k k' t t' r r' : Str} {v v' : PpVal}
    (h : FieldText env spec dw lw k v t) (h' : FieldText env spec dw lw' k' v' t') (hk : KeyOk k) (hk' : KeyOk k')
    (hv : ValOk v) (hv' : ValOk v') (hf : Fresh r) (hf' : Fresh r') (e : t ++ r = t' ++ r') :
    k = k' ∧ (∃ pre w, Unpacks v pre w ∧ Unpacks v' pre w) ∧ r = r' := by
  obtain ⟨d, pre, w, body, hd, hu, hs, rfl⟩ := h
  obtain ⟨d', pre', w', body', hd', hu', hs', rfl⟩ := h'
  simp only [List.append_assoc] at e
  have hkk : k = k' := by
    obtain ⟨z, a, hz, ea⟩ := head_key (pre ++ (body ++ ([10] ++ r))) hd
    obtain ⟨z', a', hz', ea'⟩ := head_key (pre' ++ (body' ++ ([10] ++ r'))) hd'
    rw [ea, ea'] at e
    exact key_read hk.2 hk'.2 hz hz' e
  subst hkk
  have := descText_unique hd hd'
  subst this
  have e := List.append_cancel_left (List.append_cancel_left (List.append_cancel_left e))
  obtain ⟨hw, hp⟩ := unpacks_ok hu hv
  obtain ⟨hw', hp'⟩ := unpacks_ok hu' hv'
  have key : pre = pre' := by
    rcases hp with rfl | ⟨l, rfl⟩
    · rcases hp' with rfl | ⟨l, rfl⟩
      · rfl
      · obtain ⟨p, a, ea, ok⟩ := shows_head r hs hw
        simp only [List.cons_append, List.nil_append, List.append_assoc] at e
        rw [ea, lit_inr_eq (env := env)] at e
        obtain ⟨_, e⟩ := lit_read (y := .inr l) ok trivial e
        injection e with e _
        cases e
    · rcases hp' with rfl | ⟨l', rfl⟩
      · obtain ⟨p, a, ea, ok⟩ := shows_head r' hs' hw'
        simp only [List.cons_append, List.nil_append, List.append_assoc] at e
        rw [ea, lit_inr_eq (env := env)] at e
        obtain ⟨_, e⟩ := lit_read (x := .inr l) trivial ok e
        injection e with e _
        cases e
      · simp only [List.append_assoc] at e
        obtain ⟨rfl, _⟩ := reprBytes_read e
        rfl
  subst key
  have e := List.append_cancel_left e
  obtain ⟨rfl, e⟩ := shows_read (by omega) hs hs' hw hw' hf hf' e
  exact ⟨rfl, ⟨_, _, hu, hu'⟩, e⟩

theorem group_fresh {env : PyEnv} {spec : Spec} {dw lw : Int} {k t : Str} {v : PpVal}
    (h : FieldText env spec dw lw k v t) (hk : KeyOk k) (r : Str) : Fresh (t ++ r) ∧ t ≠ [] := by
  obtain ⟨d, pre, w, body, hd, hu, hs, rfl⟩ := h
  obtain ⟨hk, hc⟩ := hk
  cases k with
  | nil => exact absurd rfl hk
  | cons c t =>
    have := hc c (by simp)
    refine ⟨?_, by simp [padded]⟩
    intro a e
    simp only [padded, List.cons_append] at e
    injection e with e _
    omega

/-- The groups of a whole output. -/
theorem groups_read {env : PyEnv} {spec : Spec} {dw lw lw' : Int} {g g' : Str → PpVal → Prop} {text text' : Str → Str} :
    ∀ {ks ks' : List Str},
    (∀ k ∈ ks, KeyOk k ∧ ∃ v, g k v ∧ ValOk v ∧ FieldText env spec dw lw k v (text k)) →
    (∀ k ∈ ks', KeyOk k ∧ ∃ v, g' k v ∧ ValOk v ∧ FieldText env spec dw lw' k v (text' k)) →
    ks.flatMap text = ks'.flatMap text' →
    ks = ks' ∧ ∀ k ∈ ks, ∃ v v', g k v ∧ g' k v' ∧ ∃ pre w, Unpacks v pre w ∧ Unpacks v' pre w
  | [], [], _, _, _ => ⟨rfl, by simp⟩
  | [], k :: t, _, h', e => by
    obtain ⟨hk, v, _, _, ht⟩ := h' k (by simp)
    have := (group_fresh ht hk []).2
    simp at e
    exact absurd e.1 this
  | k :: t, [], h, _, e => by
    obtain ⟨hk, v, _, _, ht⟩ := h k (by simp)
    have := (group_fresh ht hk []).2
    simp at e
    exact absurd e.1 this
  | k :: t, k' :: t', h, h', e => by
    obtain ⟨hk, v, hg, hv, ht⟩ := h k (by simp)
    obtain ⟨hk', v', hg', hv', ht'⟩ := h' k' (by simp)
    have fresh : ∀ {lw : Int} {g : Str → PpVal → Prop} {text : Str → Str} {ks : List Str},
        (∀ k ∈ ks, KeyOk k ∧ ∃ v, g k v ∧ ValOk v ∧ FieldText env spec dw lw k v (text k)) → Fresh (ks.flatMap text) := by
      intro lw g text ks h
      cases ks with
      | nil => intro t e; cases e
      | cons k t =>
        obtain ⟨hk, v, _, _, ht⟩ := h k (by simp)
        exact (group_fresh ht hk _).1
    rw [List.flatMap_cons, List.flatMap_cons] at e
    obtain ⟨rfl, hsame, e⟩ := group_read ht ht' hk hk' hv hv' (fresh fun x hx => h x (by simp [hx]))
      (fresh fun x hx => h' x (by simp [hx])) e
    obtain ⟨rfl, hrest⟩ := groups_read (fun x hx => h x (by simp [hx])) (fun x hx => h' x (by simp [hx])) e
    refine ⟨rfl, ?_⟩
    intro x hx
    rcases List.mem_cons.1 hx with rfl | hx
    · exact ⟨v, v', hg, hg', hsame⟩
    · exact hrest x hx

end Iso8583
