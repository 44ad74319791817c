import Verif.Props.Python
import Verif.Lemmas.Pp
import Verif.Lemmas.Bridge
/-!
# Hexadecimal, integers in bytes, `isnumeric`, `sorted`, sets and dicts (C89)
-/

namespace Iso8583

/-! ## Hexadecimal -/

/-- **C89** (`binascii.a2b_hex`): accepted are pairs of hex digits, of either case. -/
theorem a2bHex_pairs : ∀ {t : Str} {b : Bytes}, a2bHex t = some b ↔ HexPairs t b
  | [], b => ⟨fun h => by cases h; exact .nil, fun h => by cases h; rfl⟩
  | [a], b => by
    constructor
    · intro h; cases h
    · intro h; cases h
  | a :: c :: t, b => by
    constructor
    · intro h
      rw [a2bHex] at h
      cases hx : hexVal? a with
      | none => rw [hx] at h; cases h
      | some x =>
        cases hy : hexVal? c with
        | none => rw [hx, hy] at h; cases h
        | some y =>
          cases hr : a2bHex t with
          | none => rw [hx, hy, hr] at h; cases h
          | some r =>
            rw [hx, hy, hr] at h
            cases h
            rw [Nat.mul_comm]
            exact .byte (hexVal_iff.1 hx) (hexVal_iff.1 hy) (a2bHex_pairs.1 hr)
    · intro h
      cases h with
      | byte h1 h2 h3 => rw [a2bHex, hexVal_iff.2 h1, hexVal_iff.2 h2, a2bHex_pairs.2 h3, Nat.mul_comm]

theorem hexDigitLower_range {n : Nat} (h : n < 16) : (48 ≤ hexDigitLower n ∧ hexDigitLower n ≤ 57) ∨ (97 ≤ hexDigitLower n ∧ hexDigitLower n ≤ 102) := by
  unfold hexDigitLower
  split <;> omega

theorem bytesHex_range {b : Bytes} : ∀ c ∈ bytesHex b, (48 ≤ c ∧ c ≤ 57) ∨ (97 ≤ c ∧ c ≤ 102) := by
  intro c hc
  obtain ⟨x, _, hx⟩ := List.mem_flatMap.1 hc
  have := x.toNat_lt
  simp only [List.mem_cons, List.not_mem_nil, or_false] at hx
  rcases hx with rfl | rfl <;> exact hexDigitLower_range (by omega)

theorem hexDigitValue_inj {c d : Nat} (h : hexDigitValue c = hexDigitValue d) (hc : (48 ≤ c ∧ c ≤ 57) ∨ (97 ≤ c ∧ c ≤ 102))
    (hd : (48 ≤ d ∧ d ≤ 57) ∨ (97 ≤ d ∧ d ≤ 102)) : c = d := by
  unfold hexDigitValue at h
  split at h <;> split at h <;> (try split at h) <;> (try split at h) <;> omega

theorem hexDigitValue_inj_upper {c d : Nat} (h : hexDigitValue c = hexDigitValue d) (hc : (48 ≤ c ∧ c ≤ 57) ∨ (65 ≤ c ∧ c ≤ 70))
    (hd : (48 ≤ d ∧ d ≤ 57) ∨ (65 ≤ d ∧ d ≤ 70)) : c = d := by
  unfold hexDigitValue at h
  split at h <;> split at h <;> (try split at h) <;> (try split at h) <;> omega

theorem hexDigit_lt {c x : Nat} (h : HexDigit c x) : x < 16 := by
  obtain ⟨h, rfl⟩ := h
  unfold hexDigitValue
  split
  · omega
  · split <;> omega

/-- Two spellings of the same bytes that use one case are the same. -/
theorem HexPairs.unique {P : Nat → Prop} (hP : ∀ c d, P c → P d → hexDigitValue c = hexDigitValue d → c = d) :
    ∀ {t u : Str} {b : Bytes}, HexPairs t b → HexPairs u b → (∀ c ∈ t, P c) → (∀ c ∈ u, P c) → t = u := by
  intro t u b h
  induction h generalizing u with
  | nil => intro h _ _; cases h; rfl
  | @byte t a c x y b h1 h2 _ ih =>
    intro h ht hu
    generalize hz : UInt8.ofNat (16 * x + y) = z at h
    cases h with
    | @byte u a' c' x' y' _ h1' h2' h3' =>
      have l1 := hexDigit_lt h1
      have l2 := hexDigit_lt h2
      have l3 := hexDigit_lt h1'
      have l4 := hexDigit_lt h2'
      have e := congrArg UInt8.toNat hz
      rw [u8_toNat (by omega), u8_toNat (by omega)] at e
      have hx : x = x' := by omega
      have hy : y = y' := by omega
      rw [h1.2, h1'.2] at hx
      rw [h2.2, h2'.2] at hy
      rw [hP _ _ (ht _ (by simp)) (hu _ (by simp)) hx, hP _ _ (ht _ (by simp)) (hu _ (by simp)) hy,
        ih h3' (fun c hc => ht c (by simp [hc])) fun c hc => hu c (by simp [hc])]

/-- **C89** (`data.hex()`): the spelling of the bytes in pairs of digits and lower-case letters. -/
theorem bytesHex_iff {b : Bytes} {t : Str} : bytesHex b = t ↔ HexPairs t b ∧ ∀ c ∈ t, ¬ (65 ≤ c ∧ c ≤ 90) := by
  have hb := a2bHex_pairs.1 (a2bHex_bytesHex b)
  constructor
  · rintro rfl
    exact ⟨hb, fun c hc => by have := bytesHex_range c hc; omega⟩
  · rintro ⟨h, hl⟩
    refine HexPairs.unique (P := fun c => (48 ≤ c ∧ c ≤ 57) ∨ (97 ≤ c ∧ c ≤ 102)) (fun c d hc hd he => hexDigitValue_inj he hc hd) hb h bytesHex_range ?_
    clear hb
    induction h with
    | nil => simp
    | byte h1 h2 _ ih =>
      intro e he
      have := hl e he
      simp only [List.mem_cons] at he
      rcases he with rfl | rfl | he
      · have := h1.1; omega
      · have := h2.1; omega
      · exact ih (fun c hc => hl c (by simp [hc])) e he

/-- **C89** (`data.hex().upper()`): the spelling of the bytes in pairs of digits and upper-case letters. -/
theorem bytesHex_upper_iff {b : Bytes} {t : Str} : upperAscii (bytesHex b) = t ↔ HexPairs t b ∧ ∀ c ∈ t, ¬ (97 ≤ c ∧ c ≤ 122) := by
  have hb := a2bHex_pairs.1 (a2bHex_bytesHex_upper b)
  have hr : ∀ c ∈ upperAscii (bytesHex b), (48 ≤ c ∧ c ≤ 57) ∨ (65 ≤ c ∧ c ≤ 70) := by
    intro c hc
    obtain ⟨d, hd, rfl⟩ := List.mem_map.1 hc
    have := bytesHex_range d hd
    split <;> omega
  constructor
  · rintro rfl
    exact ⟨hb, fun c hc => by have := hr c hc; omega⟩
  · rintro ⟨h, hl⟩
    refine HexPairs.unique (P := fun c => (48 ≤ c ∧ c ≤ 57) ∨ (65 ≤ c ∧ c ≤ 70)) (fun c d hc hd he => hexDigitValue_inj_upper he hc hd) hb h hr ?_
    clear hb hr
    induction h with
    | nil => simp
    | byte h1 h2 _ ih =>
      intro e he
      have := hl e he
      simp only [List.mem_cons] at he
      rcases he with rfl | rfl | he
      · have := h1.1; omega
      · have := h2.1; omega
      · exact ih (fun c hc => hl c (by simp [hc])) e he

/-! ## Integers in bytes -/

/-- **C89** (`int.from_bytes`): the sum of the bytes, each times the power of 256 of its place. -/
theorem fromBytes_value (b : Bytes) : fromBytesBE b = beValue b := beValue_eq b

/-- **C89** (`n.to_bytes(w, "big")`): the only `w` bytes that denote `n`; if there are none it fails. -/
theorem toBytes_iff {n w : Nat} {b : Bytes} : toBytesBE n w = some b ↔ b.length = w ∧ beValue b = n := by
  constructor
  · intro h
    rw [← beValue_eq]
    exact toBytesBE_some h
  · rintro ⟨rfl, rfl⟩
    rw [← beValue_eq]
    exact toBytesBE_fromBytesBE b

/-! ## `isnumeric` -/

/-- **C89** (`text.isnumeric()`): some characters, all numeric. -/
theorem isNumeric_iff {env : PyEnv} {t : Str} : isNumeric env t = true ↔ (∃ c, c ∈ t) ∧ ∀ c ∈ t, env.isNumericCp c = true := by
  cases t with
  | nil => simp [isNumeric]
  | cons c t => simp [isNumeric]

/-! ## `sorted` -/

theorem insertBy_filter {α : Type} (key : α → Int) (x : α) (v : Int) : ∀ {l : List α},
    (insertBy key x l).filter (fun a => key a = v) = (x :: l).filter fun a => key a = v
  | [] => rfl
  | y :: t => by
    rw [insertBy]
    split
    · rfl
    · rw [List.filter_cons, insertBy_filter key x v, List.filter_cons, List.filter_cons (xs := y :: t), List.filter_cons (xs := t)]
      by_cases h1 : key x = v
      · have : key y ≠ v := by omega
        simp [this, h1]
      · simp [h1]

theorem sorted_ext {α : Type} {key : α → Int} : ∀ {l m : List α}, (l.Pairwise fun a b => key a ≤ key b) → (m.Pairwise fun a b => key a ≤ key b) →
    (∀ v, l.filter (fun a => key a = v) = m.filter fun a => key a = v) → l = m
  | [], [], _, _, _ => rfl
  | [], y :: m, _, _, h => by have := h (key y); simp at this
  | x :: l, [], _, _, h => by have := h (key x); simp at this
  | x :: l, y :: m, hl, hm, h => by
    have hl' := List.pairwise_cons.1 hl
    have hm' := List.pairwise_cons.1 hm
    have h1 : key y ≤ key x := by
      have : x ∈ (y :: m).filter fun a => key a = key x := by rw [← h]; simp
      rcases List.mem_cons.1 (List.mem_filter.1 this).1 with rfl | hx
      · omega
      · exact hm'.1 _ hx
    have h2 : key x ≤ key y := by
      have : y ∈ (x :: l).filter fun a => key a = key y := by rw [h]; simp
      rcases List.mem_cons.1 (List.mem_filter.1 this).1 with rfl | hx
      · omega
      · exact hl'.1 _ hx
    have e : key x = key y := by omega
    have hh := h (key x)
    rw [List.filter_cons_of_pos (by simp), List.filter_cons_of_pos (by simp [e])] at hh
    injection hh with hxy _
    subst hxy
    refine congrArg (x :: ·) (sorted_ext hl'.2 hm'.2 fun v => ?_)
    have hv := h v
    rw [List.filter_cons, List.filter_cons] at hv
    by_cases hk : key x = v
    · simpa [hk] using hv
    · simpa [hk] using hv

/-- **C89** (`sorted(xs, key=...)`): in ascending order, those of equal key in the order they had. -/
theorem sortedBy_iff {α : Type} {key : α → Int} {l m : List α} : sortedBy key l = m ↔
    (m.Pairwise fun a b => key a ≤ key b) ∧ ∀ v, m.filter (fun a => key a = v) = l.filter fun a => key a = v := by
  have hf : ∀ (l : List α) v, (sortedBy key l).filter (fun a => key a = v) = l.filter fun a => key a = v := by
    intro l v
    induction l with
    | nil => rfl
    | cons x t ih => rw [sortedBy, insertBy_filter, List.filter_cons, List.filter_cons, ih]
  constructor
  · rintro rfl
    exact ⟨sortedBy_sorted key l, hf l⟩
  · rintro ⟨h1, h2⟩
    exact sorted_ext (sortedBy_sorted key l) h1 fun v => by rw [hf, h2]

/-! ## Sets and dicts -/

/-- **C89** (sets): `set(xs)`, `update`, `add`, `remove` and `intersection` have the elements they
should, each once. -/
theorem sets {s xs : List Nat} (hs : s.Nodup) (x lo hi : Nat) :
    (∀ y, y ∈ setUpdate s xs ↔ y ∈ s ∨ y ∈ xs) ∧ (setUpdate s xs).Nodup ∧
    (∀ y, y ∈ setAdd s x ↔ y ∈ s ∨ y = x) ∧ (setAdd s x).Nodup ∧
    (∀ y, y ∈ setRemove s x ↔ y ∈ s ∧ y ≠ x) ∧ (setRemove s x).Nodup ∧
    (∀ y, y ∈ setInter s lo hi ↔ y ∈ s ∧ lo ≤ y ∧ y < hi) ∧ (setInter s lo hi).Nodup :=
  ⟨fun _ => mem_setUpdate, nodup_setUpdate hs, fun _ => mem_setAdd, nodup_setAdd hs, fun _ => mem_setRemove, nodup_setRemove hs,
    fun _ => mem_setInter, nodup_setInter hs⟩

section
variable {κ ν : Type} [DecidableEq κ]

/-- A dict is determined by its keys, in order, and by what is under them. -/
theorem dict_ext {d e : Dict κ ν} (hd : d.NoDup) (hk : d.keys = e.keys) (hg : ∀ k, d.get? k = e.get? k) : d = e := by
  induction d generalizing e with
  | nil => cases e with
    | nil => rfl
    | cons => cases hk
  | cons p d ih =>
    cases e with
    | nil => cases hk
    | cons q e =>
      obtain ⟨k, v⟩ := p
      obtain ⟨k', v'⟩ := q
      injection hk with h1 h2
      dsimp only at h1
      subst h1
      have hv := hg k
      simp only [Dict.get?, if_true, Option.some.injEq] at hv
      subst hv
      obtain ⟨hn, hd'⟩ := List.nodup_cons.1 hd
      refine congrArg _ (ih hd' h2 fun j => ?_)
      by_cases hj : k = j
      · subst hj
        have a : Dict.get? d k = none := Dict.get?_eq_none.2 hn
        have b : Dict.get? e k = none := Dict.get?_eq_none.2 (by
          intro hm
          have h2' : Dict.keys d = Dict.keys e := h2
          rw [← h2'] at hm
          exact hn hm)
        rw [a, b]
      · have := hg j
        simpa [Dict.get?, hj] using this

/-- **C89** (`d[k]`): the value of the item with that key. -/
theorem dict_get {d : Dict κ ν} (hd : d.NoDup) {k : κ} {v : ν} : d.get? k = some v ↔ (k, v) ∈ d := by
  constructor
  · exact Dict.mem_of_get?
  · exact Dict.get?_of_mem hd

/-- **C89** (`d[k] = v`): the key keeps its place, or comes last if it is new; nothing else changes. -/
theorem dict_set {d e : Dict κ ν} (hd : d.NoDup) {k : κ} {v : ν} : d.set k v = e ↔
    e.keys = (if k ∈ d.keys then d.keys else d.keys ++ [k]) ∧ e.get? k = some v ∧ ∀ j, j ≠ k → e.get? j = d.get? j := by
  constructor
  · rintro rfl
    exact ⟨Dict.keys_set d k v, Dict.get?_set_same d k v, fun j hj => Dict.get?_set_ne d v hj⟩
  · rintro ⟨h1, h2, h3⟩
    refine dict_ext (hd.set k v) (by rw [Dict.keys_set, h1]) fun j => ?_
    by_cases hj : j = k
    · subst hj; rw [Dict.get?_set_same, h2]
    · rw [Dict.get?_set_ne d v hj, h3 j hj]

/-- **C89** (`d.pop(k, None)`): the key is gone, the others stay in order. -/
theorem dict_pop {d : Dict κ ν} (hd : d.NoDup) (k : κ) : d.pop k = d.filter fun p => p.1 ≠ k := Dict.pop_eq_filter hd k

end

/-! ## Examples -/

example : HexPairs py"0aFF" [0x0a, 0xff] ∧ (¬ ∃ b, HexPairs py"0aF" b) ∧ ¬ ∃ b, HexPairs py"0a " b := by
  refine ⟨a2bHex_pairs.1 (by decide), ?_, ?_⟩ <;>
  · rintro ⟨b, h⟩
    have := (Eq.trans (by decide +kernel : none = _) (a2bHex_pairs.2 h))
    cases this

example : bytesHex [0x0a, 0xff] = py"0aff" := bytesHex_iff.2 ⟨a2bHex_pairs.1 (by decide), by decide⟩

example : upperAscii (bytesHex [0x0a, 0xff]) = py"0AFF" := bytesHex_upper_iff.2 ⟨a2bHex_pairs.1 (by decide), by decide⟩

example : toBytesBE 258 3 = some [0, 1, 2] := toBytes_iff.2 (by decide)

example : toBytesBE 258 1 = none := by
  cases h : toBytesBE 258 1 with
  | none => rfl
  | some b =>
    obtain ⟨h1, h2⟩ := toBytes_iff.1 h
    match b, h1 with
    | [x], _ =>
      have := x.toNat_lt
      simp [beValue] at h2
      omega

example : sortedBy Prod.snd [(1, 5), (2, 3), (3, 5), (4, 3)] = [(2, (3 : Int)), (4, 3), (1, 5), (3, 5)] :=
  sortedBy_iff.2 ⟨by decide, fun v => by
    by_cases h3 : (3 : Int) = v
    · subst h3; decide
    · by_cases h5 : (5 : Int) = v
      · subst h5; decide
      · simp [List.filter_cons, h3, h5]⟩

example : Dict.set [(1, 10), (2, 20)] 1 11 = [(1, 11), (2, 20)] ∧ Dict.set [(1, 10), (2, 20)] 3 30 = [(1, 10), (2, 20), (3, 30)] := by
  have nd : Dict.NoDup [(1, 10), (2, 20)] := by unfold Dict.NoDup; decide
  constructor
  · refine (dict_set nd).2 ⟨rfl, rfl, fun j hj => ?_⟩
    simp [Dict.get?, Ne.symm hj]
  · refine (dict_set nd).2 ⟨rfl, rfl, fun j hj => ?_⟩
    simp [Dict.get?, Ne.symm hj]

/-- An instance of `isNumeric_iff`. -/
example : isNumeric cpython [0x32, 0xBD] = true ∧ isNumeric cpython [] = false ∧ isNumeric cpython py"1a" = false := by
  refine ⟨isNumeric_iff.2 ⟨⟨_, .head _⟩, by decide +kernel⟩, ?_, ?_⟩ <;> rw [← Bool.not_eq_true, isNumeric_iff]
  · rintro ⟨⟨c, h⟩, _⟩; cases h
  · rintro ⟨_, h⟩; exact absurd (h 0x61 (by decide)) (by decide +kernel)

/-- An instance of `sets`. -/
example : ∀ y, y ∈ setInter [3, 70, 1, 128] 2 129 ↔ y ∈ [3, 70, 1, 128] ∧ 2 ≤ y ∧ y < 129 :=
  (sets (xs := []) (by decide) 0 2 129).2.2.2.2.2.2.1

/-- An instance of `dict_get`. -/
example : Dict.get? [(py"2", 5), (py"3", 7)] py"3" = some 7 := (dict_get (by unfold Dict.NoDup; decide)).2 (by decide)

/-- An instance of `dict_pop`. -/
example : Dict.pop [(py"2", 5), (py"3", 7), (py"4", 9)] py"3" = [(py"2", 5), (py"4", 9)] :=
  dict_pop (by unfold Dict.NoDup; decide) _

/-- An instance of `fromBytes_value`. -/
example : fromBytesBE [1, 2, 3] = 66051 := (fromBytes_value _).trans (by decide)

end Iso8583
