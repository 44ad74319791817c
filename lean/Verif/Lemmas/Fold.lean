import Verif.Spec.PrettyPrint
/-! # How `pp` folds values -/

namespace Iso8583

/-! ## The length of a `repr` -/

theorem length_flatMap_le {α β : Type} {f g : α → List β} : ∀ {l : List α}, (∀ x ∈ l, (f x).length ≤ (g x).length) →
    (l.flatMap f).length ≤ (l.flatMap g).length
  | [], _ => by simp
  | x :: t, h => by
    have h1 := h x (by simp)
    have h2 := length_flatMap_le (l := t) fun y hy => h y (by simp [hy])
    simp only [List.flatMap_cons, List.length_append]
    omega

theorem reprByte_quote_le {q q' c : Nat} (hq' : q' = 34 ∨ q' = 39) (hq : c = q → c = q') :
    (reprByte q c).length ≤ (reprByte q' c).length := by
  unfold reprByte
  by_cases h : c = q ∨ c = 92
  · rw [if_pos h, if_pos (h.imp_left hq)]
    exact Nat.le_refl _
  · rw [if_neg h]
    by_cases h' : c = q' ∨ c = 92
    · rw [if_pos h']
      have h92 : c ≠ 92 := fun e => h (.inr e)
      have hc : c = 34 ∨ c = 39 := by omega
      rw [if_neg (by omega), if_neg (by omega), if_neg (by omega), if_neg (by omega)]
      simp
    · rw [if_neg h']; exact Nat.le_refl _

theorem reprQuote_cases (cs : List Nat) : reprQuote cs = 34 ∨ reprQuote cs = 39 := by
  unfold reprQuote; split <;> simp

/-- A longer byte string never has a shorter `repr`. -/
theorem reprBytes_mono (p q : Bytes) : (reprBytes p).length ≤ (reprBytes (p ++ q)).length := by
  unfold reprBytes
  simp only [List.map_append, List.flatMap_append, List.length_append, List.length_cons, List.length_nil]
  have : ((p.map UInt8.toNat).flatMap (reprByte (reprQuote (p.map UInt8.toNat)))).length ≤
      ((p.map UInt8.toNat).flatMap (reprByte (reprQuote (p.map UInt8.toNat ++ q.map UInt8.toNat)))).length := by
    refine length_flatMap_le fun c hc => reprByte_quote_le (reprQuote_cases _) fun he => ?_
    generalize p.map UInt8.toNat = a at *
    generalize q.map UInt8.toNat = b at *
    unfold reprQuote at *
    by_cases ha : 39 ∈ a ∧ 34 ∉ a
    · rw [if_pos ha] at he
      subst he
      exact absurd hc ha.2
    · rw [if_neg ha] at he
      subst he
      have h34 : 34 ∈ a := by
        by_cases h : 34 ∈ a
        · exact h
        · exact absurd ⟨hc, h⟩ ha
      rw [if_neg]
      intro h
      exact h.2 (by simp [h34])
  omega

theorem reprByte_length {q c : Nat} : 1 ≤ (reprByte q c).length ∧ (reprByte q c).length ≤ 4 := by
  unfold reprByte
  split
  · simp
  · split
    · decide
    · split
      · decide
      · split
        · decide
        · split
          · simp [hexPad]
          · simp

/-- The `repr` of a single byte is at most seven characters. -/
theorem reprBytes_single (b : UInt8) : (reprBytes [b]).length ≤ 7 := by
  unfold reprBytes
  have := (reprByte_length (q := reprQuote [b.toNat]) (c := b.toNat)).2
  simp only [List.map_cons, List.map_nil, List.flatMap_cons, List.flatMap_nil, List.append_nil, List.length_append,
    List.length_cons, List.length_nil]
  omega

/-! ## Folding bytes -/

theorem foldsBytes_single {w : Int} {p : Bytes} (h0 : p ≠ []) (hf : ((reprBytes p).length : Int) ≤ w ∨ p.length = 1) :
    FoldsBytes w p [p] := by
  constructor
  · simp
  · simpa using h0
  · simpa using hf
  · intro i p b q _ h; simp at h

theorem FoldsBytes.cons {w : Int} {p rest : Bytes} {b : UInt8} {q : Bytes} {ps : List Bytes}
    (h0 : p ≠ []) (hf : ((reprBytes p).length : Int) ≤ w ∨ p.length = 1) (hb : w < ((reprBytes (p ++ [b])).length : Int))
    (h : FoldsBytes w rest ((b :: q) :: ps)) : FoldsBytes w (p ++ rest) (p :: (b :: q) :: ps) := by
  constructor
  · rw [List.flatten_cons, h.whole]
  · intro x hx
    rcases List.mem_cons.1 hx with rfl | hx
    · exact h0
    · exact h.nonempty x hx
  · intro x hx
    rcases List.mem_cons.1 hx with rfl | hx
    · exact hf
    · exact h.fits x hx
  · intro i p' b' q' h1 h2
    cases i with
    | zero =>
      simp only [List.getElem?_cons_zero, Option.some.injEq, Nat.zero_add, List.getElem?_cons_succ, List.cons.injEq] at h1 h2
      obtain ⟨rfl, _⟩ := h2
      subst h1
      exact hb
    | succ i =>
      simp only [List.getElem?_cons_succ] at h1 h2
      exact h.full i p' b' q' h1 (by simpa using h2)

theorem wrapBytesAux_folds {w : Int} : ∀ (rest current : Bytes), current ≠ [] →
    (((reprBytes current).length : Int) ≤ w ∨ current.length = 1) →
    ∃ x tail, wrapBytesAux w current rest = (current ++ x) :: tail ∧ FoldsBytes w (current ++ rest) ((current ++ x) :: tail)
  | [], current, h0, hf => by
    refine ⟨[], [], ?_, ?_⟩
    · simp [wrapBytesAux, h0]
    · simpa using foldsBytes_single h0 hf
  | b :: rest, current, h0, hf => by
    by_cases hw : ((reprBytes (current ++ [b])).length : Int) > w
    · obtain ⟨x, tail, he, hF⟩ := wrapBytesAux_folds rest [b] (by simp) (.inr rfl)
      refine ⟨[], ([b] ++ x) :: tail, ?_, ?_⟩
      · rw [wrapBytesAux, if_pos hw, if_pos h0, he, List.append_nil]
      · rw [List.append_nil]
        exact FoldsBytes.cons h0 hf hw hF
    · obtain ⟨x, tail, he, hF⟩ := wrapBytesAux_folds (w := w) rest (current ++ [b]) (by simp) (.inl (by omega))
      refine ⟨b :: x, tail, ?_, ?_⟩
      · rw [wrapBytesAux, if_neg hw, he]; simp
      · simpa using hF

theorem wrapBytes_folds (w : Int) (obj : Bytes) : FoldsBytes w obj (wrapBytes obj w) := by
  cases obj with
  | nil =>
    refine ⟨rfl, ?_, ?_, ?_⟩ <;> simp [wrapBytes, wrapBytesAux]
  | cons b rest =>
    have he : wrapBytes (b :: rest) w = wrapBytesAux w [b] rest := by
      rw [wrapBytes, wrapBytesAux]
      split
      · rw [if_neg (by simp)]
      · rfl
    obtain ⟨x, tail, h, hF⟩ := wrapBytesAux_folds (w := w) rest [b] (by simp) (.inr rfl)
    rw [he, h]
    exact hF

theorem FoldsBytes.tail {w : Int} {obj p : Bytes} {ps : List Bytes} (h : FoldsBytes w obj (p :: ps)) :
    FoldsBytes w ps.flatten ps := by
  refine ⟨rfl, fun x hx => h.nonempty x (by simp [hx]), fun x hx => h.fits x (by simp [hx]), fun i p' b q h1 h2 => ?_⟩
  exact h.full (i + 1) p' b q (by simpa using h1) (by simpa using h2)

/-- The first pieces of two greedy foldings agree: neither can be longer. -/
theorem foldsBytes_head_le {w : Int} {obj p p' : Bytes} {ps ps' : List Bytes} (h : FoldsBytes w obj (p :: ps))
    (h' : FoldsBytes w obj (p' :: ps')) : p'.length ≤ p.length := by
  refine Nat.le_of_not_lt fun hlt => ?_
  have e : p ++ ps.flatten = p' ++ ps'.flatten := by
    have := h.whole.trans h'.whole.symm
    simpa using this
  have hp' : p' = p ++ p'.drop p.length := by
    have h1 : p'.take p.length = p := by
      have := congrArg (List.take p.length) e
      rw [List.take_left, List.take_append_of_le_length (by omega)] at this
      exact this.symm
    conv => lhs; rw [← List.take_append_drop p.length p', h1]
  cases hd : p'.drop p.length with
  | nil =>
    have := congrArg List.length hd
    simp at this
    omega
  | cons b r =>
    rw [hd] at hp'
    cases ps with
    | nil =>
      rw [hp'] at e
      simp at e
    | cons q qs =>
      have hq := h.nonempty q (by simp)
      cases q with
      | nil => exact hq rfl
      | cons b' q' =>
        have hb : b' = b := by
          rw [hp'] at e
          simp only [List.flatten_cons, List.cons_append, List.append_assoc] at e
          have := List.append_cancel_left e
          simp only [List.cons.injEq] at this
          exact this.1
        subst hb
        have h1 := h.full 0 p b' q' (by simp) (by simp)
        have h2 := h'.fits p' (by simp)
        have h3 := reprBytes_mono (p ++ [b']) r
        have h4 : p ≠ [] := h.nonempty p (by simp)
        have h5 : 0 < p.length := List.length_pos_iff.2 h4
        rw [show p ++ [b'] ++ r = p' by rw [hp']; simp] at h3
        have h6 : p'.length = p.length + 1 + r.length := by
          rw [hp']; simp only [List.length_append, List.length_cons]; omega
        omega

theorem foldsBytes_unique {w : Int} : ∀ {ps ps' : List Bytes} {obj : Bytes}, FoldsBytes w obj ps → FoldsBytes w obj ps' → ps = ps'
  | [], [], _, _, _ => rfl
  | [], p' :: ps', obj, h, h' => by
    have h1 := h.whole
    have h2 := h'.whole
    have := h'.nonempty p' (by simp)
    rw [← h1] at h2
    simp at h2
    exact absurd h2.1 this
  | p :: ps, [], obj, h, h' => by
    have h1 := h.whole
    have h2 := h'.whole
    have := h.nonempty p (by simp)
    rw [← h2] at h1
    simp at h1
    exact absurd h1.1 this
  | p :: ps, p' :: ps', obj, h, h' => by
    have hl : p.length = p'.length := Nat.le_antisymm (foldsBytes_head_le h' h) (foldsBytes_head_le h h')
    have e : p ++ ps.flatten = p' ++ ps'.flatten := by
      have := h.whole.trans h'.whole.symm
      simpa using this
    obtain ⟨rfl, e2⟩ := List.append_inj e hl
    have ht := h'.tail
    rw [← e2] at ht
    rw [foldsBytes_unique h.tail ht]

/-! ## Folding text -/

theorem chunksAux_folds {n : Nat} (hn : 1 ≤ n) : ∀ (f : Nat) (obj : Str), obj.length ≤ f →
    (chunksAux n f obj).flatten = obj ∧ (∀ p ∈ chunksAux n f obj, p ≠ []) ∧ (∀ p ∈ chunksAux n f obj, p.length ≤ n) ∧
      ∀ p ∈ (chunksAux n f obj).dropLast, p.length = n
  | 0, obj, h => by
    have : obj = [] := List.eq_nil_of_length_eq_zero (by omega)
    subst this
    simp [chunksAux]
  | f + 1, [], _ => by simp [chunksAux]
  | f + 1, c :: t, h => by
    obtain ⟨h1, h2, h3, h4⟩ := chunksAux_folds hn f ((c :: t).drop n) (by simp at h ⊢; omega)
    refine ⟨?_, ?_, ?_, ?_⟩
    · rw [chunksAux, List.flatten_cons, h1, List.take_append_drop]
    · intro p hp
      rw [chunksAux] at hp
      rcases List.mem_cons.1 hp with rfl | hp
      · intro he
        have := congrArg List.length he
        simp at this
        omega
      · exact h2 p hp
    · intro p hp
      rw [chunksAux] at hp
      rcases List.mem_cons.1 hp with rfl | hp
      · simp; omega
      · exact h3 p hp
    · intro p hp
      rw [chunksAux] at hp
      cases hr : chunksAux n f ((c :: t).drop n) with
      | nil => rw [hr] at hp; simp at hp
      | cons q qs =>
        rw [hr, List.dropLast_cons_of_ne_nil (by simp)] at hp
        rcases List.mem_cons.1 hp with rfl | hp
        · have hne : (c :: t).drop n ≠ [] := by
            intro he
            rw [he] at hr
            cases f <;> simp [chunksAux] at hr
          have := List.length_pos_iff.2 hne
          rw [List.length_drop] at this
          rw [List.length_take]
          omega
        · rw [hr] at h4
          exact h4 p hp

theorem wrapStr_folds (w : Int) (obj : Str) : FoldsStr w obj (wrapStr obj w) := by
  have hn : (if w > 3 then (w - 2).toNat else 1) = max 1 (w - 2).toNat := by split <;> omega
  unfold wrapStr
  dsimp only
  rw [hn]
  obtain ⟨h1, h2, h3, h4⟩ := chunksAux_folds (n := max 1 (w - 2).toNat) (by omega) obj.length obj (Nat.le_refl _)
  exact ⟨h1, h2, h3, h4⟩

theorem foldsStr_unique {w : Int} : ∀ {ps ps' : List Str} {obj : Str}, FoldsStr w obj ps → FoldsStr w obj ps' → ps = ps'
  | [], [], _, _, _ => rfl
  | [], p' :: ps', obj, h, h' => by
    have h1 := h.whole
    have h2 := h'.whole
    have := h'.nonempty p' (by simp)
    rw [← h1] at h2
    simp at h2
    exact absurd h2.1 this
  | p :: ps, [], obj, h, h' => by
    have h1 := h.whole
    have h2 := h'.whole
    have := h.nonempty p (by simp)
    rw [← h2] at h1
    simp at h1
    exact absurd h1.1 this
  | p :: ps, p' :: ps', obj, h, h' => by
    have e : p ++ ps.flatten = p' ++ ps'.flatten := by
      have := h.whole.trans h'.whole.symm
      simpa using this
    have key : ∀ {p p' : Str} {ps ps' : List Str}, FoldsStr w obj (p :: ps) → FoldsStr w obj (p' :: ps') →
        p ++ ps.flatten = p' ++ ps'.flatten → p'.length ≤ p.length := by
      intro p p' ps ps' h h' e
      cases ps with
      | nil =>
        have := congrArg List.length e
        simp at this
        omega
      | cons q qs =>
        have h1 := h.equal p (by simp)
        have h2 := h'.atMost p' (by simp)
        omega
    have hl : p.length = p'.length := Nat.le_antisymm (key h' h e.symm) (key h h' e)
    obtain ⟨rfl, e2⟩ := List.append_inj e hl
    have tail : ∀ {p : Str} {ps : List Str}, FoldsStr w obj (p :: ps) → FoldsStr w ps.flatten ps := by
      intro p ps h
      refine ⟨rfl, fun x hx => h.nonempty x (by simp [hx]), fun x hx => h.atMost x (by simp [hx]), fun x hx => ?_⟩
      cases ps with
      | nil => simp at hx
      | cons q qs => exact h.equal x (by rw [List.dropLast_cons_of_ne_nil (by simp)]; simp [hx])
    have ht := tail h'
    rw [← e2] at ht
    rw [foldsStr_unique (tail h) ht]

end Iso8583
