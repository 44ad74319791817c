import Verif.Model.Py
/-! # Lemmas about sets as lists and about sorting -/

namespace Iso8583

section Sets
variable {α : Type} [DecidableEq α]

@[simp] theorem mem_setAdd {s : List α} {x y : α} : y ∈ setAdd s x ↔ y ∈ s ∨ y = x := by
  unfold setAdd
  split
  · next h => constructor
              · exact Or.inl
              · rintro (h' | rfl) <;> assumption
  · simp

theorem nodup_setAdd {s : List α} {x : α} (h : s.Nodup) : (setAdd s x).Nodup := by
  unfold setAdd
  split
  · exact h
  · next hx =>
    rw [List.nodup_append]
    exact ⟨h, by simp, by rintro a ha b hb; simp at hb; subst hb; exact fun e => hx (e ▸ ha)⟩

theorem mem_setUpdate {s xs : List α} {y : α} : y ∈ setUpdate s xs ↔ y ∈ s ∨ y ∈ xs := by
  unfold setUpdate
  induction xs generalizing s with
  | nil => simp
  | cons x t ih => simp [ih, or_assoc]

theorem nodup_setUpdate {s xs : List α} (h : s.Nodup) : (setUpdate s xs).Nodup := by
  unfold setUpdate
  induction xs generalizing s with
  | nil => exact h
  | cons x t ih => exact ih (nodup_setAdd h)

@[simp] theorem mem_setRemove {s : List α} {x y : α} : y ∈ setRemove s x ↔ y ∈ s ∧ y ≠ x := by
  simp [setRemove]

theorem nodup_setRemove {s : List α} {x : α} (h : s.Nodup) : (setRemove s x).Nodup :=
  h.sublist List.filter_sublist

end Sets

@[simp] theorem mem_setInter {s : List Nat} {lo hi x : Nat} : x ∈ setInter s lo hi ↔ x ∈ s ∧ lo ≤ x ∧ x < hi := by
  simp [setInter]

theorem nodup_setInter {s : List Nat} {lo hi : Nat} (h : s.Nodup) : (setInter s lo hi).Nodup :=
  h.sublist List.filter_sublist

section Sorting
variable {α : Type}

theorem insertBy_perm (key : α → Int) (x : α) (l : List α) : (insertBy key x l).Perm (x :: l) := by
  induction l with
  | nil => exact List.Perm.refl _
  | cons y t ih =>
    simp only [insertBy]
    split
    · exact List.Perm.refl _
    · exact (List.Perm.cons y ih).trans (List.Perm.swap x y t)

theorem sortedBy_perm (key : α → Int) (l : List α) : (sortedBy key l).Perm l := by
  induction l with
  | nil => exact List.Perm.refl _
  | cons x t ih => exact (insertBy_perm key x _).trans (List.Perm.cons x ih)

theorem insertBy_sorted (key : α → Int) (x : α) {l : List α} (h : l.Pairwise fun a b => key a ≤ key b) :
    (insertBy key x l).Pairwise fun a b => key a ≤ key b := by
  induction l with
  | nil => simp [insertBy]
  | cons y t ih =>
    simp only [insertBy]
    have hy := List.pairwise_cons.1 h
    split
    · next hxy =>
      refine List.pairwise_cons.2 ⟨?_, h⟩
      intro z hz
      rcases List.mem_cons.1 hz with rfl | hz
      · exact hxy
      · exact Int.le_trans hxy (hy.1 z hz)
    · next hxy =>
      refine List.pairwise_cons.2 ⟨?_, ih hy.2⟩
      intro z hz
      rcases List.mem_cons.1 ((insertBy_perm key x t).mem_iff.1 hz) with rfl | hz
      · omega
      · exact hy.1 z hz

theorem sortedBy_sorted (key : α → Int) (l : List α) : (sortedBy key l).Pairwise fun a b => key a ≤ key b := by
  induction l with
  | nil => exact List.Pairwise.nil
  | cons x t ih => exact insertBy_sorted key x ih

end Sorting

@[simp] theorem mem_sortedNat {l : List Nat} {x : Nat} : x ∈ sortedNat l ↔ x ∈ l :=
  (sortedBy_perm _ l).mem_iff

theorem sortedNat_nodup {l : List Nat} (h : l.Nodup) : (sortedNat l).Nodup :=
  (sortedBy_perm _ l).nodup_iff.2 h

/-- Sorting a set of numbers gives a strictly ascending list. -/
theorem sortedNat_lt {l : List Nat} (h : l.Nodup) : (sortedNat l).Pairwise (· < ·) := by
  have h1 := sortedBy_sorted (fun n : Nat => (n : Int)) l
  have h2 : (sortedNat l).Pairwise (· ≠ ·) := sortedNat_nodup h
  exact (List.Pairwise.and h1 h2).imp fun {a b} hab => by
    have := hab.1; have := hab.2; omega

/-- A strictly ascending list is determined by its elements. -/
theorem sorted_lt_ext : ∀ {a b : List Nat}, a.Pairwise (· < ·) → b.Pairwise (· < ·) →
    (∀ x, x ∈ a ↔ x ∈ b) → a = b
  | [], [], _, _, _ => rfl
  | [], y :: t, _, _, h => by have := (h y).2 (by simp); simp at this
  | x :: s, [], _, _, h => by have := (h x).1 (by simp); simp at this
  | x :: s, y :: t, ha, hb, h => by
    have ha' := List.pairwise_cons.1 ha
    have hb' := List.pairwise_cons.1 hb
    have hxy : x = y := by
      have h1 := (h x).1 (by simp)
      have h2 := (h y).2 (by simp)
      rcases List.mem_cons.1 h1 with h1 | h1
      · exact h1
      · rcases List.mem_cons.1 h2 with h2 | h2
        · exact h2.symm
        · have := hb'.1 x h1
          have := ha'.1 y h2
          omega
    subst hxy
    congr 1
    apply sorted_lt_ext ha'.2 hb'.2
    intro z
    have hz := h z
    simp only [List.mem_cons] at hz
    constructor
    · intro hs
      have := ha'.1 z hs
      rcases hz.1 (Or.inr hs) with rfl | h'
      · omega
      · exact h'
    · intro ht
      have := hb'.1 z ht
      rcases hz.2 (Or.inr ht) with rfl | h'
      · omega
      · exact h'

theorem sortedNat_ext {a b : List Nat} (ha : a.Nodup) (hb : b.Nodup) (h : ∀ x, x ∈ a ↔ x ∈ b) :
    sortedNat a = sortedNat b :=
  sorted_lt_ext (sortedNat_lt ha) (sortedNat_lt hb) (by simpa using h)

theorem sortedNat_of_sorted {l : List Nat} (h : l.Pairwise (· < ·)) : sortedNat l = l :=
  sorted_lt_ext (sortedNat_lt (h.imp Nat.ne_of_lt)) h (by simp)

end Iso8583
