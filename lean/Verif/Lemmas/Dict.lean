import Verif.Model.Py
/-! # Lemmas about insertion-ordered dictionaries -/

set_option linter.unusedSectionVars false

namespace Iso8583
namespace Dict
variable {κ ν : Type} [DecidableEq κ]

@[simp] theorem get?_nil (k : κ) : get? ([] : Dict κ ν) k = none := rfl

@[simp] theorem keys_nil : keys ([] : Dict κ ν) = [] := rfl

@[simp] theorem keys_cons (p : κ × ν) (d : Dict κ ν) : keys (p :: d) = p.1 :: keys d := rfl

@[simp] theorem keys_append (d e : Dict κ ν) : keys (d ++ e) = keys d ++ keys e := by
  simp [keys]

@[simp] theorem get?_set_same (d : Dict κ ν) (k : κ) (v : ν) : (d.set k v).get? k = some v := by
  induction d with
  | nil => simp [set, get?]
  | cons p t ih =>
    obtain ⟨k', v'⟩ := p
    by_cases h : k' = k <;> simp [set, get?, h, ih]

theorem get?_set_ne (d : Dict κ ν) {k k' : κ} (v : ν) (h : k' ≠ k) : (d.set k v).get? k' = d.get? k' := by
  induction d with
  | nil => simp [set, get?, Ne.symm h]
  | cons p t ih =>
    obtain ⟨a, b⟩ := p
    by_cases h1 : a = k
    · subst h1; simp [set, get?, Ne.symm h]
    · by_cases h2 : a = k'
      · subst h2; simp [set, get?, h1]
      · simp [set, get?, h1, h2, ih]

theorem get?_set (d : Dict κ ν) (k k' : κ) (v : ν) :
    (d.set k v).get? k' = if k' = k then some v else d.get? k' := by
  split
  · next h => subst h; simp
  · next h => exact get?_set_ne d v h

theorem get?_eq_none {d : Dict κ ν} {k : κ} : d.get? k = none ↔ k ∉ d.keys := by
  induction d with
  | nil => simp
  | cons p t ih =>
    obtain ⟨a, b⟩ := p
    by_cases h : a = k
    · simp [get?, h]
    · simp [get?, h, ih, Ne.symm h]

theorem get?_isSome {d : Dict κ ν} {k : κ} : (d.get? k).isSome ↔ k ∈ d.keys := by
  have h := get?_eq_none (d := d) (k := k)
  cases h' : d.get? k with
  | none => simp [h.1 h']
  | some v =>
    simp
    exact Classical.byContradiction fun hn => by simp [h.2 hn] at h'

theorem mem_keys_iff {d : Dict κ ν} {k : κ} : k ∈ d.keys ↔ ∃ v, d.get? k = some v := by
  rw [← get?_isSome, Option.isSome_iff_exists]

theorem contains_iff {d : Dict κ ν} {k : κ} : d.contains k = true ↔ k ∈ d.keys := get?_isSome

theorem mem_of_get? {d : Dict κ ν} {k : κ} {v : ν} (h : d.get? k = some v) : (k, v) ∈ d := by
  induction d with
  | nil => simp at h
  | cons p t ih =>
    obtain ⟨a, b⟩ := p
    by_cases h1 : a = k
    · simp [get?, h1] at h; simp [h1, h]
    · simp [get?, h1] at h; exact List.mem_cons_of_mem _ (ih h)

theorem get?_of_mem {d : Dict κ ν} (nd : d.NoDup) {k : κ} {v : ν} (h : (k, v) ∈ d) : d.get? k = some v := by
  induction d with
  | nil => simp at h
  | cons p t ih =>
    obtain ⟨a, b⟩ := p
    have nd' : a ∉ keys t ∧ (keys t).Nodup := by simpa [NoDup] using nd
    rcases List.mem_cons.1 h with h | h
    · cases h; simp [get?]
    · have : a ≠ k := by
        intro e; subst e
        exact nd'.1 (by simpa [keys] using ⟨v, h⟩)
      simp [get?, this, ih nd'.2 h]

/-- Setting a new key appends. -/
theorem set_of_not_mem {d : Dict κ ν} {k : κ} {v : ν} (h : k ∉ d.keys) : d.set k v = d ++ [(k, v)] := by
  induction d with
  | nil => rfl
  | cons p t ih =>
    obtain ⟨a, b⟩ := p
    simp at h
    simp [set, Ne.symm h.1, ih h.2]

theorem set_append_of_mem {d e : Dict κ ν} {k : κ} {v : ν} (h : k ∈ d.keys) :
    set (d ++ e) k v = d.set k v ++ e := by
  induction d with
  | nil => simp at h
  | cons p t ih =>
    obtain ⟨a, b⟩ := p
    by_cases h1 : a = k
    · simp [set, h1]
    · have : k ∈ keys t := by simpa [Ne.symm h1] using h
      simp [set, h1, ih this]

theorem set_append_of_not_mem {d e : Dict κ ν} {k : κ} {v : ν} (h : k ∉ d.keys) :
    set (d ++ e) k v = d ++ e.set k v := by
  induction d with
  | nil => rfl
  | cons p t ih =>
    obtain ⟨a, b⟩ := p
    simp at h
    simp [set, Ne.symm h.1, ih h.2]

@[simp] theorem set_singleton (k : κ) (v w : ν) : set [(k, v)] k w = [(k, w)] := by simp [set]

/-- Overwriting the entry just appended. -/
theorem set_append_last {d : Dict κ ν} {k : κ} {v w : ν} (h : k ∉ d.keys) :
    set (d ++ [(k, v)]) k w = d ++ [(k, w)] := by
  rw [set_append_of_not_mem h, set_singleton]

theorem keys_set (d : Dict κ ν) (k : κ) (v : ν) :
    (d.set k v).keys = if k ∈ d.keys then d.keys else d.keys ++ [k] := by
  induction d with
  | nil => simp [set]
  | cons p t ih =>
    obtain ⟨a, b⟩ := p
    by_cases h : a = k
    · simp [set, h]
    · have h' : ¬ k = a := fun e => h e.symm
      by_cases h2 : k ∈ keys t
      · simp [set, h, ih, h2]
      · simp [set, h, ih, h2, h']

theorem mem_keys_set {d : Dict κ ν} {k k' : κ} {v : ν} : k' ∈ (d.set k v).keys ↔ k' = k ∨ k' ∈ d.keys := by
  rw [keys_set]; split
  · next h => constructor
              · intro h'; exact Or.inr h'
              · rintro (rfl | h') <;> assumption
  · next h => simp [or_comm]

theorem NoDup.set {d : Dict κ ν} (nd : d.NoDup) (k : κ) (v : ν) : (d.set k v).NoDup := by
  unfold NoDup at *
  rw [keys_set]; split
  · exact nd
  · next h =>
    rw [List.nodup_append]
    exact ⟨nd, by simp, by rintro a ha b hb; simp at hb; subst hb; exact fun e => h (e ▸ ha)⟩

@[simp] theorem set_set (d : Dict κ ν) (k : κ) (v w : ν) : (d.set k v).set k w = d.set k w := by
  induction d with
  | nil => simp [set]
  | cons p t ih =>
    obtain ⟨a, b⟩ := p
    by_cases h : a = k <;> simp [set, h, ih]

theorem set_get?_self {d : Dict κ ν} {k : κ} {v : ν} (h : d.get? k = some v) : d.set k v = d := by
  induction d with
  | nil => simp at h
  | cons p t ih =>
    obtain ⟨a, b⟩ := p
    by_cases h1 : a = k
    · simp [get?, h1] at h; simp [set, h1, h]
    · simp [get?, h1] at h; simp [set, h1, ih h]

theorem get?_append {d e : Dict κ ν} {k : κ} : get? (d ++ e) k = (d.get? k).or (e.get? k) := by
  induction d with
  | nil => simp
  | cons p t ih =>
    obtain ⟨a, b⟩ := p
    by_cases h : a = k <;> simp [get?, h, ih]

theorem get?_append_right {d e : Dict κ ν} {k : κ} (h : k ∉ d.keys) : get? (d ++ e) k = e.get? k := by
  rw [get?_append, get?_eq_none.2 h]; rfl

theorem keys_pop_subset {d : Dict κ ν} {k k' : κ} (h : k' ∈ (d.pop k).keys) : k' ∈ d.keys := by
  induction d with
  | nil => exact h
  | cons p t ih =>
    obtain ⟨a, b⟩ := p
    by_cases h1 : a = k
    · simp [pop, h1] at h; simp [h]
    · simp [pop, h1] at h
      rcases h with h | h
      · simp [h]
      · simp [ih h]

theorem get?_pop_ne (d : Dict κ ν) {k k' : κ} (h : k' ≠ k) : (d.pop k).get? k' = d.get? k' := by
  induction d with
  | nil => rfl
  | cons p t ih =>
    obtain ⟨a, b⟩ := p
    by_cases h1 : a = k
    · subst h1; simp [pop, get?, Ne.symm h]
    · by_cases h2 : a = k'
      · subst h2; simp [pop, get?, h1]
      · simp [pop, get?, h1, h2, ih]

theorem pop_eq_filter {d : Dict κ ν} (nd : d.NoDup) (k : κ) : d.pop k = d.filter (fun p => p.1 ≠ k) := by
  induction d with
  | nil => rfl
  | cons p t ih =>
    obtain ⟨a, b⟩ := p
    have nd' : a ∉ keys t ∧ (keys t).Nodup := by simpa [NoDup] using nd
    by_cases h : a = k
    · subst h
      simp [pop]
      symm
      rw [List.filter_eq_self]
      intro x hx
      have : x.1 ∈ keys t := List.mem_map_of_mem hx
      simp
      exact fun e => nd'.1 (e ▸ this)
    · simp [pop, h, ih nd'.2]

theorem NoDup.pop {d : Dict κ ν} (nd : d.NoDup) (k : κ) : (d.pop k).NoDup := by
  rw [pop_eq_filter nd]
  unfold NoDup keys at *
  exact nd.sublist (List.Sublist.map _ List.filter_sublist)

theorem not_mem_keys_pop {d : Dict κ ν} (nd : d.NoDup) (k : κ) : k ∉ (d.pop k).keys := by
  rw [pop_eq_filter nd]
  simp [keys]

theorem mem_keys_pop {d : Dict κ ν} (nd : d.NoDup) {k k' : κ} : k' ∈ (d.pop k).keys ↔ k' ≠ k ∧ k' ∈ d.keys := by
  rw [pop_eq_filter nd]
  simp [keys]
  grind

theorem pop_of_not_mem {d : Dict κ ν} {k : κ} (h : k ∉ d.keys) : d.pop k = d := by
  induction d with
  | nil => rfl
  | cons p t ih =>
    obtain ⟨a, b⟩ := p
    simp at h
    simp [pop, Ne.symm h.1, ih h.2]

end Dict
end Iso8583
