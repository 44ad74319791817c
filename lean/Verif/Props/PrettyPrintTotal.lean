import Verif.Spec.PrettyPrintFails
import Verif.Props.PrettyPrint
/-!
# C60: what `pp` does on every dict
-/

namespace Iso8583

theorem printStops_run {env : PyEnv} {doc : PpDoc} {spec : Spec} {dw lw : Int} {ks : List Str} {e : PpRaise} {s out : Str}
    (h : PrintStops env spec doc dw lw ks e out) : ppFields env doc spec dw lw ks s = (.error e, s ++ out) := by
  obtain ⟨h0, done, k, text, ⟨rest, rfl⟩, hg, hc, rfl⟩ := h
  have hd : descText spec dw k = .error e := by
    unfold descText
    rw [if_pos h0]
    rcases hc with ⟨h1, rfl⟩ | ⟨fs, h1, h2, rfl⟩
    · simp [h1]
    · simp [h1, h2]
  rw [List.append_assoc, ppFields_append, ppFields_ok_iff.2 ⟨text, hg, rfl⟩]
  simp only [List.cons_append, List.nil_append]
  rw [ppFields, PyM.run_bind, ppField_run, hd]
  simp

theorem ppFields_stops {env : PyEnv} {doc : PpDoc} {spec : Spec} {dw lw : Int} {ks : List Str} {e : PpRaise} {out : Str}
    (h : ppFields env doc spec dw lw ks [] = (.error e, out)) (hm : ∀ k ∈ ks, .str k ∈ doc.keys) :
    PrintStops env spec doc dw lw ks e out := by
  obtain ⟨done, k, text, hp, hg, h0, hc, rfl⟩ := ppFields_error h hm
  exact ⟨h0, done, k, text, hp, hg, hc, by simp⟩

theorem header_known {doc : PpDoc} {spec : Spec} :
    (.str py"h" ∈ doc.keys → ∃ fs, spec.get? py"h" = some fs) ↔ ¬ (doc.contains (.str py"h") ∧ spec.get? py"h" = none) := by
  rw [Dict.contains_iff]
  cases hs : spec.get? py"h" with
  | none => simp
  | some fs => simp

/-- **C60**: when `pp` raises, what it raises and what it has written by then. Together with
`pp_ok_iff` this says what `pp` does on every dict and every specification. -/
theorem pp_error_iff {env : PyEnv} {doc : PpDoc} {spec : Spec} {dw lw : Int} {e : PpRaise} {out : Str} (hd : doc.NoDup) :
    pp env doc spec dw lw = (.error e, out) ↔ PpFails env spec doc dw lw e out := by
  unfold pp
  rw [ppBody_run]
  constructor
  · intro h
    by_cases hh : doc.contains (.str py"h") ∧ spec.get? py"h" = none
    · rw [if_pos hh] at h
      cases h
      exact .header (Dict.contains_iff.1 hh.1) hh.2
    rw [if_neg hh] at h
    have hk := header_known.2 hh
    cases hl : ppFields env doc spec dw lw (letterKeys spec doc) [] with
    | mk r s1 =>
      rw [hl] at h
      cases r with
      | error e' =>
        cases h
        exact .letter hk (letterKeys_letters spec doc) (ppFields_stops hl fun k hk => (letterKeys_mem hk).2)
      | ok u =>
        dsimp only at h
        cases hn : ppNumericKeys env doc.keys with
        | error e' =>
          obtain ⟨text, hg, rfl⟩ := ppFields_ok_iff.1 hl
          simp only [hn] at h
          cases h
          obtain ⟨rfl, k, h1, h2, h3⟩ := ppNumericKeys_error_iff.1 hn
          exact .number hk (letterKeys_letters spec doc) hg h1 h2 h3
        | ok r =>
          simp only [hn] at h
          obtain ⟨hr1, hr2⟩ := ppNumericKeys_ok_iff.1 hn
          have ho := numericOrder_sorted hr2
          have hboth : ppFields env doc spec dw lw (letterKeys spec doc ++ (sortedBy Prod.snd r).map Prod.fst) [] =
              (.error e, out) := by
            rw [ppFields_append, hl]
            exact h
          rw [hr1] at ho
          refine .field hk ?_ (letterKeys_printed ho) (ppFields_stops hboth ?_)
          · intro k hk hnum
            cases hp : pyInt env k with
            | none =>
              have := ppNumericKeys_error_iff.2 ⟨rfl, k, hk, hnum, hp⟩
              rw [hn] at this
              cases this
            | some n => exact ⟨n, rfl⟩
          · intro k hk
            rcases List.mem_append.1 hk with hk | hk
            · exact (letterKeys_mem hk).2
            · exact ((mem_numericStrs (doc := doc)).1 (ho.1.mem_iff.1 hk)).1
  · intro h
    cases h with
    | header h1 h2 => rw [if_pos ⟨Dict.contains_iff.2 h1, h2⟩]
    | letter hk hp hs =>
      rw [if_neg (header_known.1 hk)]
      have hs' := printStops_run (s := []) hs
      rw [letters_letterKeys hp] at hs'
      rw [hs']
      rfl
    | number hk hp hg h1 h2 h3 =>
      rw [if_neg (header_known.1 hk)]
      rw [letters_letterKeys hp] at hg ⊢
      rw [ppFields_ok_iff.2 ⟨_, hg, rfl⟩]
      simp only [ppNumericKeys_error_iff.2 ⟨rfl, _, h1, h2, h3⟩, List.nil_append]
    | field hk hint hp hs =>
      rw [if_neg (header_known.1 hk)]
      obtain ⟨ns, rfl, ho⟩ := printed_letterKeys hp
      have hs' := printStops_run (s := []) hs
      rw [ppFields_append] at hs'
      cases hl : ppFields env doc spec dw lw (letterKeys spec doc) [] with
      | mk r s1 =>
        rw [hl] at hs'
        cases r with
        | error e' => exact hs'
        | ok u =>
          dsimp only at hs' ⊢
          cases hn : ppNumericKeys env doc.keys with
          | error e =>
            obtain ⟨_, k, h1, h2, h3⟩ := ppNumericKeys_error_iff.1 hn
            obtain ⟨n, hn'⟩ := hint k h1 h2
            rw [h3] at hn'
            cases hn'
          | ok r =>
            obtain ⟨hr1, hr2⟩ := ppNumericKeys_ok_iff.1 hn
            have := numericOrder_sorted hr2
            rw [hr1] at this
            dsimp only
            rw [numericOrder_unique (numericStrs_nodup hd) this ho]
            exact hs'

/-- **C60**: on every dict one of the two descriptions applies. -/
theorem pp_total {env : PyEnv} {doc : PpDoc} {spec : Spec} (dw lw : Int) (hd : doc.NoDup) :
    (∃ out, (.str py"h" ∈ doc.keys → ∃ fs, spec.get? py"h" = some fs) ∧
      (∀ k, .str k ∈ doc.keys → isNumeric env k = true → ∃ n, pyInt env k = some n) ∧
      ∃ ks text, PrintedKeys env spec doc ks ∧
        (∀ k ∈ ks, ∃ v, doc.get? (.str k) = some v ∧ FieldText env spec dw lw k v (text k)) ∧ out = ks.flatMap text) ∨
    ∃ e out, PpFails env spec doc dw lw e out := by
  cases h : pp env doc spec dw lw with
  | mk r out =>
    cases r with
    | ok u => exact .inl ⟨out, (pp_ok_iff hd).1 h⟩
    | error e => exact .inr ⟨e, out, (pp_error_iff hd).1 h⟩

/-- One fault is reported, at one place: the description determines the exception and the output. -/
theorem ppFails_unique {env : PyEnv} {doc : PpDoc} {spec : Spec} {dw lw : Int} {e e' : PpRaise} {out out' : Str} (hd : doc.NoDup)
    (h : PpFails env spec doc dw lw e out) (h' : PpFails env spec doc dw lw e' out') : e = e' ∧ out = out' := by
  have h1 := (pp_error_iff hd).2 h
  rw [(pp_error_iff hd).2 h'] at h1
  cases h1
  exact ⟨rfl, rfl⟩

/-- A fault in a letter is reported before a number `int` cannot read. -/
example : PpFails cpython [(py"h", { dataEnc := py"b", lenEnc := py"ascii", lenType := 0, maxLen := 0 })]
    [(.str py"½", .str py"AB"), (.str py"t", .str py"1")] 4 80 (.keyError py"t") py"t  " := by
  refine (pp_error_iff (by unfold Dict.NoDup; decide)).1 ?_
  decide +kernel

/-- A dict with a header and a specification that does not mention headers. -/
example : PpFails cpython [] [(.str py"h", .str py"AB")] 0 80 (.keyError py"h") [] := .header (by decide) rfl

/-- An instance of `ppFails_unique`. -/
example (e : PpRaise) (out : Str) (h : PpFails cpython [] [(.str py"h", .str py"AB")] 0 80 e out) :
    e = .keyError py"h" ∧ out = [] :=
  ppFails_unique (by unfold Dict.NoDup; decide) h (.header (by decide) rfl)

/-- A small dict to print. -/
def smallPp : PpDoc := [(.str py"3", .str py"x"), (.str py"t", .str py"0200")]

/-- An instance of `pp_total`. -/
example (dw lw : Int) : (∃ out, pp cpython smallPp demoSpec dw lw = (.ok (), out)) ∨
    ∃ e out, PpFails cpython demoSpec smallPp dw lw e out := by
  rcases pp_total (env := cpython) (spec := demoSpec) dw lw (show Dict.NoDup smallPp by unfold Dict.NoDup; decide) with ⟨out, h⟩ | h
  · exact .inl ⟨out, (pp_ok_iff (by unfold Dict.NoDup; decide)).2 h⟩
  · exact .inr h

end Iso8583
