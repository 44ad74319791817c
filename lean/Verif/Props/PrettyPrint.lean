import Verif.Lemmas.Pp
import Verif.Props.Demo
/-!
# `pp` (C36 to C39, C52)
-/

namespace Iso8583
open PyM

/-! ## What is written when `pp` returns -/

theorem letterKeys_letters (spec : Spec) (doc : PpDoc) : PrintedLetters spec doc (letterKeys spec doc) := by
  refine ⟨_, _, _, rfl, ?_, ?_, ?_⟩
  · cases hs : spec.get? py"h" with
    | none => exact .inr ⟨by simp [hasHeader, hs], rfl⟩
    | some fs =>
      dsimp only
      by_cases hc : doc.contains (.str py"h") = true ∧ fs.maxLen > 0
      · rw [if_pos hc]; exact .inl ⟨Dict.contains_iff.1 hc.1, ⟨fs, hs, hc.2⟩, rfl⟩
      · rw [if_neg hc]
        refine .inr ⟨?_, rfl⟩
        rintro ⟨h1, fs', h2, h3⟩
        rw [hs] at h2
        cases h2
        exact hc ⟨Dict.contains_iff.2 h1, h3⟩
  · by_cases hc : doc.contains (.str py"t") = true
    · rw [if_pos hc]; exact .inl ⟨Dict.contains_iff.1 hc, rfl⟩
    · rw [if_neg hc]; exact .inr ⟨fun h => hc (Dict.contains_iff.2 h), rfl⟩
  · by_cases hc : doc.contains (.str py"p") = true
    · rw [if_pos hc]; exact .inl ⟨Dict.contains_iff.1 hc, rfl⟩
    · rw [if_neg hc]; exact .inr ⟨fun h => hc (Dict.contains_iff.2 h), rfl⟩

theorem letterKeys_printed {env : PyEnv} {spec : Spec} {doc : PpDoc} {ns : List Str}
    (h : NumericOrder env (numericStrs env doc) ns) : PrintedKeys env spec doc (letterKeys spec doc ++ ns) :=
  ⟨_, ns, rfl, letterKeys_letters spec doc, h.1, h.2⟩

theorem letters_letterKeys {spec : Spec} {doc : PpDoc} {ls : List Str} (h : PrintedLetters spec doc ls) :
    ls = letterKeys spec doc := by
  obtain ⟨hs, ts, ps, rfl, h1, h2, h3⟩ := h
  unfold letterKeys
  congr 1
  · congr 1
    · cases hs : spec.get? py"h" with
      | none =>
        rcases h1 with ⟨_, ⟨fs, h, _⟩, _⟩ | ⟨_, rfl⟩
        · rw [hs] at h; cases h
        · rfl
      | some fs =>
        dsimp only
        rcases h1 with ⟨hm, ⟨fs', h, h0⟩, rfl⟩ | ⟨h, rfl⟩
        · rw [hs] at h; cases h
          rw [if_pos ⟨Dict.contains_iff.2 hm, h0⟩]
        · rw [if_neg]
          intro hc
          exact h ⟨Dict.contains_iff.1 hc.1, fs, hs, hc.2⟩
    · rcases h2 with ⟨h, rfl⟩ | ⟨h, rfl⟩
      · rw [if_pos (Dict.contains_iff.2 h)]
      · rw [if_neg fun hc => h (Dict.contains_iff.1 hc)]
  · rcases h3 with ⟨h, rfl⟩ | ⟨h, rfl⟩
    · rw [if_pos (Dict.contains_iff.2 h)]
    · rw [if_neg fun hc => h (Dict.contains_iff.1 hc)]

theorem printed_letterKeys {env : PyEnv} {spec : Spec} {doc : PpDoc} {ks : List Str} (h : PrintedKeys env spec doc ks) :
    ∃ ns, ks = letterKeys spec doc ++ ns ∧ NumericOrder env (numericStrs env doc) ns := by
  obtain ⟨ls, ns, rfl, hl, h4⟩ := h
  exact ⟨ns, by rw [letters_letterKeys hl], h4⟩

theorem mem_numericStrs {env : PyEnv} {doc : PpDoc} {k : Str} :
    k ∈ numericStrs env doc ↔ .str k ∈ doc.keys ∧ isNumeric env k = true := by
  unfold numericStrs
  rw [List.mem_filterMap]
  constructor
  · rintro ⟨a, ha, h⟩
    cases a with
    | obj _ => simp at h
    | str a =>
      simp only at h
      split at h
      · next hn => cases h; exact ⟨ha, hn⟩
      · cases h
  · rintro ⟨h1, h2⟩
    exact ⟨.str k, h1, by simp [h2]⟩

/-- **C36**: `pp` returns exactly when the specification has a header entry if the dict has one,
`int` reads every numeric key and every printed key has its description; it has then written one
group of lines per printed key, in the order of `PrintedKeys`, and nothing else. -/
theorem pp_ok_iff {env : PyEnv} {doc : PpDoc} {spec : Spec} {dw lw : Int} {out : Str} (hd : doc.NoDup) :
    pp env doc spec dw lw = (.ok (), out) ↔
      (.str py"h" ∈ doc.keys → ∃ fs, spec.get? py"h" = some fs) ∧
      (∀ k, .str k ∈ doc.keys → isNumeric env k = true → ∃ n, pyInt env k = some n) ∧
      ∃ ks text, PrintedKeys env spec doc ks ∧
        (∀ k ∈ ks, ∃ v, doc.get? (.str k) = some v ∧ FieldText env spec dw lw k v (text k)) ∧ out = ks.flatMap text := by
  unfold pp
  rw [ppBody_run]
  constructor
  · intro h
    split at h
    · simp at h
    · next hh =>
      cases hl : ppFields env doc spec dw lw (letterKeys spec doc) [] with
      | mk r s1 =>
        rw [hl] at h
        cases r with
        | error e => simp at h
        | ok u =>
          dsimp only at h
          cases hn : ppNumericKeys env doc.keys with
          | error e => simp [hn] at h
          | ok r =>
            simp only [hn] at h
            obtain ⟨hr1, hr2⟩ := ppNumericKeys_ok_iff.1 hn
            have hboth : ppFields env doc spec dw lw (letterKeys spec doc ++ (sortedBy Prod.snd r).map Prod.fst) [] =
                (.ok (), out) := by
              rw [ppFields_append, hl]
              exact h
            obtain ⟨text, hg, he⟩ := ppFields_ok_iff.1 hboth
            refine ⟨?_, ?_, _, text, letterKeys_printed ?_, hg, by simpa using he⟩
            · intro hm
              cases hs : spec.get? py"h" with
              | none => exact absurd ⟨Dict.contains_iff.2 hm, hs⟩ hh
              | some fs => exact ⟨fs, rfl⟩
            · intro k hk hnum
              cases hp : pyInt env k with
              | none =>
                have := ppNumericKeys_error_iff.2 ⟨rfl, k, hk, hnum, hp⟩
                rw [hn] at this
                cases this
              | some n => exact ⟨n, rfl⟩
            · have := numericOrder_sorted hr2
              rw [hr1] at this
              exact this
  · rintro ⟨hh, hint, ks, text, hp, hg, rfl⟩
    obtain ⟨ns, rfl, ho⟩ := printed_letterKeys hp
    rw [if_neg]
    · obtain ⟨hg1, hg2⟩ : GroupTexts env doc spec dw lw (letterKeys spec doc) text ∧ GroupTexts env doc spec dw lw ns text :=
        ⟨fun k hk => hg k (by simp [hk]), fun k hk => hg k (by simp [hk])⟩
      rw [ppFields_ok_iff.2 ⟨text, hg1, rfl⟩]
      dsimp only
      cases hn : ppNumericKeys env doc.keys with
      | error e =>
        obtain ⟨_, k, h1, h2, h3⟩ := ppNumericKeys_error_iff.1 hn
        obtain ⟨n, hn'⟩ := hint k h1 h2
        rw [h3] at hn'
        cases hn'
      | ok r =>
        obtain ⟨hr1, hr2⟩ := ppNumericKeys_ok_iff.1 hn
        have := numericOrder_sorted hr2
        rw [hr1] at this
        dsimp only
        rw [numericOrder_unique (numericStrs_nodup hd) this ho]
        exact ppFields_ok_iff.2 ⟨text, hg2, by simp⟩
    · rintro ⟨hc, hs⟩
      obtain ⟨fs, hf⟩ := hh (Dict.contains_iff.1 hc)
      rw [hs] at hf
      cases hf

/-- **C36**: the keys printed are those in the dict that are numeric or one of `t`, `p` and, when the
specification has a header, `h`; each is printed once. -/
theorem printed_once {env : PyEnv} {spec : Spec} {doc : PpDoc} {ks : List Str} (hd : doc.NoDup)
    (hl : ∀ c ∈ [104, 116, 112], env.isNumericCp c = false) (h : PrintedKeys env spec doc ks) :
    ks.Nodup ∧ ∀ k, k ∈ ks ↔ .str k ∈ doc.keys ∧
      (isNumeric env k = true ∨ k = py"t" ∨ k = py"p" ∨ (k = py"h" ∧ hasHeader spec)) := by
  obtain ⟨_, ns, rfl, ⟨hs, ts, ps, rfl, h1, h2, h3⟩, h4, _⟩ := h
  have hn : ∀ k, k ∈ ns ↔ .str k ∈ doc.keys ∧ isNumeric env k = true := fun k => by rw [h4.mem_iff, mem_numericStrs]
  have letter : ∀ c ∈ [104, 116, 112], isNumeric env [c] = false := by
    intro c hc
    simp [isNumeric, hl c hc]
  have hnh : py"h" ∉ ns := fun h => by have := ((hn _).1 h).2; rw [letter _ (by simp)] at this; cases this
  have hnt : py"t" ∉ ns := fun h => by have := ((hn _).1 h).2; rw [letter _ (by simp)] at this; cases this
  have hnp : py"p" ∉ ns := fun h => by have := ((hn _).1 h).2; rw [letter _ (by simp)] at this; cases this
  have hnn : ns.Nodup := h4.nodup_iff.2 (numericStrs_nodup hd)
  constructor
  · rcases h1 with ⟨_, _, rfl⟩ | ⟨_, rfl⟩ <;> rcases h2 with ⟨_, rfl⟩ | ⟨_, rfl⟩ <;> rcases h3 with ⟨_, rfl⟩ | ⟨_, rfl⟩ <;>
      simp [List.nodup_cons, hnh, hnt, hnp, hnn]
  · intro k
    simp only [List.mem_append, hn]
    have e1 : k ∈ hs ↔ k = py"h" ∧ .str py"h" ∈ doc.keys ∧ hasHeader spec := by
      rcases h1 with ⟨a, b, rfl⟩ | ⟨a, rfl⟩
      · simp [a, b]
      · simp only [List.not_mem_nil, false_iff]; exact fun h => a h.2
    have e2 : k ∈ ts ↔ k = py"t" ∧ .str py"t" ∈ doc.keys := by
      rcases h2 with ⟨a, rfl⟩ | ⟨a, rfl⟩
      · simp [a]
      · simp [a]
    have e3 : k ∈ ps ↔ k = py"p" ∧ .str py"p" ∈ doc.keys := by
      rcases h3 with ⟨a, rfl⟩ | ⟨a, rfl⟩
      · simp [a]
      · simp [a]
    rw [e1, e2, e3]
    constructor
    · rintro (((⟨rfl, h⟩ | ⟨rfl, h⟩) | ⟨rfl, h⟩) | ⟨h, h'⟩)
      · exact ⟨h.1, .inr (.inr (.inr ⟨rfl, h.2⟩))⟩
      · exact ⟨h, .inr (.inl rfl)⟩
      · exact ⟨h, .inr (.inr (.inl rfl))⟩
      · exact ⟨h, .inl h'⟩
    · rintro ⟨h, h' | rfl | rfl | ⟨rfl, h'⟩⟩
      · exact .inr ⟨h, h'⟩
      · exact .inl (.inl (.inr ⟨rfl, h⟩))
      · exact .inl (.inr ⟨rfl, h⟩)
      · exact .inl (.inl (.inl ⟨rfl, h, h'⟩))

/-- Keys that are not printed do not matter: two dicts with the same numeric keys in the same order
and the same values under the keys printed give the same output (or the same exception). -/
theorem pp_congr {env : PyEnv} {doc doc' : PpDoc} {spec : Spec} {dw lw : Int}
    (hn : numericStrs env doc = numericStrs env doc')
    (hv : ∀ k, isNumeric env k = true ∨ k = py"h" ∨ k = py"t" ∨ k = py"p" → doc.get? (.str k) = doc'.get? (.str k)) :
    pp env doc spec dw lw = pp env doc' spec dw lw := by
  have hf : ∀ k s, isNumeric env k = true ∨ k = py"h" ∨ k = py"t" ∨ k = py"p" →
      ppField env doc spec dw lw k s = ppField env doc' spec dw lw k s := by
    intro k s h
    rw [ppField_run, ppField_run, hv k h]
  have hfs : ∀ ks s, (∀ k ∈ ks, isNumeric env k = true ∨ k = py"h" ∨ k = py"t" ∨ k = py"p") →
      ppFields env doc spec dw lw ks s = ppFields env doc' spec dw lw ks s := by
    intro ks
    induction ks with
    | nil => intros; rfl
    | cons k t ih =>
      intro s h
      rw [ppFields, ppFields, run_bind, run_bind, hf k s (h k (by simp))]
      cases ppField env doc' spec dw lw k s with
      | mk r s1 =>
        cases r with
        | error e => rfl
        | ok u => exact ih s1 fun k hk => h k (by simp [hk])
  have hc : ∀ k, k = py"h" ∨ k = py"t" ∨ k = py"p" → doc.contains (.str k) = doc'.contains (.str k) := by
    intro k h
    unfold Dict.contains
    rw [hv k (.inr h)]
  have hl : letterKeys spec doc = letterKeys spec doc' := by
    unfold letterKeys
    rw [hc _ (.inl rfl), hc _ (.inr (.inl rfl)), hc _ (.inr (.inr rfl))]
  have hk : ppNumericKeys env doc.keys = ppNumericKeys env doc'.keys := by
    cases h : ppNumericKeys env doc.keys with
    | ok r =>
      symm
      have := ppNumericKeys_ok_iff.1 h
      rw [ppNumericKeys_ok_iff]
      exact ⟨this.1.trans hn, this.2⟩
    | error e =>
      symm
      obtain ⟨rfl, k, h1, h2, h3⟩ := ppNumericKeys_error_iff.1 h
      refine ppNumericKeys_error_iff.2 ⟨rfl, k, ?_, h2, h3⟩
      have := mem_numericStrs.2 ⟨h1, h2⟩
      rw [hn] at this
      exact (mem_numericStrs.1 this).1
  unfold pp
  rw [ppBody_run, ppBody_run, hc _ (.inl rfl), hl, hk, hfs (letterKeys spec doc')]
  · cases ppFields env doc' spec dw lw (letterKeys spec doc') [] with
    | mk r s1 =>
      cases r with
      | error e => rfl
      | ok u =>
        cases hr : ppNumericKeys env doc'.keys with
        | error e => rfl
        | ok r =>
          dsimp only
          rw [hfs]
          intro k hk'
          left
          have h1 := ppNumericKeys_ok_iff.1 hr
          have h2 := (numericOrder_sorted h1.2).1.mem_iff.1 hk'
          rw [h1.1] at h2
          exact (mem_numericStrs (doc := doc')).1 h2 |>.2
  · intro k hk'
    have hlk : ∀ k ∈ letterKeys spec doc', k = py"h" ∨ k = py"t" ∨ k = py"p" := by
      intro k hk
      unfold letterKeys at hk
      simp only [List.mem_append] at hk
      rcases hk with (hk | hk) | hk
      · left
        cases hs : spec.get? py"h" with
        | none => rw [hs] at hk; simp at hk
        | some fs =>
          rw [hs] at hk
          dsimp only at hk
          split at hk <;> simp at hk
          exact hk
      · right; left
        split at hk <;> simp at hk
        exact hk
      · right; right
        split at hk <;> simp at hk
        exact hk
    exact .inr (hlk k hk')

/-! ## Folding -/

/-- **C37**: the pieces `pp` writes for bytes are the greedy folding, and there is only one. -/
theorem wrapBytesRepr_iff {w : Int} {obj : Bytes} {lines : List Str} :
    wrapBytesRepr obj w = lines ↔ ∃ ps, FoldsBytes w obj ps ∧ lines = ps.map reprBytes := by
  constructor
  · rintro rfl; exact ⟨_, wrapBytes_folds w obj, rfl⟩
  · rintro ⟨ps, h, rfl⟩; rw [wrapBytesRepr, foldsBytes_unique (wrapBytes_folds w obj) h]

/-- Five bytes in at most eleven columns. -/
example : wrapBytesRepr [0x00, 0x41, 0x42, 0xFF, 0x27] 9 = [py"b'\\x00AB'", py"b\"\\xff'\""] := by decide

theorem plainText_char {env : PyEnv} {s : Str} {c q : Nat} (h : PlainText env s) (hc : c ∈ s) (hq : c ≠ q) : reprStrChar env q c = [c] := by
  obtain ⟨h1, h2, h3, h4⟩ := h.1 c hc
  unfold reprStrChar
  rw [if_neg (by omega), if_neg (by omega), if_neg (by omega), if_neg (by omega), if_neg (by omega)]
  by_cases h5 : c < 127
  · rw [if_pos h5]
  · rw [if_neg h5, if_pos (h4.resolve_left h5)]

theorem plainText_repr {env : PyEnv} {s : Str} (h : PlainText env s) : (reprStr env s).length = s.length + 2 := by
  have hq : ∀ c ∈ s, c ≠ reprQuote s := by
    intro c hc he
    unfold reprQuote at he
    split at he
    · next h' => subst he; exact h'.2 hc
    · next h' =>
      subst he
      by_cases h34 : 34 ∈ s
      · exact h.2 ⟨hc, h34⟩
      · exact h' ⟨hc, h34⟩
  have : s.flatMap (reprStrChar env (reprQuote s)) = s := by
    have e : s.flatMap (reprStrChar env (reprQuote s)) = s.flatMap fun c => [c] := by
      rw [List.flatMap_def, List.flatMap_def]
      congr 1
      exact List.map_congr_left fun c hc => plainText_char h hc (hq c hc)
    rw [e]
    simp
  unfold reprStr
  dsimp only
  rw [this]
  simp

theorem PlainText.mono {env : PyEnv} {s p : Str} (h : PlainText env s) (hp : ∀ c ∈ p, c ∈ s) : PlainText env p :=
  ⟨fun c hc => h.1 c (hp c hc), fun hh => h.2 ⟨hp _ hh.1, hp _ hh.2⟩⟩

/-- **C38**: the pieces `pp` writes for text are its slices of `width - 2` characters, and each fits
when the text needs no escaping and there is room for one character. -/
theorem wrapStrRepr_iff {env : PyEnv} {w : Int} {obj : Str} {lines : List Str} :
    wrapStrRepr env obj w = lines ↔ ∃ ps, FoldsStr w obj ps ∧ lines = ps.map (reprStr env) := by
  constructor
  · rintro rfl; exact ⟨_, wrapStr_folds w obj, rfl⟩
  · rintro ⟨ps, h, rfl⟩; rw [wrapStrRepr, foldsStr_unique (wrapStr_folds w obj) h]

theorem foldsStr_fits {env : PyEnv} {w : Int} {obj : Str} {ps : List Str} (h : FoldsStr w obj ps) (hw : 3 ≤ w)
    (hp : PlainText env obj) : ∀ p ∈ ps, ((reprStr env p).length : Int) ≤ w := by
  intro p hm
  have h1 := h.atMost p hm
  rw [plainText_repr (hp.mono fun c hc => by rw [← h.whole]; exact List.mem_flatten.2 ⟨p, hm, hc⟩)]
  omega

/-- **C38**: the lines themselves. -/
theorem wrapStrRepr_fits {env : PyEnv} {w : Int} {obj : Str} (hw : 3 ≤ w) (hp : PlainText env obj) :
    ∀ line ∈ wrapStrRepr env obj w, (line.length : Int) ≤ w := by
  obtain ⟨ps, h, he⟩ := (wrapStrRepr_iff (lines := wrapStrRepr env obj w)).1 rfl
  rw [he]
  intro line hl
  obtain ⟨p, hp', rfl⟩ := List.mem_map.1 hl
  exact foldsStr_fits h hw hp p hp'

/-- **C37**: likewise for bytes, without any assumption, except for single bytes. -/
theorem wrapBytesRepr_fits {w : Int} {obj : Bytes} :
    ∀ line ∈ wrapBytesRepr obj w, (line.length : Int) ≤ w ∨ ∃ b, line = reprBytes [b] := by
  obtain ⟨ps, h, he⟩ := (wrapBytesRepr_iff (lines := wrapBytesRepr obj w)).1 rfl
  rw [he]
  intro line hl
  obtain ⟨p, hp', rfl⟩ := List.mem_map.1 hl
  rcases h.fits p hp' with h | h
  · exact .inl h
  · match p, h with
    | [b], _ => exact .inr ⟨b, rfl⟩

example : PlainText cpython py"it's plain" := by unfold PlainText; decide
example : wrapStrRepr cpython py"it's plain" 7 = [py"\"it's \"", py"'plain'"] := by decide

/-- Text with characters to escape may not fit (finding F7). -/
example : (wrapStrRepr cpython py"\n\n\n\n" 6).map List.length = [10] := by decide

/-! ## Line width -/

theorem linesFit_of_le {w : Int} {t : Str} (h : (t.length : Int) ≤ w) : LinesFit w t := by
  rintro a line b rfl _
  simp only [List.length_append] at h
  omega

theorem linesFit_newline {w : Int} {x y : Str} (hx : LinesFit w x) (hy : LinesFit w y) : LinesFit w (x ++ 10 :: y) := by
  intro a line b he hn
  rcases List.append_eq_append_iff.1 he with ⟨c, h1, h2⟩ | ⟨c, h1, h2⟩
  · -- `a ++ line = x ++ c`
    cases c with
    | nil => exact hx a line [] (by simpa using h1.symm) hn
    | cons d c =>
      simp only [List.cons_append, List.cons.injEq] at h2
      obtain ⟨rfl, h2⟩ := h2
      rcases List.append_eq_append_iff.1 h1 with ⟨m, h3, h4⟩ | ⟨m, h3, h4⟩
      · exact absurd (h4 ▸ by simp : 10 ∈ line) hn
      · cases m with
        | nil =>
          simp only [List.nil_append] at h4
          exact absurd (h4 ▸ by simp : 10 ∈ line) hn
        | cons d m =>
          simp only [List.cons_append, List.cons.injEq] at h4
          exact hy m line b (by rw [h2, h4.2]) hn
  · exact hx a line c h1 hn

theorem linesFit_pieces {w : Int} {indent : Nat} : ∀ {ps : List Str} {x : Str}, LinesFit w x →
    (∀ p ∈ ps, ((indent + p.length : Nat) : Int) ≤ w) → LinesFit w (x ++ ps.flatMap (newLine indent ++ ·))
  | [], x, hx, _ => by simpa using hx
  | p :: ps, x, hx, h => by
    have h1 : LinesFit w (x ++ 10 :: (List.replicate indent 32 ++ p)) :=
      linesFit_newline hx (linesFit_of_le (by simpa using h p (by simp)))
    have := linesFit_pieces (ps := ps) h1 fun q hq => h q (by simp [hq])
    simpa [newLine] using this

/-- What is written after a text of `indent` characters fits, if the value is roomy there. -/
theorem valueText_fits {env : PyEnv} {w : Int} {head : Str} {v : PpVal} (hv : ∀ l d, v ≠ .dict l d)
    (hr : Roomy env head.length w v) : LinesFit w (head ++ valueText env head.length w v) := by
  have fold : ∀ ps : List Str, (head.length : Int) ≤ w → (∀ p ∈ ps, ((head.length + p.length : Nat) : Int) ≤ w) →
      LinesFit w (head ++ joinWith (newLine head.length) ps) := by
    intro ps hw h
    cases ps with
    | nil => exact linesFit_of_le (by simpa [joinWith] using hw)
    | cons p ps =>
      rw [joinWith_cons, ← List.append_assoc]
      exact linesFit_pieces (linesFit_of_le (by simpa using h p (by simp))) fun q hq => h q (by simp [hq])
  cases v with
  | dict l d => exact absurd rfl (hv l d)
  | other r => exact linesFit_of_le (by simpa [valueText, Roomy] using hr)
  | str s =>
    obtain ⟨hp, hw⟩ := hr
    rw [valueText]
    split
    · next h =>
      refine linesFit_of_le ?_
      have := plainText_repr hp
      rw [List.length_append]
      omega
    · refine fold _ (by omega) ?_
      intro p hm
      have := wrapStrRepr_fits (env := env) (w := w - head.length) (obj := s) (by omega) hp p hm
      omega
  | bytes b =>
    have hw : (head.length : Int) + 7 ≤ w := hr
    rw [valueText]
    split
    · next h =>
      refine linesFit_of_le ?_
      rw [List.length_append]
      rcases h with h | h
      · omega
      · match b, h with
        | [], _ => simp [reprBytes]; omega
        | [x], _ => have := reprBytes_single x; omega
    · refine fold _ (by omega) ?_
      intro p hm
      rcases wrapBytesRepr_fits (w := w - head.length) (obj := b) p hm with h | ⟨x, rfl⟩
      · omega
      · have := reprBytes_single x; omega

/-- What may follow a text without making a line of it longer than `w`. -/
def Ready (w : Int) (s : Str) : Prop := ∀ t, LinesFit w t → LinesFit w (s ++ t)

theorem ready_nil {w : Int} : Ready w [] := fun _ h => h

theorem Ready.line {w : Int} {s x : Str} (h : Ready w s) (hx : LinesFit w x) : Ready w (s ++ x ++ [10]) := by
  intro t ht
  have := h _ (linesFit_newline hx ht)
  simpa using this

theorem roomy_head {env : PyEnv} {col w : Int} {v : PpVal} (h : Roomy env col w v) : col ≤ w := by
  cases v with
  | str s => have := h.2; omega
  | bytes b => have : col + 7 ≤ w := h; omega
  | other r => have : col + (r.length : Int) ≤ w := h; omega
  | dict l d =>
    cases l with
    | none => have : col + 7 ≤ w := h; omega
    | some l =>
      simp only [Roomy] at h
      split at h <;> omega

theorem ppField_fits {env : PyEnv} {doc : PpDoc} {spec : Spec} {dw lw : Int} {key s : Str} {v : PpVal}
    (hv : doc.get? (.str key) = some v) (hk : key.length ≤ 3) (hr : Roomy env (valueColumn dw) lw v) (hs : Ready lw s) :
    (∃ s', ppField env doc spec dw lw key s = (.ok (), s') ∧ Ready lw s') ∨
    ∃ e s', ppField env doc spec dw lw key s = (.error e, s') ∧ LinesFit lw s' := by
  rw [ppField_run]
  have hcol := roomy_head hr
  have h5 : 5 ≤ valueColumn dw := by unfold valueColumn; split <;> omega
  cases hd : descText spec dw key with
  | error e =>
    refine .inr ⟨e, _, rfl, hs _ (linesFit_of_le ?_)⟩
    rw [padded_length hk]
    omega
  | ok d =>
    have hdl := (descText_ok.1 hd).length
    rw [hv]
    refine .inl ⟨_, rfl, ?_⟩
    have hlen : ((padded 3 key ++ d ++ py": " ++ (unpack v).1).length : Int) = valueColumn dw + (unpack v).1.length := by
      simp only [List.length_append, padded_length hk, hdl, valueColumn, List.length_cons, List.length_nil]
      split <;> omega
    have hlen' : (padded 3 key ++ d ++ py": " ++ (unpack v).1).length = 5 + d.length + (unpack v).1.length := by
      simp only [List.length_append, padded_length hk, List.length_cons, List.length_nil]
      omega
    have := valueText_fits (env := env) (w := lw) (head := padded 3 key ++ d ++ py": " ++ (unpack v).1) (unpack_ne_dict (v := v)) (by
      rw [hlen]
      cases v with
      | str s => simpa [unpack] using hr
      | bytes s => simpa [unpack] using hr
      | other s => simpa [unpack] using hr
      | dict l b =>
        cases l with
        | none => simpa [unpack, Roomy] using hr
        | some l =>
          simp only [Roomy] at hr
          by_cases hl : l = []
          · rw [if_pos hl] at hr; simpa [unpack, Roomy, hl] using hr
          · rw [if_neg hl] at hr; simpa [unpack, Roomy, hl] using hr)
    rw [hlen'] at this
    have := hs.line this
    rw [fieldText]
    simpa using this

theorem ppFields_fits {env : PyEnv} {doc : PpDoc} {spec : Spec} {dw lw : Int} : ∀ {ks : List Str} {s : Str},
    (∀ k ∈ ks, ∃ v, doc.get? (.str k) = some v ∧ k.length ≤ 3 ∧ Roomy env (valueColumn dw) lw v) → Ready lw s →
    (∃ s', ppFields env doc spec dw lw ks s = (.ok (), s') ∧ Ready lw s') ∨
    ∃ e s', ppFields env doc spec dw lw ks s = (.error e, s') ∧ LinesFit lw s'
  | [], s, _, hs => .inl ⟨s, rfl, hs⟩
  | k :: ks, s, h, hs => by
    obtain ⟨v, hv, hk, hr⟩ := h k (by simp)
    rw [ppFields, run_bind]
    rcases ppField_fits (spec := spec) hv hk hr hs with ⟨s', he, hs'⟩ | ⟨e, s', he, hs'⟩
    · rw [he]
      exact ppFields_fits (fun k hk => h k (by simp [hk])) hs'
    · rw [he]
      exact .inr ⟨e, s', rfl, hs'⟩

theorem letterKeys_mem {spec : Spec} {doc : PpDoc} {k : Str} (h : k ∈ letterKeys spec doc) :
    (k = py"h" ∨ k = py"t" ∨ k = py"p") ∧ .str k ∈ doc.keys := by
  unfold letterKeys at h
  simp only [List.mem_append] at h
  rcases h with (h | h) | h
  · cases hs : spec.get? py"h" with
    | none => rw [hs] at h; simp at h
    | some fs =>
      rw [hs] at h
      dsimp only at h
      split at h
      · next hc =>
        simp only [List.mem_cons, List.not_mem_nil, or_false] at h
        subst h
        exact ⟨.inl rfl, Dict.contains_iff.1 hc.1⟩
      · simp at h
  · split at h
    · next hc =>
      simp only [List.mem_cons, List.not_mem_nil, or_false] at h
      subst h
      exact ⟨.inr (.inl rfl), Dict.contains_iff.1 hc⟩
    · simp at h
  · split at h
    · next hc =>
      simp only [List.mem_cons, List.not_mem_nil, or_false] at h
      subst h
      exact ⟨.inr (.inr rfl), Dict.contains_iff.1 hc⟩
    · simp at h

/-- **C39**: no line is longer than `line_width` when keys have at most three characters and every
value that may be printed is roomy; this holds even for what was written before an exception. -/
theorem pp_lines_fit {env : PyEnv} {doc : PpDoc} {spec : Spec} {dw lw : Int} (hw : 0 ≤ lw)
    (h : ∀ k v, doc.get? (.str k) = some v → isNumeric env k = true ∨ k = py"h" ∨ k = py"t" ∨ k = py"p" →
      k.length ≤ 3 ∧ Roomy env (valueColumn dw) lw v) :
    LinesFit lw (pp env doc spec dw lw).2 := by
  have get : ∀ k, .str k ∈ doc.keys → isNumeric env k = true ∨ k = py"h" ∨ k = py"t" ∨ k = py"p" →
      ∃ v, doc.get? (.str k) = some v ∧ k.length ≤ 3 ∧ Roomy env (valueColumn dw) lw v := by
    intro k hk hp
    obtain ⟨v, hv⟩ := Option.isSome_iff_exists.1 (Dict.get?_isSome.2 hk)
    exact ⟨v, hv, h k v hv hp⟩
  have ready : ∀ {s}, Ready lw s → LinesFit lw s := fun hs => by simpa using hs [] (linesFit_of_le (by simpa using hw))
  unfold pp
  rw [ppBody_run]
  split
  · exact linesFit_of_le (by simpa using hw)
  · rcases ppFields_fits (spec := spec) (ks := letterKeys spec doc) (s := []) (fun k hk =>
      get k (letterKeys_mem hk).2 (.inr (letterKeys_mem hk).1)) ready_nil with ⟨s', he, hs'⟩ | ⟨e, s', he, hs'⟩
    · rw [he]
      dsimp only
      cases hn : ppNumericKeys env doc.keys with
      | error e => exact ready hs'
      | ok r =>
        dsimp only
        obtain ⟨h1, h2⟩ := ppNumericKeys_ok_iff.1 hn
        have hmem : ∀ k ∈ (sortedBy Prod.snd r).map Prod.fst, .str k ∈ doc.keys ∧ isNumeric env k = true := by
          intro k hk
          have := (numericOrder_sorted h2).1.mem_iff.1 hk
          rw [h1] at this
          exact (mem_numericStrs (doc := doc)).1 this
        rcases ppFields_fits (spec := spec) (s := s') (fun k hk => get k (hmem k hk).1 (.inl (hmem k hk).2)) hs' with
          ⟨s'', he', hs''⟩ | ⟨e, s'', he', hs''⟩
        · rw [he']; exact ready hs''
        · rw [he']; exact hs''
    · rw [he]; exact hs'

/-! ## When `pp` raises -/

theorem ppFields_error {env : PyEnv} {doc : PpDoc} {spec : Spec} {dw lw : Int} {e : PpRaise} : ∀ {ks : List Str} {s out : Str},
    ppFields env doc spec dw lw ks s = (.error e, out) → (∀ k ∈ ks, .str k ∈ doc.keys) →
    ∃ done k text, done ++ [k] <+: ks ∧ GroupTexts env doc spec dw lw done text ∧ 0 < dw ∧
      ((spec.get? k = none ∧ e = .keyError k) ∨ ∃ fs, spec.get? k = some fs ∧ fs.desc = none ∧ e = .keyError py"desc") ∧
      out = s ++ done.flatMap text ++ padded 3 k
  | [], s, out, h, _ => by simp [ppFields] at h
  | k :: ks, s, out, h, hm => by
    rw [ppFields, run_bind] at h
    cases hf : ppField env doc spec dw lw k s with
    | mk r s1 =>
      rw [hf] at h
      cases r with
      | error e' =>
        simp only [Prod.mk.injEq, Except.error.injEq] at h
        obtain ⟨rfl, rfl⟩ := h
        rw [ppField_run] at hf
        cases hd : descText spec dw k with
        | error x =>
          simp only [hd, Prod.mk.injEq, Except.error.injEq] at hf
          obtain ⟨rfl, rfl⟩ := hf
          unfold descText at hd
          by_cases h0 : dw > 0
          · rw [if_pos h0] at hd
            refine ⟨[], k, id, ⟨ks, by simp⟩, fun _ h => by simp at h, h0, ?_, by simp⟩
            cases hs : spec.get? k with
            | none => simp only [hs, Except.error.injEq] at hd; exact .inl ⟨rfl, hd.symm⟩
            | some fs =>
              cases hx : fs.desc with
              | none => simp only [hs, hx, Except.error.injEq] at hd; exact .inr ⟨fs, rfl, hx, hd.symm⟩
              | some d => simp [hs, hx] at hd
          · rw [if_neg h0] at hd; cases hd
        | ok d =>
          obtain ⟨v, hv⟩ := Option.isSome_iff_exists.1 (Dict.get?_isSome.2 (hm k (by simp)))
          simp [hd, hv] at hf
      | ok u =>
        obtain ⟨v, t, hv, ht, rfl⟩ := ppField_ok_iff.1 hf
        obtain ⟨done, k', text, ⟨rest, hp⟩, hg, h0, hc, rfl⟩ := ppFields_error h fun k hk => hm k (by simp [hk])
        obtain ⟨text', hg', he'⟩ := (ppFields_ok_iff (env := env) (doc := doc) (spec := spec) (dw := dw) (lw := lw) (ks := k :: done) (s := s)
            (s' := s ++ t ++ done.flatMap text)).1 (by
          rw [ppFields, run_bind, hf]
          exact ppFields_ok_iff.2 ⟨text, hg, rfl⟩)
        exact ⟨k :: done, k', text', ⟨rest, by simp [← hp]⟩, hg', h0, hc, by rw [← he']⟩

/-- **C52**: the only exceptions are a `KeyError` when the dict has a header and the specification has
no entry for it, a `KeyError` for a printed key without specification entry or description (only
when descriptions are on), and a `ValueError` for a numeric key that `int` does not read. Everything
printed before is complete: the letters come first, and keys before the one at fault have their
groups. -/
theorem pp_error {env : PyEnv} {doc : PpDoc} {spec : Spec} {dw lw : Int} {e : PpRaise} {out : Str}
    (h : pp env doc spec dw lw = (.error e, out)) :
    (.str py"h" ∈ doc.keys ∧ spec.get? py"h" = none ∧ e = .keyError py"h" ∧ out = []) ∨
    (∃ ls text k, PrintedLetters spec doc ls ∧
      (∀ k ∈ ls, ∃ v, doc.get? (.str k) = some v ∧ FieldText env spec dw lw k v (text k)) ∧
      .str k ∈ doc.keys ∧ isNumeric env k = true ∧ pyInt env k = none ∧ e = .valueError ∧ out = ls.flatMap text) ∨
    (0 < dw ∧ ∃ ks done k text, (PrintedLetters spec doc ks ∨ PrintedKeys env spec doc ks) ∧ done ++ [k] <+: ks ∧
      (∀ k ∈ done, ∃ v, doc.get? (.str k) = some v ∧ FieldText env spec dw lw k v (text k)) ∧
      ((spec.get? k = none ∧ e = .keyError k) ∨ ∃ fs, spec.get? k = some fs ∧ fs.desc = none ∧ e = .keyError py"desc") ∧
      out = done.flatMap text ++ padded 3 k) := by
  unfold pp at h
  rw [ppBody_run] at h
  split at h
  · next hh =>
    simp only [Prod.mk.injEq, Except.error.injEq] at h
    exact .inl ⟨Dict.contains_iff.1 hh.1, hh.2, h.1.symm, h.2.symm⟩
  · right
    cases hl : ppFields env doc spec dw lw (letterKeys spec doc) [] with
    | mk r s1 =>
      rw [hl] at h
      cases r with
      | error e' =>
        simp only [Prod.mk.injEq, Except.error.injEq] at h
        obtain ⟨rfl, rfl⟩ := h
        obtain ⟨done, k, text, hp, hg, h0, hc, rfl⟩ := ppFields_error hl fun k hk => (letterKeys_mem hk).2
        exact .inr ⟨h0, _, done, k, text, .inl (letterKeys_letters spec doc), hp, hg, hc, by simp⟩
      | ok u =>
        dsimp only at h
        obtain ⟨text, hg, rfl⟩ := ppFields_ok_iff.1 hl
        cases hn : ppNumericKeys env doc.keys with
        | error e' =>
          simp only [hn, Prod.mk.injEq, Except.error.injEq] at h
          obtain ⟨rfl, rfl⟩ := h
          obtain ⟨rfl, k, h1, h2, h3⟩ := ppNumericKeys_error_iff.1 hn
          exact .inl ⟨_, text, k, letterKeys_letters spec doc, hg, h1, h2, h3, rfl, by simp⟩
        | ok r =>
          simp only [hn] at h
          obtain ⟨hr1, hr2⟩ := ppNumericKeys_ok_iff.1 hn
          have ho := numericOrder_sorted hr2
          have hmem : ∀ k ∈ letterKeys spec doc ++ (sortedBy Prod.snd r).map Prod.fst, .str k ∈ doc.keys := by
            intro k hk
            rcases List.mem_append.1 hk with hk | hk
            · exact (letterKeys_mem hk).2
            · have := ho.1.mem_iff.1 hk
              rw [hr1] at this
              exact ((mem_numericStrs (doc := doc)).1 this).1
          have hboth : ppFields env doc spec dw lw (letterKeys spec doc ++ (sortedBy Prod.snd r).map Prod.fst) [] =
              (.error e, out) := by
            rw [ppFields_append, hl]
            exact h
          obtain ⟨done, k, text', hp, hg', h0, hc, rfl⟩ := ppFields_error hboth hmem
          rw [hr1] at ho
          exact .inr ⟨h0, _, done, k, text', .inr (letterKeys_printed ho), hp, hg', hc, by simp⟩

/-! ## Examples -/

/-- A specification with descriptions. -/
def ppSpec : Spec := [
  (py"h", { dataEnc := py"b", lenEnc := py"ascii", lenType := 0, maxLen := 0, desc := some py"Header" }),
  (py"t", { dataEnc := py"ascii", lenEnc := py"ascii", lenType := 0, maxLen := 4, desc := some py"Message Type" }),
  (py"p", { dataEnc := py"b", lenEnc := py"ascii", lenType := 0, maxLen := 8, desc := some py"Bitmap" }),
  (py"2", { dataEnc := py"ascii", lenEnc := py"ascii", lenType := 2, maxLen := 19, desc := some py"PAN" }),
  (py"10", { dataEnc := py"b", lenEnc := py"ascii", lenType := 2, maxLen := 19 })]

/-- A dict to print: a header although the specification has none, keys out of order, one that is
no field, and an encoded field. -/
def ppDoc : PpDoc := [
  (.str py"2", .dict (some [0x30, 0x34]) (some [0x31, 0x32, 0xFF, 0x34])), (.str py"note", .other py"None"),
  (.str py"h", .str py"x"), (.obj py"None", .str py"x"), (.str py"t", .str py"0200")]

theorem ppDoc_noDup : Dict.NoDup ppDoc := by unfold Dict.NoDup; decide

theorem ppDoc_prints : pp cpython ppDoc ppSpec 7 25 =
    (.ok (), py"t   Message: '0200'\n2   PAN    : b'04' b'12'\n                   b'\\xff'\n                   b'4'\n") := by
  decide +kernel

example : ∃ ks text, PrintedKeys cpython ppSpec ppDoc ks ∧ (pp cpython ppDoc ppSpec 7 25).2 = ks.flatMap text := by
  obtain ⟨_, _, ks, text, h1, _, h2⟩ := (pp_ok_iff ppDoc_noDup).1 ppDoc_prints
  exact ⟨ks, text, h1, by rw [ppDoc_prints]; exact h2⟩

/-- Without the key that is no field the output is the same. -/
example : pp cpython (ppDoc.filter fun p => p.1 ≠ .str py"note") ppSpec 7 25 = pp cpython ppDoc ppSpec 7 25 := by
  refine pp_congr (by decide) ?_
  intro k hk
  by_cases h : k = py"note"
  · subst h; exact absurd hk (by decide)
  · by_cases h1 : k = py"2"
    · subst h1; rfl
    · by_cases h2 : k = py"h"
      · subst h2; rfl
      · by_cases h3 : k = py"t"
        · subst h3; rfl
        · have key : ∀ d : PpDoc, Key.str k ∉ Dict.keys d → Dict.get? d (.str k) = none := fun d h => Dict.get?_eq_none.2 h
          rw [key, key] <;> simp [ppDoc, Dict.keys, h, h1, h2, h3]

/-- The line width of the example is kept. -/
example : LinesFit 30 (pp cpython ppDoc ppSpec 7 30).2 := by
  refine pp_lines_fit (by decide) ?_
  intro k v hv _
  have hm := Dict.mem_of_get? hv
  simp only [ppDoc, List.mem_cons, List.not_mem_nil, or_false, Prod.mk.injEq, Key.str.injEq, reduceCtorEq, false_and,
    false_or] at hm
  rcases hm with ⟨rfl, rfl⟩ | ⟨rfl, rfl⟩ | ⟨rfl, rfl⟩ | ⟨rfl, rfl⟩
  · exact ⟨by decide, by unfold Roomy; decide⟩
  · simp_all [isNumeric, cpython, isAsciiDigit]
  · exact ⟨by decide, by unfold Roomy PlainText; decide⟩
  · exact ⟨by decide, by unfold Roomy PlainText; decide⟩

/-- A key without description, with descriptions on: its predecessors are complete. -/
example : pp cpython [(.str py"10", .str py"AB"), (.str py"2", .str py"1")] ppSpec 4 80 =
    (.error (.keyError py"desc"), py"2   PAN : '1'\n10 ") := by decide +kernel

/-- A numeric key `int` does not read. -/
example : pp cpython [(.str py"½", .str py"AB"), (.str py"t", .str py"1")] ppSpec 4 80 =
    (.error .valueError, py"t   Mess: '1'\n") := by decide +kernel

/-- An instance of `wrapBytesRepr_iff`. -/
example : ∃ ps, FoldsBytes 9 [0x00, 0x41, 0x42, 0xFF, 0x27] ps ∧ [py"b'\\x00AB'", py"b\"\\xff'\""] = ps.map reprBytes :=
  wrapBytesRepr_iff.1 (by decide)

/-- An instance of `wrapBytesRepr_fits`. -/
example : ∀ line ∈ wrapBytesRepr [0x31, 0x32, 0xFF, 0x33, 0x34] 8, (line.length : Int) ≤ 8 ∨ ∃ b, line = reprBytes [b] :=
  wrapBytesRepr_fits

/-- An instance of `wrapStrRepr_iff`. -/
example : ∃ ps, FoldsStr 5 py"abcdefg" ps ∧ [py"'abc'", py"'def'", py"'g'"] = ps.map (reprStr cpython) :=
  wrapStrRepr_iff.1 (by decide +kernel)

/-- An instance of `wrapStrRepr_fits`. -/
example : ∀ line ∈ wrapStrRepr cpython py"abcdefg" 5, (line.length : Int) ≤ 5 :=
  wrapStrRepr_fits (by decide) (by unfold PlainText; decide +kernel)

/-- An instance of `printed_once`. -/
example (ks : List Str) (h : PrintedKeys cpython demoSpec [(.str py"3", .str py"x"), (.str py"t", .str py"0200"), (.str py"z", .str py"y")] ks) :
    ks.Nodup ∧ py"3" ∈ ks ∧ py"z" ∉ ks := by
  obtain ⟨h1, h2⟩ := printed_once (by unfold Dict.NoDup; decide) (by decide +kernel) h
  refine ⟨h1, (h2 _).2 ⟨by decide, .inl (by decide +kernel)⟩, fun hz => ?_⟩
  rcases ((h2 _).1 hz).2 with h | h | h | ⟨h, _⟩
  · exact absurd h (by decide +kernel)
  · exact absurd h (by decide)
  · exact absurd h (by decide)
  · exact absurd h (by decide)

/-- An instance of `pp_error`. -/
example (e : PpRaise) (out : Str) : pp cpython [(.str py"2", .str py"12")] [] 0 80 ≠ (.error e, out) := by
  intro h
  rcases pp_error h with ⟨h, _⟩ | ⟨_, _, k, _, _, hk, _, hn, _⟩ | ⟨h, _⟩
  · exact absurd h (by decide)
  · simp only [Dict.keys, List.map_cons, List.map_nil, List.mem_singleton, Key.str.injEq] at hk
    subst hk
    exact absurd hn (by decide +kernel)
  · exact absurd h (by decide)

end Iso8583
