import Verif.Props.EncodeFailure
/-!
# What an `EncodeError` says (C32, C48)
-/

namespace Iso8583

theorem docText_applySets {doc : Doc} {sets : List (Str × Str)} (nd : (sets.map Prod.fst).Nodup) {k t : Str}
    (h : (k, t) ∈ sets) : docText (applySets doc sets) k = t := by
  unfold docText
  rw [applySets_get?_mem nd h]

theorem BitmapsWrite.complete {env : PyEnv} {spec : Spec} {F : List Nat} {bms : List Item} (h : BitmapsWrite env spec F bms)
    (doc0 doc : Doc) : ∀ it ∈ bms, EntryComplete env spec doc0 (applySets doc (textsOf bms)) it.key it.entry := by
  have hnd : ((textsOf bms).map Prod.fst).Nodup := by
    rw [textsOf_keys]
    rcases h.keys with ⟨_, h⟩ | ⟨_, h⟩ <;> rw [h] <;> decide
  have htext : ∀ it ∈ bms, docText (applySets doc (textsOf bms)) it.key = it.val := fun it hit =>
    docText_applySets hnd (List.mem_map.2 ⟨it, hit, rfl⟩)
  intro it hit
  have ht := htext it hit
  have l0 := bitmapOf_length (priOf_range (F := F))
  have l1 := bitmapOf_length (secOf_range (F := F))
  have l2 := bitmapOf_length (terOf_range (F := F))
  cases h with
  | primary hs hw h1 =>
    simp only [List.mem_singleton] at hit
    subst hit
    refine ⟨_, hs, ?_⟩
    rw [if_neg (by simp), if_pos (by simp)]
    exact ⟨rfl, .inl (by rw [ht]; exact hw.emitted l0)⟩
  | secondary hs hw h1 hs1 hw1 h65 =>
    simp only [List.mem_cons, List.not_mem_nil, or_false] at hit
    rcases hit with rfl | rfl
    · refine ⟨_, hs, ?_⟩
      rw [if_neg (by simp), if_pos (by simp)]
      exact ⟨rfl, .inl (by rw [ht]; exact hw.emitted l0)⟩
    · refine ⟨_, hs1, ?_⟩
      rw [if_neg (by simp), if_pos (by simp)]
      exact ⟨rfl, .inl (by rw [ht]; exact hw1.emitted l1)⟩
  | tertiary hs hw h1 hs1 hw1 h65 hw2 =>
    simp only [List.mem_cons, List.not_mem_nil, or_false] at hit
    rcases hit with rfl | rfl
    · refine ⟨_, hs, ?_⟩
      rw [if_neg (by simp), if_pos (by simp)]
      exact ⟨rfl, .inl (by rw [ht]; exact hw.emitted l0)⟩
    · refine ⟨_, hs1, ?_⟩
      rw [if_neg (by simp), if_pos (by simp)]
      refine ⟨rfl, .inr ⟨_, _, rfl, ?_, ?_, ?_⟩⟩ <;> rw [ht]
      · simp [l1, l2]
      · rw [List.take_left' (by simp [l1])]; exact hw1.emitted l1
      · rw [List.drop_left' (by simp [l1])]; exact hw2.emitted l2

theorem TypeWrites.complete {env : PyEnv} {spec : Spec} {doc doc' : Doc} {ty : Item}
    (h : TypeWrites env spec (lookup doc) ty) : EntryComplete env spec doc doc' ty.key ty.entry := by
  obtain ⟨fs, v, hs, hg, hk, hl, hw, _, _⟩ := h
  refine ⟨fs, by rw [hk]; exact hs, ?_⟩
  rw [hk, if_pos rfl]
  exact ⟨hl, v, hg, hw⟩

theorem field_complete {env : PyEnv} {spec : Spec} {doc doc' : Doc} {it : Item} {fs : FieldSpec} {v : Val} {n : Nat}
    (hs : spec.get? it.key = some fs) (ht : it.key ≠ py"t") (hp : it.key ≠ py"p") (h1 : it.key ≠ py"1")
    (hg : lookup doc it.key = some v) (hw : FieldWrites env fs v n it.len it.data) :
    EntryComplete env spec doc doc' it.key it.entry := by
  refine ⟨fs, hs, ?_⟩
  rw [if_neg ht, if_neg (by simp [hp, h1])]
  exact ⟨v, n, hg, hw⟩

theorem HeaderWrites.complete {env : PyEnv} {spec : Spec} {doc doc' : Doc} {hdr : List Item}
    (h : HeaderWrites env spec (lookup doc) hdr) : ∀ it ∈ hdr, EntryComplete env spec doc doc' it.key it.entry := by
  obtain ⟨fs, hs, h⟩ := h
  intro it hit
  split at h
  · subst h; simp at hit
  · obtain ⟨v, n, it', rfl, hk, hg, hw, _⟩ := h
    simp only [List.mem_singleton] at hit
    subst hit
    exact field_complete (by rw [hk]; exact hs) (by rw [hk]; decide) (by rw [hk]; decide) (by rw [hk]; decide)
      (by rw [hk]; exact hg) hw

theorem FieldsWrite.complete {env : PyEnv} {spec : Spec} {doc doc' : Doc} {is : List Nat} {flds : List Item}
    (h : FieldsWrite env spec (lookup doc) is flds) (h1 : 1 ∉ is) :
    ∀ it ∈ flds, EntryComplete env spec doc doc' it.key it.entry := by
  induction h with
  | nil => simp
  | cons hs hg hk hw _ _ ih =>
    simp only [List.mem_cons, not_or] at h1
    intro x hx
    rcases List.mem_cons.1 hx with rfl | hx
    · exact field_complete (by rw [hk]; exact hs) (by rw [hk]; exact natStr_ne_letter (by decide))
        (by rw [hk]; exact natStr_ne_letter (by decide)) (by rw [hk]; exact natStr_ne_one (Ne.symm h1.1))
        (by rw [hk]; exact hg) hw
    · exact ih h1.2 x hx

/-- Failures of the bitmap step. -/
theorem bmsPure_error {env : PyEnv} {spec : Spec} {F : List Nat} {m : EncMsg} {f : Str} {tail : EncDoc}
    {texts : List (Str × Str)}
    (h : bmsPure env spec (priOf F) (secOf F) (terOf F) (1 ∈ f2Of F) (65 ∈ f2Of F) = (.error (.err m f), tail, texts)) :
    (f = py"p" ∧ ∃ fs, spec.get? py"p" = some fs ∧ tail = [(py"p", ⟨[], []⟩)] ∧
      texts = [(py"p", hexText (bitmapOf 0 (priOf F)))] ∧ BitmapFault env fs (hexText (bitmapOf 0 (priOf F))) m) ∨
    (f = py"1" ∧ ∃ fs D fs1 ent t a b, spec.get? py"p" = some fs ∧ BitmapWrites env fs (bitmapOf 0 (priOf F)) D ∧
      1 ∈ f2Of F ∧ spec.get? py"1" = some fs1 ∧ tail = [(py"p", ⟨[], D⟩), (py"1", ent)] ∧
      texts = [(py"p", hexText (bitmapOf 0 (priOf F))), (py"1", t)] ∧ t = a ++ b ∧ b.length = 16 ∧ BitmapFault env fs1 b m) := by
  have l1 := bitmapOf_length (secOf_range (F := F))
  have l2 := bitmapOf_length (terOf_range (F := F))
  unfold bmsPure at h
  cases hp : spec.get? py"p" with
  | none => simp [hp] at h
  | some fs =>
    simp only [hp] at h
    cases hd : bmData env py"p" fs (bitmapOf 0 (priOf F)) with
    | error r =>
      simp only [hd, Prod.mk.injEq, Except.error.injEq] at h
      obtain ⟨rfl, rfl, rfl⟩ := h
      obtain ⟨m', e, hf⟩ := bmData_error_iff.1 hd
      cases e
      exact .inl ⟨rfl, fs, rfl, rfl, by rw [hexUp_eq_hexText], hf⟩
    | ok D =>
      have hw := bmData_ok_iff.1 hd
      simp only [hd] at h
      by_cases h1 : 1 ∈ f2Of F
      · simp only [h1, decide_true, if_true] at h
        cases hs1 : spec.get? py"1" with
        | none => simp [hs1] at h
        | some fs1 =>
          simp only [hs1] at h
          cases hd1 : bmData env py"1" fs1 (bitmapOf 64 (secOf F)) with
          | error r =>
            simp only [hd1, Prod.mk.injEq, Except.error.injEq] at h
            obtain ⟨rfl, rfl, rfl⟩ := h
            obtain ⟨m', e, hf⟩ := bmData_error_iff.1 hd1
            cases e
            exact .inr ⟨rfl, fs, D, fs1, _, _, [], _, rfl, hw, h1, rfl, rfl, by rw [hexUp_eq_hexText],
              by rw [hexUp_eq_hexText]; rfl, by simp [l1], hf⟩
          | ok D1 =>
            simp only [hd1] at h
            by_cases h65 : 65 ∈ f2Of F
            · simp only [h65, decide_true, if_true] at h
              cases hd2 : bmData env py"1" fs1 (bitmapOf 128 (terOf F)) with
              | error r =>
                simp only [hd2, Prod.mk.injEq, Except.error.injEq] at h
                obtain ⟨rfl, rfl, rfl⟩ := h
                obtain ⟨m', e, hf⟩ := bmData_error_iff.1 hd2
                cases e
                exact .inr ⟨rfl, fs, D, fs1, _, _, _, _, rfl, hw, h1, rfl, rfl, by rw [hexUp_eq_hexText],
                  by rw [hexUp_eq_hexText, hexUp_eq_hexText], by simp [l2], hf⟩
              | ok D2 => simp [hd2] at h
            · simp [h65] at h
      · simp [h1] at h

theorem natStr_not_letter {n : Nat} : natStr n ≠ py"t" ∧ natStr n ≠ py"p" ∧ natStr n ≠ py"h" :=
  ⟨natStr_ne_letter (by decide), natStr_ne_letter (by decide), natStr_ne_letter (by decide)⟩

/-- The numbers, as denoted by the keys of the caller's dict. -/
theorem mem_rest_denotes {env : PyEnv} {doc : Doc} (nd : doc.NoDup) {ns : List Int} (hn : numsOf env doc = .ok ns)
    (hr : (setUpdate [] ns).all inRange = true) {j : Nat} :
    j ∈ restOf ((setUpdate [] ns).map Int.toNat) ↔ j ≠ 1 ∧ j ≠ 65 ∧ Denotes env doc (j : Int) := by
  obtain ⟨_, h2, h3⟩ := numericKeys_ok hn
  rw [mem_restOf]
  constructor
  · rintro ⟨hj, h1, h65⟩
    obtain ⟨x, hx, rfl⟩ := List.mem_map.1 hj
    have hrx := List.all_eq_true.1 hr x hx
    simp [inRange] at hrx
    obtain ⟨t, ht, h4, h5⟩ := h3 x (by simpa [mem_setUpdate] using hx)
    exact ⟨h1, h65, t, ((mem_keys_cleaned nd).1 ht).1, h4, by rw [h5]; congr 1; omega⟩
  · rintro ⟨h1, h65, t, ht, h4, h5⟩
    have hne : ∀ n : Nat, n ≠ j → Key.str t ≠ .str (natStr n) := by
      rintro n hn e
      cases e
      have := pyInt_natStr_eq h5
      omega
    obtain ⟨y, hy, h6⟩ := h2 t ((mem_keys_cleaned nd).2 ⟨ht, hne 1 (Ne.symm h1), hne 65 (Ne.symm h65)⟩) h4
    rw [h5] at h6; cases h6
    exact ⟨List.mem_map.2 ⟨(j : Int), mem_setUpdate.2 (.inr hy), by simp⟩, h1, h65⟩

theorem mem_nums_denotes {env : PyEnv} {doc : Doc} (nd : doc.NoDup) {ns : List Int} (hn : numsOf env doc = .ok ns)
    (hr : (setUpdate [] ns).all inRange = true) {j : Nat} (hj : j ∈ (setUpdate [] ns).map Int.toNat) :
    Denotes env doc (j : Int) := by
  obtain ⟨_, _, h3⟩ := numericKeys_ok hn
  obtain ⟨x, hx, rfl⟩ := List.mem_map.1 hj
  have hrx := List.all_eq_true.1 hr x hx
  simp [inRange] at hrx
  obtain ⟨t, ht, h4, h5⟩ := h3 x (by simpa [mem_setUpdate] using hx)
  exact ⟨t, ((mem_keys_cleaned nd).1 ht).1, h4, by rw [h5]; congr 1; omega⟩

theorem one_mem_f2Of {env : PyEnv} {doc : Doc} (nd : doc.NoDup) {ns : List Int} (hn : numsOf env doc = .ok ns)
    (hr : (setUpdate [] ns).all inRange = true) (h : 1 ∈ f2Of ((setUpdate [] ns).map Int.toNat)) :
    ∃ j : Int, (j = 1 ∨ 64 < j) ∧ Denotes env doc j := by
  have hF := inRange_mem hr
  rcases (mem_f2Of (fun x hx => (hF.2 x hx).2)).1 h with h | ⟨h, _⟩ | ⟨_, y, hy, h⟩
  · exact ⟨_, .inl rfl, mem_nums_denotes nd hn hr h⟩
  · cases h
  · exact ⟨_, .inr (by omega), mem_nums_denotes nd hn hr hy⟩

theorem numericKeys_error_err {env : PyEnv} {all : List Key} {m : EncMsg} {f : Str} : ∀ {ks : List Key},
    numericKeys env all ks = .error (.err m f) → f = py"p" ∧ m = .invalidFields (objKeys all) ∧ ∃ r, Key.obj r ∈ ks
  | [], h => by simp [numericKeys] at h
  | .obj r :: t, h => by
    simp only [numericKeys, Except.error.injEq, EncRaise.err.injEq] at h
    exact ⟨h.2.symm, h.1.symm, r, by simp⟩
  | .str s :: t, h => by
    rw [numericKeys] at h
    by_cases hn : isNumeric env s = true
    · rw [if_pos hn] at h
      cases hp : pyInt env s with
      | none => simp [hp] at h
      | some n =>
        simp only [hp] at h
        cases hr : numericKeys env all t with
        | ok ns => simp [hr] at h
        | error r =>
          simp only [hr, Except.error.injEq] at h
          subst h
          obtain ⟨h1, h2, r, h3⟩ := numericKeys_error_err hr
          exact ⟨h1, h2, r, by simp [h3]⟩
    · rw [if_neg hn] at h
      obtain ⟨h1, h2, r, h3⟩ := numericKeys_error_err h
      exact ⟨h1, h2, r, by simp [h3]⟩

theorem objKeys_cleaned {doc : Doc} (nd : doc.NoDup) : objKeys (cleaned doc).keys = objKeys doc.keys := by
  rw [cleaned_eq_filter nd, Dict.keys_filter doc fun k => k ≠ .str py"1" && k ≠ .str py"65"]
  unfold objKeys
  rw [List.filterMap_filter]
  congr 1
  funext k
  cases k with
  | obj r => simp
  | str s => split <;> rfl

/-- Everything an `EncodeError` reports. -/
theorem encode_error_report {env : PyEnv} {spec : Spec} {doc doc' : Doc} {e : EncodeError} (nd : doc.NoDup)
    (h : encode env spec doc = (.error (.encodeError e), doc')) :
    e.docDec = doc' ∧ ∃ done tail ent, e.docEnc = done ++ tail ∧
      ((tail = [] ∧ ent = ⟨[], []⟩) ∨ tail = [(e.field, ent)]) ∧
      (∀ k x, (k, x) ∈ done → EntryComplete env spec doc doc' k x) ∧ KeysBefore env spec doc e.field done.keys ∧
      MessageTrue env spec doc doc' e.field ent e.msg := by
  obtain ⟨items, tail, texts, r, hf, hdoc, hx⟩ := encode_error_iff.1 h
  obtain ⟨m, f, rfl⟩ : ∃ m f, r = .err m f := by
    cases r with
    | err m f => exact ⟨m, f, rfl⟩
    | _ => cases hx
  simp only [excOf, EncodeExc.encodeError.injEq] at hx
  subst hx
  refine ⟨rfl, ?_⟩
  dsimp only
  have mk : ∀ {its : List Item}, (∀ it ∈ its, EntryComplete env spec doc doc' it.key it.entry) →
      ∀ k x, (k, x) ∈ encOf its → EntryComplete env spec doc doc' k x := by
    intro its hits k x hkx
    obtain ⟨it, hit, e⟩ := List.mem_map.1 hkx
    cases e
    exact hits it hit
  cases hf with
  | noHeader hs hm hg =>
    obtain ⟨fs, hs, hm⟩ : ∃ fs, spec.get? py"h" = some fs ∧ 0 < fs.maxLen := ⟨_, hs, hm⟩
    exact ⟨[], [], ⟨[], []⟩, rfl, .inl ⟨rfl, rfl⟩, by simp, ⟨_, .inl ⟨⟨fs, hs, hm⟩, rfl⟩, .inl ⟨rfl, rfl⟩⟩,
      .inl ⟨rfl, rfl, ⟨fs, hs, hm⟩, hg⟩⟩
  | header hs hm hg he =>
    have := encOut_error_field he
    subst this
    refine ⟨[], _, _, rfl, .inr rfl, by simp, ⟨_, .inl ⟨⟨_, hs, hm⟩, rfl⟩, .inl ⟨rfl, rfl⟩⟩, ?_⟩
    refine .inr (.inr (.inr (.inr (.inr (.inr ⟨_, _, by decide, by decide, by decide, hs, hg, ?_⟩)))))
    rintro t rfl
    obtain ⟨m', e, hf⟩ := encOut_str_error_iff.1 he
    cases e
    exact hf
  | noType hh hg =>
    exact ⟨encOf items, [], ⟨[], []⟩, rfl, .inl ⟨rfl, rfl⟩, mk hh.complete,
      ⟨_, hh.keys, .inr (.inl ⟨rfl, by simp⟩)⟩, .inr (.inl ⟨rfl, rfl, hg⟩)⟩
  | type hh hs hg he =>
    have := typeEnc_error_field he
    subst this
    refine ⟨encOf items, _, _, rfl, .inr rfl, mk hh.complete, ⟨_, hh.keys, .inr (.inl ⟨rfl, by simp⟩)⟩, ?_⟩
    refine .inr (.inr (.inr (.inr (.inl ⟨_, _, rfl, hs, hg, rfl, ?_⟩))))
    rintro t rfl
    obtain ⟨m', e, hf⟩ := typeEnc_str_error_iff.1 he
    cases e
    exact hf
  | @keys hdr ty _ hh ht hn =>
    obtain ⟨rfl, rfl, r, hr⟩ := numericKeys_error_err hn
    have hkt : ty.key = py"t" := by obtain ⟨_, _, _, _, h, _⟩ := ht; exact h
    refine ⟨encOf (hdr ++ [ty]), [], ⟨[], []⟩, rfl, .inl ⟨rfl, rfl⟩, mk ?_,
      ⟨_, hh.keys, .inr (.inr (.inl ⟨rfl, by simp [hkt]⟩))⟩, .inr (.inr (.inr (.inl ⟨_, rfl, rfl, ?_, objKeys_cleaned nd⟩)))⟩
    · intro it hit
      rcases List.mem_append.1 hit with hit | hit
      · exact hh.complete it hit
      · simp only [List.mem_singleton] at hit; subst hit; exact ht.complete
    · rw [objKeys_cleaned nd]
      intro e
      have : r ∈ objKeys doc.keys := List.mem_filterMap.2 ⟨.obj r, ((mem_keys_cleaned nd).1 hr).1, rfl⟩
      rw [e] at this; simp at this
  | @range hdr ty ns hh ht hn hr =>
    have hkt : ty.key = py"t" := by obtain ⟨_, _, _, _, h, _⟩ := ht; exact h
    obtain ⟨n, hn1, hn2⟩ := List.all_eq_false.1 hr
    have hn2 := not_inRange.1 (by simpa using hn2)
    have hden := (mem_numsOf nd hn hn2).1 (by simpa [mem_setUpdate] using hn1)
    have hhr : HeaderReady env spec doc := headerReady_iff.2 ⟨_, hh⟩
    have htr : TypeReady env spec doc := typeReady_iff.2 ⟨_, ht⟩
    refine ⟨encOf (hdr ++ [ty]), [], ⟨[], []⟩, rfl, .inl ⟨rfl, rfl⟩, mk ?_,
      ⟨_, hh.keys, .inr (.inr (.inl ⟨rfl, by simp [hkt]⟩))⟩, .inr (.inr (.inl ?_))⟩
    · intro it hit
      rcases List.mem_append.1 hit with hit | hit
      · exact hh.complete it hit
      · simp only [List.mem_singleton] at hit; subst hit; exact ht.complete
    · have hmem : ∀ x, x ∈ sortedBy id ((setUpdate [] ns).filter fun n => ¬ inRange n) ↔ Denotes env doc x ∧ (x < 1 ∨ 192 < x) := by
        intro x
        rw [(sortedBy_perm id _).mem_iff]
        simp only [List.mem_filter, mem_setUpdate, List.not_mem_nil, false_or, decide_eq_true_eq, Bool.not_eq_true]
        constructor
        · rintro ⟨h4, h5⟩
          have := not_inRange.1 h5
          exact ⟨(mem_numsOf nd hn this).1 h4, this⟩
        · rintro ⟨h4, h5⟩
          exact ⟨(mem_numsOf nd hn h5).2 h4, not_inRange.2 h5⟩
      refine ⟨_, rfl, rfl, ?_, ?_, hmem⟩
      · intro e
        have := (hmem n).2 ⟨hden, hn2⟩
        rw [e] at this; simp at this
      · have hs := sortedBy_sorted id ((setUpdate [] ns).filter fun n => ¬ inRange n)
        have hnd : (sortedBy id ((setUpdate [] ns).filter fun n => ¬ inRange n)).Nodup :=
          (sortedBy_perm id _).nodup_iff.2 ((nodup_setUpdate List.nodup_nil).filter _)
        refine (List.Pairwise.and hs (List.nodup_iff_pairwise_ne.1 hnd)).imp ?_
        intro a b h
        simp only [id] at h
        omega
  | @bitmaps hdr ty ns _ _ _ hh ht hn hr hb =>
    have hkt : ty.key = py"t" := by obtain ⟨_, _, _, _, h, _⟩ := ht; exact h
    have hbase : ∀ k x, (k, x) ∈ encOf (hdr ++ [ty]) → EntryComplete env spec doc doc' k x := by
      apply mk
      intro it hit
      rcases List.mem_append.1 hit with hit | hit
      · exact hh.complete it hit
      · simp only [List.mem_singleton] at hit; subst hit; exact ht.complete
    rcases bmsPure_error hb with ⟨rfl, fs, hs, rfl, rfl, hbf⟩ | ⟨rfl, fs, D, fs1, ent, t, a, b, hs, hw, h1, hs1, rfl, rfl, rfl, hbl, hbf⟩
    · refine ⟨encOf (hdr ++ [ty]), _, _, rfl, .inr rfl, hbase,
        ⟨_, hh.keys, .inr (.inr (.inl ⟨rfl, by simp [hkt]⟩))⟩, .inr (.inr (.inr (.inr (.inr (.inl ?_)))))⟩
      refine ⟨fs, _, .inl rfl, hs, by simp [bitmapOf_length priOf_range], ?_, hbf⟩
      rw [hdoc, docText_applySets (by simp) (List.mem_singleton.2 rfl)]
      exact List.suffix_refl _
    · refine ⟨encOf (hdr ++ [ty]) ++ [(py"p", ⟨[], D⟩)], [(py"1", ent)], ent, by simp, .inr rfl, ?_,
        ⟨_, hh.keys, .inr (.inr (.inr (.inl ⟨rfl, by simp [hkt]⟩)))⟩, .inr (.inr (.inr (.inr (.inr (.inl ?_)))))⟩
      · intro k x hkx
        rcases List.mem_append.1 hkx with hkx | hkx
        · exact hbase k x hkx
        · simp only [List.mem_singleton] at hkx
          cases hkx
          refine ⟨fs, hs, ?_⟩
          rw [if_neg (by simp), if_pos (by simp)]
          refine ⟨rfl, .inl ?_⟩
          rw [hdoc, docText_applySets (t := hexText (bitmapOf 0 (priOf ((setUpdate [] ns).map Int.toNat)))) (by simp) (by simp)]
          exact hw.emitted (bitmapOf_length priOf_range)
      · refine ⟨fs1, b, .inr rfl, hs1, hbl, ?_, hbf⟩
        rw [hdoc, docText_applySets (t := a ++ b) (by simp) (by simp)]
        exact List.suffix_append a b
  | @field hdr ty ns bms flds is js i _ _ hh ht hn hr hb hsplit hfw hor =>
    have hkt : ty.key = py"t" := by obtain ⟨_, _, _, _, h, _⟩ := ht; exact h
    have hF := inRange_mem hr
    have hrest : ∀ {j : Nat}, j ∈ is ++ i :: js ↔ j ≠ 1 ∧ j ≠ 65 ∧ Denotes env doc (j : Int) := by
      intro j
      rw [← hsplit, mem_sortedNat]
      exact mem_rest_denotes nd hn hr
    rcases hor with ⟨_, _, e⟩ | ⟨_, _, _, _, e⟩ | ⟨fs, v, e, hs, hg, he, rfl⟩
    · cases e
    · cases e
    have := encOut_error_field he
    subst this
    refine ⟨encOf (hdr ++ ty :: bms ++ flds), _, e, rfl, .inr rfl, mk ?_, ⟨_, hh.keys, .inr (.inr (.inr (.inr ?_)))⟩, ?_⟩
    · intro it hit
      simp only [List.append_assoc, List.cons_append, List.mem_append, List.mem_cons] at hit
      rcases hit with hit | rfl | hit | hit
      · exact hh.complete it hit
      · exact ht.complete
      · rw [hdoc]; exact hb.complete doc _ it hit
      · exact hfw.complete (fun h1 => (hrest.1 (List.mem_append.2 (.inl h1))).1 rfl) it hit
    · refine ⟨keysOf bms, is, i, js, rfl, by rw [← hsplit]; exact sortedNat_lt (restOf_nodup hF.1), fun j => hrest, ?_, ?_, ?_, ?_⟩
      · rcases hb.keys with ⟨_, h⟩ | ⟨_, h⟩ <;> simp [h]
      · rintro ⟨j, hj, hd⟩
        rcases hb.keys with ⟨h1, _⟩ | ⟨_, h⟩
        · exfalso
          apply h1
          rw [mem_f2Of (fun x hx => (hF.2 x hx).2)]
          refine .inr (.inr ⟨rfl, ?_⟩)
          have := (mem_rest_denotes nd hn hr (j := j.toNat)).2 ⟨by omega, by omega, by rw [show ((j.toNat : Nat) : Int) = j by omega]; exact hd⟩
          exact ⟨j.toNat, (mem_restOf.1 this).1, by omega⟩
        · exact h
      · intro h
        rcases hb.keys with ⟨_, h1⟩ | ⟨h1, _⟩
        · rw [h1] at h; cases h
        · exact one_mem_f2Of nd hn hr h1
      · simp [hkt, hfw.keys]
    · obtain ⟨n1, n2, _⟩ := natStr_not_letter (n := i)
      have n3 := natStr_ne_one (hrest.1 (List.mem_append.2 (.inr (List.mem_cons_self ..)))).1
      refine .inr (.inr (.inr (.inr (.inr (.inr ⟨fs, v, n1, n2, n3, hs, hg, ?_⟩)))))
      rintro t rfl
      obtain ⟨m', e, hf⟩ := encOut_str_error_iff.1 he
      cases e
      exact hf

theorem encData_error_raw {env : PyEnv} {key : Str} {fs : FieldSpec} {v : Val} {r : EncRaise}
    (h : encData env key fs v = .error r) :
    (∃ m, r = .err m key) ∨
    (r = .typeError ∧ fs.dataEnc = py"b" ∧ v = .unsized ∧ fs.count ≠ py"nibbles") ∨
    (r = .unboundLocal ∧ fs.dataEnc = py"b" ∧ fs.count = py"nibbles" ∧ (v = .unsized ∨ UnpaddableValue fs v)) := by
  unfold encData at h
  by_cases hb : fs.dataEnc = py"b"
  · rw [if_pos hb] at h
    unfold encodeBinaryField at h
    dsimp only at h
    by_cases hc : fs.count = py"nibbles"
    · simp only [hc, if_true] at h
      cases hl : v.len? with
      | none =>
        have hv : v = .unsized := by cases v <;> simp_all [Val.len?]
        simp only [hl, Option.bind_none, binaryHandler, Except.error.injEq] at h
        exact .inr (.inr ⟨h.symm, hb, hc, .inl hv⟩)
      | some n =>
        simp only [hl] at h
        by_cases ho : n % 2 = 1
        · simp only [ho, if_true] at h
          cases hp : addPadField v fs with
          | none =>
            simp only [hp, Option.bind_none, binaryHandler, Except.error.injEq] at h
            refine .inr (.inr ⟨h.symm, hb, hc, .inr ⟨?_, ?_⟩⟩)
            · unfold addPadField at hp
              dsimp only at hp
              by_cases h1 : padChar fs.leftPad = []
              · by_cases h2 : padChar fs.rightPad = []
                · simp [h1, h2] at hp
                · exact .inr ((padChar_length _).1 (List.length_pos_iff.2 h2))
              · exact .inl ((padChar_length _).1 (List.length_pos_iff.2 h1))
            · cases v with
              | str s => simp [addPadField_str] at hp
              | bytes b => simp only [Val.len?, Option.some.injEq] at hl; exact .inl ⟨b, rfl, by omega⟩
              | sized k => simp only [Val.len?, Option.some.injEq] at hl; exact .inr ⟨k, rfl, by omega⟩
              | unsized => simp [Val.len?] at hl
          | some w =>
            simp only [hp, Option.bind_some] at h
            cases hx : w.a2bHex with
            | some b => simp [hx] at h
            | none =>
              simp only [hx, Except.error.injEq] at h
              have hw : w.len? ≠ none := by
                intro e
                have hwu : w = .unsized := by cases w <;> simp_all [Val.len?]
                subst hwu
                unfold addPadField at hp
                dsimp only at hp
                cases v <;> simp_all [Val.len?] <;> grind
              cases hwl : w.len? with
              | none => exact absurd hwl hw
              | some k =>
                simp only [binaryHandler, hwl] at h
                refine .inl ?_
                split at h
                · exact ⟨_, h.symm⟩
                · split at h <;> exact ⟨_, h.symm⟩
        · simp only [ho, if_false, Option.bind_some] at h
          cases hx : v.a2bHex with
          | some b => simp [hx] at h
          | none =>
            simp only [hx, Except.error.injEq, binaryHandler, hl] at h
            refine .inl ?_
            split at h
            · exact ⟨_, h.symm⟩
            · exact ⟨_, h.symm⟩
    · simp only [hc, if_false, Option.bind_some] at h
      cases hx : v.a2bHex with
      | some b => simp [hx] at h
      | none =>
        simp only [hx, Except.error.injEq, binaryHandler] at h
        cases hl : v.len? with
        | none =>
          have hv : v = .unsized := by cases v <;> simp_all [Val.len?]
          simp only [hl] at h
          exact .inr (.inl ⟨h.symm, hb, hv, hc⟩)
        | some n =>
          simp only [hl] at h
          refine .inl ?_
          split at h
          · exact ⟨_, h.symm⟩
          · split at h <;> exact ⟨_, h.symm⟩
  · rw [if_neg hb] at h
    unfold encodeTextField at h
    refine .inl ?_
    cases v with
    | str t =>
      dsimp only at h
      split at h
      · cases h; exact ⟨_, rfl⟩
      · cases h; exact ⟨_, rfl⟩
      · cases h
    | _ => cases h; exact ⟨_, rfl⟩

theorem encOut_error_raw {env : PyEnv} {key : Str} {fs : FieldSpec} {v : Val} {r : EncRaise} {e : EncEntry}
    (h : encOut env key fs v = (.error r, e)) :
    (∃ m, r = .err m key) ∨
    (r = .typeError ∧ fs.dataEnc = py"b" ∧ v = .unsized ∧ fs.count ≠ py"nibbles") ∨
    (r = .unboundLocal ∧ fs.dataEnc = py"b" ∧ fs.count = py"nibbles" ∧ (v = .unsized ∨ UnpaddableValue fs v)) := by
  unfold encOut at h
  cases hd : encData env key fs v with
  | error r' =>
    simp only [hd, Prod.mk.injEq, Except.error.injEq] at h
    rw [← h.1]
    exact encData_error_raw hd
  | ok x =>
    obtain ⟨D, n⟩ := x
    simp only [hd] at h
    refine .inl ?_
    by_cases h0 : fs.lenType = 0
    · rw [if_pos h0] at h
      split at h
      · cases h; exact ⟨_, rfl⟩
      · cases h
    · rw [if_neg h0] at h
      split at h
      · cases h; exact ⟨_, rfl⟩
      · simp only [Prod.mk.injEq] at h
        rcases (lenOut_error_iff (key := key) (n := n) (r := r) (L := (lenOut env key fs n).2) h0).1 (by rw [← h.1]) with
          ⟨h, _⟩ | ⟨h, _⟩ | ⟨h, _⟩ <;> exact ⟨_, h⟩

theorem typeEnc_error_raw {env : PyEnv} {fs : FieldSpec} {v : Val} {r : EncRaise} {D : Bytes}
    (h : typeEnc env fs v = (.error r, D)) :
    (∃ m, r = .err m py"t") ∨ (r = .typeError ∧ fs.dataEnc = py"b" ∧ v = .unsized) := by
  rw [typeEnc_eq] at h
  cases hd : encData env py"t" (asType fs) v with
  | error r' =>
    simp only [hd, Prod.mk.injEq, Except.error.injEq] at h
    rw [← h.1]
    rcases encData_error_raw hd with h | ⟨h1, h2, h3, _⟩ | ⟨_, _, h3, _⟩
    · exact .inl h
    · exact .inr ⟨h1, h2, h3⟩
    · exact absurd h3 (show py"bytes" ≠ py"nibbles" by decide)
  | ok x =>
    obtain ⟨D, n⟩ := x
    simp only [hd] at h
    split at h
    · cases h; exact .inl ⟨_, rfl⟩
    · cases h

theorem numericKeys_error_raw {env : PyEnv} {all : List Key} {r : EncRaise} : ∀ {ks : List Key},
    numericKeys env all ks = .error r → (∃ m, r = .err m py"p") ∨
      (r = .valueError ∧ ∃ k, Key.str k ∈ ks ∧ isNumeric env k = true ∧ pyInt env k = none)
  | [], h => by simp [numericKeys] at h
  | .obj r :: t, h => by
    simp only [numericKeys, Except.error.injEq] at h
    exact .inl ⟨_, h.symm⟩
  | .str s :: t, h => by
    rw [numericKeys] at h
    by_cases hn : isNumeric env s = true
    · rw [if_pos hn] at h
      cases hp : pyInt env s with
      | none =>
        simp only [hp, Except.error.injEq] at h
        exact .inr ⟨h.symm, s, by simp, hn, hp⟩
      | some n =>
        simp only [hp] at h
        cases hr : numericKeys env all t with
        | ok ns => simp [hr] at h
        | error r =>
          simp only [hr, Except.error.injEq] at h
          subst h
          rcases numericKeys_error_raw hr with h | ⟨h, k, hk, h'⟩
          · exact .inl h
          · exact .inr ⟨h, k, by simp [hk], h'⟩
    · rw [if_neg hn] at h
      rcases numericKeys_error_raw h with h | ⟨h, k, hk, h'⟩
      · exact .inl h
      · exact .inr ⟨h, k, by simp [hk], h'⟩

theorem bmsPure_error_raw {env : PyEnv} {spec : Spec} {F : List Nat} {r : EncRaise} {tail : EncDoc} {texts : List (Str × Str)}
    (h : bmsPure env spec (priOf F) (secOf F) (terOf F) (1 ∈ f2Of F) (65 ∈ f2Of F) = (.error r, tail, texts)) :
    (∃ m f, r = .err m f) ∨ (r = .keyError py"p" ∧ spec.get? py"p" = none) ∨
      (r = .keyError py"1" ∧ spec.get? py"1" = none ∧ 1 ∈ f2Of F) := by
  unfold bmsPure at h
  cases hp : spec.get? py"p" with
  | none => simp [hp] at h; exact .inr (.inl ⟨h.1.symm, rfl⟩)
  | some fs =>
    simp only [hp] at h
    cases hd : bmData env py"p" fs (bitmapOf 0 (priOf F)) with
    | error r =>
      simp only [hd, Prod.mk.injEq, Except.error.injEq] at h
      obtain ⟨m, e, _⟩ := bmData_error_iff.1 hd
      exact .inl ⟨m, _, by rw [← h.1, e]⟩
    | ok D =>
      simp only [hd] at h
      by_cases h1 : 1 ∈ f2Of F
      · simp only [h1, decide_true, if_true] at h
        cases hs1 : spec.get? py"1" with
        | none => simp [hs1] at h; exact .inr (.inr ⟨h.1.symm, rfl, h1⟩)
        | some fs1 =>
          simp only [hs1] at h
          cases hd1 : bmData env py"1" fs1 (bitmapOf 64 (secOf F)) with
          | error r =>
            simp only [hd1, Prod.mk.injEq, Except.error.injEq] at h
            obtain ⟨m, e, _⟩ := bmData_error_iff.1 hd1
            exact .inl ⟨m, _, by rw [← h.1, e]⟩
          | ok D1 =>
            simp only [hd1] at h
            by_cases h65 : 65 ∈ f2Of F
            · simp only [h65, decide_true, if_true] at h
              cases hd2 : bmData env py"1" fs1 (bitmapOf 128 (terOf F)) with
              | error r =>
                simp only [hd2, Prod.mk.injEq, Except.error.injEq] at h
                obtain ⟨m, e, _⟩ := bmData_error_iff.1 hd2
                exact .inl ⟨m, _, by rw [← h.1, e]⟩
              | ok D2 => simp [hd2] at h
            · simp [h65] at h
      · simp [h1] at h

/-! ## C32 -/

/-- **C32** An `EncodeError` carries the caller's dict as left by `encode`.  Its partial encoded
dict is `done ++ tail`: `done` holds complete entries for exactly the fields that precede the
failing one, and `tail` at most an entry of the failing field itself. -/
theorem encode_error_result {env : PyEnv} {spec : Spec} {doc doc' : Doc} {e : EncodeError} (nd : doc.NoDup)
    (h : encode env spec doc = (.error (.encodeError e), doc')) :
    e.docDec = doc' ∧ ∃ done tail, e.docEnc = done ++ tail ∧ (tail = [] ∨ ∃ ent, tail = [(e.field, ent)]) ∧
      (∀ k x, (k, x) ∈ done → EntryComplete env spec doc doc' k x) ∧ KeysBefore env spec doc e.field done.keys := by
  obtain ⟨h1, done, tail, ent, h2, h3, h4, h5, _⟩ := encode_error_report nd h
  refine ⟨h1, done, tail, h2, ?_, h4, h5⟩
  rcases h3 with ⟨h, _⟩ | h
  · exact .inl h
  · exact .inr ⟨ent, h⟩

/-- The worked message with field 70 too long for its specification. -/
def longDoc : Doc := demoDoc.set (.str py"70") (.str py"elevenchars")

/-- What `encode` reports about it. -/
def longError : EncodeError :=
  ⟨.tooLong 11 py"bytes" 10, (encode cpython demoSpec longDoc).2, demoEnc.take 6 ++
    [(py"70", ⟨[], [0x85, 0x93, 0x85, 0xA5, 0x85, 0x95, 0x83, 0x88, 0x81, 0x99, 0xA2]⟩)], py"70"⟩

theorem long_encode : encode cpython demoSpec longDoc = (.error (.encodeError longError), longError.docDec) := by decide +kernel

theorem long_keys : longError.docEnc.keys = [py"h", py"t", py"p", py"1", py"2", py"3", py"70"] := by decide

example : ∃ e d, encode cpython demoSpec longDoc = (.error (.encodeError e), d) ∧ e.docDec = d ∧
    ∃ done ent, e.docEnc = done ++ [(py"70", ent)] ∧ (∀ k x, (k, x) ∈ done → EntryComplete cpython demoSpec longDoc d k x) ∧
      Dict.keys done = [py"h", py"t", py"p", py"1", py"2", py"3"] := by
  obtain ⟨e, d, h, hf, hk⟩ : ∃ e d, encode cpython demoSpec longDoc = (.error (.encodeError e), d) ∧ e.field = py"70" ∧
      e.docEnc.keys = [py"h", py"t", py"p", py"1", py"2", py"3", py"70"] := ⟨_, _, long_encode, rfl, long_keys⟩
  obtain ⟨h1, done, tail, h2, h3, h4, h5⟩ := encode_error_result (by unfold Dict.NoDup; decide) h
  have hkeys : done.keys ++ tail.keys = [py"h", py"t", py"p", py"1", py"2", py"3", py"70"] := by
    rw [← hk, h2]; simp [Dict.keys]
  rcases h3 with rfl | ⟨ent, rfl⟩
  · exfalso
    rw [show Dict.keys ([] : EncDoc) = [] from rfl, List.append_nil] at hkeys
    rw [hkeys, hf] at h5
    obtain ⟨H, hH, ⟨h, _⟩ | ⟨h, _⟩ | ⟨h, _⟩ | ⟨h, _⟩ | ⟨B, F, i, G, h, hs, _, hB, _, _, hks⟩⟩ := h5
    · exact absurd h (by decide)
    · exact absurd h (by decide)
    · exact absurd h (by decide)
    · exact absurd h (by decide)
    · have hi : 70 = i := natStr_inj.1 h
      subst hi
      have hm : py"70" ∈ H ++ [py"t"] ++ B ++ F.map natStr := by rw [← hks]; decide
      simp only [List.mem_append, List.mem_singleton, List.mem_map] at hm
      rcases hm with ((hm | hm) | hm) | ⟨j, hj, hm⟩
      · rcases hH with ⟨_, rfl⟩ | ⟨_, rfl⟩
        · exact absurd hm (by decide)
        · cases hm
      · exact absurd hm (by decide)
      · rcases hB with rfl | rfl <;> exact absurd hm (by decide)
      · have hj70 : j = 70 := natStr_inj.1 hm
        subst hj70
        have := (List.pairwise_append.1 hs).2.2 70 hj 70 (List.mem_cons_self ..)
        omega
  · refine ⟨e, d, h, h1, done, ent, by rw [h2, hf], h4, ?_⟩
    have : done.keys ++ [py"70"] = [py"h", py"t", py"p", py"1", py"2", py"3"] ++ [py"70"] := by
      rw [← hf]; rw [hf]; simpa [Dict.keys, hf] using hkeys
    exact List.append_cancel_right this

/-! ## C48 -/

/-- **C48** What an `EncodeError` says is true of the field it names (for text values; a value of
another type only ever gives messages about that value). -/
theorem encode_error_truthful {env : PyEnv} {spec : Spec} {doc doc' : Doc} {e : EncodeError} (nd : doc.NoDup)
    (h : encode env spec doc = (.error (.encodeError e), doc')) :
    ∃ done ent, (e.docEnc = done ∧ ent = ⟨[], []⟩ ∨ e.docEnc = done ++ [(e.field, ent)]) ∧
      MessageTrue env spec doc doc' e.field ent e.msg := by
  obtain ⟨_, done, tail, ent, h2, h3, _, _, h6⟩ := encode_error_report nd h
  refine ⟨done, ent, ?_, h6⟩
  rcases h3 with ⟨rfl, h⟩ | rfl
  · exact .inl ⟨by simpa using h2, h⟩
  · exact .inr h2

/-- The message about field 70 means what it says: eleven characters, at most ten allowed. -/
example : ∃ e d, encode cpython demoSpec longDoc = (.error (.encodeError e), d) ∧
    ∃ fs ent, demoSpec.get? py"70" = some fs ∧ FieldFault cpython fs py"elevenchars" ent (.tooLong 11 py"bytes" 10) := by
  obtain ⟨e, d, h, hf, hm⟩ : ∃ e d, encode cpython demoSpec longDoc = (.error (.encodeError e), d) ∧ e.field = py"70" ∧
      e.msg = .tooLong 11 py"bytes" 10 := ⟨_, _, long_encode, rfl, rfl⟩
  obtain ⟨done, ent, _, h6⟩ := encode_error_truthful (by unfold Dict.NoDup; decide) h
  refine ⟨e, d, h, ?_⟩
  rw [hf, hm] at h6
  rcases h6 with ⟨h, _⟩ | ⟨h, _⟩ | ⟨_, h, _⟩ | ⟨_, h, _⟩ | ⟨_, _, h, _⟩ | ⟨_, _, h, _⟩ | ⟨fs, v, _, _, _, hs, hv, h⟩
  · cases h
  · cases h
  · cases h
  · cases h
  · exact absurd h (by decide)
  · exact absurd h (by decide)
  · have hv' : v = .str py"elevenchars" := by
      have : longDoc.get? (.str py"70") = some (.str py"elevenchars") := by decide
      rw [this] at hv; cases hv; rfl
    have hff := h _ hv'
    exact ⟨fs, ent, hs, hff⟩

/-! ## C49, C25 -/

/-- **C49** Whatever `encode` raises that is not an `EncodeError` has one of the listed causes. -/
theorem encode_raw_cause {env : PyEnv} {spec : Spec} {doc : Doc} {x : EncodeExc} (nd : doc.NoDup)
    (h : (encode env spec doc).1 = .error x) : (∃ e, x = .encodeError e) ∨ RawCause env spec doc x := by
  obtain ⟨items, tail, texts, r, hf, hdoc, hx⟩ := encode_error_iff.1
    (show encode env spec doc = (.error x, (encode env spec doc).2) from Prod.ext h rfl)
  have herr : ∀ m f, r = .err m f → ∃ e, x = .encodeError e := by
    rintro m f rfl
    exact ⟨_, hx⟩
  have hte : ∀ {k fs}, r = .typeError → spec.get? k = some fs → doc.get? (.str k) = some .unsized → fs.dataEnc = py"b" →
      (k = py"t" ∨ fs.count ≠ py"nibbles") → RawCause env spec doc x := by
    rintro k fs rfl h1 h2 h3 h4
    rw [hx]
    exact ⟨k, fs, h1, h2, h3, h4⟩
  have hul : ∀ {k fs v}, r = .unboundLocal → spec.get? k = some fs → doc.get? (.str k) = some v → fs.dataEnc = py"b" →
      k ≠ py"t" → fs.count = py"nibbles" → (v = .unsized ∨ UnpaddableValue fs v) → RawCause env spec doc x := by
    rintro k fs v rfl h1 h2 h3 h4 h5 h6
    rw [hx]
    exact ⟨k, fs, v, h1, h2, h3, h4, h5, h6⟩
  cases hf with
  | noHeader => exact .inl (herr _ _ rfl)
  | noType => exact .inl (herr _ _ rfl)
  | range => exact .inl (herr _ _ rfl)
  | specHeader hs =>
    rw [hx]
    exact .inr (.inl ⟨hs, .inl rfl⟩)
  | specType _ hg hs =>
    rw [hx]
    exact .inr (.inl ⟨hs, .inr (.inl rfl)⟩)
  | header hs _ hg he =>
    rcases encOut_error_raw he with ⟨m, h⟩ | ⟨h, h1, rfl, h2⟩ | ⟨h, h1, h2, h3⟩
    · exact .inl (herr _ _ h)
    · exact .inr (hte h hs hg h1 (.inr h2))
    · exact .inr (hul h hs hg h1 (by decide) h2 h3)
  | type _ hs hg he =>
    rcases typeEnc_error_raw he with ⟨m, h⟩ | ⟨h, h1, rfl⟩
    · exact .inl (herr _ _ h)
    · exact .inr (hte h hs hg h1 (.inl rfl))
  | keys _ _ hn =>
    rcases numericKeys_error_raw hn with ⟨m, h⟩ | ⟨rfl, k, h1, h2, h3⟩
    · exact .inl (herr _ _ h)
    · rw [hx]
      exact .inr ⟨k, ((mem_keys_cleaned nd).1 h1).1, h2, h3⟩
  | bitmaps _ _ hn hr hb =>
    rcases bmsPure_error_raw hb with ⟨m, f, h⟩ | ⟨rfl, h⟩ | ⟨rfl, h, h1⟩
    · exact .inl (herr _ _ h)
    · rw [hx]
      exact .inr (.inl ⟨h, .inr (.inr (.inl rfl))⟩)
    · rw [hx]
      exact .inr (.inl ⟨h, .inr (.inr (.inr (.inl ⟨rfl, one_mem_f2Of nd hn hr h1⟩)))⟩)
  | @field hdr ty ns bms flds is js i _ _ hh ht hn hr hb hsplit hfw hor =>
    have hF := inRange_mem hr
    have hi : i ∈ restOf ((setUpdate [] ns).map Int.toNat) := by
      rw [← mem_sortedNat, hsplit]; simp
    obtain ⟨h1, h65, hden⟩ := (mem_rest_denotes nd hn hr).1 hi
    have hrange := hF.2 i (mem_restOf.1 hi).1
    rcases hor with ⟨hs, _, rfl⟩ | ⟨fs, hs, hg, _, rfl⟩ | ⟨fs, v, e, hs, hg, he, _⟩
    · rw [hx]
      exact .inr (.inl ⟨hs, .inr (.inr (.inr (.inr ⟨i, rfl, by omega, by omega, h65, hden⟩)))⟩)
    · rw [hx]
      exact .inr (.inr ⟨hg, i, rfl, by omega, by omega, h65, hden⟩)
    · rcases encOut_error_raw he with ⟨m, h⟩ | ⟨h, h1, rfl, h2⟩ | ⟨h, h1, h2, h3⟩
      · exact .inl (herr _ _ h)
      · exact .inr (hte h hs hg h1 (.inr h2))
      · exact .inr (hul h hs hg h1 natStr_not_letter.1 h2 h3)

/-- **C25** On a dict of text keys and text values whose numeric keys are plain decimals (short
enough for `int`), with a specification that defines every field involved, `encode` succeeds or
raises `EncodeError`. -/
theorem encode_only_encodeError {env : PyEnv} {spec : Spec} {doc : Doc} (nd : doc.NoDup)
    (hv : ∀ k v, (k, v) ∈ doc → ∃ t, v = .str t) (hc : CanonicalKeys env doc)
    (hd : ∀ n : Nat, Key.str (natStr n) ∈ doc.keys → env.maxStrDigits = 0 ∨ (natStr n).length ≤ env.maxStrDigits)
    (hh : py"h" ∈ spec.keys) (ht : py"t" ∈ spec.keys) (hp : py"p" ∈ spec.keys)
    (h1 : (∃ n : Nat, (n = 1 ∨ 64 < n) ∧ Key.str (natStr n) ∈ doc.keys) → py"1" ∈ spec.keys)
    (hs : ∀ n : Nat, 2 ≤ n → n ≤ 192 → n ≠ 65 → Key.str (natStr n) ∈ doc.keys → natStr n ∈ spec.keys) :
    (∃ r, (encode env spec doc).1 = .ok r) ∨ ∃ e, (encode env spec doc).1 = .error (.encodeError e) := by
  cases h : (encode env spec doc).1 with
  | ok r => exact .inl ⟨r, rfl⟩
  | error x =>
    refine .inr ?_
    have hden : ∀ {j : Int}, Denotes env doc j → ∃ n : Nat, j = n ∧ Key.str (natStr n) ∈ doc.keys := by
      rintro j ⟨t, ht, hn, hj⟩
      simp only [isNumeric, Bool.and_eq_true, decide_eq_true_eq, List.all_eq_true] at hn
      obtain ⟨n, rfl⟩ := hc t ht hn.1 hn.2
      exact ⟨n, pyInt_natStr_eq hj, ht⟩
    have hnone : ∀ {k : Str}, k ∈ spec.keys → spec.get? k ≠ none := fun hk e => Dict.get?_eq_none.1 e hk
    have hval : ∀ {k : Str} {v : Val}, doc.get? (.str k) = some v → ∃ t, v = .str t := fun hg => hv _ _ (Dict.mem_of_get? hg)
    rcases encode_raw_cause nd h with ⟨e, rfl⟩ | hr
    · exact ⟨e, rfl⟩
    · exfalso
      cases x with
      | encodeError e => exact hr
      | indexError => exact hr
      | notDict => exact hr
      | valueError =>
        obtain ⟨k, hk, hn, hi⟩ := hr
        simp only [isNumeric, Bool.and_eq_true, decide_eq_true_eq, List.all_eq_true] at hn
        obtain ⟨n, rfl⟩ := hc k hk hn.1 hn.2
        rw [pyInt_natStr env n (hd n hk)] at hi
        cases hi
      | typeError =>
        obtain ⟨k, fs, _, hg, _⟩ := hr
        obtain ⟨t, ht⟩ := hval hg
        cases ht
      | unboundLocal =>
        obtain ⟨k, fs, v, _, hg, _, _, _, h⟩ := hr
        obtain ⟨t, rfl⟩ := hval hg
        rcases h with h | ⟨_, ⟨b, h, _⟩ | ⟨b, h, _⟩⟩ <;> cases h
      | keyError k =>
        rcases hr with ⟨hg, rfl | rfl | rfl | ⟨rfl, j, hj, hd⟩ | ⟨i, rfl, h2, h192, h65, hd⟩⟩ | ⟨hg, i, rfl, h2, h192, h65, hd⟩
        · exact hnone hh hg
        · exact hnone ht hg
        · exact hnone hp hg
        · obtain ⟨n, rfl, hk⟩ := hden hd
          exact hnone (h1 ⟨n, by omega, hk⟩) hg
        · obtain ⟨n, hn, hk⟩ := hden hd
          have : i = n := by omega
          subst this
          exact hnone (hs i h2 h192 h65 hk) hg
        · obtain ⟨n, hn, hk⟩ := hden hd
          have : i = n := by omega
          subst this
          exact Dict.get?_eq_none.1 hg hk

/-- All hypotheses at once, on a dict that fails. -/
example : (∃ r, (encode cpython tightSpec (tightDoc.set (.str py"4") (.str py"ABC"))).1 = .ok r) ∨
    ∃ e, (encode cpython tightSpec (tightDoc.set (.str py"4") (.str py"ABC"))).1 = .error (.encodeError e) := by
  have hkeys : Dict.keys (tightDoc.set (.str py"4") (.str py"ABC")) = [.str py"4", .str py"3", .str py"2", .str py"t"] := by decide
  have hmem : ∀ n : Nat, Key.str (natStr n) ∈ Dict.keys (tightDoc.set (.str py"4") (.str py"ABC")) → n = 4 ∨ n = 3 ∨ n = 2 := by
    intro n hn
    simp only [hkeys, List.mem_cons, List.not_mem_nil, or_false, Key.str.injEq] at hn
    rcases hn with h | h | h | h
    · exact .inl ((natStr_inj (n := 4)).1 h)
    · exact .inr (.inl ((natStr_inj (n := 3)).1 h))
    · exact .inr (.inr ((natStr_inj (n := 2)).1 h))
    · exact absurd h natStr_not_letter.1
  refine encode_only_encodeError (by unfold Dict.NoDup; decide) ?_ ?_ ?_ (by decide) (by decide) (by decide) ?_ ?_
  · intro k v h
    have : (k, v) ∈ [(Key.str py"4", Val.str py"ABC"), (.str py"3", .str py"xyz"), (.str py"2", .str py"123456789"), (.str py"t", .str py"0100")] := h
    simp only [List.mem_cons, List.not_mem_nil, or_false, Prod.mk.injEq] at this
    rcases this with ⟨_, h⟩ | ⟨_, h⟩ | ⟨_, h⟩ | ⟨_, h⟩ <;> exact ⟨_, h⟩
  · intro k hk hne hnum
    simp only [hkeys, List.mem_cons, List.not_mem_nil, or_false, Key.str.injEq] at hk
    rcases hk with rfl | rfl | rfl | rfl
    · exact ⟨4, rfl⟩
    · exact ⟨3, rfl⟩
    · exact ⟨2, rfl⟩
    · exact absurd (hnum 0x74 (by decide)) (by decide +kernel)
  · intro n hn
    rcases hmem n hn with rfl | rfl | rfl <;> exact .inr (by decide)
  · rintro ⟨n, h, hn⟩
    rcases hmem n hn with rfl | rfl | rfl <;> omega
  · intro n _ _ _ hn
    rcases hmem n hn with rfl | rfl | rfl <;> decide

/-! The raw exceptions do occur. -/

/-- A key that `str.isnumeric` accepts and `int` does not. -/
example : (encode cpython tightSpec (tightDoc.set (.str [0xBD]) (.str []))).1 = .error .valueError := by decide +kernel

/-- A key that denotes field 2 without being `'2'`. -/
example : (encode cpython tightSpec [(.str py"02", .str py"1"), (.str py"t", .str py"0100")]).1 = .error (.keyError py"2") := by decide +kernel

/-- A field the specification does not define. -/
example : (encode cpython tightSpec (tightDoc.set (.str py"5") (.str []))).1 = .error (.keyError py"5") := by decide +kernel

/-- An object without length in a binary field counted in bytes. -/
example : (encode cpython demoSpec (demoDoc.set (.str py"130") .unsized)).1 = .error .typeError := by decide +kernel

/-- The same in a field counted in nibbles: `data_to_encode` is unbound in the handler. -/
example : (encode cpython demoSpec (demoDoc.set (.str py"3") .unsized)).1 = .error .unboundLocal := by decide +kernel

/-- So is it for an odd number of bytes and a pad. -/
example : (encode cpython demoSpec (demoDoc.set (.str py"3") (.bytes [0x41, 0x42, 0x43]))).1 = .error .unboundLocal := by decide +kernel

/-- An instance of `encode_raw_cause`. -/
example : RawCause cpython demoSpec (demoDoc.set (.str py"130") .unsized) .typeError := by
  rcases encode_raw_cause (env := cpython) (spec := demoSpec) (doc := demoDoc.set (.str py"130") .unsized) (x := .typeError) (demo_nodup.set _ _) (by decide +kernel) with ⟨e, h⟩ | h
  · cases h
  · exact h

end Iso8583
