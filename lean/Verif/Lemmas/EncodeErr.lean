import Verif.Lemmas.EncodeItems
/-! # How an encode fails -/

namespace Iso8583

/-- The ways `encode` can fail: complete items, the entry in progress, the texts already written
into the caller's dict, and what is raised. -/
inductive Faults (env : PyEnv) (spec : Spec) (g : Str → Option Val) (nums : Except EncRaise (List Int)) :
    List Item → EncDoc → List (Str × Str) → EncRaise → Prop
  | specHeader : spec.get? py"h" = none → Faults env spec g nums [] [] [] (.keyError py"h")
  | noHeader {fs : FieldSpec} : spec.get? py"h" = some fs → 0 < fs.maxLen → g py"h" = none →
      Faults env spec g nums [] [] [] (.err .requiredBySpec py"h")
  | header {fs : FieldSpec} {v : Val} {r : EncRaise} {e : EncEntry} : spec.get? py"h" = some fs → 0 < fs.maxLen →
      g py"h" = some v → encOut env py"h" fs v = (.error r, e) → Faults env spec g nums [] [(py"h", e)] [] r
  | noType {hdr : List Item} : HeaderWrites env spec g hdr → g py"t" = none →
      Faults env spec g nums hdr [] [] (.err .required py"t")
  | specType {hdr : List Item} {v : Val} : HeaderWrites env spec g hdr → g py"t" = some v → spec.get? py"t" = none →
      Faults env spec g nums hdr [] [] (.keyError py"t")
  | type {hdr : List Item} {fs : FieldSpec} {v : Val} {r : EncRaise} {D : Bytes} : HeaderWrites env spec g hdr →
      spec.get? py"t" = some fs → g py"t" = some v → typeEnc env fs v = (.error r, D) →
      Faults env spec g nums hdr [(py"t", ⟨[], D⟩)] [] r
  | keys {hdr : List Item} {ty : Item} {r : EncRaise} : HeaderWrites env spec g hdr → TypeWrites env spec g ty →
      nums = .error r → Faults env spec g nums (hdr ++ [ty]) [] [] r
  | range {hdr : List Item} {ty : Item} {ns : List Int} : HeaderWrites env spec g hdr → TypeWrites env spec g ty →
      nums = .ok ns → (setUpdate [] ns).all inRange = false →
      Faults env spec g nums (hdr ++ [ty]) [] []
        (.err (.outOfRange (sortedBy id ((setUpdate [] ns).filter fun n => ¬ inRange n))) py"p")
  | bitmaps {hdr : List Item} {ty : Item} {ns : List Int} {r : EncRaise} {tail : EncDoc} {texts : List (Str × Str)} :
      HeaderWrites env spec g hdr → TypeWrites env spec g ty → nums = .ok ns → (setUpdate [] ns).all inRange = true →
      (let F := (setUpdate [] ns).map Int.toNat
       bmsPure env spec (priOf F) (secOf F) (terOf F) (1 ∈ f2Of F) (65 ∈ f2Of F) = (.error r, tail, texts)) →
      Faults env spec g nums (hdr ++ [ty]) tail texts r
  | field {hdr : List Item} {ty : Item} {ns : List Int} {bms flds : List Item} {is js : List Nat} {i : Nat} {tail : EncDoc}
      {r : EncRaise} :
      HeaderWrites env spec g hdr → TypeWrites env spec g ty → nums = .ok ns → (setUpdate [] ns).all inRange = true →
      BitmapsWrite env spec ((setUpdate [] ns).map Int.toNat) bms →
      sortedNat (restOf ((setUpdate [] ns).map Int.toNat)) = is ++ i :: js → FieldsWrite env spec g is flds →
      ((spec.get? (natStr i) = none ∧ tail = [] ∧ r = .keyError (natStr i)) ∨
       (∃ fs, spec.get? (natStr i) = some fs ∧ g (natStr i) = none ∧ tail = [(natStr i, ⟨[], []⟩)] ∧ r = .keyError (natStr i)) ∨
       (∃ fs v e, spec.get? (natStr i) = some fs ∧ g (natStr i) = some v ∧ encOut env (natStr i) fs v = (.error r, e) ∧
         tail = [(natStr i, e)])) →
      Faults env spec g nums (hdr ++ ty :: bms ++ flds) tail (textsOf bms) r

theorem retBytes_error {o : Except EncRaise Unit × EncEntry} {r : EncRaise} :
    retBytes o = .error r ↔ o = (.error r, o.2) := by
  obtain ⟨x, e⟩ := o
  cases x <;> simp [retBytes]

theorem fieldsPure_error_iff {env : PyEnv} {spec : Spec} {g : Str → Option Val} : ∀ {l : List Nat} {r : EncRaise} {enc : EncDoc},
    fieldsPure env spec g l = (.error r, enc) ↔ ∃ is i js flds tail, l = is ++ i :: js ∧ FieldsWrite env spec g is flds ∧
      enc = encOf flds ++ tail ∧
      ((spec.get? (natStr i) = none ∧ tail = [] ∧ r = .keyError (natStr i)) ∨
       (∃ fs, spec.get? (natStr i) = some fs ∧ g (natStr i) = none ∧ tail = [(natStr i, ⟨[], []⟩)] ∧ r = .keyError (natStr i)) ∨
       (∃ fs v e, spec.get? (natStr i) = some fs ∧ g (natStr i) = some v ∧ encOut env (natStr i) fs v = (.error r, e) ∧
         tail = [(natStr i, e)]))
  | [], r, enc => by
    simp only [fieldsPure, Prod.mk.injEq, reduceCtorEq, false_and, false_iff]
    rintro ⟨is, i, js, flds, tail, h, _⟩
    cases is <;> simp at h
  | i :: l, r, enc => by
    constructor
    · rw [fieldsPure]
      cases hs : spec.get? (natStr i) with
      | none =>
        simp only [Prod.mk.injEq, Except.error.injEq]
        rintro ⟨rfl, rfl⟩
        exact ⟨[], i, l, [], [], rfl, .nil, rfl, .inl ⟨hs, rfl, rfl⟩⟩
      | some fs =>
        dsimp only
        cases hg : g (natStr i) with
        | none =>
          simp only [Prod.mk.injEq, Except.error.injEq]
          rintro ⟨rfl, rfl⟩
          exact ⟨[], i, l, [], _, rfl, .nil, rfl, .inr (.inl ⟨fs, hs, hg, rfl, rfl⟩)⟩
        | some v =>
          dsimp only
          cases hr : retBytes (encOut env (natStr i) fs v) with
          | error r' =>
            simp only [Prod.mk.injEq, Except.error.injEq]
            rintro ⟨rfl, rfl⟩
            exact ⟨[], i, l, [], _, rfl, .nil, rfl, .inr (.inr ⟨fs, v, _, hs, hg, retBytes_error.1 hr, rfl⟩)⟩
          | ok w0 =>
            dsimp only
            cases hq : fieldsPure env spec g l with
            | mk q1 q2 =>
              cases q1 with
              | ok ws => simp
              | error r' =>
                simp only [Prod.mk.injEq, Except.error.injEq]
                rintro ⟨rfl, rfl⟩
                obtain ⟨is, j, js, flds, tail, rfl, hf, rfl, hor⟩ := (fieldsPure_error_iff (l := l)).1 hq
                obtain ⟨h2, _⟩ := retBytes_ok.1 hr
                obtain ⟨n, hw⟩ := encOut_ok_iff.1 h2
                exact ⟨i :: is, j, js, ⟨natStr i, _, _, readBack fs v⟩ :: flds, tail, rfl, .cons hs hg rfl hw rfl hf,
                  by simp [encOf, Item.entry], hor⟩
    · rintro ⟨is, j, js, flds, tail, hl, hf, rfl, hor⟩
      rw [fieldsPure]
      cases hf with
      | nil =>
        simp only [List.nil_append, List.cons.injEq] at hl
        obtain ⟨rfl, rfl⟩ := hl
        rcases hor with ⟨hs, rfl, rfl⟩ | ⟨fs, hs, hg, rfl, rfl⟩ | ⟨fs, v, e, hs, hg, he, rfl⟩
        · simp [hs, encOf]
        · simp [hs, hg, encOf]
        · simp [hs, hg, he, retBytes, encOf]
      | cons hs hg hk hw hv hrest =>
        next i' is' it items fs v n =>
        simp only [List.cons_append, List.cons.injEq] at hl
        obtain ⟨rfl, rfl⟩ := hl
        have h1 := (fieldsPure_error_iff (l := is' ++ j :: js)).2 ⟨is', j, js, items, tail, rfl, hrest, rfl, hor⟩
        have h2 := (encOut_ok_iff (e := it.entry) (key := natStr i)).2 ⟨n, hw⟩
        simp [hs, hg, h1, h2, retBytes, Item.entry, encOf, hk]

/-- Failure, exactly. -/
theorem encPure_error_iff {env : PyEnv} {spec : Spec} {g : Str → Option Val} {nums : Except EncRaise (List Int)}
    {r : EncRaise} {enc : EncDoc} {texts : List (Str × Str)} :
    encPure env spec g nums = (.error r, enc, texts) ↔
      ∃ items tail, Faults env spec g nums items tail texts r ∧ enc = encOf items ++ tail := by
  constructor
  · unfold encPure
    cases hH : hdrPure env spec g with
    | mk H1 H2 =>
    cases H1 with
    | error r' =>
      simp only [Prod.mk.injEq, Except.error.injEq]
      rintro ⟨rfl, rfl, rfl⟩
      unfold hdrPure at hH
      cases hs : spec.get? py"h" with
      | none =>
        simp only [hs, Prod.mk.injEq, Except.error.injEq] at hH
        obtain ⟨rfl, rfl⟩ := hH
        exact ⟨[], [], .specHeader hs, rfl⟩
      | some fs =>
        simp only [hs] at hH
        by_cases hm : fs.maxLen ≤ 0
        · simp [hm] at hH
        · rw [if_neg hm] at hH
          cases hg : g py"h" with
          | none =>
            simp only [hg, Prod.mk.injEq, Except.error.injEq] at hH
            obtain ⟨rfl, rfl⟩ := hH
            exact ⟨[], [], .noHeader hs (by omega) hg, rfl⟩
          | some v =>
            simp only [hg, Prod.mk.injEq] at hH
            obtain ⟨h1, rfl⟩ := hH
            exact ⟨[], _, .header hs (by omega) hg (retBytes_error.1 h1), by simp [encOf]⟩
    | ok h =>
    obtain ⟨hdr, hh, rfl, rfl⟩ := hdrPure_ok_iff.1 hH
    dsimp only
    cases hT : typePure env spec g with
    | mk T1 T2 =>
    cases T1 with
    | error r' =>
      simp only [Prod.mk.injEq, Except.error.injEq]
      rintro ⟨rfl, rfl, rfl⟩
      unfold typePure at hT
      cases hg : g py"t" with
      | none =>
        simp only [hg, Prod.mk.injEq, Except.error.injEq] at hT
        obtain ⟨rfl, rfl⟩ := hT
        exact ⟨hdr, [], .noType hh hg, by simp⟩
      | some v =>
        simp only [hg] at hT
        cases hs : spec.get? py"t" with
        | none =>
          simp only [hs, Prod.mk.injEq, Except.error.injEq] at hT
          obtain ⟨rfl, rfl⟩ := hT
          exact ⟨hdr, [], .specType hh hg hs, by simp⟩
        | some fs =>
          simp only [hs, Prod.mk.injEq] at hT
          obtain ⟨h1, rfl⟩ := hT
          exact ⟨hdr, _, .type hh hs hg (Prod.ext h1 rfl), rfl⟩
    | ok t =>
    obtain ⟨ty, ht, rfl, rfl⟩ := typePure_ok_iff.1 hT
    dsimp only
    cases nums with
    | error r' =>
      simp only [Prod.mk.injEq, Except.error.injEq]
      rintro ⟨rfl, rfl, rfl⟩
      exact ⟨hdr ++ [ty], [], .keys hh ht rfl, by simp⟩
    | ok ns =>
    dsimp only
    by_cases hr : (setUpdate [] ns).all inRange = true
    · rw [if_pos hr]
      unfold bodyPure
      cases hB : bmsPure env spec (priOf ((setUpdate [] ns).map Int.toNat)) (secOf ((setUpdate [] ns).map Int.toNat))
          (terOf ((setUpdate [] ns).map Int.toNat)) (1 ∈ f2Of ((setUpdate [] ns).map Int.toNat))
          (65 ∈ f2Of ((setUpdate [] ns).map Int.toNat)) with
      | mk B1 B2 =>
      obtain ⟨B2, B3⟩ := B2
      cases B1 with
      | error r' =>
        simp only [Prod.mk.injEq, Except.error.injEq]
        rintro ⟨rfl, rfl, rfl⟩
        exact ⟨hdr ++ [ty], B2, .bitmaps hh ht rfl hr hB, by simp⟩
      | ok b =>
      obtain ⟨bms, hb, rfl, rfl, rfl⟩ := bmsPure_ok_iff.1 hB
      dsimp only
      cases hQ : fieldsPure env spec g (sortedNat (restOf ((setUpdate [] ns).map Int.toNat))) with
      | mk Q1 Q2 =>
      cases Q1 with
      | ok q => simp
      | error r' =>
        simp only [Prod.mk.injEq, Except.error.injEq]
        rintro ⟨rfl, rfl, rfl⟩
        obtain ⟨is, i, js, flds, tail, hsort, hf, rfl, hor⟩ := fieldsPure_error_iff.1 hQ
        exact ⟨hdr ++ ty :: bms ++ flds, tail, .field hh ht rfl hr hb hsort hf hor, by simp [encOf]⟩
    · rw [if_neg hr]
      simp only [Prod.mk.injEq, Except.error.injEq]
      rintro ⟨rfl, rfl, rfl⟩
      exact ⟨hdr ++ [ty], [], .range hh ht rfl (by simpa using hr), by simp⟩
  · rintro ⟨items, tail, h, rfl⟩
    unfold encPure
    cases h with
    | specHeader hs => simp [hdrPure, hs, encOf]
    | noHeader hs hm hg => simp [hdrPure, hs, hg, encOf, Int.not_le.2 hm]
    | header hs hm hg he => simp [hdrPure, hs, hg, encOf, Int.not_le.2 hm, he, retBytes]
    | noType hh hg => rw [hdrPure_ok_iff.2 ⟨_, hh, rfl, rfl⟩]; simp [typePure, hg]
    | specType hh hg hs => rw [hdrPure_ok_iff.2 ⟨_, hh, rfl, rfl⟩]; simp [typePure, hg, hs]
    | type hh hs hg he => rw [hdrPure_ok_iff.2 ⟨_, hh, rfl, rfl⟩]; simp [typePure, hg, hs, he]
    | keys hh ht hn =>
      subst hn
      rw [hdrPure_ok_iff.2 ⟨_, hh, rfl, rfl⟩, typePure_ok_iff.2 ⟨_, ht, rfl, rfl⟩]; simp
    | range hh ht hn hr =>
      subst hn
      rw [hdrPure_ok_iff.2 ⟨_, hh, rfl, rfl⟩, typePure_ok_iff.2 ⟨_, ht, rfl, rfl⟩]; simp [hr]
    | bitmaps hh ht hn hr hB =>
      subst hn
      rw [hdrPure_ok_iff.2 ⟨_, hh, rfl, rfl⟩, typePure_ok_iff.2 ⟨_, ht, rfl, rfl⟩]
      dsimp only at hB ⊢
      rw [if_pos hr]
      unfold bodyPure
      rw [hB]
      simp
    | field hh ht hn hr hb hsort hf hor =>
      subst hn
      rw [hdrPure_ok_iff.2 ⟨_, hh, rfl, rfl⟩, typePure_ok_iff.2 ⟨_, ht, rfl, rfl⟩]
      dsimp only
      rw [if_pos hr]
      unfold bodyPure
      rw [bmsPure_ok_iff.2 ⟨_, hb, rfl, rfl, rfl⟩]
      dsimp only
      rw [fieldsPure_error_iff.2 ⟨_, _, _, _, _, hsort, hf, rfl, hor⟩]
      simp [encOf]

theorem encode_error_iff {env : PyEnv} {spec : Spec} {doc doc' : Doc} {x : EncodeExc} :
    encode env spec doc = (.error x, doc') ↔
      ∃ items tail texts r, Faults env spec (lookup doc) (numsOf env doc) items tail texts r ∧
        doc' = applySets (cleaned doc) texts ∧ x = excOf doc' (encOf items ++ tail) r := by
  rw [encode_run]
  cases hR : encPure env spec (lookup doc) (numsOf env doc) with
  | mk R1 R2 =>
  obtain ⟨R2, R3⟩ := R2
  cases R1 with
  | ok s =>
    simp only [Prod.mk.injEq, reduceCtorEq, false_and, false_iff]
    rintro ⟨items, tail, texts, r, hf, _⟩
    rw [encPure_error_iff.2 ⟨items, tail, hf, rfl⟩] at hR
    cases hR
  | error r =>
    simp only [Prod.mk.injEq, Except.error.injEq]
    constructor
    · rintro ⟨rfl, rfl⟩
      obtain ⟨items, tail, hf, rfl⟩ := encPure_error_iff.1 hR
      exact ⟨items, tail, R3, r, hf, rfl, rfl⟩
    · rintro ⟨items, tail, texts, r', hf, rfl, rfl⟩
      rw [encPure_error_iff.2 ⟨items, tail, hf, rfl⟩] at hR
      cases hR
      exact ⟨rfl, rfl⟩

end Iso8583
