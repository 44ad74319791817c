import Verif.Lemmas.Fold
import Verif.Lemmas.Dict
import Verif.Lemmas.Sets
/-! # Running `pp` -/

namespace Iso8583
open PyM

@[simp] theorem run_ppWrite (t s : Str) : ppWrite t s = (.ok (), s ++ t) := rfl

theorem writePieces_run {indent : Nat} : ∀ (ps : List Str) (s : Str),
    writePieces indent (newLine indent) ps s = (.ok (), s ++ ps.flatMap (newLine indent ++ ·))
  | [], s => by simp [writePieces]
  | p :: t, s => by
    have ih := writePieces_run (indent := indent) t
    simp only [writePieces, run_bind, run_ppWrite]
    rw [if_neg (by simp [newLine]), ih]
    simp

theorem joinWith_cons (sep x : Str) : ∀ t : List Str, joinWith sep (x :: t) = x ++ t.flatMap (sep ++ ·)
  | [] => by simp [joinWith]
  | y :: t => by rw [joinWith, joinWith_cons sep y t]; simp

theorem writePieces_join {indent : Nat} (ps : List Str) (s : Str) :
    writePieces indent [] ps s = (.ok (), s ++ joinWith (newLine indent) ps) := by
  cases ps with
  | nil => simp [writePieces, joinWith]
  | cons p t =>
    simp only [writePieces, run_bind, run_ppWrite, List.append_nil, if_true]
    rw [show (10 :: List.replicate indent 32) = newLine indent from rfl, writePieces_run, joinWith_cons]
    simp

/-- The text written for a value. -/
def valueText (env : PyEnv) (indent : Nat) (w : Int) : PpVal → Str
  | .str s => if ((reprStr env s).length + indent : Int) ≤ w ∨ s.length ≤ 1 then reprStr env s
    else joinWith (newLine indent) ((wrapStr s (w - indent)).map (reprStr env))
  | .bytes b => if ((reprBytes b).length + indent : Int) ≤ w ∨ b.length ≤ 1 then reprBytes b
    else joinWith (newLine indent) ((wrapBytes b (w - indent)).map reprBytes)
  | .dict _ _ => []
  | .other r => r

theorem ppValue_run {env : PyEnv} {indent : Nat} {w : Int} {v : PpVal} {s : Str} (hv : ∀ l d, v ≠ .dict l d) :
    ppValue env v indent w s = (.ok (), s ++ valueText env indent w v ++ [10]) := by
  cases v with
  | dict l d => exact absurd rfl (hv l d)
  | other r => unfold ppValue valueText; dsimp only; split <;> simp
  | str t =>
    unfold ppValue valueText
    dsimp only
    by_cases h : ((reprStr env t).length + indent : Int) > w
    · rw [if_pos h]
      simp only [run_bind, pprintStr, run_ite]
      by_cases h1 : t.length ≤ 1
      · rw [if_pos h1, if_pos (.inr h1)]; simp
      · rw [if_neg h1, if_neg (by omega), wrapStrRepr, writePieces_join]; simp
    · rw [if_neg h, if_pos (by omega)]; simp
  | bytes t =>
    unfold ppValue valueText
    dsimp only
    by_cases h : ((reprBytes t).length + indent : Int) > w
    · rw [if_pos h]
      simp only [run_bind, pprintBytes, run_ite]
      by_cases h1 : t.length ≤ 1
      · rw [if_pos h1, if_pos (.inr h1)]; simp
      · rw [if_neg h1, if_neg (by omega), wrapBytesRepr, writePieces_join]; simp
    · rw [if_neg h, if_pos (by omega)]; simp

theorem shows_iff {env : PyEnv} {indent : Nat} {w : Int} {v : PpVal} {t : Str} (hv : ∀ l d, v ≠ .dict l d) :
    Shows env indent w v t ↔ valueText env indent w v = t := by
  constructor
  · intro h
    cases h with
    | strFits h => rw [valueText, if_pos h]
    | strFolds h1 h2 h3 =>
      rw [valueText, if_neg (by omega), foldsStr_unique (wrapStr_folds _ _) h3]
    | bytesFits h => rw [valueText, if_pos h]
    | bytesFolds h1 h2 h3 =>
      rw [valueText, if_neg (by omega), foldsBytes_unique (wrapBytes_folds _ _) h3]
    | other => rfl
  · rintro rfl
    cases v with
    | dict l d => exact absurd rfl (hv l d)
    | other r => exact .other
    | str s =>
      rw [valueText]
      split
      · next h => exact .strFits h
      · next h => exact .strFolds (by omega) (by omega) (wrapStr_folds _ _)
    | bytes b =>
      rw [valueText]
      split
      · next h => exact .bytesFits h
      · next h => exact .bytesFolds (by omega) (by omega) (wrapBytes_folds _ _)

/-- What precedes the value of a field, and the value. -/
def unpack : PpVal → Str × PpVal
  | .dict len data => (if len.getD [] = [] then [] else reprBytes (len.getD []) ++ py" ", .bytes (data.getD []))
  | v => ([], v)

theorem unpacks_iff {v v' : PpVal} {pre : Str} : Unpacks v pre v' ↔ unpack v = (pre, v') := by
  cases v <;> simp only [Unpacks, unpack, Prod.mk.injEq] <;> constructor <;> rintro ⟨rfl, rfl⟩ <;> simp

theorem unpack_ne_dict {v : PpVal} (l d : Option Bytes) : (unpack v).2 ≠ .dict l d := by
  cases v <;> simp [unpack]

/-- The description column, or the reason there is none. -/
def descText (spec : Spec) (dw : Int) (key : Str) : Except PpRaise Str :=
  if dw > 0 then
    match spec.get? key with
    | none => .error (.keyError key)
    | some fs => match fs.desc with
      | none => .error (.keyError py"desc")
      | some d => .ok (py" " ++ padded dw.toNat (d.take dw.toNat))
  else .ok []

theorem descText_ok {spec : Spec} {dw : Int} {key t : Str} : descText spec dw key = .ok t ↔ DescText spec dw key t := by
  unfold descText DescText
  by_cases h : dw > 0
  · rw [if_pos h]
    cases hs : spec.get? key with
    | none => simp; intro; omega
    | some fs =>
      cases hd : fs.desc with
      | none => simp [hd]; intro; omega
      | some d =>
        simp only [hd, Except.ok.injEq, Option.some.injEq]
        constructor
        · rintro rfl; exact .inr ⟨h, fs, d, rfl, hd, rfl⟩
        · rintro (⟨h', _⟩ | ⟨_, fs', d', rfl, hd', rfl⟩)
          · omega
          · rw [hd] at hd'; cases hd'; rfl
  · rw [if_neg h]
    constructor
    · intro e; cases e; exact .inl ⟨by omega, rfl⟩
    · rintro (⟨_, rfl⟩ | ⟨h', _⟩)
      · rfl
      · omega

theorem ljust_eq : ljust = padded := rfl

theorem padded_length {w : Nat} {t : Str} (h : t.length ≤ w) : (padded w t).length = w := by
  simp [padded]; omega

theorem DescText.length {spec : Spec} {dw : Int} {key t : Str} (h : DescText spec dw key t) :
    t.length = if 0 < dw then dw.toNat + 1 else 0 := by
  rcases h with ⟨h, rfl⟩ | ⟨h, fs, d, _, _, rfl⟩
  · rw [if_neg (by omega)]; rfl
  · rw [if_pos h, List.length_append, padded_length (by simp; omega)]
    simp; omega

/-- The text of one field. -/
def fieldText (env : PyEnv) (lw : Int) (key desc : Str) (v : PpVal) : Str :=
  padded 3 key ++ desc ++ py": " ++ (unpack v).1 ++
    valueText env (5 + desc.length + (unpack v).1.length) lw (unpack v).2 ++ [10]

theorem fieldText_iff {env : PyEnv} {spec : Spec} {dw lw : Int} {key t : Str} {v : PpVal} :
    FieldText env spec dw lw key v t ↔ ∃ d, descText spec dw key = .ok d ∧ fieldText env lw key d v = t := by
  constructor
  · rintro ⟨d, pre, v', body, hd, hu, hs, rfl⟩
    rw [unpacks_iff] at hu
    refine ⟨d, descText_ok.2 hd, ?_⟩
    have hn := unpack_ne_dict (v := v)
    rw [hu] at hn
    rw [fieldText, hu, (shows_iff hn).1 hs]
  · rintro ⟨d, hd, rfl⟩
    exact ⟨d, (unpack v).1, (unpack v).2, _, descText_ok.1 hd, unpacks_iff.2 rfl, (shows_iff unpack_ne_dict).2 rfl, rfl⟩

theorem ppField_run {env : PyEnv} {doc : PpDoc} {spec : Spec} {dw lw : Int} {key s : Str} :
    ppField env doc spec dw lw key s =
      match descText spec dw key with
      | .error e => (.error e, s ++ padded 3 key)
      | .ok d => match doc.get? (.str key) with
        | none => (.error (.keyError key), s ++ padded 3 key ++ d ++ py": ")
        | some v => (.ok (), s ++ fieldText env lw key d v) := by
  have tail : ∀ (indent : Nat) (d s' : Str), indent = 5 + d.length → s' = s ++ padded 3 key ++ d →
      ((do
        ppWrite py": "
        match doc.get? (.str key) with
        | none => PyM.raise (.keyError key)
        | some (.dict len data) =>
          let l := len.getD []
          let indent ←
            if l.length > 0 then do
              ppWrite (reprBytes l ++ py" ")
              pure (indent + ((reprBytes l).length + 1))
            else pure indent
          ppValue env (.bytes (data.getD [])) indent lw
        | some v => ppValue env v indent lw : PpM Unit) s') =
      match doc.get? (.str key) with
        | none => (.error (.keyError key), s ++ padded 3 key ++ d ++ py": ")
        | some v => (.ok (), s ++ fieldText env lw key d v) := by
    rintro indent d s' rfl rfl
    simp only [run_bind, run_ppWrite]
    cases hv : doc.get? (.str key) with
    | none => simp
    | some v =>
      cases v with
      | dict len data =>
        dsimp only
        simp only [run_bind, run_ite, fieldText, unpack]
        by_cases hl : (len.getD []) = []
        · rw [if_neg (by simp [hl]), if_pos hl]
          simp only [run_pure]
          rw [ppValue_run (by simp)]
          simp
        · rw [if_pos (List.length_pos_iff.2 hl), if_neg hl]
          simp only [run_bind, run_ppWrite, run_pure]
          rw [ppValue_run (by simp)]
          simp [Nat.add_assoc]
      | str t => dsimp only; rw [ppValue_run (by simp)]; simp [fieldText, unpack]
      | bytes t => dsimp only; rw [ppValue_run (by simp)]; simp [fieldText, unpack]
      | other t => dsimp only; rw [ppValue_run (by simp)]; simp [fieldText, unpack]
  unfold ppField descText
  rw [ljust_eq, run_bind, run_ppWrite]
  dsimp only
  rw [run_ite]
  by_cases h : dw > 0
  · rw [if_pos h, if_pos h]
    cases hs : spec.get? key with
    | none => simp [run_bind]
    | some fs =>
      cases hd : fs.desc with
      | none => simp [hd, run_bind]
      | some d =>
        simp only [hd]
        rw [run_bind, run_ppWrite]
        dsimp only
        rw [run_bind, run_pure]
        refine tail _ _ _ ?_ rfl
        rw [List.length_append, padded_length (by simp; omega)]
        simp; omega
  · rw [if_neg h, if_neg h, run_bind, run_pure]
    exact tail _ _ _ rfl (by simp)

/-! ## Sequences of fields -/

/-- `text` gives the group of every key of the list. -/
def GroupTexts (env : PyEnv) (doc : PpDoc) (spec : Spec) (dw lw : Int) (ks : List Str) (text : Str → Str) : Prop :=
  ∀ k ∈ ks, ∃ v, doc.get? (.str k) = some v ∧ FieldText env spec dw lw k v (text k)

theorem fieldText_unique {env : PyEnv} {spec : Spec} {dw lw : Int} {key t t' : Str} {v : PpVal}
    (h : FieldText env spec dw lw key v t) (h' : FieldText env spec dw lw key v t') : t = t' := by
  obtain ⟨d, hd, rfl⟩ := fieldText_iff.1 h
  obtain ⟨d', hd', rfl⟩ := fieldText_iff.1 h'
  rw [hd] at hd'
  cases hd'
  rfl

theorem ppField_ok_iff {env : PyEnv} {doc : PpDoc} {spec : Spec} {dw lw : Int} {key s s' : Str} :
    ppField env doc spec dw lw key s = (.ok (), s') ↔
      ∃ v t, doc.get? (.str key) = some v ∧ FieldText env spec dw lw key v t ∧ s' = s ++ t := by
  rw [ppField_run]
  cases hd : descText spec dw key with
  | error e => simp [fieldText_iff, hd]
  | ok d =>
    cases hv : doc.get? (.str key) with
    | none => simp
    | some v =>
      simp only [Prod.mk.injEq, true_and, fieldText_iff, hd]
      constructor
      · rintro rfl; exact ⟨v, _, rfl, ⟨d, rfl, rfl⟩, rfl⟩
      · rintro ⟨_, _, h1, ⟨_, h2, rfl⟩, rfl⟩; cases h1; cases h2; rfl

theorem ppFields_append {env : PyEnv} {doc : PpDoc} {spec : Spec} {dw lw : Int} (b : List Str) : ∀ (a : List Str) (s : Str),
    ppFields env doc spec dw lw (a ++ b) s =
      match ppFields env doc spec dw lw a s with
      | (.ok (), s') => ppFields env doc spec dw lw b s'
      | (.error e, s') => (.error e, s')
  | [], s => by simp [ppFields]
  | k :: a, s => by
    rw [List.cons_append, ppFields, ppFields, run_bind, run_bind]
    cases h : ppField env doc spec dw lw k s with
    | mk r s1 =>
      cases r with
      | error e => simp
      | ok u => simp only; exact ppFields_append b a s1

theorem ppFields_ok_iff {env : PyEnv} {doc : PpDoc} {spec : Spec} {dw lw : Int} : ∀ {ks : List Str} {s s' : Str},
    ppFields env doc spec dw lw ks s = (.ok (), s') ↔
      ∃ text, GroupTexts env doc spec dw lw ks text ∧ s' = s ++ ks.flatMap text
  | [], s, s' => by
    simp only [ppFields, run_pure, Prod.mk.injEq, true_and, GroupTexts]
    constructor
    · rintro rfl; exact ⟨id, by simp, by simp⟩
    · rintro ⟨_, _, rfl⟩; simp
  | k :: ks, s, s' => by
    rw [ppFields, run_bind]
    constructor
    · intro h
      cases hf : ppField env doc spec dw lw k s with
      | mk r s1 =>
        rw [hf] at h
        cases r with
        | error e => simp at h
        | ok u =>
          obtain ⟨v, t, hv, ht, rfl⟩ := ppField_ok_iff.1 hf
          obtain ⟨text, hg, rfl⟩ := ppFields_ok_iff.1 h
          refine ⟨fun x => if x = k then t else text x, ?_, ?_⟩
          · intro x hx
            by_cases hxk : x = k
            · subst hxk; exact ⟨v, hv, by simpa using ht⟩
            · obtain ⟨v', hv', ht'⟩ := hg x ((List.mem_cons.1 hx).resolve_left hxk)
              exact ⟨v', hv', by simpa [hxk] using ht'⟩
          · have : ks.flatMap text = ks.flatMap (fun x => if x = k then t else text x) := by
              rw [List.flatMap_def, List.flatMap_def]
              congr 1
              refine List.map_congr_left fun x hx => ?_
              by_cases hxk : x = k
              · subst hxk
                obtain ⟨v', hv', ht'⟩ := hg x hx
                rw [hv] at hv'
                cases hv'
                rw [if_pos rfl]
                exact fieldText_unique ht' ht
              · rw [if_neg hxk]
            rw [this]
            simp
    · rintro ⟨text, hg, rfl⟩
      obtain ⟨v, hv, ht⟩ := hg k (by simp)
      rw [ppField_ok_iff.2 ⟨v, _, hv, ht, rfl⟩]
      exact ppFields_ok_iff.2 ⟨text, fun x hx => hg x (by simp [hx]), by simp⟩

/-! ## Numeric keys and their order -/

theorem ppNumericKeys_ok_iff {env : PyEnv} : ∀ {ks : List Key} {r : List (Str × Int)},
    ppNumericKeys env ks = .ok r ↔
      r.map Prod.fst = (ks.filterMap fun
        | .str k => if isNumeric env k then some k else none
        | .obj _ => none) ∧ ∀ p ∈ r, pyInt env p.1 = some p.2
  | [], r => by
    simp only [ppNumericKeys, Except.ok.injEq, List.filterMap_nil, List.map_eq_nil_iff]
    constructor
    · rintro rfl; simp
    · rintro ⟨rfl, _⟩; rfl
  | .obj o :: t, r => by
    rw [ppNumericKeys, ppNumericKeys_ok_iff]
    simp
  | .str k :: t, r => by
    rw [ppNumericKeys]
    by_cases hn : isNumeric env k = true
    · rw [if_pos hn, List.filterMap_cons_some (b := k) (by simp [hn])]
      constructor
      · intro h
        cases hr : ppNumericKeys env t with
        | error e => simp [hr] at h
        | ok r' =>
          rw [hr] at h
          dsimp only at h
          cases hp : pyInt env k with
          | none => simp [hp] at h
          | some n =>
            simp only [hp, Except.ok.injEq] at h
            subst h
            obtain ⟨h1, h2⟩ := ppNumericKeys_ok_iff.1 hr
            refine ⟨by simp [h1], ?_⟩
            intro p hmem
            rcases List.mem_cons.1 hmem with rfl | hmem
            · exact hp
            · exact h2 p hmem
      · rintro ⟨h1, h2⟩
        cases r with
        | nil => simp at h1
        | cons p r' =>
          obtain ⟨k', n⟩ := p
          simp only [List.map_cons, List.cons.injEq] at h1
          obtain ⟨rfl, h1⟩ := h1
          rw [ppNumericKeys_ok_iff.2 ⟨h1, fun p hp => h2 p (by simp [hp])⟩]
          dsimp only
          have := h2 (k', n) (by simp)
          dsimp only at this
          rw [this]
    · rw [if_neg hn, List.filterMap_cons_none (by simp [hn])]
      exact ppNumericKeys_ok_iff

theorem ppNumericKeys_error_iff {env : PyEnv} {e : PpRaise} : ∀ {ks : List Key},
    ppNumericKeys env ks = .error e ↔ e = .valueError ∧ ∃ k, .str k ∈ ks ∧ isNumeric env k = true ∧ pyInt env k = none
  | [] => by simp [ppNumericKeys]
  | .obj o :: t => by
    rw [ppNumericKeys, ppNumericKeys_error_iff]
    simp
  | .str k :: t => by
    rw [ppNumericKeys]
    have ih := ppNumericKeys_error_iff (env := env) (e := e) (ks := t)
    by_cases hn : isNumeric env k = true
    · rw [if_pos hn]
      cases hr : ppNumericKeys env t with
      | error e' =>
        obtain ⟨rfl, k', h1, h2⟩ := ppNumericKeys_error_iff.1 hr
        simp only [Except.error.injEq]
        constructor
        · rintro rfl; exact ⟨rfl, k', by simp [h1], h2⟩
        · rintro ⟨rfl, _⟩; rfl
      | ok r =>
        dsimp only
        have hno : ∀ k', .str k' ∈ t → isNumeric env k' = true → pyInt env k' ≠ none := by
          intro k' h1 h2 h3
          have := (ppNumericKeys_error_iff (env := env) (e := .valueError) (ks := t)).2 ⟨rfl, k', h1, h2, h3⟩
          rw [hr] at this
          cases this
        cases hp : pyInt env k with
        | none =>
          simp only [Except.error.injEq]
          constructor
          · rintro rfl; exact ⟨rfl, k, by simp, hn, hp⟩
          · rintro ⟨rfl, _⟩; rfl
        | some n =>
          constructor
          · intro h; cases h
          · rintro ⟨_, k', h1, h2, h3⟩
            simp only [List.mem_cons, Key.str.injEq] at h1
            rcases h1 with rfl | h1
            · rw [hp] at h3; cases h3
            · exact absurd h3 (hno k' h1 h2)
    · rw [if_neg hn, ih]
      constructor
      · rintro ⟨rfl, k', h1, h2⟩; exact ⟨rfl, k', by simp [h1], h2⟩
      · rintro ⟨rfl, k', h1, h2, h3⟩
        simp only [List.mem_cons, Key.str.injEq] at h1
        rcases h1 with rfl | h1
        · exact absurd h2 hn
        · exact ⟨rfl, k', h1, h2, h3⟩

theorem insertBy_stable {α : Type} (key : α → Int) (x : α) {R : α → α → Prop} : ∀ {l : List α},
    (∀ y ∈ l, key x = key y → R x y) → (l.Pairwise fun a b => key a < key b ∨ (key a = key b ∧ R a b)) →
    (insertBy key x l).Pairwise fun a b => key a < key b ∨ (key a = key b ∧ R a b)
  | [], _, _ => by simp [insertBy]
  | y :: t, hR, h => by
    have hy := List.pairwise_cons.1 h
    rw [insertBy]
    split
    · next hxy =>
      refine List.pairwise_cons.2 ⟨?_, h⟩
      intro z hz
      have : key x ≤ key z := by
        rcases List.mem_cons.1 hz with rfl | hz'
        · exact hxy
        · have := hy.1 z hz'; omega
      by_cases he : key x = key z
      · exact .inr ⟨he, hR z hz he⟩
      · exact .inl (by omega)
    · next hxy =>
      refine List.pairwise_cons.2 ⟨?_, insertBy_stable key x (fun z hz => hR z (by simp [hz])) hy.2⟩
      intro z hz
      rcases List.mem_cons.1 ((insertBy_perm key x t).mem_iff.1 hz) with rfl | hz
      · exact .inl (by omega)
      · exact hy.1 z hz

theorem sortedBy_stable {α : Type} (key : α → Int) : ∀ (l : List α),
    (sortedBy key l).Pairwise fun a b => key a < key b ∨ (key a = key b ∧ [a, b].Sublist l)
  | [] => List.Pairwise.nil
  | x :: t => by
    refine insertBy_stable key x (R := fun a b => [a, b].Sublist (x :: t)) ?_ ?_
    · intro y hy _
      exact List.Sublist.cons_cons x (List.singleton_sublist.2 ((sortedBy_perm key t).mem_iff.1 hy))
    · refine (sortedBy_stable key t).imp ?_
      rintro a b (h | ⟨h1, h2⟩)
      · exact .inl h
      · exact .inr ⟨h1, h2.cons x⟩

/-- The order of the numeric keys. -/
def NumericOrder (env : PyEnv) (l ns : List Str) : Prop :=
  ns.Perm l ∧ ns.Pairwise fun a b => ∃ m n, pyInt env a = some m ∧ pyInt env b = some n ∧
    (m < n ∨ (m = n ∧ [a, b].Sublist l))

theorem numericOrder_sorted {env : PyEnv} {r : List (Str × Int)} (h : ∀ p ∈ r, pyInt env p.1 = some p.2) :
    NumericOrder env (r.map Prod.fst) ((sortedBy Prod.snd r).map Prod.fst) := by
  refine ⟨(sortedBy_perm _ r).map _, ?_⟩
  rw [List.pairwise_map]
  refine (sortedBy_stable Prod.snd r).imp_of_mem ?_
  intro a b ha hb hab
  refine ⟨a.2, b.2, h a ((sortedBy_perm _ r).mem_iff.1 ha), h b ((sortedBy_perm _ r).mem_iff.1 hb), ?_⟩
  rcases hab with h | ⟨h1, h2⟩
  · exact .inl h
  · exact .inr ⟨h1, by simpa using h2.map Prod.fst⟩

theorem sublist_antisymm {α : Type} {a b : α} : ∀ {l : List α}, l.Nodup → [a, b].Sublist l → [b, a].Sublist l → a = b
  | [], _, h, _ => by simp at h
  | x :: t, hn, h, h' => by
    have hx := List.nodup_cons.1 hn
    cases h with
    | cons _ h =>
      cases h' with
      | cons _ h' => exact sublist_antisymm hx.2 h h'
      | cons_cons _ h' => exact absurd (h.subset (by simp)) hx.1
    | cons_cons _ h =>
      cases h' with
      | cons _ h' => exact absurd (h'.subset (by simp)) hx.1
      | cons_cons _ h' => rfl

theorem numericOrder_unique {env : PyEnv} {l ns ns' : List Str} (hn : l.Nodup) (h : NumericOrder env l ns)
    (h' : NumericOrder env l ns') : ns = ns' := by
  refine List.Perm.eq_of_pairwise ?_ h.2 h'.2 (h.1.trans h'.1.symm)
  rintro a b _ _ ⟨m, n, hm, hn', h1⟩ ⟨m', n', hm', hn'', h2⟩
  rw [hm] at hn''; cases hn''
  rw [hn'] at hm'; cases hm'
  rcases h1 with h1 | ⟨_, h1⟩
  · rcases h2 with h2 | ⟨h2, _⟩ <;> omega
  · rcases h2 with h2 | ⟨_, h2⟩
    · omega
    · exact sublist_antisymm hn h1 h2

theorem numericStrs_nodup {env : PyEnv} {doc : PpDoc} (h : doc.NoDup) : (numericStrs env doc).Nodup := by
  unfold numericStrs
  refine List.Pairwise.filterMap _ ?_ h
  intro a b hab x hx y hy
  cases a with
  | obj _ => simp at hx
  | str a =>
    cases b with
    | obj _ => simp at hy
    | str b =>
      simp only at hx hy
      split at hx <;> split at hy <;> simp_all

/-! ## The whole of `pp` -/

/-- The letter keys printed. -/
def letterKeys (spec : Spec) (doc : PpDoc) : List Str :=
  (match spec.get? py"h" with
    | some fs => if doc.contains (.str py"h") ∧ fs.maxLen > 0 then [py"h"] else []
    | none => []) ++
  (if doc.contains (.str py"t") then [py"t"] else []) ++ (if doc.contains (.str py"p") then [py"p"] else [])

theorem ppFields_opt {env : PyEnv} {doc : PpDoc} {spec : Spec} {dw lw : Int} {c : Prop} [Decidable c] {k : Str} {s : Str} :
    ppFields env doc spec dw lw (if c then [k] else []) s =
      if c then ppField env doc spec dw lw k s else (.ok (), s) := by
  split
  · simp only [ppFields, run_bind]
    cases ppField env doc spec dw lw k s with
    | mk r s1 => cases r <;> simp
  · rfl

theorem ppBody_run {env : PyEnv} {doc : PpDoc} {spec : Spec} {dw lw : Int} {s : Str} :
    ppBody env doc spec dw lw s =
      if doc.contains (.str py"h") ∧ spec.get? py"h" = none then (.error (.keyError py"h"), s) else
      match ppFields env doc spec dw lw (letterKeys spec doc) s with
      | (.error e, s') => (.error e, s')
      | (.ok (), s') => match ppNumericKeys env doc.keys with
        | .error e => (.error e, s')
        | .ok r => ppFields env doc spec dw lw ((sortedBy Prod.snd r).map Prod.fst) s' := by
  have rest : ∀ s1, ((do
      if doc.contains (.str py"t") then
        ppField env doc spec dw lw py"t"
      if doc.contains (.str py"p") then
        ppField env doc spec dw lw py"p"
      let ks ← PyM.lift (ppNumericKeys env doc.keys)
      ppFields env doc spec dw lw ((sortedBy Prod.snd ks).map Prod.fst) : PpM Unit) s1) =
      match ppFields env doc spec dw lw
        ((if doc.contains (.str py"t") then [py"t"] else []) ++ (if doc.contains (.str py"p") then [py"p"] else [])) s1 with
      | (.error e, s') => (.error e, s')
      | (.ok (), s') => match ppNumericKeys env doc.keys with
        | .error e => (.error e, s')
        | .ok r => ppFields env doc spec dw lw ((sortedBy Prod.snd r).map Prod.fst) s' := by
    intro s1
    have last : ∀ s2, ((do
        if doc.contains (.str py"p") then
          ppField env doc spec dw lw py"p"
        let ks ← PyM.lift (ppNumericKeys env doc.keys)
        ppFields env doc spec dw lw ((sortedBy Prod.snd ks).map Prod.fst) : PpM Unit) s2) =
        match ppFields env doc spec dw lw (if doc.contains (.str py"p") then [py"p"] else []) s2 with
        | (.error e, s') => (.error e, s')
        | (.ok (), s') => match ppNumericKeys env doc.keys with
          | .error e => (.error e, s')
          | .ok r => ppFields env doc spec dw lw ((sortedBy Prod.snd r).map Prod.fst) s' := by
      intro s2
      have fin : ∀ s3, ((do
          let ks ← PyM.lift (ppNumericKeys env doc.keys)
          ppFields env doc spec dw lw ((sortedBy Prod.snd ks).map Prod.fst) : PpM Unit) s3) =
          match ppNumericKeys env doc.keys with
          | .error e => (.error e, s3)
          | .ok r => ppFields env doc spec dw lw ((sortedBy Prod.snd r).map Prod.fst) s3 := by
        intro s3
        rw [run_bind, run_lift]
        cases ppNumericKeys env doc.keys <;> rfl
      rw [ppFields_opt]
      by_cases hc : doc.contains (.str py"p") = true
      · simp only [if_pos hc]
        rw [run_bind]
        cases ppField env doc spec dw lw py"p" s2 with
        | mk r s3 =>
          cases r with
          | error e => rfl
          | ok u => exact fin s3
      · simp only [if_neg hc]
        exact fin s2
    rw [ppFields_append, ppFields_opt]
    by_cases hc : doc.contains (.str py"t") = true
    · simp only [if_pos hc]
      rw [run_bind]
      cases ppField env doc spec dw lw py"t" s1 with
      | mk r s2 =>
        cases r with
        | error e => rfl
        | ok u => exact last s2
    · simp only [if_neg hc]
      exact last s1
  unfold ppBody letterKeys
  rw [List.append_assoc, ppFields_append]
  by_cases hc : doc.contains (.str py"h") = true
  · simp only [if_pos hc]
    cases hs : spec.get? py"h" with
    | none =>
      rw [if_pos (show doc.contains (.str py"h") = true ∧ (none : Option FieldSpec) = none from ⟨hc, rfl⟩)]
      rfl
    | some fs =>
      rw [if_neg (show ¬ (doc.contains (.str py"h") = true ∧ some fs = none) from fun h => by cases h.2)]
      dsimp only
      rw [ppFields_opt]
      by_cases hm : fs.maxLen > 0
      · rw [if_pos (show doc.contains (.str py"h") = true ∧ fs.maxLen > 0 from ⟨hc, hm⟩), if_pos hm, run_bind]
        cases ppField env doc spec dw lw py"h" s with
        | mk r s1 =>
          cases r with
          | error e => rfl
          | ok u => exact rest s1
      · rw [if_neg (show ¬ (doc.contains (.str py"h") = true ∧ fs.maxLen > 0) from fun h => hm h.2), if_neg hm]
        exact rest s
  · simp only [if_neg hc]
    rw [if_neg (show ¬ (doc.contains (.str py"h") = true ∧ spec.get? py"h" = none) from fun h => hc h.1)]
    have : (match spec.get? py"h" with
        | some fs => if doc.contains (.str py"h") ∧ fs.maxLen > 0 then [py"h"] else []
        | none => ([] : List Str)) = [] := by
      cases spec.get? py"h" with
      | none => rfl
      | some fs => exact if_neg fun h => hc h.1
    rw [this]
    exact rest s

end Iso8583
