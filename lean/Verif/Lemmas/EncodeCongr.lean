import Verif.Lemmas.EncodeErr
/-!
# What the outcome of `encode` depends on

Order of sets and dicts, and keys that play no role.
-/

namespace Iso8583

/-! ## Bitmaps -/

theorem orAt_comm : ∀ (bm : Bytes) (i a j b : Nat),
    (orAt bm i a).bind (fun x => orAt x j b) = (orAt bm j b).bind (fun x => orAt x i a)
  | [], i, a, j, b => by simp [orAt]
  | x :: t, 0, a, 0, b => by
    simp only [orAt, Option.bind_some, Option.some.injEq, List.cons.injEq, and_true]
    apply UInt8.toNat_inj.1
    simp only [UInt8.toNat_ofNat']
    apply Nat.eq_of_testBit_eq
    intro k
    simp only [Nat.testBit_mod_two_pow (j := 8), Nat.testBit_or]
    by_cases hk : k < 8
    · simp only [hk, decide_true, Bool.true_and]
      cases x.toNat.testBit k <;> cases (1 <<< a).testBit k <;> cases (1 <<< b).testBit k <;> rfl
    · simp [hk]
  | x :: t, 0, a, j + 1, b => by
    simp only [orAt, Option.bind_some]
    cases orAt t j b <;> simp [orAt]
  | x :: t, i + 1, a, 0, b => by
    simp only [orAt, Option.bind_some]
    cases orAt t i a <;> simp [orAt]
  | x :: t, i + 1, a, j + 1, b => by
    have := orAt_comm t i a j b
    simp only [orAt]
    cases h1 : orAt t i a with
    | none =>
      rw [h1] at this
      cases h2 : orAt t j b with
      | none => rfl
      | some u => rw [h2] at this; simp at this; simp [orAt, ← this]
    | some w =>
      rw [h1] at this
      cases h2 : orAt t j b with
      | none => rw [h2] at this; simp at this; simp [orAt, this]
      | some u => rw [h2] at this; simp at this; simp [orAt, this]

theorem bitmapLoop_perm {off : Nat} {l l' : List Nat} (h : l.Perm l') : ∀ bm, bitmapLoop off l bm = bitmapLoop off l' bm := by
  induction h with
  | nil => intro bm; rfl
  | cons x _ ih =>
    intro bm
    simp only [bitmapLoop]
    split
    · rfl
    · exact ih _
  | swap x y l =>
    intro bm
    have := orAt_comm bm ((y - (1 + off)) / 8) (7 - (y - (1 + off) - (y - (1 + off)) / 8 * 8))
      ((x - (1 + off)) / 8) (7 - (x - (1 + off) - (x - (1 + off)) / 8 * 8))
    simp only [bitmapLoop]
    cases h1 : orAt bm ((y - (1 + off)) / 8) (7 - (y - (1 + off) - (y - (1 + off)) / 8 * 8)) with
    | none =>
      rw [h1] at this
      cases h2 : orAt bm ((x - (1 + off)) / 8) (7 - (x - (1 + off) - (x - (1 + off)) / 8 * 8)) with
      | none => rfl
      | some u => rw [h2] at this; simp at this; simp [← this]
    | some w =>
      rw [h1] at this
      cases h2 : orAt bm ((x - (1 + off)) / 8) (7 - (x - (1 + off) - (x - (1 + off)) / 8 * 8)) with
      | none => rw [h2] at this; simp at this; simp [this]
      | some u => rw [h2] at this; simp at this; simp [this]
  | trans _ _ ih1 ih2 => intro bm; rw [ih1, ih2]

theorem bitmapOf_perm {off : Nat} {l l' : List Nat} (h : l.Perm l') : bitmapOf off l = bitmapOf off l' := by
  simp [bitmapOf, bitmapLoop_perm h]

/-! ## Field sets -/

theorem setAdd_perm {α : Type} [DecidableEq α] {l l' : List α} (h : l.Perm l') (x : α) : (setAdd l x).Perm (setAdd l' x) := by
  unfold setAdd
  by_cases hx : x ∈ l
  · rw [if_pos hx, if_pos (h.mem_iff.1 hx)]; exact h
  · rw [if_neg hx, if_neg (fun h' => hx (h.mem_iff.2 h'))]; exact h.append_right _

theorem perm_nil_iff {α : Type} {l l' : List α} (h : l.Perm l') : l = [] ↔ l' = [] :=
  ⟨fun e => by subst e; exact h.symm.eq_nil, fun e => by subst e; exact h.eq_nil⟩

theorem terOf_perm {F G : List Nat} (h : F.Perm G) : (terOf F).Perm (terOf G) := h.filter _

theorem f1Of_perm {F G : List Nat} (h : F.Perm G) : (f1Of F).Perm (f1Of G) := by
  unfold f1Of
  by_cases ht : terOf F = []
  · rw [if_neg (by simp [ht]), if_neg (by simp [(perm_nil_iff (terOf_perm h)).1 ht])]; exact h
  · rw [if_pos ht, if_pos (fun e => ht ((perm_nil_iff (terOf_perm h)).2 e))]; exact setAdd_perm h _

theorem secOf_perm {F G : List Nat} (h : F.Perm G) : (secOf F).Perm (secOf G) := (f1Of_perm h).filter _

theorem f2Of_perm {F G : List Nat} (h : F.Perm G) : (f2Of F).Perm (f2Of G) := by
  unfold f2Of
  by_cases ht : secOf F = []
  · rw [if_neg (by simp [ht]), if_neg (by simp [(perm_nil_iff (secOf_perm h)).1 ht])]; exact f1Of_perm h
  · rw [if_pos ht, if_pos (fun e => ht ((perm_nil_iff (secOf_perm h)).2 e))]; exact setAdd_perm (f1Of_perm h) _

theorem priOf_perm {F G : List Nat} (h : F.Perm G) : (priOf F).Perm (priOf G) := (f2Of_perm h).filter _

theorem restOf_perm {F G : List Nat} (h : F.Perm G) : (restOf F).Perm (restOf G) := ((f2Of_perm h).filter _).filter _

theorem sortedBy_id_perm {l l' : List Int} (h : l.Perm l') : sortedBy id l = sortedBy id l' :=
  List.Perm.eq_of_pairwise (le := fun a b => id a ≤ id b) (fun _ _ _ _ h1 h2 => Int.le_antisymm h1 h2) (sortedBy_sorted id l)
    (sortedBy_sorted id l') ((sortedBy_perm id l).trans (h.trans (sortedBy_perm id l').symm))

theorem sortedNat_perm {l l' : List Nat} (h : l.Perm l') : sortedNat l = sortedNat l' :=
  List.Perm.eq_of_pairwise (le := fun a b : Nat => (a : Int) ≤ (b : Int)) (fun _ _ _ _ h1 h2 => by omega)
    (sortedBy_sorted (fun n : Nat => (n : Int)) l)
    (sortedBy_sorted (fun n : Nat => (n : Int)) l') ((sortedBy_perm _ l).trans (h.trans (sortedBy_perm _ l').symm))

theorem setUpdate_perm {α : Type} [DecidableEq α] {xs ys : List α} (h : ∀ x, x ∈ xs ↔ x ∈ ys) :
    (setUpdate [] xs).Perm (setUpdate [] ys) :=
  (List.perm_ext_iff_of_nodup (nodup_setUpdate List.nodup_nil) (nodup_setUpdate List.nodup_nil)).2
    (by simp [mem_setUpdate, h])

/-! ## The pure function -/

theorem fieldsPure_congr {env : PyEnv} {spec : Spec} {g g' : Str → Option Val} : ∀ {l : List Nat},
    (∀ i ∈ l, g (natStr i) = g' (natStr i)) → fieldsPure env spec g l = fieldsPure env spec g' l
  | [], _ => rfl
  | i :: l, h => by
    have ih := fieldsPure_congr (env := env) (spec := spec) (l := l) (fun j hj => h j (by simp [hj]))
    simp only [fieldsPure, h i (by simp), ih]

theorem bodyPure_congr {env : PyEnv} {spec : Spec} {g g' : Str → Option Val} {F G : List Nat} (h : F.Perm G)
    (hg : ∀ i, i ≠ 1 → i ≠ 65 → g (natStr i) = g' (natStr i)) : bodyPure env spec g F = bodyPure env spec g' G := by
  have hb : bmsPure env spec (priOf F) (secOf F) (terOf F) (1 ∈ f2Of F) (65 ∈ f2Of F) =
      bmsPure env spec (priOf G) (secOf G) (terOf G) (1 ∈ f2Of G) (65 ∈ f2Of G) := by
    simp only [bmsPure, bitmapOf_perm (priOf_perm h), bitmapOf_perm (secOf_perm h), bitmapOf_perm (terOf_perm h),
      (f2Of_perm h).mem_iff]
  have hf : fieldsPure env spec g (sortedNat (restOf F)) = fieldsPure env spec g' (sortedNat (restOf G)) := by
    rw [sortedNat_perm (restOf_perm h)]
    apply fieldsPure_congr
    intro i hi
    rw [mem_sortedNat, mem_restOf] at hi
    exact hg i hi.2.1 hi.2.2
  unfold bodyPure
  rw [hb, hf]

theorem hdrPure_congr {env : PyEnv} {spec : Spec} {g g' : Str → Option Val} (h : g py"h" = g' py"h") :
    hdrPure env spec g = hdrPure env spec g' := by simp only [hdrPure, h]

theorem typePure_congr {env : PyEnv} {spec : Spec} {g g' : Str → Option Val} (h : g py"t" = g' py"t") :
    typePure env spec g = typePure env spec g' := by simp only [typePure, h]

/-- The numbers may be given in any order, and only the header, the type and the numbered fields are looked up. -/
theorem encPure_congr {env : PyEnv} {spec : Spec} {g g' : Str → Option Val} {ns ns' : Except EncRaise (List Int)}
    (hh : g py"h" = g' py"h") (ht : g py"t" = g' py"t") (hg : ∀ i, i ≠ 1 → i ≠ 65 → g (natStr i) = g' (natStr i))
    (hn : ns = ns' ∨ ∃ a b, ns = .ok a ∧ ns' = .ok b ∧ ∀ x, x ∈ a ↔ x ∈ b) :
    encPure env spec g ns = encPure env spec g' ns' := by
  have key : ∀ a b : List Int, (∀ x, x ∈ a ↔ x ∈ b) → encPure env spec g (.ok a) = encPure env spec g' (.ok b) := by
    intro a b hab
    have hp := setUpdate_perm hab
    unfold encPure
    rw [hdrPure_congr hh, typePure_congr ht]
    dsimp only
    rw [hp.all_eq, bodyPure_congr (hp.map _) hg, sortedBy_id_perm (hp.filter _)]
  rcases hn with rfl | ⟨a, b, rfl, rfl, hab⟩
  · cases ns with
    | ok a => exact key a a (by simp)
    | error r =>
      unfold encPure
      rw [hdrPure_congr hh, typePure_congr ht]
  · exact key a b hab

/-! ## Keys -/

/-- Keys the list comprehension of encoder.py:97 reacts to. -/
def relevant (env : PyEnv) : Key → Bool
  | .obj _ => true
  | .str s => isNumeric env s

theorem filter_obj {env : PyEnv} {r : Str} {t : List Key} :
    (Key.obj r :: t).filter (relevant env) = .obj r :: t.filter (relevant env) := List.filter_cons_of_pos rfl

theorem filter_str {env : PyEnv} {s : Str} {t : List Key} :
    (Key.str s :: t).filter (relevant env) =
      if isNumeric env s = true then .str s :: t.filter (relevant env) else t.filter (relevant env) := by
  rw [List.filter_cons]; rfl

theorem numericKeys_filter {env : PyEnv} {all : List Key} : ∀ (ks : List Key),
    numericKeys env all (ks.filter (relevant env)) = numericKeys env all ks
  | [] => rfl
  | .obj r :: t => by rw [filter_obj]; rfl
  | .str s :: t => by
    rw [filter_str]
    by_cases h : isNumeric env s = true
    · simp [h, numericKeys, numericKeys_filter t]
    · simp [h, numericKeys, numericKeys_filter t]

/-- The representations of the keys that are not strings. -/
def objKeys (ks : List Key) : List Str := ks.filterMap fun | .obj r => some r | .str _ => none

theorem objKeys_obj {r : Str} {t : List Key} : objKeys (.obj r :: t) = r :: objKeys t := rfl

theorem objKeys_str {r : Str} {t : List Key} : objKeys (.str r :: t) = objKeys t := rfl

theorem objKeys_filter {env : PyEnv} : ∀ (ks : List Key), objKeys (ks.filter (relevant env)) = objKeys ks
  | [] => rfl
  | .obj r :: t => by rw [filter_obj, objKeys_obj, objKeys_obj, objKeys_filter t]
  | .str s :: t => by
    rw [filter_str]
    split
    · rw [objKeys_str, objKeys_str, objKeys_filter t]
    · rw [objKeys_str, objKeys_filter t]

theorem numericKeys_all {env : PyEnv} {all all' : List Key} (h : objKeys all = objKeys all') : ∀ (ks : List Key),
    numericKeys env all ks = numericKeys env all' ks
  | [] => rfl
  | .obj r :: t => by
    exact congrArg (fun l => Except.error (EncRaise.err (.invalidFields l) py"p")) h
  | .str s :: t => by simp only [numericKeys, numericKeys_all h t]

theorem numericKeys_congr {env : PyEnv} {a b : List Key} (h : a.filter (relevant env) = b.filter (relevant env)) :
    numericKeys env a a = numericKeys env b b := by
  have h1 : objKeys a = objKeys b := by rw [← objKeys_filter (env := env) a, h, objKeys_filter]
  rw [numericKeys_all h1, ← numericKeys_filter a, h, numericKeys_filter]

/-- Success of the list comprehension. -/
theorem numericKeys_of_parse {env : PyEnv} {all : List Key} : ∀ {ks : List Key},
    (∀ k ∈ ks, ∃ s, k = .str s ∧ (isNumeric env s = true → ∃ n, pyInt env s = some n)) → ∃ ns, numericKeys env all ks = .ok ns
  | [], _ => ⟨[], rfl⟩
  | k :: t, h => by
    obtain ⟨s, rfl, hs⟩ := h k (by simp)
    obtain ⟨ns, hns⟩ := numericKeys_of_parse (all := all) (ks := t) (fun x hx => h x (by simp [hx]))
    simp only [numericKeys, hns]
    split
    · next hn => obtain ⟨n, hn⟩ := hs hn; simp [hn]
    · exact ⟨ns, rfl⟩

theorem parse_of_numericKeys {env : PyEnv} {all ks : List Key} {ns : List Int} (h : numericKeys env all ks = .ok ns) :
    ∀ k ∈ ks, ∃ s, k = .str s ∧ (isNumeric env s = true → ∃ n, pyInt env s = some n) := by
  obtain ⟨h1, h2, _⟩ := numericKeys_ok h
  intro k hk
  obtain ⟨s, rfl⟩ := h1 k hk
  exact ⟨s, rfl, fun hn => by obtain ⟨x, _, hx⟩ := h2 s hk hn; exact ⟨x, hx⟩⟩

theorem numericKeys_mem_congr {env : PyEnv} {all all' ks ks' : List Key} {ns ns' : List Int}
    (h : numericKeys env all ks = .ok ns) (h' : numericKeys env all' ks' = .ok ns')
    (hm : ∀ s, isNumeric env s = true → (.str s ∈ ks ↔ .str s ∈ ks')) (x : Int) : x ∈ ns ↔ x ∈ ns' := by
  obtain ⟨_, h2, h3⟩ := numericKeys_ok h
  obtain ⟨_, h2', h3'⟩ := numericKeys_ok h'
  constructor
  · intro hx
    obtain ⟨t, ht, hn, hp⟩ := h3 x hx
    obtain ⟨y, hy, hp'⟩ := h2' t ((hm t hn).1 ht) hn
    rw [hp] at hp'; cases hp'; exact hy
  · intro hx
    obtain ⟨t, ht, hn, hp⟩ := h3' x hx
    obtain ⟨y, hy, hp'⟩ := h2 t ((hm t hn).2 ht) hn
    rw [hp] at hp'; cases hp'; exact hy

/-! ## Dicts -/

section
set_option linter.unusedSectionVars false
variable {κ ν : Type} [DecidableEq κ]

theorem Dict.get?_filter {d : Dict κ ν} {p : κ → Bool} {k : κ} (h : p k = true) :
    Dict.get? (d.filter fun kv => p kv.1) k = d.get? k := by
  induction d with
  | nil => rfl
  | cons kv t ih =>
    obtain ⟨a, b⟩ := kv
    by_cases ha : p a = true
    · rw [List.filter_cons_of_pos (by simpa using ha)]
      simp only [Dict.get?, ih]
    · rw [List.filter_cons_of_neg (by simpa using ha), ih, Dict.get?, if_neg]
      intro e; subst e; exact ha h

theorem Dict.keys_filter (d : Dict κ ν) (p : κ → Bool) : Dict.keys (d.filter fun kv => p kv.1) = d.keys.filter p := by
  unfold Dict.keys
  rw [List.filter_map]; rfl

theorem Dict.nodup_items {d : Dict κ ν} (nd : d.NoDup) : d.Nodup := by
  unfold Dict.NoDup Dict.keys at nd
  rw [List.nodup_iff_pairwise_ne, List.pairwise_map] at nd
  rw [List.nodup_iff_pairwise_ne]
  exact nd.imp fun h e => h (by rw [e])

theorem Dict.perm_of_get? {a b : Dict κ ν} (ha : a.NoDup) (hb : b.NoDup) (h : ∀ k, a.get? k = b.get? k) : a.Perm b := by
  rw [List.perm_ext_iff_of_nodup (Dict.nodup_items ha) (Dict.nodup_items hb)]
  rintro ⟨k, v⟩
  constructor
  · intro hm; exact Dict.mem_of_get? (by rw [← h]; exact Dict.get?_of_mem ha hm)
  · intro hm; exact Dict.mem_of_get? (by rw [h]; exact Dict.get?_of_mem hb hm)

theorem Dict.NoDup.perm {a b : Dict κ ν} (ha : a.NoDup) (h : a.Perm b) : b.NoDup := (h.map Prod.fst).nodup_iff.1 ha

theorem Dict.get?_perm {a b : Dict κ ν} (ha : a.NoDup) (h : a.Perm b) (k : κ) : a.get? k = b.get? k := by
  have hb := ha.perm h
  cases hk : a.get? k with
  | none =>
    rw [Dict.get?_eq_none] at hk
    symm
    rw [Dict.get?_eq_none]
    exact fun hm => hk ((h.map Prod.fst).mem_iff.2 hm)
  | some v => exact (Dict.get?_of_mem hb (h.mem_iff.1 (Dict.mem_of_get? hk))).symm

theorem Dict.NoDup.filter {d : Dict κ ν} (nd : d.NoDup) (p : κ × ν → Bool) : Dict.NoDup (d.filter p) :=
  List.Nodup.sublist (List.Sublist.map _ List.filter_sublist) nd

end

/-- Keys that can matter to `encode`. -/
def matters (env : PyEnv) : Key → Bool
  | .obj _ => true
  | .str s => s = py"h" || s = py"t" || (isNumeric env s && s ≠ py"1" && s ≠ py"65")

theorem cleaned_eq_filter {doc : Doc} (nd : doc.NoDup) :
    cleaned doc = doc.filter fun kv => kv.1 ≠ .str py"1" && kv.1 ≠ .str py"65" := by
  unfold cleaned
  rw [Dict.pop_eq_filter (nd.pop _), Dict.pop_eq_filter nd, List.filter_filter]
  congr 1
  funext kv
  simp [Bool.and_comm]

theorem cleaned_relevant {env : PyEnv} {doc : Doc} (nd : doc.NoDup) :
    (cleaned doc).keys.filter (relevant env) =
      (Dict.keys (doc.filter fun kv => matters env kv.1)).filter (relevant env) := by
  rw [cleaned_eq_filter nd, Dict.keys_filter doc (fun k => k ≠ .str py"1" && k ≠ .str py"65"), Dict.keys_filter,
    List.filter_filter, List.filter_filter]
  congr 1
  funext k
  cases k with
  | obj r => simp [relevant, matters]
  | str s =>
    by_cases h1 : s = py"1"
    · subst h1; cases h : isNumeric env py"1" <;> simp [relevant, matters, h]
    · by_cases h2 : s = py"65"
      · subst h2; cases h : isNumeric env py"65" <;> simp [relevant, matters, h]
      · cases h : isNumeric env s <;> simp [relevant, matters, h, h1, h2]

theorem lookup_matters {env : PyEnv} {a b : Doc} (hd : DigitsNumeric env)
    (h : ∀ k, matters env k = true → a.get? k = b.get? k) :
    lookup a py"h" = lookup b py"h" ∧ lookup a py"t" = lookup b py"t" ∧
      ∀ i, i ≠ 1 → i ≠ 65 → lookup a (natStr i) = lookup b (natStr i) := by
  refine ⟨h _ (by simp [matters]), h _ (by simp [matters]), ?_⟩
  intro i h1 h65
  apply h
  have hn : isNumeric env (natStr i) = true := by
    unfold isNumeric
    simp only [ne_eq, Bool.and_eq_true, List.all_eq_true, decide_eq_true_eq]
    refine ⟨natStr_ne_nil i, fun c hc => ?_⟩
    have := natStr_digits i c hc
    simp [isAsciiDigit] at this
    exact hd c this.1 this.2
  have e1 : natStr i ≠ py"1" := fun e => h1 (natStr_inj.1 (e.trans (show py"1" = natStr 1 by decide)))
  have e65 : natStr i ≠ py"65" := fun e => h65 (natStr_inj.1 (e.trans (show py"65" = natStr 65 by decide)))
  simp only [matters, hn, Bool.true_and, Bool.or_eq_true, Bool.and_eq_true, decide_eq_true_eq]
  right
  exact ⟨e1, e65⟩

/-- Dicts that agree, in order, on the keys that matter have the same outcome. -/
theorem encPure_filter {env : PyEnv} {spec : Spec} {a b : Doc} (hd : DigitsNumeric env) (na : a.NoDup) (nb : b.NoDup)
    (h : (a.filter fun kv => matters env kv.1) = b.filter fun kv => matters env kv.1) :
    encPure env spec (lookup a) (numsOf env a) = encPure env spec (lookup b) (numsOf env b) := by
  obtain ⟨hh, ht, hg⟩ := lookup_matters (a := a) (b := b) hd fun k hk => by
    rw [← Dict.get?_filter (d := a) hk, h, Dict.get?_filter hk]
  refine encPure_congr hh ht hg (.inl ?_)
  unfold numsOf
  exact numericKeys_congr (by rw [cleaned_relevant na, h, cleaned_relevant nb])

/-- Dicts that agree, in any order, on the keys that matter. -/
theorem encPure_perm {env : PyEnv} {spec : Spec} {a b : Doc} (hd : DigitsNumeric env) (na : a.NoDup) (nb : b.NoDup)
    (h : (a.filter fun kv => matters env kv.1).Perm (b.filter fun kv => matters env kv.1)) {ns : List Int}
    (hn : numsOf env a = .ok ns) :
    encPure env spec (lookup a) (numsOf env a) = encPure env spec (lookup b) (numsOf env b) := by
  have hget : ∀ k, matters env k = true → a.get? k = b.get? k := fun k hk => by
    rw [← Dict.get?_filter (d := a) hk, Dict.get?_perm (na.filter _) h, Dict.get?_filter hk]
  obtain ⟨hh, ht, hg⟩ := lookup_matters (a := a) (b := b) hd hget
  have hmem : ∀ k, relevant env k = true → (k ∈ (cleaned a).keys ↔ k ∈ (cleaned b).keys) := by
    intro k hk
    have e : ∀ d : Doc, d.NoDup → (k ∈ (cleaned d).keys ↔ k ∈ Dict.keys (d.filter fun kv => matters env kv.1)) := by
      intro d nd
      have := cleaned_relevant (env := env) nd
      have h2 : k ∈ (cleaned d).keys.filter (relevant env) ↔
          k ∈ (Dict.keys (d.filter fun kv => matters env kv.1)).filter (relevant env) := by rw [this]
      simpa [List.mem_filter, hk] using h2
    rw [e a na, e b nb]
    exact (h.map Prod.fst).mem_iff
  have hparse : ∀ k ∈ (cleaned b).keys, ∃ s, k = .str s ∧ (isNumeric env s = true → ∃ n, pyInt env s = some n) := by
    intro k hk
    cases k with
    | obj r =>
      have := parse_of_numericKeys hn (.obj r) ((hmem (.obj r) rfl).2 hk)
      obtain ⟨s, e, _⟩ := this
      cases e
    | str s =>
      refine ⟨s, rfl, fun hs => ?_⟩
      obtain ⟨s', e, h'⟩ := parse_of_numericKeys hn (.str s) ((hmem (.str s) hs).2 hk)
      cases e
      exact h' hs
  obtain ⟨ns', hn'⟩ := numericKeys_of_parse (all := (cleaned b).keys) hparse
  refine encPure_congr hh ht hg (.inr ⟨ns, ns', hn, hn', ?_⟩)
  exact numericKeys_mem_congr hn hn' (fun s hs => hmem (.str s) hs)

theorem outcome_eq (env : PyEnv) (spec : Spec) (doc : Doc) :
    outcome env spec doc = match encPure env spec (lookup doc) (numsOf env doc) with
      | (.ok s, enc, _) => .ok (s, enc)
      | (.error r, enc, _) => .error (excOf [] enc r) := by
  unfold outcome
  rw [encode_run]
  rcases encPure env spec (lookup doc) (numsOf env doc) with ⟨_ | _, _, _⟩
  · next r _ _ => cases r <;> rfl
  · rfl

theorem encode_ok_outcome {env : PyEnv} {spec : Spec} {doc : Doc} {s : Bytes} {enc : EncDoc} :
    (∃ d, encode env spec doc = (.ok (s, enc), d)) ↔ outcome env spec doc = .ok (s, enc) := by
  unfold outcome
  rcases encode env spec doc with ⟨_ | _, _⟩ <;> simp

end Iso8583
