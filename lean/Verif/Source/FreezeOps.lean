import Verif.Source.Freeze
/-!
# Objects nobody changes: the built-in operations
-/

namespace Iso8583.Src

variable {ε σ : Type} {K : Nat → Option Val} {h₀ : List Obj} {rt : Rt ε σ}

/-- Something holds of what stands for a reference. -/
theorem ref_cases (hK : Frozen K h₀ h₀) {P : Val → Prop} (l : Nat) (h1 : K l = none → P (.ref l)) (h2 : ∀ o, K l = some (.thing (some l) (thingOf o)) → h₀[l]? = some o → P (.thing (some l) (thingOf o)))
    (h3 : ∀ items, K l = some (.dict (fzItems K items)) → h₀[l]? = some (.dict items) → P (.dict (fzItems K items))) : P (fz K (.ref l)) := by
  rcases fz_ref hK l with ⟨h, h'⟩ | ⟨o, h, h', h''⟩ | ⟨items, h, h', h''⟩ <;> rw [h']
  · exact h1 h
  · exact h2 o h h''
  · exact h3 items h h''

theorem agree_id {α : Type} {f : α → α} {a : α} (h : f a = a) : Agree K h₀ f (pure a : M ε σ α) (pure a) := agree_pure h.symm

section
variable (hK : Frozen K h₀ h₀)
include hK

theorem truth_agree (v : Val) : Agree K h₀ id (truth v : M ε σ Bool) (truth (fz K v)) := by
  cases v with
  | ref l =>
    refine ref_cases hK (P := fun w => Agree K h₀ id _ (truth w)) l (fun h => ?_) (fun _ _ _ => agree_stuck _) (fun items h1 h2 => agree_stuck _)
    refine agree_bind (agree_deref h) fun o => ?_
    cases o with
    | dict items => exact agree_pure (by cases items <;> rfl)
    | _ => exact agree_pure rfl
  | none | bool | int | str | bytes => exact agree_pure rfl
  | _ => exact agree_stuck _

omit hK in
theorem map_int_fz (xs : List Int) : xs.map Val.int = fzs K (xs.map .int) := by
  rw [fzs_map, List.map_map]; rfl

theorem elements_agree (v : Val) : Agree K h₀ (fzs K) (elements rt v) (elements (fzRt K rt) (fz K v)) := by
  have hb : ∀ b : Bytes, (b.map fun x => Val.int x.toNat) = fzs K (b.map fun x => Val.int x.toNat) := fun b => by
    rw [fzs_map, List.map_map]; rfl
  cases v with
  | ref l =>
    refine ref_cases hK (P := fun w => Agree K h₀ (fzs K) _ (elements _ w)) l (fun h => ?_) (fun _ _ _ => agree_stuck _) (fun items h1 h2 => agree_stuck _)
    refine agree_bind (agree_deref h) fun o => ?_
    cases o with
    | set xs => exact agree_pure (map_int_fz _)
    | barray b => exact agree_pure (hb b)
    | _ => exact agree_stuck _
  | list | tuple => exact agree_pure rfl
  | bytes b | barray b => exact agree_pure (hb b)
  | _ => exact agree_stuck _

theorem plain_fz (v : Val) : (fz K v).plain = v.plain := by
  cases v with
  | ref l => exact ref_cases hK (P := fun w => w.plain = false) l (fun _ => rfl) (fun _ _ _ => rfl) fun _ _ _ => rfl
  | _ => rfl

theorem keyed_agree {α : Type} {f : α → α} (k : Val) {m m' : M ε σ α} (h : Agree K h₀ f m m') :
    Agree K h₀ f (keyed k m) (keyed (fz K k) m') := by
  unfold keyed
  rw [plain_fz hK]
  split
  · exact h
  · exact agree_stuck _

theorem memSet_agree (k : Val) (xs : List Int) : Agree K h₀ id (match k with | .int n => pure (decide (n ∈ xs)) | _ => stuck : M ε σ Bool)
    (match fz K k with | .int n => pure (decide (n ∈ xs)) | _ => stuck) := by
  cases hk : fz K k with
  | int n => cases fz_int hK hk; exact agree_pure rfl
  | _ => exact agree_stuck _

theorem contains_agree (k v : Val) : Agree K h₀ id (contains k v : M ε σ Bool) (contains (fz K k) (fz K v)) := by
  have hl : ∀ items, (lookup (fzItems K items) (fz K k)).isSome = (lookup items k).isSome := fun items => by
    rw [lookup_fz hK]; simp
  cases v with
  | ref l =>
    refine ref_cases hK (P := fun w => Agree K h₀ id _ (contains _ w)) l (fun h => ?_) (fun _ _ _ => agree_stuck _) (fun items h1 h2 => ?_)
    · refine agree_bind (agree_deref h) fun o => ?_
      cases o with
      | dict items => exact keyed_agree hK k (agree_pure (hl items))
      | set xs => exact memSet_agree hK k xs
      | _ => exact agree_stuck _
    · exact agree_frozen h1 h2 (keyed_agree hK k (agree_pure (hl items)))
  | dict items => exact keyed_agree hK k (agree_pure (hl items))
  | _ => exact agree_stuck _

theorem binop_agree (op : BinOp) (a b : Val) : Agree K h₀ (fz K) (binop op a b : M ε σ Val) (binop op (fz K a) (fz K b)) := by
  generalize ha : fz K a = a'
  generalize hb : fz K b = b'
  generalize hm : (binop op a b : M ε σ Val) = m
  unfold binop
  split <;> try exact agree_stuck _
  · subst hm; cases fz_int hK ha; cases fz_int hK hb; exact agree_pure rfl
  · subst hm; cases fz_str hK ha; cases fz_str hK hb; exact agree_pure rfl
  · subst hm; cases fz_bytes hK ha; cases fz_bytes hK hb; exact agree_pure rfl
  · next hn =>
    subst hm; cases fz_str hK ha
    have : ∀ s, (binop .add (.str s) b : M ε σ Val) = fail .TypeError := fun s => by
      cases b with
      | str t => exact absurd hb.symm (by intro h; exact hn _ h)
      | _ => rfl
    rw [this]; exact agree_fail _
  · next hn =>
    subst hm; cases fz_str hK hb
    have : ∀ s, (binop .add a (.str s) : M ε σ Val) = fail .TypeError := fun s => by
      cases a with
      | str t => exact absurd ha.symm (by intro h; exact hn _ h)
      | _ => rfl
    rw [this]; exact agree_fail _
  · subst hm; cases fz_int hK ha; cases fz_int hK hb; exact agree_pure rfl
  · subst hm; cases fz_int hK ha; cases fz_int hK hb; exact agree_pure rfl
  · subst hm; cases fz_str hK ha; cases fz_int hK hb; exact agree_pure rfl
  all_goals
    subst hm; cases fz_int hK ha; cases fz_int hK hb
    simp only [binop]
    first
    | (split <;> first | exact agree_stuck _ | exact agree_fail _ | exact agree_pure rfl)
    | exact agree_pure rfl

theorem augop_agree (op : BinOp) (a b : Val) : Agree K h₀ (fz K) (augop op a b : M ε σ Val) (augop op (fz K a) (fz K b)) := by
  generalize ha : fz K a = a'
  generalize hb : fz K b = b'
  generalize hm : (augop op a b : M ε σ Val) = m
  unfold augop
  split
  · obtain ⟨rfl, hl⟩ := fz_is_ref hK ha
    cases fz_bytes hK hb; subst hm
    refine agree_bind (agree_deref hl) fun o => ?_
    cases o with
    | barray x => exact agree_bind (agree_store hl (.barray _)) fun _ => agree_pure ha.symm
    | _ => exact agree_stuck _
  · exact agree_stuck _
  · next hl hn =>
    have : (augop op a b : M ε σ Val) = binop op a b ∨ (binop op a' b' : M ε σ Val) = stuck := by
      cases op with
      | add =>
        cases a with
        | ref l =>
          cases b with
          | bytes y =>
            right
            rcases fz_ref hK l with ⟨h, h'⟩ | ⟨_, h, h', _⟩ | ⟨items, h, h', h''⟩ <;> rw [h'] at ha <;> subst ha <;> subst hb <;> rfl
          | _ => left; rfl
        | list xs => exact absurd ha.symm (hl _)
        | _ => left; rfl
      | _ => cases a with
        | list xs => exact absurd ha.symm (hl _)
        | _ => left; rfl
    rcases this with h | h
    · rw [← hm, h, ← ha, ← hb]; exact binop_agree hK op a b
    · rw [h]; exact agree_stuck _

theorem cmpop_agree (op : CmpOp) (a b : Val) : Agree K h₀ id (cmpop op a b : M ε σ Bool) (cmpop op (fz K a) (fz K b)) := by
  generalize ha : fz K a = a'
  generalize hb : fz K b = b'
  generalize hm : (cmpop op a b : M ε σ Bool) = m
  unfold cmpop
  split <;> try exact agree_stuck _
  · subst hm ha hb; exact keyed_agree hK a (keyed_agree hK b (agree_pure (same_fz hK a b)))
  · subst hm ha hb; exact keyed_agree hK a (keyed_agree hK b (agree_pure (by rw [same_fz hK a b]; rfl)))
  · subst hm; cases fz_int hK ha; cases fz_int hK hb; exact agree_pure rfl
  · subst hm; cases fz_int hK ha; cases fz_int hK hb; exact agree_pure rfl
  · subst hm; cases fz_int hK ha; cases fz_int hK hb; exact agree_pure rfl
  · subst hm; cases fz_int hK ha; cases fz_int hK hb; exact agree_pure rfl
  · subst hm ha hb; exact contains_agree hK a b
  · subst hm ha hb; exact agree_bind (contains_agree hK a b) fun _ => agree_pure rfl
  · subst hm; cases fz_none hK hb
    refine agree_pure ?_
    subst ha
    cases a with
    | ref l => exact ref_cases hK (P := fun w => (match w with | .none => true | _ => false) = false) l (fun _ => rfl) (fun _ _ _ => rfl) fun _ _ _ => rfl
    | _ => rfl
  · subst hm; cases fz_none hK hb
    refine agree_pure ?_
    subst ha
    cases a with
    | ref l => exact ref_cases hK (P := fun w => (match w with | .none => false | _ => true) = true) l (fun _ => rfl) (fun _ _ _ => rfl) fun _ _ _ => rfl
    | _ => rfl

theorem asBound_fz (v : Val) : asBound (fz K v) = asBound v := by
  cases v with
  | ref l => exact ref_cases hK (P := fun w => asBound w = none) l (fun _ => rfl) (fun _ _ _ => rfl) fun _ _ _ => rfl
  | _ => rfl

theorem sliceVal_agree (v lo hi : Val) : Agree K h₀ (fz K) (sliceVal v lo hi : M ε σ Val) (sliceVal (fz K v) (fz K lo) (fz K hi)) := by
  unfold sliceVal
  rw [asBound_fz hK, asBound_fz hK]
  cases asBound lo with
  | none => exact agree_stuck _
  | some i =>
    cases asBound hi with
    | none => exact agree_stuck _
    | some j =>
      cases v with
      | ref l =>
        refine ref_cases hK (P := fun w => Agree K h₀ (fz K) _ (match w with
          | .str s => pure (.str (sliceOf s i j))
          | .bytes b => pure (.bytes (sliceOf b i j))
          | .barray b => pure (.barray (sliceOf b i j))
          | .ref l => do
            match ← deref l with
            | .barray b => pure (.barray (sliceOf b i j))
            | _ => stuck
          | _ => stuck)) l (fun h => ?_) (fun _ _ _ => agree_stuck _) (fun items h1 h2 => agree_stuck _)
        refine agree_bind (agree_deref h) fun o => ?_
        cases o with
        | barray b => exact agree_pure rfl
        | _ => exact agree_stuck _
      | str | bytes | barray => exact agree_pure rfl
      | _ => exact agree_stuck _

theorem getItem_agree (items : List (Val × Val)) (k : Val) : Agree K h₀ (fz K)
    (itemAt items k : M ε σ Val) (itemAt (fzItems K items) (fz K k)) := by
  refine keyed_agree hK k ?_
  rw [lookup_fz hK]
  cases lookup items k with
  | none => exact agree_raise rfl
  | some x => exact agree_pure rfl

theorem getByte_agree (b : Bytes) (k : Val) : Agree K h₀ (fz K)
    (match k with
      | .int n => match indexOf b.length n with
        | some i => pure (.int ((b[i]?.getD 0).toNat))
        | none => fail .IndexError
      | _ => stuck : M ε σ Val)
    (match fz K k with
      | .int n => match indexOf b.length n with
        | some i => pure (.int ((b[i]?.getD 0).toNat))
        | none => fail .IndexError
      | _ => stuck) := by
  cases hk : fz K k with
  | int n =>
    cases fz_int hK hk
    simp only
    cases indexOf b.length n with
    | none => exact agree_fail _
    | some i => exact agree_pure rfl
  | _ => exact agree_stuck _

theorem subVal_agree (v k : Val) : Agree K h₀ (fz K) (subVal v k : M ε σ Val) (subVal (fz K v) (fz K k)) := by
  cases v with
  | ref l =>
    refine ref_cases hK (P := fun w => Agree K h₀ (fz K) _ (subVal w _)) l (fun h => ?_) (fun _ _ _ => agree_stuck _) (fun items h1 h2 => ?_)
    · refine agree_bind (agree_deref h) fun o => ?_
      cases o with
      | dict items => exact getItem_agree hK items k
      | barray b => exact getByte_agree hK b k
      | _ => exact agree_stuck _
    · exact agree_frozen h1 h2 (getItem_agree hK items k)
  | dict items => exact getItem_agree hK items k
  | _ => exact agree_stuck _

theorem setByte_agree {l : Nat} (hl : K l = none) (b : Bytes) (k x : Val) : Agree K h₀ id
    (match k, x with
      | .int n, .int y => match indexOf b.length n with
        | some i => if 0 ≤ y ∧ y < 256 then store l (.barray (b.set i (UInt8.ofNat y.toNat))) else fail .ValueError
        | none => fail .IndexError
      | _, _ => stuck : M ε σ Unit)
    (match fz K k, fz K x with
      | .int n, .int y => match indexOf b.length n with
        | some i => if 0 ≤ y ∧ y < 256 then store l (.barray (b.set i (UInt8.ofNat y.toNat))) else fail .ValueError
        | none => fail .IndexError
      | _, _ => stuck) := by
  cases hk : fz K k with
  | int n =>
    cases fz_int hK hk
    cases hx : fz K x with
    | int y =>
      cases fz_int hK hx
      simp only
      cases indexOf b.length n with
      | none => exact agree_fail _
      | some i =>
        simp only
        split
        · exact agree_store hl (.barray _)
        · exact agree_fail _
    | _ => exact agree_stuck _
  | _ => exact agree_stuck _

theorem subSet_agree (v k x : Val) : Agree K h₀ id (subSet v k x : M ε σ Unit) (subSet (fz K v) (fz K k) (fz K x)) := by
  cases v with
  | ref l =>
    refine ref_cases hK (P := fun w => Agree K h₀ id _ (subSet w _ _)) l (fun h => ?_) (fun _ _ _ => agree_stuck _) (fun items h1 h2 => agree_stuck _)
    refine agree_bind (agree_deref h) fun o => ?_
    cases o with
    | dict items =>
      have := agree_store (ε := ε) (σ := σ) (h₀ := h₀) h (.dict (insert items k x))
      simp only [fzObj, ← insert_fz hK] at this
      exact keyed_agree hK k this
    | barray b => exact setByte_agree hK h b k x
    | _ => exact agree_stuck _
  | _ => exact agree_stuck _

omit hK in
theorem classVal_fz (o : Obj) : classVal (fzObj K o) = classVal o := by cases o <;> rfl

theorem attrVal_agree (v : Val) (a : Ident) : Agree K h₀ (fz K) (attrVal v a : M ε σ Val) (attrVal (fz K v) a) := by
  generalize hv : fz K v = v'
  generalize hm : (attrVal v a : M ε σ Val) = m
  unfold attrVal
  split <;> try exact agree_stuck _
  · subst hm; cases fz_glob hK hv; exact agree_pure rfl
  · subst hm; cases fz_glob hK hv
    have : ∀ x, (attrVal (.glob x) .__repr__ : M ε σ Val) = pure (.globAttr x .__repr__) := fun x => by simp [attrVal]
    rw [this]; exact agree_pure rfl
  · next c =>
    subst hm; cases fz_glob hK hv
    cases hc : className c with
    | none => exact agree_stuck _
    | some s =>
      rw [show (attrVal (.glob c) .__name__ : M ε σ Val) = pure (.str s) by simp [attrVal, hc]]
      exact agree_pure rfl
  · subst hm; cases fz_simple hK hv rfl; exact agree_pure rfl
  · subst hm; cases fz_simple hK hv rfl; exact agree_pure rfl
  · obtain ⟨rfl, hl⟩ := fz_is_ref hK hv
    subst hm
    refine agree_bind (agree_deref hl) fun o => ?_
    cases o <;> exact agree_pure rfl
  · subst hm; subst hv
    cases v with
    | ref l =>
      exact ref_cases hK (P := fun w => Agree K h₀ (fz K) (attrVal (.ref l) .__class__ : M ε σ Val) (match classOf w with | some c => pure (.cls c) | none => stuck)) l
        (fun _ => agree_stuck _) (fun _ _ _ => agree_stuck _) fun items h1 h2 => agree_frozen h1 h2 (agree_pure rfl)
    | str | bytes | obj | none | bool | int | barray | float | nan | inf | tuple | dict => exact agree_pure rfl
    | _ => exact agree_stuck _
  · next hn =>
    obtain ⟨rfl, hl⟩ := fz_is_ref hK hv
    subst hm
    rw [attrVal.eq_8 _ _ hn]
    refine agree_bind (agree_deref hl) fun o => ?_
    cases o with
    | inst c args attrs =>
      simp only [fzObj, attrGet_fz]
      cases attrGet attrs a with
      | none => exact agree_fail _
      | some x => exact agree_pure rfl
    | _ => exact agree_stuck _

theorem attrStore_agree (v : Val) (a : Ident) (x : Val) : Agree K h₀ id (attrStore v a x : M ε σ Unit) (attrStore (fz K v) a (fz K x)) := by
  cases v with
  | ref l =>
    refine ref_cases hK (P := fun w => Agree K h₀ id _ (attrStore w _ _)) l (fun h => ?_) (fun _ _ _ => agree_stuck _) (fun items h1 h2 => agree_stuck _)
    refine agree_bind (agree_deref h) fun o => ?_
    cases o with
    | inst c args attrs =>
      have := agree_store (ε := ε) (σ := σ) (h₀ := h₀) h (.inst c args (attrSet attrs a x))
      simp only [fzObj, ← attrSet_fz] at this
      exact this
    | _ => exact agree_stuck _
  | _ => exact agree_stuck _

/-! ## Text -/

omit hK in
theorem intText_agree (n : Int) : Agree K h₀ id (intText rt n) (intText (fzRt K rt) n) := by
  show Agree K h₀ id (intText rt n) (if formats rt.env n then pure (intStr n) else fail .ValueError)
  unfold intText
  split
  · exact agree_pure rfl
  · exact agree_fail _

theorem reprElem_agree (v : Val) : Agree K h₀ id (reprElem rt v) (reprElem (fzRt K rt) (fz K v)) := by
  cases v with
  | ref l => exact ref_cases hK (P := fun w => Agree K h₀ id _ (reprElem _ w)) l (fun _ => agree_stuck _) (fun _ _ _ => agree_stuck _) fun _ _ _ => agree_stuck _
  | int n => exact intText_agree n
  | obj | none | bool | bytes => exact agree_pure rfl
  | _ => exact agree_stuck _

theorem reprElems_agree : ∀ xs : List Val, Agree K h₀ id (reprElems rt xs) (reprElems (fzRt K rt) (fzs K xs))
  | [] => agree_pure rfl
  | v :: t => agree_bind (reprElem_agree hK v) fun _ => agree_bind (reprElems_agree t) fun _ => agree_pure rfl

theorem textOf_agree (v : Val) : Agree K h₀ id (textOf rt v) (textOf (fzRt K rt) (fz K v)) := by
  cases v with
  | ref l => exact ref_cases hK (P := fun w => Agree K h₀ id _ (textOf _ w)) l (fun _ => agree_stuck _) (fun _ _ _ => agree_stuck _) fun _ _ _ => agree_stuck _
  | str => exact agree_pure rfl
  | int n => exact intText_agree n
  | exn c a =>
    show Agree K h₀ id _ (textOf (fzRt K rt) (.exn c (fz K a)))
    by_cases hc : c = .KeyError
    · subst hc; exact agree_stuck _
    · cases ha : fz K a with
      | str t => cases fz_str hK ha; rw [textOf_exn hc, textOf_exn hc]; exact agree_pure rfl
      | _ => rw [show (textOf (fzRt K rt) (.exn c _) : M ε σ Str) = stuck by cases c <;> rfl]; exact agree_stuck _
  | list xs => exact agree_bind (reprElems_agree hK xs) fun _ => agree_pure rfl
  | _ => exact agree_stuck _

theorem reprVal_agree (v : Val) : Agree K h₀ id (reprVal rt v) (reprVal (fzRt K rt) (fz K v)) := by
  cases v with
  | ref l => exact ref_cases hK (P := fun w => Agree K h₀ id _ (reprVal _ w)) l (fun _ => agree_stuck _) (fun _ _ _ => agree_stuck _) fun _ _ _ => agree_stuck _
  | str | bytes | obj | none | bool | barray => exact agree_pure rfl
  | int n => exact intText_agree n
  | _ => exact agree_stuck _

omit hK in
theorem fzKws_cons {kws : List (Ident × Val)} {a : Ident} {v : Val} {t : List (Ident × Val)} (h : fzKws K kws = (a, v) :: t) :
    ∃ w u, kws = (a, w) :: u ∧ fz K w = v ∧ fzKws K u = t := by
  cases kws with
  | nil => cases h
  | cons p u =>
    obtain ⟨b, w⟩ := p
    simp only [fzKws, List.map_cons, List.cons.injEq, Prod.mk.injEq] at h
    obtain ⟨⟨rfl, h1⟩, h2⟩ := h
    exact ⟨w, u, rfl, h1, h2⟩

omit hK in
theorem fzKws_nil {kws : List (Ident × Val)} (h : fzKws K kws = []) : kws = [] := by
  cases kws with
  | nil => rfl
  | cons p u => cases h

omit hK in
theorem fzs_cons {vs : List Val} {v : Val} {t : List Val} (h : fzs K vs = v :: t) : ∃ w u, vs = w :: u ∧ fz K w = v ∧ fzs K u = t := by
  cases vs with
  | nil => cases h
  | cons w u => cases h; exact ⟨w, u, rfl, rfl, rfl⟩

omit hK in
theorem fzs_nil {vs : List Val} (h : fzs K vs = []) : vs = [] := by
  cases vs with
  | nil => rfl
  | cons w u => cases h

theorem formatVal_agree (t : Str) (args : List Val) (kws : List (Ident × Val)) :
    Agree K h₀ (fz K) (formatVal t args kws : M ε σ Val) (formatVal t (fzs K args) (fzKws K kws)) := by
  generalize ha : fzs K args = args'
  generalize hk : fzKws K kws = kws'
  generalize hm : (formatVal t args kws : M ε σ Val) = m
  unfold formatVal
  split
  · next ht =>
    subst ht
    split
    · obtain ⟨a, u, rfl, h1, h2⟩ := fzs_cons ha; cases fzs_nil h2; cases fz_int hK h1
      obtain ⟨b, u, rfl, h1, h2⟩ := fzKws_cons hk; cases fzKws_nil h2; cases fz_int hK h1
      subst hm; simp only [formatVal, if_pos]
      split
      · exact agree_stuck _
      · exact agree_pure rfl
    · exact agree_stuck _
  next h1 =>
  split
  · next ht =>
    subst ht
    split
    · cases fzs_nil ha
      obtain ⟨b, u, rfl, h1', h2⟩ := fzKws_cons hk; cases fzKws_nil h2; cases fz_str hK h1'
      subst hm; simp only [formatVal, if_neg h1, if_pos]
      exact agree_pure rfl
    · exact agree_stuck _
  next h2 =>
  split
  · next ht =>
    subst ht
    split
    · cases fzs_nil ha
      obtain ⟨b, u, rfl, h1', hu⟩ := fzKws_cons hk; cases fz_str hK h1'
      obtain ⟨c, w, rfl, h1', hw⟩ := fzKws_cons hu; cases fz_int hK h1'
      cases fzKws_nil hw
      subst hm; simp only [formatVal, if_neg h1, if_neg h2, if_pos]
      split
      · exact agree_stuck _
      · exact agree_pure rfl
    · exact agree_stuck _
  next h3 =>
  split
  · next ht =>
    subst ht
    split
    · obtain ⟨a, u, rfl, ha', hu⟩ := fzs_cons ha; cases fzs_nil hu; cases fz_str hK ha'
      cases fzKws_nil hk
      subst hm; simp only [formatVal, if_neg h1, if_neg h2, if_neg h3, if_pos]
      exact agree_pure rfl
    · exact agree_stuck _
  next h4 =>
  split
  · next ht =>
    subst ht
    split
    · obtain ⟨a, u, rfl, ha', hu⟩ := fzs_cons ha; cases fzs_nil hu; cases fz_str hK ha'
      cases fzKws_nil hk
      subst hm; simp only [formatVal, if_neg h1, if_neg h2, if_neg h3, if_neg h4, if_pos]
      exact agree_pure rfl
    · exact agree_stuck _
  · exact agree_stuck _

omit hK in
theorem codecFail_agree {α : Type} {f : α → α} (name text : Str) (e : CodecFail) :
    Agree K h₀ f (codecFail rt name text e : M ε σ α) (codecFail (fzRt K rt) name text e) := by
  cases e <;> exact agree_raise rfl

omit hK in
theorem encodeVal_agree (text name : Str) : Agree K h₀ (fz K) (encodeVal rt text name) (encodeVal (fzRt K rt) text name) := by
  show Agree K h₀ (fz K) _ (match strEncode rt.env name text with | .ok b => pure (.bytes b) | .error e => codecFail (fzRt K rt) name text e)
  unfold encodeVal
  cases strEncode rt.env name text with
  | ok b => exact agree_pure rfl
  | error e => exact codecFail_agree _ _ e

omit hK in
theorem decodeVal_agree (data : Bytes) (name : Str) : Agree K h₀ (fz K) (decodeVal rt data name) (decodeVal (fzRt K rt) data name) := by
  show Agree K h₀ (fz K) _ (match bytesDecode rt.env name data with | .ok t => pure (.str t) | .error e => codecFail (fzRt K rt) name (data.map UInt8.toNat) e)
  unfold decodeVal
  cases bytesDecode rt.env name data with
  | ok b => exact agree_pure rfl
  | error e => exact codecFail_agree _ _ e

/-! ## Built-in functions -/

theorem instanceOf_agree (v : Val) (c : Ident) : Agree K h₀ id (instanceOf v c : M ε σ Bool) (instanceOf (fz K v) c) := by
  cases v with
  | ref l =>
    refine ref_cases hK (P := fun w => Agree K h₀ id _ (instanceOf w _)) l (fun h => ?_) (fun _ _ _ => agree_stuck _) (fun items h1 h2 => agree_frozen h1 h2 (agree_pure rfl))
    refine agree_bind (agree_deref h) fun o => ?_
    cases o <;> exact agree_pure rfl
  | str | bytes | barray | dict | obj => exact agree_pure rfl
  | none | bool | int | float | nan | inf | list | tuple =>
    by_cases hc : c ∈ [Ident.str, .bytes, .bytearray, .dict, .set]
    · simp only [fz, instanceOf, if_pos hc]; exact agree_pure rfl
    · simp only [fz, instanceOf, if_neg hc]; exact agree_stuck _
  | _ => exact agree_stuck _

theorem instanceOfAny_agree (v : Val) : ∀ cs : List Val, Agree K h₀ id (instanceOfAny v cs : M ε σ Bool) (instanceOfAny (fz K v) (fzs K cs))
  | [] => agree_pure rfl
  | c :: t => by
    cases hc : fz K c with
    | glob x =>
      cases fz_glob hK hc
      refine agree_bind (instanceOf_agree hK v x) fun b => ?_
      cases b with
      | true => exact agree_pure rfl
      | false => exact instanceOfAny_agree v t
    | _ => rw [fzs, hc]; exact agree_stuck _

omit hK in
theorem thingOf_fz (o : Obj) : thingOf (fzObj K o) = thingOf o := by
  cases o <;> simp [fzObj, thingOf, fzItems_map]

omit hK in
theorem lenThing_agree (k : Thing) : Agree K h₀ (fz K) (lenThing k : M ε σ Val) (lenThing k) := by
  cases k with
  | unsized => exact agree_fail _
  | _ => exact agree_pure rfl

omit hK in
/-- Methods of texts only. -/
theorem otherMethod_agree (m : Ident) {c : M ε σ Val} (h : m = .encode ∨ m = .isnumeric → c = fail .AttributeError) : Agree K h₀ (fz K) c (otherMethod m) := by
  unfold otherMethod
  split
  · rw [h (.inl rfl)]; exact agree_fail _
  · rw [h (.inr rfl)]; exact agree_fail _
  · exact agree_stuck _

omit hK in
theorem a2bThing_agree (k : Thing) : Agree K h₀ (fz K) (a2bThing k : M ε σ Val) (a2bThing k) := by
  cases k with
  | bytes b =>
    show Agree K h₀ (fz K) (match a2bHex (b.map UInt8.toNat) with | some b => pure (.bytes b) | none => fail .ValueError) (match a2bHex (b.map UInt8.toNat) with | some b => pure (.bytes b) | none => fail .ValueError)
    cases a2bHex _ with
    | none => exact agree_fail _
    | some b => exact agree_pure rfl
  | _ => exact agree_fail _

theorem a2bVal_agree (v : Val) : Agree K h₀ (fz K) (a2bVal v : M ε σ Val) (a2bVal (fz K v)) := by
  cases v with
  | ref l =>
    refine ref_cases hK (P := fun w => Agree K h₀ (fz K) _ (a2bVal w)) l (fun h => ?_) (fun o h1 h2 => agree_thing h1 h2 (a2bThing_agree _))
      (fun items h1 h2 => agree_thing h1 h2 (agree_fail _))
    refine agree_bind (agree_deref h) fun o => ?_
    rw [thingOf_fz]
    exact a2bThing_agree _
  | str s =>
    show Agree K h₀ (fz K) (match a2bHex s with | some b => pure (.bytes b) | none => fail .ValueError) (match a2bHex s with | some b => pure (.bytes b) | none => fail .ValueError)
    cases a2bHex _ with
    | none => exact agree_fail _
    | some b => exact agree_pure rfl
  | bytes b => exact a2bThing_agree (.bytes b)
  | barray b => exact a2bThing_agree (.bytes b)
  | thing _ k => exact a2bThing_agree k
  | obj | list | tuple | dict | none | bool | int | float | nan | inf => exact agree_fail _
  | _ => exact agree_stuck _

theorem lenVal_agree (v : Val) : Agree K h₀ (fz K) (lenVal v : M ε σ Val) (lenVal (fz K v)) := by
  cases v with
  | ref l =>
    refine ref_cases hK (P := fun w => Agree K h₀ (fz K) _ (lenVal w)) l (fun h => ?_) (fun o h1 h2 => agree_thing h1 h2 (lenThing_agree _))
      (fun items h1 h2 => agree_thing h1 h2 (agree_pure (by simp [fz, fzItems_map])))
    refine agree_bind (agree_deref h) fun o => ?_
    rw [thingOf_fz]
    exact lenThing_agree _
  | thing _ k => exact lenThing_agree k
  | str | bytes | barray => exact agree_pure rfl
  | list | tuple => exact agree_pure (by simp [fz, fzs_map])
  | dict => exact agree_pure (by simp [fz, fzItems_map])
  | obj c r n => cases n with
    | none => exact agree_fail _
    | some n => exact agree_pure rfl
  | none | bool | int | float | nan | inf => exact agree_fail _
  | _ => exact agree_stuck _

theorem intVal_agree (v : Val) : Agree K h₀ (fz K) (intVal rt v) (intVal (fzRt K rt) (fz K v)) := by
  cases v with
  | ref l => exact ref_cases hK (P := fun w => Agree K h₀ (fz K) _ (intVal _ w)) l (fun _ => agree_stuck _) (fun _ _ _ => agree_stuck _) fun _ _ _ => agree_stuck _
  | int | float => exact agree_pure rfl
  | nan | inf | obj => exact agree_fail _
  | str s =>
    show Agree K h₀ (fz K) (match pyInt rt.env s with | some n => pure (.int n) | none => fail .ValueError)
      (match pyInt rt.env s with | some n => pure (.int n) | none => fail .ValueError)
    cases pyInt rt.env s with
    | none => exact agree_fail _
    | some n => exact agree_pure rfl
  | _ => exact agree_stuck _

theorem intVals_agree : ∀ xs : List Val, Agree K h₀ id (intVals rt xs) (intVals (fzRt K rt) (fzs K xs))
  | [] => agree_pure rfl
  | v :: t => agree_bind (intVal_agree hK v) fun w => by
    cases hw : fz K w with
    | int n => cases fz_int hK hw; exact agree_bind (intVals_agree t) fun _ => agree_pure rfl
    | _ => exact agree_stuck _

theorem typeVal_agree (v : Val) : Agree K h₀ (fz K) (typeVal v : M ε σ Val) (typeVal (fz K v)) := by
  cases v with
  | ref l =>
    refine ref_cases hK (P := fun w => Agree K h₀ (fz K) _ (typeVal w)) l (fun h => ?_) (fun _ _ _ => agree_stuck _) fun items h1 h2 => agree_frozen h1 h2 (agree_pure rfl)
    refine agree_bind (agree_deref h) fun o => ?_
    rw [classVal_fz]
    cases o <;> exact agree_pure rfl
  | str | bytes | obj | none | bool | int | barray | float | nan | inf | tuple | dict => exact agree_pure rfl
  | _ => exact agree_stuck _

omit hK in
theorem number_fz : ∀ (i : Nat) (xs : List Val), number i (fzs K xs) = fzs K (number i xs)
  | _, [] => rfl
  | i, v :: t => by simp only [fzs, number, fz, number_fz (i + 1) t]

omit hK in
theorem insertBy_zip (f : Val → Val) (x : Val × Int) : ∀ t : List (Val × Int),
    insertBy Prod.snd (f x.1, x.2) (t.map fun p => (f p.1, p.2)) = (insertBy Prod.snd x t).map fun p => (f p.1, p.2)
  | [] => rfl
  | y :: t => by
    simp only [List.map_cons, insertBy]
    split
    · rfl
    · simp only [List.map_cons, insertBy_zip f x t]

omit hK in
theorem sortedBy_zip (f : Val → Val) : ∀ t : List (Val × Int),
    sortedBy Prod.snd (t.map fun p => (f p.1, p.2)) = (sortedBy Prod.snd t).map fun p => (f p.1, p.2)
  | [] => rfl
  | x :: t => by simp only [List.map_cons, sortedBy, sortedBy_zip f t, insertBy_zip f x]

theorem builtin_agree (f : Ident) (args : List Val) (kws : List (Ident × Val)) :
    Agree K h₀ (fz K) (builtin rt f args kws) (builtin (fzRt K rt) f (fzs K args) (fzKws K kws)) := by
  generalize ha : fzs K args = args'
  generalize hk : fzKws K kws = kws'
  generalize hm : builtin rt f args kws = m
  have h1 : ∀ {v'}, args' = [v'] → kws' = [] → ∃ v, args = [v] ∧ kws = [] ∧ fz K v = v' := by
    intro v' h h'
    subst ha hk
    obtain ⟨v, u, rfl, h2, h3⟩ := fzs_cons h
    exact ⟨v, by rw [fzs_nil h3], fzKws_nil h', h2⟩
  have h2 : ∀ {v' w'}, args' = [v', w'] → kws' = [] → ∃ v w, args = [v, w] ∧ kws = [] ∧ fz K v = v' ∧ fz K w = w' := by
    intro v' w' h h'
    subst ha hk
    obtain ⟨v, u, rfl, h2, h3⟩ := fzs_cons h
    obtain ⟨w, u, rfl, h4, h5⟩ := fzs_cons h3
    exact ⟨v, w, by rw [fzs_nil h5], fzKws_nil h', h2, h4⟩
  unfold builtin
  split
  · obtain ⟨v, rfl, rfl, rfl⟩ := h1 rfl rfl; subst hm; exact lenVal_agree hK v
  · obtain ⟨v, w, rfl, rfl, rfl, hw⟩ := h2 rfl rfl; cases fz_glob hK hw; subst hm
    exact agree_bind (instanceOf_agree hK v _) fun _ => agree_pure rfl
  · obtain ⟨v, w, rfl, rfl, rfl, hw⟩ := h2 rfl rfl; obtain ⟨cs, rfl, rfl⟩ := fz_tuple hK hw; subst hm
    exact agree_bind (instanceOfAny_agree hK v cs) fun _ => agree_pure rfl
  · obtain ⟨v, rfl, rfl, hv⟩ := h1 rfl rfl; cases fz_str hK hv; subst hm; exact agree_pure rfl
  · obtain ⟨v, rfl, rfl, hv⟩ := h1 rfl rfl; cases fz_int hK hv; subst hm; exact agree_bind (intText_agree _) fun _ => agree_pure rfl
  · obtain ⟨v, rfl, rfl, rfl⟩ := h1 rfl rfl; subst hm; exact intVal_agree hK v
  · obtain ⟨v, w, rfl, rfl, hv, hw⟩ := h2 rfl rfl; cases fz_str hK hv; cases fz_int hK hw; subst hm
    show Agree K h₀ (fz K) (if _ = 10 then intVal rt (.str _) else stuck) _
    split
    · exact intVal_agree hK (.str _)
    · exact agree_stuck _
  · obtain ⟨v, rfl, rfl, rfl⟩ := h1 rfl rfl; subst hm; exact agree_bind (reprVal_agree hK v) fun _ => agree_pure rfl
  · obtain ⟨v, rfl, rfl, rfl⟩ := h1 rfl rfl; subst hm; exact typeVal_agree hK v
  · obtain ⟨v, rfl, rfl, hv⟩ := h1 rfl rfl; cases fz_bytes hK hv; subst hm; exact agree_pure rfl
  · obtain ⟨v, rfl, rfl, hv⟩ := h1 rfl rfl; cases fz_barray hK hv; subst hm; exact agree_pure rfl
  · obtain ⟨v, rfl, rfl, hv⟩ := h1 rfl rfl; obtain ⟨rfl, hl⟩ := fz_is_ref hK hv; subst hm
    refine agree_bind (agree_deref hl) fun o => ?_
    cases o with
    | barray b => exact agree_pure rfl
    | _ => exact agree_stuck _
  · obtain ⟨v, w, rfl, rfl, hv, hw⟩ := h2 rfl rfl; cases fz_str hK hv; cases fz_str hK hw; subst hm; exact encodeVal_agree _ _
  · cases fzs_nil ha; cases fzKws_nil hk; subst hm; exact agree_alloc (.barray [])
  · obtain ⟨v, rfl, rfl, hv⟩ := h1 rfl rfl; cases fz_bytes hK hv; subst hm; exact agree_alloc (.barray _)
  · cases fzs_nil ha; cases fzKws_nil hk; subst hm; exact agree_alloc (.set [])
  · obtain ⟨v, rfl, rfl, hv⟩ := h1 rfl rfl; obtain ⟨xs, rfl, rfl⟩ := fz_list hK hv; subst hm
    rw [ints_fz hK]
    show Agree K h₀ (fz K) (match ints xs with | some ns => alloc (.set (addAll [] ns)) | none => stuck) _
    cases ints xs with
    | none => exact agree_stuck _
    | some ns => exact agree_alloc (.set _)
  · obtain ⟨v, rfl, rfl, hv⟩ := h1 rfl rfl; obtain ⟨rfl, hl⟩ := fz_is_ref hK hv; subst hm
    refine agree_bind (agree_deref hl) fun o => ?_
    cases o with
    | set xs => exact agree_pure (by simp only [fz, ← map_int_fz]; rfl)
    | _ => exact agree_stuck _
  · obtain ⟨v, u, rfl, hv, hu⟩ := fzs_cons ha; cases fzs_nil hu
    obtain ⟨w, u, rfl, hw, hu⟩ := fzKws_cons hk; cases fzKws_nil hu
    obtain ⟨xs, rfl, rfl⟩ := fz_list hK hv; cases fz_glob hK hw; subst hm
    refine agree_bind (intVals_agree hK xs) fun ns => agree_pure ?_
    have hz : (xs.map (fz K)).zip ns = (xs.zip ns).map fun p => (fz K p.1, p.2) := by
      rw [List.zip_map_left]; rfl
    simp only [fz, fzs_map, id, hz, sortedBy_zip, List.map_map]
    rfl
  · obtain ⟨v, w, rfl, rfl, hv, hw⟩ := h2 rfl rfl; cases fz_int hK hv; cases fz_int hK hw; subst hm
    exact agree_pure (by simp only [fz, ← map_int_fz])
  · obtain ⟨v, u, rfl, hv, hu⟩ := fzs_cons ha
    obtain ⟨w, u, rfl, hw, hu⟩ := fzs_cons hu
    obtain ⟨x, u, rfl, hx, hu⟩ := fzs_cons hu
    cases fzs_nil hu; cases fzKws_nil hk; cases fz_int hK hv; cases fz_int hK hw; cases fz_int hK hx; subst hm
    show Agree K h₀ (fz K) (if _ ≤ 0 then stuck else pure (.list ((rangeList _ _ _).map .int))) _
    split
    · exact agree_stuck _
    · exact agree_pure (by simp only [fz, ← map_int_fz])
  · obtain ⟨v, rfl, rfl, rfl⟩ := h1 rfl rfl; subst hm
    exact agree_bind (elements_agree hK v) fun xs => agree_pure (by simp only [fz, number_fz])
  · obtain ⟨v, rfl, rfl, rfl⟩ := h1 rfl rfl; subst hm; exact agree_pure rfl
  · exact agree_stuck _

/-! ## Methods -/

theorem dictMethod_agree {l : Nat} (hl : K l = none) (items : List (Val × Val)) (m : Ident) (args : List Val) (kws : List (Ident × Val)) :
    Agree K h₀ (fz K) (dictMethod l items m args kws : M ε σ Val) (dictMethod l (fzItems K items) m (fzs K args) (fzKws K kws)) := by
  generalize ha : fzs K args = args'
  generalize hk : fzKws K kws = kws'
  generalize hm : (dictMethod l items m args kws : M ε σ Val) = c
  unfold dictMethod
  split
  · obtain ⟨k, u, rfl, rfl, hu⟩ := fzs_cons ha; obtain ⟨d, w, rfl, rfl, hw⟩ := fzs_cons hu; cases fzs_nil hw; cases fzKws_nil hk; subst hm
    exact keyed_agree hK k (agree_pure (by rw [lookup_fz hK]; cases lookup items k <;> rfl))
  · cases fzs_nil ha; cases fzKws_nil hk; subst hm
    exact agree_pure (by simp only [fz, fzs_map, fzItems_map, List.map_map]; rfl)
  · obtain ⟨k, u, rfl, rfl, hu⟩ := fzs_cons ha; obtain ⟨d, w, rfl, rfl, hw⟩ := fzs_cons hu; cases fzs_nil hw; cases fzKws_nil hk; subst hm
    refine keyed_agree hK k ?_
    rw [delete_fz hK]
    exact agree_bind (agree_store hl (.dict _)) fun _ => agree_pure (by rw [lookup_fz hK]; cases lookup items k <;> rfl)
  · subst hm; exact otherMethod_agree m (by rintro (rfl | rfl) <;> rfl)

theorem setMethod_agree {l : Nat} (hl : K l = none) (xs : List Int) (m : Ident) (args : List Val) (kws : List (Ident × Val)) :
    Agree K h₀ (fz K) (setMethod l xs m args kws : M ε σ Val) (setMethod l xs m (fzs K args) (fzKws K kws)) := by
  generalize ha : fzs K args = args'
  generalize hk : fzKws K kws = kws'
  generalize hm : (setMethod l xs m args kws : M ε σ Val) = c
  have h1 : ∀ {v'}, args' = [v'] → kws' = [] → ∃ v, args = [v] ∧ kws = [] ∧ fz K v = v' := by
    intro v' h h'
    subst ha hk
    obtain ⟨v, u, rfl, h2, h3⟩ := fzs_cons h
    exact ⟨v, by rw [fzs_nil h3], fzKws_nil h', h2⟩
  unfold setMethod
  split
  · obtain ⟨v, rfl, rfl, hv⟩ := h1 rfl rfl; obtain ⟨vs, rfl, rfl⟩ := fz_list hK hv; subst hm
    rw [ints_fz hK]; simp only [setMethod]
    cases ints vs with
    | none => exact agree_stuck _
    | some ns => exact agree_bind (agree_store hl (.set _)) fun _ => agree_pure rfl
  · obtain ⟨v, rfl, rfl, hv⟩ := h1 rfl rfl; cases fz_int hK hv; subst hm
    exact agree_bind (agree_store hl (.set _)) fun _ => agree_pure rfl
  · obtain ⟨v, rfl, rfl, hv⟩ := h1 rfl rfl; cases fz_int hK hv; subst hm
    simp only [setMethod]
    split
    · exact agree_bind (agree_store hl (.set _)) fun _ => agree_pure rfl
    · exact agree_raise rfl
  · obtain ⟨v, rfl, rfl, hv⟩ := h1 rfl rfl; obtain ⟨vs, rfl, rfl⟩ := fz_list hK hv; subst hm
    rw [ints_fz hK]; simp only [setMethod]
    cases ints vs with
    | none => exact agree_stuck _
    | some ns => exact agree_alloc (.set _)
  · obtain ⟨v, rfl, rfl, hv⟩ := h1 rfl rfl; obtain ⟨vs, rfl, rfl⟩ := fz_list hK hv; subst hm
    rw [ints_fz hK]; simp only [setMethod]
    cases ints vs with
    | none => exact agree_stuck _
    | some ns => exact agree_alloc (.set _)
  · obtain ⟨v, rfl, rfl, hv⟩ := h1 rfl rfl; obtain ⟨vs, rfl, rfl⟩ := fz_list hK hv; subst hm
    rw [ints_fz hK]; simp only [setMethod]
    cases ints vs with
    | none => exact agree_stuck _
    | some ns => exact agree_pure rfl
  · subst hm; exact otherMethod_agree m (by rintro (rfl | rfl) <;> rfl)

theorem objMethod_agree {l : Nat} (hl : K l = none) (m : Ident) (args : List Val) (kws : List (Ident × Val)) :
    Agree K h₀ (fz K) (objMethod l m args kws : M ε σ Val) (objMethod l m (fzs K args) (fzKws K kws)) := by
  refine agree_bind (agree_deref hl) fun o => ?_
  cases o with
  | dict items => exact dictMethod_agree hK hl items m args kws
  | set xs => exact setMethod_agree hK hl xs m args kws
  | inst => exact otherMethod_agree m (by rintro (rfl | rfl) <;> rfl)
  | barray b =>
    show Agree K h₀ (fz K) (barrayMethod b m args kws) (barrayMethod b m (fzs K args) (fzKws K kws))
    generalize ha : fzs K args = args'
    generalize hk : fzKws K kws = kws'
    generalize hm : (barrayMethod b m args kws : M ε σ Val) = c
    unfold barrayMethod
    split
    · cases fzs_nil ha; cases fzKws_nil hk; subst hm; exact agree_pure rfl
    · subst hm; exact otherMethod_agree m (by rintro (rfl | rfl) <;> rfl)

omit hK in
theorem fzs_one {args : List Val} {v'} (h : fzs K args = [v']) : ∃ v, args = [v] ∧ fz K v = v' := by
  obtain ⟨v, u, rfl, h2, h3⟩ := fzs_cons h
  exact ⟨v, by rw [fzs_nil h3], h2⟩

omit hK in
theorem fzs_two {args : List Val} {v' w'} (h : fzs K args = [v', w']) :
    ∃ v w, args = [v, w] ∧ fz K v = v' ∧ fz K w = w' := by
  obtain ⟨v, u, rfl, h2, h3⟩ := fzs_cons h
  obtain ⟨w, u, rfl, h4, h5⟩ := fzs_cons h3
  exact ⟨v, w, by rw [fzs_nil h5], h2, h4⟩

theorem fzKws_signed {kws : List (Ident × Val)} (h : fzKws K kws = [(.signed, .bool false)]) :
    kws = [(.signed, .bool false)] := by
  obtain ⟨w, u, rfl, hw, hu⟩ := fzKws_cons h
  cases fzKws_nil hu; cases fz_bool hK hw; rfl

theorem classMethod_agree (x m : Ident) (args : List Val) (kws : List (Ident × Val)) :
    Agree (ε := ε) (σ := σ) K h₀ (fz K) (classMethod x m args kws) (classMethod x m (fzs K args) (fzKws K kws)) := by
  generalize ha : fzs K args = args'
  generalize hk : fzKws K kws = kws'
  generalize hm : (classMethod x m args kws : M ε σ Val) = c
  have h1 : ∀ {v'}, args' = [v'] → kws' = [] → ∃ v, args = [v] ∧ kws = [] ∧ fz K v = v' := by
    intro v' h h'
    subst ha hk
    obtain ⟨v, rfl, h2⟩ := fzs_one h
    exact ⟨v, rfl, fzKws_nil h', h2⟩
  have h2 : ∀ {v' w'}, args' = [v', w'] → ∃ v w, args = [v, w] ∧ fz K v = v' ∧ fz K w = w' := by
    intro v' w' h
    subst ha
    exact fzs_two h
  have hsigned : kws' = [(.signed, .bool false)] → kws = [(.signed, .bool false)] := by
    intro h
    subst hk
    exact fzKws_signed hK h
  unfold classMethod
  split
  · obtain ⟨a, rfl, rfl, h⟩ := h1 rfl rfl; cases fz_str hK h; subst hm
    show Agree K h₀ (fz K) (match fromHex _ with | some b => pure (.bytes b) | none => fail .ValueError) (match fromHex _ with | some b => pure (.bytes b) | none => fail .ValueError)
    cases fromHex _ with
    | none => exact agree_fail _
    | some b => exact agree_pure rfl
  · obtain ⟨a, b, rfl, ha, hb⟩ := h2 rfl; cases fz_bytes hK ha; cases fz_str hK hb; cases hsigned rfl; subst hm
    show Agree K h₀ (fz K) (if _ = _ then _ else _) _
    split
    · exact agree_pure rfl
    · exact agree_stuck _
  · obtain ⟨a, b, rfl, ha, hb⟩ := h2 rfl; cases fz_barray hK ha; cases fz_str hK hb; cases hsigned rfl; subst hm
    show Agree K h₀ (fz K) (if _ = _ then _ else _) _
    split
    · exact agree_pure rfl
    · exact agree_stuck _
  · obtain ⟨a, rfl, rfl, rfl⟩ := h1 rfl rfl; subst hm; exact a2bVal_agree hK a
  · obtain ⟨a, x, rfl, hr, rfl⟩ := h2 rfl; obtain ⟨rfl, hl⟩ := fz_is_ref hK hr; cases fzKws_nil hk; subst hm
    refine agree_bind (agree_deref hl) fun o => ?_
    cases o with
    | inst c args attrs => exact agree_bind (agree_store hl (.inst c [x] attrs)) fun _ => agree_pure rfl
    | _ => exact agree_stuck _
  · exact agree_stuck _

theorem strMethod_agree (s : Str) (m : Ident) (args : List Val) (kws : List (Ident × Val)) :
    Agree K h₀ (fz K) (strMethod rt s m args kws) (strMethod (fzRt K rt) s m (fzs K args) (fzKws K kws)) := by
  generalize ha : fzs K args = args'
  generalize hk : fzKws K kws = kws'
  generalize hm : strMethod rt s m args kws = c
  unfold strMethod
  split
  · cases fzs_nil ha; cases fzKws_nil hk; subst hm
    show Agree K h₀ (fz K) (if asciiText s then pure (.str (upperAscii s)) else stuck) _
    split
    · exact agree_pure rfl
    · exact agree_stuck _
  · cases fzs_nil ha; cases fzKws_nil hk; subst hm; exact agree_pure rfl
  · obtain ⟨a, rfl, h⟩ := fzs_one ha; cases fzKws_nil hk; cases fz_str hK h; subst hm; exact encodeVal_agree _ _
  · subst ha hk hm; exact formatVal_agree hK _ args kws
  · exact agree_stuck _

theorem bytesMethod_agree (s : Bytes) (m : Ident) (args : List Val) (kws : List (Ident × Val)) :
    Agree K h₀ (fz K) (bytesMethod rt s m args kws) (bytesMethod (fzRt K rt) s m (fzs K args) (fzKws K kws)) := by
  generalize ha : fzs K args = args'
  generalize hk : fzKws K kws = kws'
  generalize hm : bytesMethod rt s m args kws = c
  unfold bytesMethod
  split
  · cases fzs_nil ha; cases fzKws_nil hk; subst hm; exact agree_pure rfl
  · obtain ⟨a, rfl, h⟩ := fzs_one ha; cases fzKws_nil hk; cases fz_str hK h; subst hm; exact decodeVal_agree _ _
  · subst hm; exact otherMethod_agree m (by rintro (rfl | rfl) <;> rfl)

theorem intMethod_agree (n : Int) (m : Ident) (args : List Val) (kws : List (Ident × Val)) :
    Agree (ε := ε) (σ := σ) K h₀ (fz K) (intMethod n m args kws) (intMethod n m (fzs K args) (fzKws K kws)) := by
  generalize ha : fzs K args = args'
  generalize hk : fzKws K kws = kws'
  generalize hm : (intMethod n m args kws : M ε σ Val) = c
  have h2 : ∀ {v' w'}, args' = [v', w'] → ∃ v w, args = [v, w] ∧ fz K v = v' ∧ fz K w = w' := by
    intro v' w' h
    subst ha
    exact fzs_two h
  have hsigned : kws' = [(.signed, .bool false)] → kws = [(.signed, .bool false)] := by
    intro h
    subst hk
    exact fzKws_signed hK h
  unfold intMethod
  split
  · obtain ⟨a, b, rfl, ha, hb⟩ := h2 rfl; cases fz_int hK ha; cases fz_str hK hb; cases hsigned rfl; subst hm
    show Agree K h₀ (fz K) (if _ ∧ _ ∧ _ then match toBytesBE _ _ with | some b => pure (.bytes b) | none => fail .OverflowError else stuck) _
    split
    · cases toBytesBE _ _ with
      | none => exact agree_fail _
      | some b => exact agree_pure rfl
    · exact agree_stuck _
  · subst hm; exact otherMethod_agree m (by rintro (rfl | rfl) <;> rfl)

theorem itemsMethod_agree (items : List (Val × Val)) (m : Ident) (args : List Val) (kws : List (Ident × Val)) :
    Agree (ε := ε) (σ := σ) K h₀ (fz K) (itemsMethod items m args kws)
      (itemsMethod (fzItems K items) m (fzs K args) (fzKws K kws)) := by
  generalize ha : fzs K args = args'
  generalize hk : fzKws K kws = kws'
  generalize hm : (itemsMethod items m args kws : M ε σ Val) = c
  unfold itemsMethod
  split
  · obtain ⟨k, d, rfl, rfl, rfl⟩ := fzs_two ha; cases fzKws_nil hk; subst hm
    exact keyed_agree hK k (agree_pure (by rw [lookup_fz hK]; cases lookup items k <;> rfl))
  · cases fzs_nil ha; cases fzKws_nil hk; subst hm
    exact agree_pure (by simp only [fz, fzs_map, fzItems_map, List.map_map]; rfl)
  · subst hm; exact otherMethod_agree m (by rintro (rfl | rfl) <;> rfl)

/-- The methods of a frozen dict are those of the dict in the heap. -/
theorem dictMethod_items {items : List (Val × Val)} {l : Nat} (hl : (K l) = some (.dict (fzItems K items)))
    (hl' : h₀[l]? = some (.dict items)) (m : Ident) (args : List Val) (kws : List (Ident × Val)) :
    Agree (ε := ε) (σ := σ) K h₀ (fz K) (objMethod l m args kws)
      (itemsMethod (fzItems K items) m (fzs K args) (fzKws K kws)) := by
  generalize ha : fzs K args = args'
  generalize hk : fzKws K kws = kws'
  unfold itemsMethod
  split
  · obtain ⟨k, d, rfl, rfl, rfl⟩ := fzs_two ha; cases fzKws_nil hk
    refine agree_frozen hl hl' (keyed_agree hK k (agree_pure ?_))
    rw [lookup_fz hK]; cases lookup items k <;> rfl
  · cases fzs_nil ha; cases fzKws_nil hk
    refine agree_frozen hl hl' (agree_pure ?_)
    simp only [fz, fzs_map, fzItems_map, List.map_map]; rfl
  · refine agree_thing hl hl' (otherMethod_agree m ?_)
    rintro (rfl | rfl) <;> rfl

omit hK in
theorem writeText_agree (b : Bool) (t : Str) : Agree K h₀ (fz K) (writeText rt b t) (writeText (fzRt K rt) b t) := by
  intro st hs
  right
  simp only [writeText, show (fzSt K st).world = st.world from rfl, show (fzRt K rt).write = rt.write from rfl]
  rcases rt.write _ _ st.world with ⟨r, w⟩
  cases r <;> exact ⟨rfl, hs⟩

theorem streamMethod_agree (b : Bool) (m : Ident) (args : List Val) (kws : List (Ident × Val)) :
    Agree K h₀ (fz K) (streamMethod rt b m args kws) (streamMethod (fzRt K rt) b m (fzs K args) (fzKws K kws)) := by
  generalize ha : fzs K args = args'
  generalize hk : fzKws K kws = kws'
  generalize hm : streamMethod rt b m args kws = c
  unfold streamMethod
  split
  · obtain ⟨a, rfl, h⟩ := fzs_one ha; cases fzKws_nil hk; cases fz_str hK h; subst hm
    exact writeText_agree b _
  · exact agree_stuck _

theorem textMethod_agree (v : Val) : Agree K h₀ id (textMethod v : M ε σ Unit) (textMethod (fz K v)) := by
  cases v with
  | ref l =>
    refine ref_cases hK (P := fun w => Agree K h₀ id _ (textMethod w)) l (fun h => ?_) (fun o h1 h2 => ?_) (fun items h1 h2 => ?_)
    · exact agree_bind (agree_deref h) fun _ => agree_fail _
    · exact agree_thing h1 h2 (agree_fail _)
    · exact agree_frozen h1 h2 (agree_fail _)
  | bytes | barray | int | obj | thing | list | tuple | none | bool | float | nan | inf | dict => exact agree_fail _
  | _ => exact agree_pure rfl

theorem findMethod_agree (v : Val) (m : Ident) : Agree K h₀ id (findMethod v m : M ε σ Unit) (findMethod (fz K v) m) := by
  unfold findMethod
  split
  · exact textMethod_agree hK v
  · exact textMethod_agree hK v
  · exact agree_pure rfl

omit hK in
theorem objHas_fz (o : Obj) (m : Ident) : objHas (fzObj K o) m = objHas o m := by cases o <;> rfl

/-- What stands for an object has no other methods. -/
theorem hasMethod_fz (h : List Obj) (hh : Frozen K h₀ h) (v : Val) (m : Ident)
    (hm : hasMethod (h.map (fzObj K)) (fz K v) m = true) : hasMethod h v m = true := by
  cases v with
  | ref l =>
    rcases fz_ref hK l with ⟨h1, h2⟩ | ⟨o, h1, h2, h3⟩ | ⟨items, h1, h2, h3⟩ <;> rw [h2] at hm
    · simp only [hasMethod, List.getElem?_map] at hm ⊢
      cases ho : h[l]? with
      | none => rw [ho] at hm; exact hm
      | some o => rw [ho] at hm; simpa only [Option.map_some, objHas_fz] using hm
    · exact absurd hm (by simp [hasMethod])
    · obtain ⟨o, h4, h5, -⟩ := hh l _ h1
      rw [h3] at h4; cases h4
      simp only [hasMethod, h5, objHas] at hm ⊢
      rw [hm]; rfl
  | glob x => cases x <;> exact hm
  | _ => exact hm

theorem guarded_agree {α : Type} {f : α → α} (v : Val) (m : Ident) {c c' : M ε σ α} (h : Agree K h₀ f c c') :
    Agree K h₀ f (guarded v m c) (guarded (fz K v) m c') := by
  intro st hs
  simp only [guarded]
  rcases h st hs with h1 | ⟨h1, h2⟩
  · left
    rcases hc : c' (fzSt K st) with ⟨r, st'⟩
    rw [hc] at h1; simp only at h1; subst h1
    simp only
    split <;> rfl
  · rcases hc : c st with ⟨r, st'⟩
    rw [hc] at h1 h2
    rw [h1]
    cases r with
    | ok a => exact .inr ⟨rfl, h2⟩
    | error e =>
      simp only [Except.map, Except.mapError]
      by_cases hm : hasMethod (fzSt K st).heap (fz K v) m = true
      · rw [if_pos hm, if_pos (hasMethod_fz hK st.heap hs v m hm)]
        exact .inr ⟨rfl, h2⟩
      · rw [if_neg hm]; exact .inl rfl

theorem method_agree (v : Val) (m : Ident) (args : List Val) (kws : List (Ident × Val)) :
    Agree K h₀ (fz K) (method rt v m args kws) (method (fzRt K rt) (fz K v) m (fzs K args) (fzKws K kws)) := by
  generalize hv : fz K v = v'
  generalize hm : method rt v m args kws = c
  cases v' with
  | glob x => cases fz_glob hK hv; subst hm; exact classMethod_agree hK x m args kws
  | str x => cases fz_str hK hv; subst hm; exact strMethod_agree hK x m args kws
  | bytes x => cases fz_bytes hK hv; subst hm; exact bytesMethod_agree hK x m args kws
  | barray x => cases fz_barray hK hv; subst hm; exact bytesMethod_agree hK x m args kws
  | int x => cases fz_int hK hv; subst hm; exact intMethod_agree hK x m args kws
  | obj a b n =>
    cases fz_obj hK hv; subst hm
    exact otherMethod_agree m (by rintro (rfl | rfl) <;> rfl)
  | dict items' =>
    obtain ⟨items, rfl, rfl | ⟨l, rfl, hl, hl'⟩⟩ := fz_dict hK hv
    · subst hm; exact itemsMethod_agree hK items m args kws
    · subst hm; exact dictMethod_items hK hl' hl m args kws
  | stream b => cases fz_stream hK hv; subst hm; exact streamMethod_agree hK b m args kws
  | ref l =>
    obtain ⟨rfl, hl⟩ := fz_is_ref hK hv
    subst hm
    exact objMethod_agree hK hl m args kws
  | none => cases fz_none hK hv; subst hm; exact otherMethod_agree m (by rintro (rfl | rfl) <;> rfl)
  | bool => cases fz_bool hK hv; subst hm; exact otherMethod_agree m (by rintro (rfl | rfl) <;> rfl)
  | float | nan | inf => cases fz_simple hK hv rfl; subst hm; exact otherMethod_agree m (by rintro (rfl | rfl) <;> rfl)
  | list => obtain ⟨_, rfl, -⟩ := fz_list hK hv; subst hm; exact otherMethod_agree m (by rintro (rfl | rfl) <;> rfl)
  | tuple => obtain ⟨_, rfl, -⟩ := fz_tuple hK hv; subst hm; exact otherMethod_agree m (by rintro (rfl | rfl) <;> rfl)
  | thing i k =>
    rcases fz_thing hK hv with ⟨-, _, rfl⟩ | ⟨l, o, rfl, -, -, h1, h2⟩
    · subst hm; exact otherMethod_agree m (by rintro (rfl | rfl) <;> rfl)
    · subst hm
      refine agree_thing h1 h2 (otherMethod_agree m ?_)
      cases o <;> rintro (rfl | rfl) <;> rfl
  | _ => exact agree_stuck _

end

end Iso8583.Src
