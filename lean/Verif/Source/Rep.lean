import Verif.Source.Run
import Verif.Source.Code
import Verif.Lemmas.Dict
import Verif.Spec.Partial
/-!
# Documents and specifications as Python objects
-/

namespace Iso8583.Src

variable {ε σ : Type} {rt : Rt ε σ}

/-! ## Specifications -/

/-- `v` is a mapping with the properties of `fs`; it may have more. -/
def FieldVal (v : Val) (fs : FieldSpec) : Prop :=
  ∃ items, v = .dict items ∧
    lookup items (.str py"data_enc") = some (.str fs.dataEnc) ∧
    lookup items (.str py"len_enc") = some (.str fs.lenEnc) ∧
    lookup items (.str py"len_type") = some (.int fs.lenType) ∧
    lookup items (.str py"max_len") = some (.int fs.maxLen) ∧
    lookup items (.str py"len_count") = fs.lenCount.map .str ∧
    lookup items (.str py"left_pad") = fs.leftPad.map .str ∧
    lookup items (.str py"right_pad") = fs.rightPad.map .str ∧
    lookup items (.str py"desc") = fs.desc.map .str

/-- `v` is a mapping from the field keys of `spec` to field specifications; it may have other keys
that are not strings. -/
def SpecVal (v : Val) (spec : Spec) : Prop :=
  ∃ items, v = .dict items ∧ ∀ k, match spec.get? k with
    | none => lookup items (.str k) = none
    | some fs => ∃ fv, lookup items (.str k) = some fv ∧ FieldVal fv fs

/-- `v` is a mapping with the properties of `f`, and without those `f` lacks; it may have more. -/
def PFieldVal (v : Val) (f : PartialField) : Prop :=
  ∃ items, v = .dict items ∧
    lookup items (.str py"data_enc") = f.dataEnc.map .str ∧
    lookup items (.str py"len_enc") = f.lenEnc.map .str ∧
    lookup items (.str py"len_type") = f.lenType.map (fun n => .int n) ∧
    lookup items (.str py"max_len") = f.maxLen.map .int ∧
    lookup items (.str py"len_count") = f.lenCount.map .str ∧
    lookup items (.str py"left_pad") = f.leftPad.map .str ∧
    lookup items (.str py"right_pad") = f.rightPad.map .str ∧
    lookup items (.str py"desc") = f.desc.map .str

/-- As `SpecVal`, for a specification with missing properties. -/
def PSpecVal (v : Val) (spec : PartialSpec) : Prop :=
  ∃ items, v = .dict items ∧ ∀ k, match spec.get? k with
    | none => lookup items (.str k) = none
    | some f => ∃ fv, lookup items (.str k) = some fv ∧ PFieldVal fv f

/-- A field specification that has all mandatory properties. -/
def full (fs : FieldSpec) : PartialField where
  dataEnc := some fs.dataEnc
  lenEnc := some fs.lenEnc
  lenType := some fs.lenType
  maxLen := some fs.maxLen
  lenCount := fs.lenCount
  leftPad := fs.leftPad
  rightPad := fs.rightPad
  desc := fs.desc

@[inherit_doc full]
def fullSpec (spec : Spec) : PartialSpec := spec.map fun p => (p.1, full p.2)

theorem fullSpec_get (spec : Spec) (k : Str) : (fullSpec spec).get? k = (spec.get? k).map full := by
  induction spec with
  | nil => rfl
  | cons p t ih =>
    simp only [fullSpec, List.map_cons, Dict.get?] at ih ⊢
    split
    · rfl
    · exact ih

theorem described_get (raw : PartialSpec) (k : Str) : raw.described.get? k = (raw.get? k).map PartialField.seen := by
  induction raw with
  | nil => rfl
  | cons p t ih =>
    simp only [PartialSpec.described, List.map_cons, Dict.get?] at ih ⊢
    split
    · rfl
    · exact ih

theorem described_full (spec : Spec) : (fullSpec spec).described = spec := by
  induction spec with
  | nil => rfl
  | cons p t ih =>
    simp only [PartialSpec.described, fullSpec, List.map_cons] at ih ⊢
    rw [ih]
    rfl

theorem fullSpec_filledBy (spec : Spec) : (fullSpec spec).FilledBy spec := by
  intro k
  rw [fullSpec_get]
  cases h : spec.get? k with
  | none => exact .inl ⟨rfl, rfl⟩
  | some fs => exact .inr ⟨_, fs, rfl, rfl, by simp [PartialField.FilledBy, full]⟩

theorem fullSpec_lacks {spec : Spec} {k p : Str} : ¬ (fullSpec spec).Lacks k p := by
  rintro ⟨f, h1, h2⟩
  rw [fullSpec_get] at h1
  obtain ⟨fs, -, rfl⟩ := Option.map_eq_some_iff.1 h1
  simp [PartialField.Lacks, full] at h2

theorem SpecVal.full {v : Val} {spec : Spec} (h : SpecVal v spec) : PSpecVal v (fullSpec spec) := by
  obtain ⟨items, rfl, h⟩ := h
  refine ⟨items, rfl, fun k => ?_⟩
  have := h k
  rw [fullSpec_get]
  cases hs : spec.get? k with
  | none => rw [hs] at this; exact this
  | some fs => rw [hs] at this; exact this

/-- `v` is a mapping in which `name` has this value, or none. -/
def PropVal (v : Val) (name : Str) (x : Option Val) : Prop := ∃ items, v = .dict items ∧ lookup items (.str name) = x

/-- `v` is a bytes or bytearray object with these bytes. -/
def BytesVal (v : Val) (b : Bytes) : Prop := v = .bytes b ∨ v = .barray b

/-- `v` is a bytes or bytearray object with these bytes; a bytearray may be in the heap. -/
def BytesIn (h : List Obj) (v : Val) (b : Bytes) : Prop := BytesVal v b ∨ ∃ l : Nat, v = .ref l ∧ h[l]? = some (.barray b)

/-- The same, when the objects `F` are in the heap. -/
def BytesAt (F : List (Nat × Obj)) (v : Val) (b : Bytes) : Prop := BytesVal v b ∨ ∃ l : Nat, v = .ref l ∧ (l, Obj.barray b) ∈ F

theorem BytesAt.cons {F : List (Nat × Obj)} {v : Val} {b : Bytes} (hb : BytesAt F v b) (p : Nat × Obj) : BytesAt (p :: F) v b :=
  hb.imp id fun ⟨l, h1, h2⟩ => ⟨l, h1, by simp [h2]⟩

/-! ## Documents -/

/-- A decoded dict. -/
def decItems (d : DecDoc) : List (Val × Val) := d.map fun p => (.str p.1, .str p.2)

/-- An entry of an encoded dict. -/
def entryItems (e : EncEntry) : List (Val × Val) := [(.str py"len", .bytes e.len), (.str py"data", .bytes e.data)]

/-- An encoded dict; `loc` says where its entries are. -/
def encItems (loc : Str → Nat) (d : EncDoc) : List (Val × Val) := d.map fun p => (.str p.1, .ref (loc p.1))

/-- The heap `h` has a dict with items `dec` at `dd`, the encoded dict `enc` at `de`, and the objects
`F` elsewhere, none of them shared. -/
structure Rep (h : List Obj) (dd de : Nat) (dec : List (Val × Val)) (enc : EncDoc) (F : List (Nat × Obj)) : Prop where
  hdec  : h[dd]? = some (.dict dec)
  henc  : ∃ loc : Str → Nat, h[de]? = some (.dict (encItems loc enc)) ∧
    (∀ k e, enc.get? k = some e → h[loc k]? = some (.dict (entryItems e)) ∧ loc k ≠ dd ∧ loc k ≠ de ∧ ∀ p ∈ F, p.1 ≠ loc k) ∧
    ∀ k k' e e', enc.get? k = some e → enc.get? k' = some e' → loc k = loc k' → k = k'
  ne    : dd ≠ de
  nodup : enc.NoDup
  frame : ∀ p ∈ F, h[p.1]? = some p.2 ∧ p.1 ≠ dd ∧ p.1 ≠ de

theorem decItems_get (d : DecDoc) (k : Str) : lookup (decItems d) (.str k) = (d.get? k).map .str := by
  induction d with
  | nil => rfl
  | cons p t ih =>
    simp only [decItems, List.map_cons, lookup, Dict.get?, same_str, beq_iff_eq]
    split
    · rfl
    · exact ih

theorem decItems_set (d : DecDoc) (k v : Str) : insert (decItems d) (.str k) (.str v) = decItems (d.set k v) := by
  induction d with
  | nil => rfl
  | cons p t ih =>
    simp only [decItems, List.map_cons, insert, Dict.set, same_str, beq_iff_eq]
    split
    · rfl
    · simp only [List.map_cons, List.cons.injEq, true_and]; exact ih

theorem encItems_get (loc : Str → Nat) (d : EncDoc) (k : Str) :
    lookup (encItems loc d) (.str k) = (d.get? k).map fun _ => .ref (loc k) := by
  induction d with
  | nil => rfl
  | cons p t ih =>
    simp only [encItems, List.map_cons, lookup, Dict.get?, same_str, beq_iff_eq]
    split
    next h => simp [h]
    · exact ih

theorem encItems_congr {loc loc' : Str → Nat} {d : EncDoc} (h : ∀ k ∈ d.keys, loc k = loc' k) : encItems loc d = encItems loc' d := by
  unfold encItems
  refine List.map_congr_left fun p hp => ?_
  rw [h p.1 (List.mem_map_of_mem hp)]

theorem encItems_set (loc : Str → Nat) {d : EncDoc} (nd : d.NoDup) (k : Str) (e : EncEntry) (l : Nat) :
    insert (encItems loc d) (.str k) (.ref l) = encItems (fun x => if x = k then l else loc x) (d.set k e) := by
  induction d with
  | nil => simp [encItems, insert, Dict.set]
  | cons p t ih =>
    simp only [Dict.NoDup, Dict.keys, List.map_cons, List.nodup_cons] at nd
    simp only [encItems, List.map_cons, insert, Dict.set, same_str, beq_iff_eq]
    split
    next h =>
      subst h
      simp only [List.map_cons, if_true, List.cons.injEq, true_and]
      refine List.map_congr_left fun q hq => ?_
      have : q.1 ≠ p.1 := fun h => nd.1 (h ▸ List.mem_map_of_mem hq)
      rw [if_neg this]
    next h =>
      simp only [List.map_cons, if_neg h, List.cons.injEq, true_and]
      exact ih nd.2

theorem getElem?_set_ne {α : Type} {h : List α} {i j : Nat} (hij : i ≠ j) (a : α) : (h.set i a)[j]? = h[j]? := by
  simp [List.getElem?_set, hij]

theorem getElem?_set_eq' {α : Type} {h : List α} {i : Nat} {b : α} (hb : h[i]? = some b) (a : α) : (h.set i a)[i]? = some a := by
  have : i < h.length := by
    rcases Nat.lt_or_ge i h.length with h' | h'
    · exact h'
    · rw [List.getElem?_eq_none h'] at hb; cases hb
  simp [this]

theorem getElem?_append_of {α : Type} {h : List α} {i : Nat} {b : α} (hb : h[i]? = some b) (t : List α) : (h ++ t)[i]? = some b := by
  have : i < h.length := by
    rcases Nat.lt_or_ge i h.length with h' | h'
    · exact h'
    · rw [List.getElem?_eq_none h'] at hb; cases hb
  rw [List.getElem?_append_left this]; exact hb

theorem lt_of_getElem? {α : Type} {h : List α} {i : Nat} {b : α} (hb : h[i]? = some b) : i < h.length := by
  rcases Nat.lt_or_ge i h.length with h' | h'
  · exact h'
  · rw [List.getElem?_eq_none h'] at hb; cases hb

namespace Rep
variable {h : List Obj} {dd de : Nat} {dec : List (Val × Val)} {enc : EncDoc} {F : List (Nat × Obj)}

/-- Bytes among the other objects. -/
theorem bytes (r : Rep h dd de dec enc F) {v : Val} {b : Bytes} (hb : BytesAt F v b) : BytesIn h v b :=
  hb.imp id fun ⟨l, h1, h2⟩ => ⟨l, h1, (r.frame _ h2).1⟩

/-- New objects elsewhere do not matter. -/
theorem append (r : Rep h dd de dec enc F) (t : List Obj) : Rep (h ++ t) dd de dec enc F where
  hdec := getElem?_append_of r.hdec t
  henc := by
    obtain ⟨loc, h1, h2, h3⟩ := r.henc
    exact ⟨loc, getElem?_append_of h1 t, fun k e hk => ⟨getElem?_append_of (h2 k e hk).1 t, (h2 k e hk).2⟩, h3⟩
  ne := r.ne
  nodup := r.nodup
  frame p hp := ⟨getElem?_append_of (r.frame p hp).1 t, (r.frame p hp).2⟩

/-- Change the decoded dict. -/
theorem setDec (r : Rep h dd de dec enc F) (dec' : List (Val × Val)) : Rep (h.set dd (.dict dec')) dd de dec' enc F where
  hdec := getElem?_set_eq' r.hdec _
  henc := by
    obtain ⟨loc, h1, h2, h3⟩ := r.henc
    refine ⟨loc, by rw [getElem?_set_ne r.ne]; exact h1, fun k e hk => ?_, h3⟩
    have := h2 k e hk
    exact ⟨by rw [getElem?_set_ne this.2.1.symm]; exact this.1, this.2⟩
  ne := r.ne
  nodup := r.nodup
  frame p hp := ⟨by rw [getElem?_set_ne (r.frame p hp).2.1.symm]; exact (r.frame p hp).1, (r.frame p hp).2⟩

/-- Change one of the other objects. -/
theorem setFrame {l : Nat} {o : Obj} (r : Rep h dd de dec enc ((l, o) :: F)) (hF : ∀ p ∈ F, p.1 ≠ l) (o' : Obj) :
    Rep (h.set l o') dd de dec enc ((l, o') :: F) where
  hdec := by rw [getElem?_set_ne (r.frame (l, o) List.mem_cons_self).2.1]; exact r.hdec
  henc := by
    obtain ⟨loc, h1, h2, h3⟩ := r.henc
    refine ⟨loc, by rw [getElem?_set_ne (r.frame (l, o) List.mem_cons_self).2.2]; exact h1, fun k e hk => ?_, h3⟩
    have := h2 k e hk
    refine ⟨by rw [getElem?_set_ne (this.2.2.2 (l, o) List.mem_cons_self)]; exact this.1, this.2.1, this.2.2.1, fun p hp => ?_⟩
    rcases List.mem_cons.1 hp with rfl | hp
    · exact this.2.2.2 (l, o) List.mem_cons_self
    · exact this.2.2.2 p (List.mem_cons_of_mem _ hp)
  ne := r.ne
  nodup := r.nodup
  frame p hp := by
    rcases List.mem_cons.1 hp with rfl | hp
    · have := r.frame (l, o) List.mem_cons_self
      exact ⟨getElem?_set_eq' this.1 _, this.2⟩
    · have := r.frame p (List.mem_cons_of_mem _ hp)
      exact ⟨by rw [getElem?_set_ne (hF p hp).symm]; exact this.1, this.2⟩

/-- `doc_enc[k] = {...}`. -/
theorem newEnc (r : Rep h dd de dec enc F) (k : Str) (e : EncEntry) :
    ∃ items, h[de]? = some (.dict items) ∧
      Rep (List.set (h ++ [.dict (entryItems e)]) de (.dict (insert items (.str k) (.ref h.length)))) dd de dec (enc.set k e) F := by
  obtain ⟨loc, h1, h2, h3⟩ := r.henc
  refine ⟨_, h1, ?_⟩
  have hde := lt_of_getElem? h1
  have hold : ∀ k' e', k' ≠ k → (enc.set k e).get? k' = some e' → enc.get? k' = some e' := by
    intro k' e' hk h
    rwa [Dict.get?_set_ne _ _ hk] at h
  exact {
    hdec := by
      rw [getElem?_set_ne (Ne.symm r.ne)]
      exact getElem?_append_of r.hdec _
    henc := by
      refine ⟨fun x => if x = k then h.length else loc x, ?_, ?_, ?_⟩
      · rw [encItems_set loc r.nodup k e]
        exact getElem?_set_eq' (getElem?_append_of h1 _) _
      · intro k' e' hk
        by_cases hkk : k' = k
        · subst hkk
          rw [Dict.get?_set_same] at hk
          cases hk
          simp only [if_true]
          refine ⟨?_, ?_, by omega, fun p hp => ?_⟩
          · rw [getElem?_set_ne (by omega)]
            simp
          · have := lt_of_getElem? r.hdec; omega
          · have := lt_of_getElem? (r.frame p hp).1; omega
        · have hk' := hold _ _ hkk hk
          have := h2 _ _ hk'
          simp only [if_neg hkk]
          exact ⟨by rw [getElem?_set_ne this.2.2.1.symm]; exact getElem?_append_of this.1 _, this.2⟩
      · intro a b x y hx hy hab
        by_cases ha : a = k <;> by_cases hb : b = k
        · rw [ha, hb]
        · simp only [ha, if_true, if_neg hb] at hab
          have := lt_of_getElem? (h2 _ _ (hold _ _ hb hy)).1
          omega
        · simp only [hb, if_true, if_neg ha] at hab
          have := lt_of_getElem? (h2 _ _ (hold _ _ ha hx)).1
          omega
        · simp only [if_neg ha, if_neg hb] at hab
          exact h3 _ _ _ _ (hold _ _ ha hx) (hold _ _ hb hy) hab
    ne := r.ne
    nodup := Dict.NoDup.set r.nodup _ _
    frame := fun p hp => ⟨by rw [getElem?_set_ne (r.frame p hp).2.2.symm]; exact getElem?_append_of (r.frame p hp).1 _, (r.frame p hp).2⟩ }

/-- Where the entry `k` is; changing it changes the encoded dict. -/
theorem entry (r : Rep h dd de dec enc F) {k : Str} {e : EncEntry} (hk : enc.get? k = some e) :
    ∃ items l, h[de]? = some (.dict items) ∧ lookup items (.str k) = some (.ref l) ∧ h[l]? = some (.dict (entryItems e)) ∧
      ∀ e', Rep (h.set l (.dict (entryItems e'))) dd de dec (enc.set k e') F := by
  obtain ⟨loc, h1, h2, h3⟩ := r.henc
  refine ⟨_, loc k, h1, by rw [encItems_get, hk]; rfl, (h2 k e hk).1, fun e' => ?_⟩
  have hl := h2 k e hk
  have hcont : ∀ k' x, (enc.set k e').get? k' = some x → ∃ y, enc.get? k' = some y := by
    intro k' x hx
    by_cases hkk : k' = k
    · exact ⟨e, hkk ▸ hk⟩
    · rw [Dict.get?_set_ne _ _ hkk] at hx; exact ⟨_, hx⟩
  have hkeys : ∀ d : EncDoc, d.get? k = some e → encItems loc (d.set k e') = encItems loc d := by
    intro d
    induction d with
    | nil => intro h; cases h
    | cons p t ih =>
      intro h
      simp only [Dict.get?] at h
      simp only [Dict.set]
      split
      · rfl
      next hp =>
        rw [if_neg hp] at h
        have := ih h
        simp only [encItems, List.map_cons, List.cons.injEq, true_and] at this ⊢
        exact this
  exact {
    hdec := by rw [getElem?_set_ne hl.2.1]; exact r.hdec
    henc := by
      refine ⟨loc, ?_, ?_, ?_⟩
      · rw [getElem?_set_ne hl.2.2.1, hkeys enc hk]; exact h1
      · intro k' x hx
        by_cases hkk : k' = k
        · subst hkk
          rw [Dict.get?_set_same] at hx
          cases hx
          exact ⟨getElem?_set_eq' hl.1 _, hl.2⟩
        · rw [Dict.get?_set_ne _ _ hkk] at hx
          have := h2 _ _ hx
          refine ⟨?_, this.2⟩
          rw [getElem?_set_ne fun h => hkk (h3 _ _ _ _ hk hx h).symm]
          exact this.1
      · intro a b x y hx hy hab
        obtain ⟨x', hx'⟩ := hcont _ _ hx
        obtain ⟨y', hy'⟩ := hcont _ _ hy
        exact h3 _ _ _ _ hx' hy' hab
    ne := r.ne
    nodup := Dict.NoDup.set r.nodup _ _
    frame := fun p hp => ⟨by rw [getElem?_set_ne (hl.2.2.2 p hp).symm]; exact (r.frame p hp).1, (r.frame p hp).2⟩ }

end Rep

end Iso8583.Src
