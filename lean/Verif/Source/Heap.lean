import Verif.Source.FreezeRun
import Verif.Props.SourceTools
import Verif.Props.SourceSpecs
/-!
# Specifications that are objects of the heap

`Freeze.lean` applied to a heap: which objects to freeze, and how results are read back.
-/

namespace Iso8583.Src

variable {ε σ : Type} {K : Nat → Option Val} {h₀ : List Obj} {rt : Rt ε σ}

/-! ## Dicts of dicts -/

/-- There is no reference in `v`. -/
def NoRef (v : Val) : Prop := ∀ K, fz K v = v

/-- There is no reference in the keys and values. -/
def Flat (items : List (Val × Val)) : Prop := ∀ p ∈ items, NoRef p.1 ∧ NoRef p.2

/-- There is no reference in the keys; the values are without references, or dicts of the heap whose
keys and values are. -/
def Shallow (h : List Obj) (items : List (Val × Val)) : Prop :=
  ∀ p ∈ items, NoRef p.1 ∧ (NoRef p.2 ∨ ∃ (f : Nat) (its : List (Val × Val)), p.2 = .ref f ∧ h[f]? = some (.dict its) ∧ Flat its)

/-- `v` is a dict in the heap, from the field keys of `spec` to dicts in the heap with the properties of
the fields.  There may be other properties, and other keys that are not strings. -/
def SpecAt (h : List Obj) (v : Val) (spec : Spec) : Prop :=
  ∃ (l : Nat) (items : List (Val × Val)), v = .ref l ∧ h[l]? = some (.dict items) ∧ Shallow h items ∧
    ∀ k, match spec.get? k with
    | none => lookup items (.str k) = none
    | some fs => ∃ (f : Nat) (its : List (Val × Val)), lookup items (.str k) = some (.ref f) ∧ h[f]? = some (.dict its) ∧ FieldVal (.dict its) fs

/-- `v` is the object at `l`, or a dict with this object among its values. -/
def Refers (h : List Obj) (v : Val) (l : Nat) : Prop :=
  v = .ref l ∨ ∃ (i : Nat) (items : List (Val × Val)) (k : Val), v = .ref i ∧ h[i]? = some (.dict items) ∧ (k, Val.ref l) ∈ items

theorem ref_not_noRef (l : Nat) : ¬ NoRef (.ref l) := fun h => by
  have := h fun _ => some .none
  simp [fz] at this

theorem Flat.shallow {h : List Obj} {items : List (Val × Val)} (hf : Flat items) : Shallow h items := fun p hp => ⟨(hf p hp).1, .inl (hf p hp).2⟩

theorem Flat.fz {items : List (Val × Val)} (hf : Flat items) (K : Nat → Option Val) : fzItems K items = items := by
  rw [fzItems_map]
  conv => rhs; rw [← List.map_id items]
  refine List.map_congr_left fun p hp => ?_
  rw [(hf p hp).1, (hf p hp).2]; rfl

/-- Objects that stay as they are. -/
theorem Shallow.mono {h h' : List Obj} {items : List (Val × Val)} (hs : Shallow h items)
    (hh : ∀ (f : Nat) k o, (k, Val.ref f) ∈ items → h[f]? = some o → h'[f]? = some o) : Shallow h' items := fun p hp => by
  refine ⟨(hs p hp).1, (hs p hp).2.imp id ?_⟩
  rintro ⟨f, its, h1, h2, h3⟩
  exact ⟨f, its, h1, hh f p.1 _ (h1 ▸ hp) h2, h3⟩

theorem lookup_mem {items : List (Val × Val)} {k v : Val} (h : lookup items k = some v) : ∃ k', (k', v) ∈ items := by
  induction items with
  | nil => cases h
  | cons p t ih =>
    rw [lookup] at h
    split at h
    · cases h; exact ⟨p.1, by simp⟩
    · obtain ⟨k', hk⟩ := ih h
      exact ⟨k', by simp [hk]⟩

theorem SpecAt.mono {h h' : List Obj} {v : Val} {spec : Spec} (hs : SpecAt h v spec)
    (hh : ∀ (l : Nat) o, Refers h v l → h[l]? = some o → h'[l]? = some o) : SpecAt h' v spec := by
  obtain ⟨l, items, rfl, h1, h2, h3⟩ := hs
  refine ⟨l, items, rfl, hh l _ (.inl rfl) h1, h2.mono fun f k o hm => hh f o (.inr ⟨l, items, k, rfl, h1, hm⟩), fun k => ?_⟩
  have := h3 k
  cases hk : spec.get? k with
  | none => simpa only [hk] using this
  | some fs =>
    simp only [hk] at this ⊢
    obtain ⟨f, its, h4, h5, h6⟩ := this
    obtain ⟨k', hm⟩ := lookup_mem h4
    exact ⟨f, its, h4, hh f _ (.inr ⟨l, items, k', rfl, h1, hm⟩) h5, h6⟩

/-! ## Freezing a heap -/

section
open Classical

/-- Freeze the dicts without references, except those in `E`; of the other objects little is to be
known. -/
noncomputable def freeze1 (h : List Obj) (E : Nat → Prop) (l : Nat) : Option Val :=
  if E l then none else match h[l]? with
    | none => none
    | some (.dict items) => some (if Flat items then .dict items else .thing (some l) (.sized items.length))
    | some o => some (.thing (some l) (thingOf o))

/-- Freeze the dicts of such dicts as well. -/
noncomputable def freeze (h : List Obj) (E : Nat → Prop) (l : Nat) : Option Val :=
  if E l then none else match h[l]? with
    | none => none
    | some (.dict items) => some (if Shallow h items then .dict (fzItems (freeze1 h E) items) else .thing (some l) (.sized items.length))
    | some o => some (.thing (some l) (thingOf o))

theorem freeze_none {h : List Obj} {E : Nat → Prop} {l : Nat} (hl : E l ∨ h[l]? = none) : freeze h E l = none := by
  unfold freeze
  rcases hl with hl | hl
  · rw [if_pos hl]
  · rw [hl]; split <;> rfl

theorem freeze_flat {h : List Obj} {E : Nat → Prop} {l : Nat} {items : List (Val × Val)} (hl : h[l]? = some (.dict items)) (hf : Flat items) :
    freeze h E l = freeze1 h E l := by
  simp only [freeze, freeze1, hl, if_pos hf, if_pos hf.shallow, hf.fz]

theorem freeze_items {h : List Obj} {E : Nat → Prop} {items : List (Val × Val)} (hs : Shallow h items) :
    fzItems (freeze h E) items = fzItems (freeze1 h E) items := by
  simp only [fzItems_map]
  refine List.map_congr_left fun p hp => ?_
  obtain ⟨h1, h2⟩ := hs p hp
  rw [h1, h1]
  congr 1
  rcases h2 with h2 | ⟨f, its, h2, h3, h4⟩
  · rw [h2, h2]
  · rw [h2]; simp only [fz, freeze_flat h3 h4]

theorem freeze_shallow {h : List Obj} {E : Nat → Prop} {l : Nat} {items : List (Val × Val)} (hE : ¬ E l) (hl : h[l]? = some (.dict items)) (hf : Shallow h items) :
    freeze h E l = some (.dict (fzItems (freeze h E) items)) := by
  rw [freeze_items hf]
  simp only [freeze, if_neg hE, hl, if_pos hf]

theorem freeze_frozen (h : List Obj) (E : Nat → Prop) : Frozen (freeze h E) h h := by
  intro l v hv
  by_cases hE : E l
  · rw [freeze_none (.inl hE)] at hv; cases hv
  · cases ho : h[l]? with
    | none => rw [freeze_none (.inr ho)] at hv; cases hv
    | some o =>
      refine ⟨o, rfl, rfl, ?_⟩
      simp only [freeze, if_neg hE, ho] at hv
      cases o with
      | dict items =>
        simp only [Option.some.injEq] at hv
        by_cases hs : Shallow h items
        · rw [if_pos hs, ← freeze_items hs] at hv
          subst hv
          exact .dict items
        · rw [if_neg hs] at hv
          subst hv
          exact .thing (.dict items)
      | _ => cases hv; exact .thing _

theorem freeze_some {h : List Obj} {E : Nat → Prop} {l : Nat} {o : Obj} (hE : ¬ E l) (ho : h[l]? = some o) : ∃ v, freeze h E l = some v := by
  simp only [freeze, if_neg hE, ho]
  cases o <;> exact ⟨_, rfl⟩

end

/-- The frozen specification. -/
theorem SpecAt.frozen {h : List Obj} {v : Val} {spec : Spec} (hs : SpecAt h v spec) {E : Nat → Prop} (hE : ∀ l, E l → ¬ Refers h v l) :
    SpecVal (fz (freeze h E) v) spec := by
  obtain ⟨l, items, rfl, h1, h2, h3⟩ := hs
  have hl : ¬ E l := fun hl => hE l hl (.inl rfl)
  refine ⟨fzItems (freeze h E) items, by simp [fz, freeze_shallow hl h1 h2], fun k => ?_⟩
  have hk := lookup_fz (freeze_frozen h E) items (.str k)
  rw [show fz (freeze h E) (.str k) = .str k from rfl] at hk
  have := h3 k
  cases hk' : spec.get? k with
  | none => simp only [hk'] at this ⊢; rw [hk, this]; rfl
  | some fs =>
    simp only [hk'] at this ⊢
    obtain ⟨f, its, h4, h5, h6⟩ := this
    obtain ⟨k', hm⟩ := lookup_mem h4
    refine ⟨.dict its, ?_, h6⟩
    rw [hk, h4]
    have hf : ¬ E f := fun hf => hE f hf (.inr ⟨l, items, k', rfl, h1, hm⟩)
    have hflat : Flat its := by
      rcases (h2 _ hm).2 with h7 | ⟨f', its', h7, h8, h9⟩
      · exact absurd h7 (ref_not_noRef f)
      · cases h7; rw [h5] at h8; cases h8; exact h9
    simp [fz, freeze_shallow hf h5 hflat.shallow, hflat.fz]

/-! ## Reading results back -/

/-- A value that stands for nothing but itself. -/
def Exact (K : Nat → Option Val) (v : Val) : Prop := ∀ w, fz K w = v → w = v

section
variable (hK : Frozen K h₀ h₀)
include hK

theorem exact_simple {v : Val} (h : v.simple = true) : Exact K v := fun _ hw => fz_simple hK hw h

theorem exact_ref (l : Nat) : Exact K (.ref l) := fun _ hw => (fz_is_ref hK hw).1

omit hK in
theorem exact_items {ys : List (Val × Val)} (hy : ∀ p ∈ ys, Exact K p.1 ∧ Exact K p.2) : ∀ {xs : List (Val × Val)}, fzItems K xs = ys → xs = ys := by
  induction ys with
  | nil =>
    intro xs h
    cases xs with
    | nil => rfl
    | cons p t => simp [fzItems] at h
  | cons q u ih =>
    intro xs h
    cases xs with
    | nil => simp [fzItems] at h
    | cons p t =>
      obtain ⟨a, b⟩ := p
      simp only [fzItems, fzPair, List.cons.injEq] at h
      obtain ⟨h1, h2⟩ := h
      have h3 := hy q (by simp)
      rw [ih (fun p hp => hy p (by simp [hp])) h2]
      subst h1
      exact congrArg (· :: u) (Prod.ext (h3.1 a rfl) (h3.2 b rfl))

omit hK in
theorem exact_dict {h : List Obj} {l : Nat} {ys : List (Val × Val)} (hy : ∀ p ∈ ys, Exact K p.1 ∧ Exact K p.2)
    (hl : (h.map (fzObj K))[l]? = some (.dict ys)) : h[l]? = some (.dict ys) := by
  rw [List.getElem?_map] at hl
  cases ho : h[l]? with
  | none => rw [ho] at hl; cases hl
  | some o =>
    rw [ho] at hl
    simp only [Option.map_some, Option.some.injEq] at hl
    cases o with
    | dict items =>
      simp only [fzObj, Obj.dict.injEq] at hl
      rw [exact_items hy hl]
    | _ => cases hl

theorem exact_hasDec {h : List Obj} {l : Nat} {d : DecDoc} (hd : HasDec (h.map (fzObj K)) l d) : HasDec h l d := by
  refine exact_dict (fun p hp => ?_) hd
  obtain ⟨q, -, rfl⟩ := List.mem_map.1 hp
  exact ⟨exact_simple hK rfl, exact_simple hK rfl⟩

theorem exact_hasEnc {h : List Obj} {l : Nat} {d : EncDoc} (hd : HasEnc (h.map (fzObj K)) l d) : HasEnc h l d := by
  obtain ⟨loc, h1, h2, h3⟩ := hd
  refine ⟨loc, exact_dict (fun p hp => ?_) h1, fun k e hk => exact_dict (fun p hp => ?_) (h2 k e hk), h3⟩
  · obtain ⟨q, -, rfl⟩ := List.mem_map.1 hp
    exact ⟨exact_simple hK rfl, exact_ref hK _⟩
  · simp only [List.mem_cons, List.not_mem_nil, or_false] at hp
    rcases hp with rfl | rfl <;> exact ⟨exact_simple hK rfl, exact_simple hK rfl⟩

omit hK in
theorem exact_barray {h : List Obj} {l : Nat} {b : Bytes} (hl : (h.map (fzObj K))[l]? = some (.barray b)) : h[l]? = some (.barray b) := by
  rw [List.getElem?_map] at hl
  cases ho : h[l]? with
  | none => rw [ho] at hl; cases hl
  | some o =>
    rw [ho] at hl
    cases o <;> cases hl
    rfl

omit hK in
theorem exact_vals {ys : List Val} (hy : ∀ v ∈ ys, Exact K v) : ∀ {xs : List Val}, fzs K xs = ys → xs = ys := by
  induction ys with
  | nil => intro xs h; exact fzs_nil h
  | cons q u ih =>
    intro xs h
    obtain ⟨w, t, rfl, h1, h2⟩ := fzs_cons h
    rw [ih (fun p hp => hy p (by simp [hp])) h2, hy q (by simp) w h1]

omit hK in
theorem exact_attrs {ys : List (Ident × Val)} (hy : ∀ p ∈ ys, Exact K p.2) : ∀ {xs : List (Ident × Val)}, fzKws K xs = ys → xs = ys := by
  induction ys with
  | nil => intro xs h; exact fzKws_nil h
  | cons q u ih =>
    intro xs h
    obtain ⟨a, b⟩ := q
    obtain ⟨w, t, rfl, h1, h2⟩ := fzKws_cons h
    rw [ih (fun p hp => hy p (by simp [hp])) h2, hy (a, b) (by simp) w h1]

theorem exact_inst {h : List Obj} {l : Nat} {c : Ident} {args : List Val} {attrs : List (Ident × Val)} (h1 : ∀ v ∈ args, Exact K v) (h2 : ∀ p ∈ attrs, Exact K p.2)
    (hl : (h.map (fzObj K))[l]? = some (.inst c args attrs)) : h[l]? = some (.inst c args attrs) := by
  rw [List.getElem?_map] at hl
  cases ho : h[l]? with
  | none => rw [ho] at hl; cases hl
  | some o =>
    rw [ho] at hl
    simp only [Option.map_some, Option.some.injEq] at hl
    cases o with
    | inst c' args' attrs' =>
      simp only [fzObj, Obj.inst.injEq] at hl
      obtain ⟨rfl, h3, h4⟩ := hl
      rw [exact_vals h1 h3, exact_attrs h2 h4]
    | _ => cases hl

omit hK in
theorem exact_std {e : Exc ε} {c : Ident} {a : Val} (ha : Exact K a) (h : fzExc K e = .std c a) : e = .std c a := by
  cases e with
  | std c' a' =>
    simp only [fzExc, Exc.std.injEq] at h
    rw [h.1, ha a' h.2]
  | inst c' l => simp only [fzExc] at h; split at h <;> cases h
  | _ => cases h

omit hK in
theorem exact_exc {e : Exc ε} {c : Ident} {l : Nat} (h : fzExc K e = .inst c l) : e = .inst c l := by
  cases e with
  | inst c' l' => simp only [fzExc] at h; split at h <;> cases h; rfl
  | _ => cases h

/-- A pair of references. -/
theorem exact_pair {v : Val} {a b : Nat} (h : fz K v = .tuple [.ref a, .ref b]) : v = .tuple [.ref a, .ref b] := by
  obtain ⟨ys, rfl, h1⟩ := fz_tuple hK h
  rw [exact_vals (fun v hv => ?_) h1.symm]
  simp only [List.mem_cons, List.not_mem_nil, or_false] at hv
  rcases hv with rfl | rfl <;> exact exact_ref hK _

end

/-! ## What a call leaves as it was -/

/-- A call puts the variables of the caller back. -/
theorem invoke_keeps {call : Caller ε σ} (d : Def) (args : List Val) (kws : List (Ident × Val)) (hd : ∀ st, ∃ vs, evals rt call d.defaults st = (.ok vs, st)) (st : St σ) :
    (invoke rt call d args kws st).2.vars = st.vars ∧ (invoke rt call d args kws st).2.locals = st.locals ∧ (invoke rt call d args kws st).2.ys = st.ys := by
  have hr : ∀ vs (st : St σ), (runBody rt call d vs st).2.vars = st.vars ∧ (runBody rt call d vs st).2.locals = st.locals ∧ (runBody rt call d vs st).2.ys = st.ys := by
    intro vs st
    simp only [runBody]
    rcases execs rt call d.body { st with vars := vs, locals := d.locals, ys := [] } with ⟨r, st'⟩
    cases r <;> exact ⟨rfl, rfl, rfl⟩
  obtain ⟨ds, hds⟩ := hd st
  rw [invoke]
  simp only [PyM.run_bind, hds]
  split
  · simp only [PyM.run_bind, alloc]
    cases bindArgs d.params (.ref st.heap.length :: args) kws ds with
    | none => exact ⟨rfl, rfl, rfl⟩
    | some vs =>
      simp only [PyM.run_bind]
      have := hr vs { st with heap := st.heap ++ [.inst d.name [] []] }
      rcases hm : runBody rt call d vs { st with heap := st.heap ++ [.inst d.name [] []] } with ⟨r, st'⟩
      rw [hm] at this
      cases r <;> exact this
  · cases bindArgs d.params args kws ds with
    | none => exact ⟨rfl, rfl, rfl⟩
    | some vs => exact hr vs st

/-- A call that is known on a frozen heap. -/
theorem lift_call_of {ds : List Def} {f : Ident} {args : List Val} {st : St σ} (hF : Frozen K st.heap st.heap) {x' : Except (Exc ε) Val} {h' : List Obj} {w : σ}
    (hk : (program rt ds f args [] st).2.vars = st.vars ∧ (program rt ds f args [] st).2.locals = st.locals ∧ (program rt ds f args [] st).2.ys = st.ys)
    (hr : program (fzRt K rt) ds f (fzs K args) [] (fzSt K st) = (x', { fzSt K st with heap := h', world := w })) (hx : x' ≠ .error .stuck) :
    ∃ (x : Except (Exc ε) Val) (h : List Obj), program rt ds f args [] st = (x, { st with heap := h, world := w }) ∧
      x' = (x.map (fz K)).mapError (fzExc K) ∧ h' = h.map (fzObj K) ∧ ∀ (l : Nat) o v, K l = some v → st.heap[l]? = some o → h[l]? = some o := by
  rcases program_agree (rt := rt) hF ds f args [] st hF with h1 | ⟨h1, h2⟩
  · rw [show fzKws K [] = [] from rfl, hr] at h1
    exact absurd h1 hx
  · rw [show fzKws K [] = [] from rfl, hr] at h1
    rcases hm : program rt ds f args [] st with ⟨x, st'⟩
    rw [hm] at h1 h2 hk
    obtain ⟨V, L, Y, H, W⟩ := st'
    simp only at hk h2
    obtain ⟨rfl, rfl, rfl⟩ := hk
    simp only [fzSt, Prod.mk.injEq, St.mk.injEq] at h1
    obtain ⟨h3, -, -, -, h4, rfl⟩ := h1
    refine ⟨x, H, rfl, h3, h4, fun l o v hv ho => ?_⟩
    obtain ⟨o', h5, h6, -⟩ := h2 l v hv
    rw [ho] at h5; cases h5
    exact h6

theorem lift_call {ds : List Def} {f : Ident} {args : List Val} {st : St σ} {E : Nat → Prop} {x' : Except (Exc ε) Val} {h' : List Obj} {w : σ}
    (hk : (program rt ds f args [] st).2.vars = st.vars ∧ (program rt ds f args [] st).2.locals = st.locals ∧ (program rt ds f args [] st).2.ys = st.ys)
    (hr : program (fzRt (freeze st.heap E) rt) ds f (fzs (freeze st.heap E) args) [] (fzSt (freeze st.heap E) st) =
      (x', { fzSt (freeze st.heap E) st with heap := h', world := w })) (hx : x' ≠ .error .stuck) :
    ∃ (x : Except (Exc ε) Val) (h : List Obj), program rt ds f args [] st = (x, { st with heap := h, world := w }) ∧
      x' = (x.map (fz (freeze st.heap E))).mapError (fzExc (freeze st.heap E)) ∧ h' = h.map (fzObj (freeze st.heap E)) ∧
      ∀ (l : Nat) o, ¬ E l → st.heap[l]? = some o → h[l]? = some o := by
  obtain ⟨x, h, h1, h2, h3, h4⟩ := lift_call_of (freeze_frozen st.heap E) hk hr hx
  refine ⟨x, h, h1, h2, h3, fun l o hl ho => ?_⟩
  obtain ⟨v, hv⟩ := freeze_some hl ho
  exact h4 l o v hv ho

/-! ## The caller's dict -/

/-- A value in a dict of the heap. -/
def valAt (h : List Obj) : Val → Option Iso8583.Val
  | .ref l => (h[l]?).map fun o => thingVal (thingOf o)
  | .thing .. => none
  | v => valOf v

/-- `items` are the items of the dict `doc`.  Objects among the values are none of those in `D`. -/
def DocAt (h : List Obj) (D : Nat → Prop) : List (Val × Val) → Doc → Prop
  | [], [] => True
  | p :: t, q :: t' => keyOf p.1 = some q.1 ∧ valAt h p.2 = some q.2 ∧ (∀ l, p.2 = .ref l → ¬ D l) ∧ DocAt h D t t'
  | _, _ => False

theorem keyOf_simple {v : Val} {k : Key} (h : keyOf v = some k) : v.simple = true := by cases v <;> first | rfl | cases h

theorem valAt_simple {h : List Obj} {v : Val} (hv : v.simple = true) : valAt h v = valOf v := by cases v <;> first | rfl | cases hv

theorem fz_of_simple {v : Val} (h : v.simple = true) : fz K v = v := by cases v <;> first | rfl | cases h

/-- A value without parts, or an object of which the place is known. -/
def Good (K : Nat → Option Val) (v : Val) : Prop := v.simple = true ∨ ∃ l k, v = .ref l ∧ K l = some (.thing (some l) k)

theorem valAt_cases {h : List Obj} {v : Val} {q : Iso8583.Val} (hv : valAt h v = some q) :
    (v.simple = true ∧ valOf v = some q) ∨ ∃ l o, v = .ref l ∧ h[l]? = some o ∧ q = thingVal (thingOf o) := by
  cases v with
  | ref l =>
    simp only [valAt, Option.map_eq_some_iff] at hv
    obtain ⟨o, h1, rfl⟩ := hv
    exact .inr ⟨l, o, rfl, h1, rfl⟩
  | list | tuple | dict | exn | thing => cases hv
  | _ => exact .inl ⟨rfl, hv⟩

theorem good_inj (hK : Frozen K h₀ h₀) {v w : Val} (hv : Good K v) (h : fz K w = fz K v) : w = v := by
  rcases hv with hv | ⟨l, k, rfl, hv⟩
  · rw [fz_of_simple hv] at h
    exact fz_simple hK h hv
  · rw [show fz K (.ref l) = .thing (some l) k by simp [fz, hv]] at h
    rcases fz_thing hK h with ⟨h1, -⟩ | ⟨l', o, rfl, h1, -⟩
    · cases h1
    · cases h1; rfl

theorem DocAt.frozen {h : List Obj} {D : Nat → Prop} (hD : ∀ l o, ¬ D l → h[l]? = some o → K l = some (.thing (some l) (thingOf o))) :
    ∀ {items : List (Val × Val)} {doc : Doc}, DocAt h D items doc → DocIs (fzItems K items) doc ∧ ∀ p ∈ items, Good K p.2
  | [], [], _ => ⟨trivial, fun p hp => by cases hp⟩
  | (a, b) :: t, q :: t', hd => by
    obtain ⟨h1, h2, h3, h4⟩ := hd
    obtain ⟨i1, i2⟩ := DocAt.frozen hD h4
    have hb : valOf (fz K b) = some q.2 ∧ Good K b := by
      rcases valAt_cases h2 with ⟨h5, h6⟩ | ⟨l, o, h5, h6, h7⟩
      · exact ⟨by rw [fz_of_simple h5]; exact h6, .inl h5⟩
      · simp only at h5
        subst h5
        have hl := hD l o (h3 l rfl) h6
        exact ⟨by simp [fz, hl, valOf, h7], .inr ⟨l, _, rfl, hl⟩⟩
    refine ⟨⟨by rw [fzPair, fz_of_simple (keyOf_simple h1)]; exact h1, hb.1, i1⟩, fun p hp => ?_⟩
    rcases List.mem_cons.1 hp with rfl | hp
    · exact hb.2
    · exact i2 p hp

theorem DocIs.back {h : List Obj} {D : Nat → Prop} (hK : Frozen K h₀ h₀) (hh : ∀ (l : Nat) o v, K l = some v → h₀[l]? = some o → h[l]? = some o)
    (hD : ∀ l i k, K l = some (.thing i k) → ¬ D l) :
    ∀ {items : List (Val × Val)} {doc : Doc}, DocIs (fzItems K items) doc → DocAt h D items doc ∧ ∀ p ∈ items, Good K p.2
  | [], [], _ => ⟨trivial, fun p hp => by cases hp⟩
  | (a, b) :: t, q :: t', hd => by
    obtain ⟨h1, h2, h3⟩ := hd
    obtain ⟨i1, i2⟩ := DocIs.back hK hh hD h3
    simp only [fzPair] at h1 h2
    have ha : fz K a = a := (fz_simple hK rfl (keyOf_simple h1)).symm
    rw [ha] at h1
    have hb : valAt h b = some q.2 ∧ (∀ l, b = .ref l → ¬ D l) ∧ Good K b := by
      by_cases hs : (fz K b).simple = true
      · have e : b = fz K b := fz_simple hK rfl hs
        rw [← e] at hs h2
        exact ⟨by rw [valAt_simple hs]; exact h2, (by rintro l rfl; cases hs), .inl hs⟩
      · generalize hv : fz K b = v at h2 hs
        cases v with
        | thing i k =>
          rcases fz_thing hK hv with ⟨rfl, -⟩ | ⟨l, o, rfl, rfl, rfl, h5, h6⟩
          · cases h2
          · refine ⟨?_, ?_, .inr ⟨l, _, rfl, h5⟩⟩
            · simp only [valAt, hh l o _ h5 h6, Option.map_some]; exact h2
            · rintro _ ⟨⟩; exact hD l _ _ h5
        | _ => first | cases h2 | exact absurd rfl hs
    refine ⟨⟨h1, hb.1, hb.2.1, i1⟩, fun p hp => ?_⟩
    rcases List.mem_cons.1 hp with rfl | hp
    · exact hb.2.2
    · exact i2 p hp

theorem Keeps.back (hK : Frozen K h₀ h₀) {items items' : List (Val × Val)} (hi : ∀ p ∈ items, Good K p.2) (hk : Keeps (fzItems K items) (fzItems K items')) :
    Keeps items items' := by
  intro k h1 h2 h3
  have hs : ∀ t : Str, k.same (.str t) = false → (fz K k).same (.str t) = false := fun t ht => by
    rw [← ht, show (fz K k).same (.str t) = (fz K k).same (fz K (.str t)) from rfl, same_fz hK]
  have := hk (fz K k) (hs _ h1) (hs _ h2) (hs _ h3)
  rw [lookup_fz hK, lookup_fz hK] at this
  cases hl : lookup items k with
  | none => rw [hl] at this; simpa using this
  | some v =>
    rw [hl] at this
    cases hl' : lookup items' k with
    | none => rw [hl'] at this; cases this
    | some w =>
      rw [hl'] at this
      simp only [Option.map_some, Option.some.injEq] at this
      obtain ⟨k', hm⟩ := lookup_mem hl
      rw [good_inj hK (hi _ hm) this]

/-- Values without parts. -/
theorem DocIs.docAt {h : List Obj} {D : Nat → Prop} : ∀ {items : List (Val × Val)} {doc : Doc}, DocIs items doc → (∀ p ∈ items, p.2.simple = true) → DocAt h D items doc
  | [], [], _, _ => trivial
  | p :: t, q :: t', hd, hs => by
    obtain ⟨h1, h2, h3⟩ := hd
    have := hs p (by simp)
    exact ⟨h1, by rw [valAt_simple this]; exact h2, (fun l hl => by rw [hl] at this; cases this), DocIs.docAt h3 fun p hp => hs p (by simp [hp])⟩

/-- It is so for as long as the objects are as they were. -/
theorem DocAt.mono {h h' : List Obj} {D D' : Nat → Prop} (hh : ∀ (l : Nat) o, ¬ D l → h[l]? = some o → h'[l]? = some o) (hD : ∀ l, D' l → D l) :
    ∀ {items : List (Val × Val)} {doc : Doc}, DocAt h D items doc → DocAt h' D' items doc
  | [], [], _ => trivial
  | p :: t, q :: t', hd => by
    obtain ⟨h1, h2, h3, h4⟩ := hd
    refine ⟨h1, ?_, fun l hl hd => h3 l hl (hD l hd), DocAt.mono hh hD h4⟩
    rcases valAt_cases h2 with ⟨h5, h6⟩ | ⟨l, o, h5, h6, h7⟩
    · rw [valAt_simple h5]; exact h6
    · rw [h5, valAt, hh l o (h3 l h5) h6, h7]; rfl

/-- Objects that were there already. -/
theorem DocAt.later {h h' : List Obj} {D F : Nat → Prop} (hh : ∀ (l : Nat) o, h[l]? = some o → h'[l]? = some o) (hF : ∀ (l : Nat) o, h[l]? = some o → ¬ F l) :
    ∀ {items : List (Val × Val)} {doc : Doc}, DocAt h D items doc → DocAt h' (fun l => D l ∨ F l) items doc
  | [], [], _ => trivial
  | p :: t, q :: t', hd => by
    obtain ⟨h1, h2, h3, h4⟩ := hd
    rcases valAt_cases h2 with ⟨h5, h6⟩ | ⟨l, o, h5, h6, h7⟩
    · exact ⟨h1, by rw [valAt_simple h5]; exact h6, (fun l hl => by rw [hl] at h5; cases h5), DocAt.later hh hF h4⟩
    · refine ⟨h1, by rw [h5, valAt, hh l o h6, h7]; rfl, fun l' hl => ?_, DocAt.later hh hF h4⟩
      rw [h5] at hl; cases hl
      rintro (hd | hf)
      · exact h3 l h5 hd
      · exact hF l o h6 hf

section
open Classical

/-- Freeze the objects in `D` as before; of the others little is to be known. -/
noncomputable def freezeFor (h : List Obj) (E D : Nat → Prop) (l : Nat) : Option Val :=
  if D l then freeze h E l else if E l then none else (h[l]?).map fun o => .thing (some l) (thingOf o)

/-- What a specification consists of. -/
theorem SpecAt.dict_of {h : List Obj} {pv : Val} {spec : Spec} (hp : SpecAt h pv spec) {l : Nat} (hl : Refers h pv l) :
    ∃ items, h[l]? = some (.dict items) ∧ Shallow h items ∧ ∀ p ∈ items, ∀ f, p.2 = .ref f → Refers h pv f := by
  obtain ⟨i, items, rfl, h1, h2, -⟩ := hp
  rcases hl with hl | ⟨i', items', k, hi, h3, h4⟩
  · cases hl
    exact ⟨items, h1, h2, fun p hm f hf => .inr ⟨l, items, p.1, rfl, h1, by rw [← hf]; exact hm⟩⟩
  · cases hi
    rw [h1] at h3; cases h3
    rcases (h2 _ h4).2 with h5 | ⟨f, its, h5, h6, h7⟩
    · exact absurd h5 (ref_not_noRef l)
    · cases h5
      exact ⟨its, h6, h7.shallow, fun p hm f hf => absurd (hf ▸ (h7 p hm).2) (ref_not_noRef f)⟩

theorem freezeFor_items {h : List Obj} {E D : Nat → Prop} {items : List (Val × Val)} (hs : Shallow h items) (hD : ∀ p ∈ items, ∀ f, p.2 = .ref f → D f) :
    fzItems (freezeFor h E D) items = fzItems (freeze h E) items := by
  simp only [fzItems_map]
  refine List.map_congr_left fun p hp => ?_
  obtain ⟨h1, h2⟩ := hs p hp
  rw [h1, h1]
  congr 1
  rcases h2 with h2 | ⟨f, its, h2, -⟩
  · rw [h2, h2]
  · rw [h2]; simp only [fz, freezeFor, if_pos (hD p hp f h2)]

theorem freezeFor_frozen {h : List Obj} {E : Nat → Prop} {pv : Val} {spec : Spec} (hp : SpecAt h pv spec) : Frozen (freezeFor h E (Refers h pv)) h h := by
  intro l v hv
  by_cases hl : Refers h pv l
  · obtain ⟨items, h1, h2, h3⟩ := hp.dict_of hl
    refine ⟨_, h1, h1, ?_⟩
    simp only [freezeFor, if_pos hl] at hv
    by_cases hE : E l
    · rw [freeze_none (.inl hE)] at hv; cases hv
    · rw [freeze_shallow hE h1 h2, ← freezeFor_items h2 h3] at hv
      cases hv
      exact .dict items
  · simp only [freezeFor, if_neg hl] at hv
    by_cases hE : E l
    · rw [if_pos hE] at hv; cases hv
    · rw [if_neg hE] at hv
      simp only [Option.map_eq_some_iff] at hv
      obtain ⟨o, h1, rfl⟩ := hv
      exact ⟨o, h1, h1, .thing o⟩

theorem freezeFor_thing {h : List Obj} {E : Nat → Prop} {pv : Val} {spec : Spec} (hp : SpecAt h pv spec) {l : Nat} {i : Option Nat} {k : Thing}
    (hl : freezeFor h E (Refers h pv) l = some (.thing i k)) : ¬ (E l ∨ Refers h pv l) := by
  rintro (hE | hr)
  · simp only [freezeFor, freeze_none (.inl hE), if_pos hE] at hl
    split at hl <;> cases hl
  · obtain ⟨items, h1, h2, h3⟩ := hp.dict_of hr
    simp only [freezeFor, if_pos hr] at hl
    by_cases hE : E l
    · rw [freeze_none (.inl hE)] at hl; cases hl
    · rw [freeze_shallow hE h1 h2] at hl; cases hl

theorem freezeFor_other {h : List Obj} {E D : Nat → Prop} {l : Nat} {o : Obj} (hl : ¬ (E l ∨ D l)) (ho : h[l]? = some o) :
    freezeFor h E D l = some (.thing (some l) (thingOf o)) := by
  simp only [freezeFor, if_neg fun h => hl (.inr h), if_neg fun h => hl (.inl h), ho, Option.map_some]

theorem freezeFor_some {h : List Obj} {E D : Nat → Prop} {l : Nat} {o : Obj} (hE : ¬ E l) (ho : h[l]? = some o) : ∃ v, freezeFor h E D l = some v := by
  by_cases hD : D l
  · simp only [freezeFor, if_pos hD]; exact freeze_some hE ho
  · exact ⟨_, freezeFor_other (fun h => h.elim hE hD) ho⟩

theorem freezeFor_none {h : List Obj} {E D : Nat → Prop} {l : Nat} (hE : E l) : freezeFor h E D l = none := by
  simp only [freezeFor, freeze_none (.inl hE), if_pos hE]
  split <;> rfl

/-- The specification is frozen as before. -/
theorem SpecAt.freezeFor {h : List Obj} {E : Nat → Prop} {pv : Val} {spec : Spec} (hp : SpecAt h pv spec) (hE : ∀ l, E l → ¬ Refers h pv l) :
    SpecVal (fz (freezeFor h E (Refers h pv)) pv) spec := by
  have := hp.frozen hE
  obtain ⟨l, items, rfl, h1, -⟩ := hp
  simpa only [fz, Src.freezeFor, if_pos (show Refers h (.ref l) l from .inl rfl)] using this

end

end Iso8583.Src
