import Verif.Source.Run
/-!
# Objects nobody changes may be taken for values

`Semantics.lean` has two kinds of dicts: objects in the heap, and values (`Val.dict`) for dicts that
nobody changes.  Here is the justification.  `K` names objects of the heap and what stands for them: a
dict is stood for by the value with the same items, and any object by `Val.thing`, which only tells its
length, its bytes if it is a bytearray, and that it is no text.  If a program runs on the values without getting stuck, it runs on the objects in
the same way and changes none of them.
-/

namespace Iso8583.Src

section
variable (K : Nat → Option Val)

mutual
/-- Put values in the place of references. -/
def fz : Val → Val
  | .none => .none
  | .bool b => .bool b
  | .int n => .int n
  | .str s => .str s
  | .bytes b => .bytes b
  | .barray b => .barray b
  | .float m e => .float m e
  | .nan => .nan
  | .inf => .inf
  | .list xs => .list (fzs xs)
  | .tuple xs => .tuple (fzs xs)
  | .dict items => .dict (fzItems items)
  | .ref l => (K l).getD (.ref l)
  | .glob x => .glob x
  | .globAttr x a => .globAttr x a
  | .exn c a => .exn c (fz a)
  | .stream b => .stream b
  | .obj c r n => .obj c r n
  | .cls n => .cls n
  | .thing _ k => .thing none k

def fzs : List Val → List Val
  | [] => []
  | v :: t => fz v :: fzs t

def fzItems : List (Val × Val) → List (Val × Val)
  | [] => []
  | p :: t => fzPair p :: fzItems t

def fzPair : Val × Val → Val × Val
  | (k, v) => (fz k, fz v)
end

theorem fzs_map (xs : List Val) : fzs K xs = xs.map (fz K) := by
  induction xs with
  | nil => rfl
  | cons v t ih => simp [fzs, ih]

theorem fzItems_map (xs : List (Val × Val)) : fzItems K xs = xs.map fun p => (fz K p.1, fz K p.2) := by
  induction xs with
  | nil => rfl
  | cons v t ih => obtain ⟨a, b⟩ := v; simp [fzItems, fzPair, ih]

/-- In keyword arguments and attributes. -/
def fzKws (kws : List (Ident × Val)) : List (Ident × Val) := kws.map fun p => (p.1, fz K p.2)

def fzObj : Obj → Obj
  | .dict items => .dict (fzItems K items)
  | .set xs => .set xs
  | .barray b => .barray b
  | .inst c args attrs => .inst c (fzs K args) (fzKws K attrs)

def fzVars (vs : Vars) : Vars := fun x => (vs x).map (fz K)

def fzSt {σ : Type} (st : St σ) : St σ :=
  { vars := fzVars K st.vars, locals := st.locals, ys := fzs K st.ys, heap := st.heap.map (fzObj K), world := st.world }

/-- In exceptions; an object of `K` is not to be raised. -/
def fzExc {ε : Type} : Exc ε → Exc ε
  | .std c a => .std c (fz K a)
  | .inst c l => if K l = none then .inst c l else .stuck
  | .ext e => .ext e
  | .stuck => .stuck

def fzRt {ε σ : Type} (rt : Rt ε σ) : Rt ε σ := { rt with globals := fzVars K rt.globals }

/-- `v` stands for the object `o` at `l`. -/
inductive Stands (l : Nat) : Obj → Val → Prop
  | dict (items : List (Val × Val)) : Stands l (.dict items) (.dict (fzItems K items))
  | thing (o : Obj) : Stands l o (.thing (some l) (thingOf o))

/-- `K` names objects of the heap `h`, with values that stand for them; they are the ones of `h₀`. -/
def Frozen (h₀ h : List Obj) : Prop := ∀ l v, K l = some v → ∃ o, h₀[l]? = some o ∧ h[l]? = some o ∧ Stands K l o v

/-- The second computation, on values, gets stuck, or the first, on objects, does the same and leaves
the objects of `K` alone. -/
def Agree {ε σ α : Type} (h₀ : List Obj) (f : α → α) (m m' : M ε σ α) : Prop := ∀ st, Frozen K h₀ st.heap →
  (m' (fzSt K st)).1 = .error .stuck ∨
  (m' (fzSt K st) = (((m st).1.map f).mapError (fzExc K), fzSt K (m st).2) ∧ Frozen K h₀ (m st).2.heap)

end

variable {ε σ : Type} {K : Nat → Option Val} {h₀ : List Obj}

/-! ## What `fz` leaves -/

theorem stands_of (hK : Frozen K h₀ h₀) {l : Nat} {v : Val} (h : K l = some v) : (∃ k, v = .thing (some l) k) ∨ ∃ items, v = .dict items := by
  obtain ⟨o, -, -, hs⟩ := hK l v h
  cases hs with
  | dict items => exact .inr ⟨_, rfl⟩
  | thing => exact .inl ⟨_, rfl⟩

theorem frozen_self {h : List Obj} (hK : Frozen K h₀ h) : Frozen K h₀ h₀ := fun l v hl => by
  obtain ⟨o, h1, -, h3⟩ := hK l v hl
  exact ⟨o, h1, h1, h3⟩

/-- Values without parts, references aside. -/
def Val.simple : Val → Bool
  | .list _ | .tuple _ | .dict _ | .ref _ | .exn .. | .thing .. => false
  | _ => true

section
variable (hK : Frozen K h₀ h₀)
include hK

/-- A reference to an object of the heap that is not in `K`, or a value that stands for an object. -/
theorem fz_ref (l : Nat) : (K l = none ∧ fz K (.ref l) = .ref l) ∨ (∃ o, K l = some (.thing (some l) (thingOf o)) ∧ fz K (.ref l) = .thing (some l) (thingOf o) ∧ h₀[l]? = some o) ∨
    ∃ items, K l = some (.dict (fzItems K items)) ∧ fz K (.ref l) = .dict (fzItems K items) ∧ h₀[l]? = some (.dict items) := by
  cases hl : K l with
  | none => exact .inl ⟨rfl, by simp [fz, hl]⟩
  | some w =>
    obtain ⟨o, h1, h2, h3⟩ := hK l w hl
    cases h3 with
    | thing => exact .inr (.inl ⟨o, rfl, by simp [fz, hl], h1⟩)
    | dict items => exact .inr (.inr ⟨items, rfl, by simp [fz, hl], h1⟩)

theorem fz_simple {v w : Val} (h : fz K v = w) (hw : w.simple = true) : v = w := by
  cases v with
  | ref l => rcases fz_ref hK l with ⟨_, h'⟩ | ⟨_, _, h', _⟩ | ⟨_, _, h', _⟩ <;> rw [h'] at h <;> subst h <;> cases hw
  | list | tuple | dict | exn | thing => subst h; cases hw
  | _ => exact h

theorem fz_none {v : Val} (h : fz K v = .none) : v = .none := fz_simple hK h rfl
theorem fz_bool {v : Val} {b : Bool} (h : fz K v = .bool b) : v = .bool b := fz_simple hK h rfl
theorem fz_int {v : Val} {b : Int} (h : fz K v = .int b) : v = .int b := fz_simple hK h rfl
theorem fz_str {v : Val} {b : Str} (h : fz K v = .str b) : v = .str b := fz_simple hK h rfl
theorem fz_bytes {v : Val} {b : Bytes} (h : fz K v = .bytes b) : v = .bytes b := fz_simple hK h rfl
theorem fz_barray {v : Val} {b : Bytes} (h : fz K v = .barray b) : v = .barray b := fz_simple hK h rfl
theorem fz_glob {v : Val} {b : Ident} (h : fz K v = .glob b) : v = .glob b := fz_simple hK h rfl
theorem fz_stream {v : Val} {b : Bool} (h : fz K v = .stream b) : v = .stream b := fz_simple hK h rfl
theorem fz_obj {v : Val} {c r : Str} {n : Option Nat} (h : fz K v = .obj c r n) : v = .obj c r n := fz_simple hK h rfl

theorem fz_list {v : Val} {xs : List Val} (h : fz K v = .list xs) : ∃ ys, v = .list ys ∧ xs = fzs K ys := by
  cases v with
  | list ys => exact ⟨ys, rfl, by simpa [fz] using h.symm⟩
  | ref l => rcases fz_ref hK l with ⟨_, h'⟩ | ⟨_, _, h', _⟩ | ⟨_, _, h', _⟩ <;> rw [h'] at h <;> cases h
  | _ => cases h

theorem fz_tuple {v : Val} {xs : List Val} (h : fz K v = .tuple xs) : ∃ ys, v = .tuple ys ∧ xs = fzs K ys := by
  cases v with
  | tuple ys => exact ⟨ys, rfl, by simpa [fz] using h.symm⟩
  | ref l => rcases fz_ref hK l with ⟨_, h'⟩ | ⟨_, _, h', _⟩ | ⟨_, _, h', _⟩ <;> rw [h'] at h <;> cases h
  | _ => cases h

theorem fz_dict {v : Val} {xs : List (Val × Val)} (h : fz K v = .dict xs) : ∃ ys, xs = fzItems K ys ∧
    (v = .dict ys ∨ ∃ l, v = .ref l ∧ h₀[l]? = some (.dict ys) ∧ K l = some (.dict xs)) := by
  cases v with
  | dict ys => exact ⟨ys, by simpa [fz] using h.symm, .inl rfl⟩
  | ref l =>
    rcases fz_ref hK l with ⟨_, h'⟩ | ⟨_, _, h', _⟩ | ⟨ys, h1, h', h2⟩ <;> rw [h'] at h
    · cases h
    · cases h
    · cases h; exact ⟨ys, rfl, .inr ⟨l, rfl, h2, h1⟩⟩
  | _ => cases h

theorem fz_thing {v : Val} {i : Option Nat} {k : Thing} (h : fz K v = .thing i k) :
    (i = none ∧ ∃ j, v = .thing j k) ∨ ∃ l o, v = .ref l ∧ i = some l ∧ k = thingOf o ∧ K l = some (.thing i k) ∧ h₀[l]? = some o := by
  cases v with
  | ref l =>
    rcases fz_ref hK l with ⟨_, h'⟩ | ⟨o, h1, h', h2⟩ | ⟨_, _, h', _⟩ <;> rw [h'] at h <;> cases h
    exact .inr ⟨l, o, rfl, rfl, rfl, h1, h2⟩
  | _ => cases h <;> exact .inl ⟨rfl, _, rfl⟩

theorem fz_is_ref {v : Val} {l : Nat} (h : fz K v = .ref l) : v = .ref l ∧ K l = none := by
  cases v with
  | ref l' => rcases fz_ref hK l' with ⟨h1, h'⟩ | ⟨_, _, h', _⟩ | ⟨_, _, h', _⟩ <;> rw [h'] at h <;> cases h; exact ⟨rfl, h1⟩
  | _ => cases h

theorem same_fz (a b : Val) : (fz K a).same (fz K b) = a.same b := by
  have hr : ∀ l (v : Val), (fz K (.ref l)).same v = false := fun l v => by
    rcases fz_ref hK l with ⟨_, h'⟩ | ⟨_, _, h', _⟩ | ⟨_, _, h', _⟩ <;> rw [h'] <;> cases v <;> rfl
  have hr' : ∀ l (v : Val), v.same (fz K (.ref l)) = false := fun l v => by
    rcases fz_ref hK l with ⟨_, h'⟩ | ⟨_, _, h', _⟩ | ⟨_, _, h', _⟩ <;> rw [h'] <;> cases v <;> rfl
  cases a with
  | ref l => rw [hr]; cases b <;> rfl
  | _ => cases b with
    | ref l => rw [hr']; rfl
    | _ => rfl

theorem lookup_fz (items : List (Val × Val)) (k : Val) : lookup (fzItems K items) (fz K k) = (lookup items k).map (fz K) := by
  induction items with
  | nil => rfl
  | cons p t ih =>
    obtain ⟨a, b⟩ := p
    simp only [fzItems, fzPair, lookup, same_fz hK]
    split
    · rfl
    · exact ih

theorem insert_fz (items : List (Val × Val)) (k v : Val) : insert (fzItems K items) (fz K k) (fz K v) = fzItems K (insert items k v) := by
  induction items with
  | nil => rfl
  | cons p t ih =>
    obtain ⟨a, b⟩ := p
    simp only [fzItems, fzPair, insert, same_fz hK]
    split
    · rfl
    · simp only [fzItems, fzPair, ih]

theorem delete_fz (items : List (Val × Val)) (k : Val) : delete (fzItems K items) (fz K k) = fzItems K (delete items k) := by
  induction items with
  | nil => rfl
  | cons p t ih =>
    obtain ⟨a, b⟩ := p
    simp only [fzItems, fzPair, delete, same_fz hK]
    split
    · rfl
    · simp only [fzItems, fzPair, ih]

end

theorem attrGet_fz (attrs : List (Ident × Val)) (a : Ident) : attrGet (fzKws K attrs) a = (attrGet attrs a).map (fz K) := by
  induction attrs with
  | nil => rfl
  | cons p t ih =>
    obtain ⟨b, v⟩ := p
    simp only [fzKws, List.map_cons, attrGet]
    split
    · rfl
    · exact ih

theorem attrSet_fz (attrs : List (Ident × Val)) (a : Ident) (v : Val) : attrSet (fzKws K attrs) a (fz K v) = fzKws K (attrSet attrs a v) := by
  induction attrs with
  | nil => rfl
  | cons p t ih =>
    obtain ⟨b, w⟩ := p
    simp only [fzKws, List.map_cons, attrSet]
    split
    · rfl
    · simp only [List.map_cons, List.cons.injEq, true_and]; exact ih

theorem ints_fz (hK : Frozen K h₀ h₀) (xs : List Val) : ints (fzs K xs) = ints xs := by
  induction xs with
  | nil => rfl
  | cons v t ih =>
    cases v with
    | ref l => rcases fz_ref hK l with ⟨_, h'⟩ | ⟨_, _, h', _⟩ | ⟨_, _, h', _⟩ <;> simp only [fzs, h'] <;> rfl
    | int n => simp only [fzs, fz, ints, ih]
    | _ => rfl

/-! ## Computations -/

theorem agree_pure {α : Type} {f : α → α} {a b : α} (h : b = f a) : Agree K h₀ f (pure a : M ε σ α) (pure b) := by
  subst h; exact fun st hs => .inr ⟨rfl, hs⟩

theorem agree_raise {α : Type} {f : α → α} {e e' : Exc ε} (h : e' = fzExc K e) : Agree K h₀ f (PyM.raise e : M ε σ α) (PyM.raise e') := by
  subst h; exact fun st hs => .inr ⟨rfl, hs⟩

theorem agree_stuck {α : Type} {f : α → α} (m : M ε σ α) : Agree K h₀ f m stuck := fun _ _ => .inl rfl

theorem agree_fail {α : Type} {f : α → α} (c : Ident) : Agree K h₀ f (fail c : M ε σ α) (fail c) := agree_raise rfl

theorem agree_bind {α β : Type} {f : α → α} {g : β → β} {m m' : M ε σ α} {k k' : α → M ε σ β} (h : Agree K h₀ f m m')
    (hk : ∀ a, Agree K h₀ g (k a) (k' (f a))) : Agree K h₀ g (m >>= k) (m' >>= k') := by
  intro st hs
  rcases h st hs with h1 | ⟨h1, h2⟩
  · left
    rw [PyM.run_bind]
    rcases hm : m' (fzSt K st) with ⟨r, s'⟩
    rw [hm] at h1; simp only at h1; subst h1; rfl
  · rcases hm : m st with ⟨r, s'⟩
    rw [hm] at h1 h2
    simp only [PyM.run_bind, h1, hm]
    cases r with
    | error e => exact .inr ⟨rfl, h2⟩
    | ok a => exact hk a s' h2

/-- Under an equation between results that holds because `f` is the identity. -/
theorem agree_congr {α : Type} {f g : α → α} (h : ∀ a, f a = g a) {m m' : M ε σ α} (hm : Agree K h₀ f m m') : Agree K h₀ g m m' := by
  cases funext h; exact hm

theorem agree_deref {l : Nat} (_ : K l = none) : Agree K h₀ (fzObj K) (deref l : M ε σ Obj) (deref l) := by
  intro st hs
  simp only [deref, fzSt, List.getElem?_map]
  cases st.heap[l]? with
  | none => exact .inl rfl
  | some o => exact .inr ⟨rfl, hs⟩

theorem agree_store {l : Nat} (hl : K l = none) (o : Obj) : Agree K h₀ id (store l o : M ε σ Unit) (store l (fzObj K o)) := by
  intro st hs
  right
  refine ⟨by simp [store, fzSt, Except.map, Except.mapError, List.map_set], fun i v hi => ?_⟩
  obtain ⟨o', h1, h2, h3⟩ := hs i v hi
  refine ⟨o', h1, ?_, h3⟩
  have : l ≠ i := by rintro rfl; rw [hl] at hi; cases hi
  simp [store, List.getElem?_set_ne this, h2]

theorem agree_alloc (o : Obj) : Agree K h₀ (fz K) (alloc o : M ε σ Val) (alloc (fzObj K o)) := by
  intro st hs
  right
  have hn : K st.heap.length = none := by
    cases h : K st.heap.length with
    | none => rfl
    | some v =>
      obtain ⟨o', _, h2, _⟩ := hs _ v h
      simp at h2
  refine ⟨by simp [alloc, fzSt, Except.map, Except.mapError, fz, hn], fun i v hi => ?_⟩
  obtain ⟨o', h1, h2, h3⟩ := hs i v hi
  exact ⟨o', h1, by simp only [alloc]; rw [List.getElem?_append_left (List.getElem?_eq_some_iff.1 h2).1]; exact h2, h3⟩

theorem agree_setVar (x : Ident) (v : Val) : Agree K h₀ id (setVar x v : M ε σ Unit) (setVar x (fz K v)) := by
  intro st hs
  refine .inr ⟨?_, hs⟩
  simp only [setVar, PyM.run_modify, fzSt, Except.map, Except.mapError, Prod.mk.injEq, true_and, id]
  congr 1
  funext y
  simp only [fzVars, Vars.set]
  split <;> rfl

/-- A dict of `K` may be looked into. -/
theorem deref_frozen {l : Nat} {items ys : List (Val × Val)} (h1 : K l = some (.dict ys)) (h2 : h₀[l]? = some (.dict items)) {st : St σ}
    (hs : Frozen K h₀ st.heap) : (deref l : M ε σ Obj) st = (.ok (.dict items), st) := by
  obtain ⟨o, h3, h4, _⟩ := hs l _ h1
  rw [h2] at h3; cases h3
  simp [deref, h4]

/-- An object of `K` may be looked at. -/
theorem deref_thing {l : Nat} {v : Val} {o : Obj} (h1 : K l = some v) (h2 : h₀[l]? = some o) {st : St σ}
    (hs : Frozen K h₀ st.heap) : (deref l : M ε σ Obj) st = (.ok o, st) := by
  obtain ⟨o', h3, h4, _⟩ := hs l _ h1
  rw [h2] at h3; cases h3
  simp [deref, h4]

theorem agree_thing {α : Type} {f : α → α} {l : Nat} {v : Val} {o : Obj} (h1 : K l = some v) (h2 : h₀[l]? = some o)
    {k : Obj → M ε σ α} {m' : M ε σ α} (h : Agree K h₀ f (k o) m') : Agree K h₀ f (deref l >>= k) m' := by
  intro st hs
  have := h st hs
  rw [PyM.run_bind, deref_thing h1 h2 hs]
  exact this

/-- What is done with a dict of `K` and with the value that stands for it. -/
theorem agree_frozen {α : Type} {f : α → α} {l : Nat} {items ys : List (Val × Val)} (h1 : K l = some (.dict ys)) (h2 : h₀[l]? = some (.dict items))
    {k : Obj → M ε σ α} {m' : M ε σ α} (h : Agree K h₀ f (k (.dict items)) m') : Agree K h₀ f (deref l >>= k) m' := by
  intro st hs
  have := h st hs
  rw [PyM.run_bind, deref_frozen h1 h2 hs]
  exact this

end Iso8583.Src
