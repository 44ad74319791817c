import Verif.Source.SpecsCode
import Verif.Props.SourceDecode
import Verif.Model.Specs
/-!
# C85: running specs.py makes the tables of the model

`Source/SpecsCode.lean` is the text of specs.py as data.
-/

namespace Iso8583.Src

variable {ε σ : Type} {rt : Rt ε σ} {call : Caller ε σ}

/-! ## What the text is -/

/-- A dict display with the properties of a field. -/
def fieldExpr (fs : FieldSpec) : Expr :=
  .dict [.str py"data_enc", .str py"len_enc", .str py"len_type", .str py"max_len", .str py"desc"] [.str fs.dataEnc, .str fs.lenEnc, .int fs.lenType, .int fs.maxLen, .str (fs.desc.getD [])]

/-- A dict display with the fields of a specification. -/
def specExpr (spec : Spec) : Expr := .dict (spec.map fun p => .str p.1) (spec.map fun p => fieldExpr p.2)

theorem specs1_eq : specs1 = .assign [.name .default] (specExpr defaultSpec) := by
  unfold specs1; rfl

theorem specs2_eq : specs2 = .assign [.name .default_ascii] (specExpr defaultAsciiSpec) := by
  unfold specs2; rfl

/-! ## What it does -/

/-- The dict a field's display makes. -/
def fieldObj (fs : FieldSpec) : Obj := .dict
  [(.str py"data_enc", .str fs.dataEnc), (.str py"len_enc", .str fs.lenEnc), (.str py"len_type", .int fs.lenType), (.str py"max_len", .int fs.maxLen), (.str py"desc", .str (fs.desc.getD []))]

theorem eval_fieldExpr (fs : FieldSpec) (st : St σ) :
    eval rt call (fieldExpr fs) st = (.ok (.ref st.heap.length), { st with heap := st.heap ++ [fieldObj fs] }) := by
  simp [fieldExpr, src, alloc, insert, Val.same, fieldObj]

/-- References to `n` objects from `b` on. -/
def refsFrom (b : Nat) : Nat → List Val
  | 0 => []
  | n + 1 => .ref b :: refsFrom (b + 1) n

/-- The items of a specification whose fields are at `b` and after. -/
def specItems (b : Nat) (spec : Spec) : List (Val × Val) := (spec.map fun p => Val.str p.1).zip (refsFrom b spec.length)

theorem inPairs_fields : ∀ (spec : Spec) (st : St σ),
    inPairs (evalEach rt call (spec.map fun p => .str p.1)) (evalEach rt call (spec.map fun p => fieldExpr p.2)) st =
      (.ok (specItems st.heap.length spec), { st with heap := st.heap ++ spec.map fun p => fieldObj p.2 })
  | [], st => by simp [src, specItems]
  | p :: t, st => by
    simp only [List.map_cons, evalEach, inPairs, PyM.run_bind, eval_str, eval_fieldExpr, inPairs_fields t]
    simp [src, specItems, refsFrom]

theorem specItems_plain (b : Nat) (spec : Spec) : ((specItems b spec).all fun p => p.1.plain) = true := by
  refine List.all_eq_true.mpr fun p hp => ?_
  obtain ⟨q, -, hq⟩ := List.mem_map.1 (List.of_mem_zip hp).1
  rw [← hq]; rfl

theorem insert_new {k v : Val} : ∀ {items : List (Val × Val)}, (∀ p ∈ items, p.1.same k = false) → insert items k v = items ++ [(k, v)]
  | [], _ => rfl
  | p :: t, h => by
    rw [insert, if_neg (by simp [h p (by simp)]), insert_new fun q hq => h q (by simp [hq])]
    rfl

theorem foldl_insert : ∀ (new items : List (Val × Val)),
    (∀ p ∈ new, ∃ k, p.1 = Val.str k) → (∀ p ∈ items, ∃ k, p.1 = Val.str k) → ((items ++ new).map Prod.fst).Nodup →
    new.foldl (fun d p => insert d p.1 p.2) items = items ++ new
  | [], items, _, _, _ => by simp
  | p :: t, items, h1, h2, h3 => by
    obtain ⟨k, hk⟩ := h1 p (by simp)
    have h4 : insert items p.1 p.2 = items ++ [p] := by
      refine insert_new fun q hq => ?_
      obtain ⟨k', hk'⟩ := h2 q hq
      rw [hk, hk', same_str, beq_eq_false_iff_ne]
      intro e
      rw [List.map_append, List.nodup_append] at h3
      refine h3.2.2 q.1 (List.mem_map.2 ⟨q, hq, rfl⟩) p.1 (by simp) ?_
      rw [hk, hk', e]
    rw [List.foldl_cons, h4, foldl_insert t (items ++ [p]) (fun q hq => h1 q (by simp [hq])) ?_ (by simpa using h3)]
    · simp
    · intro q hq
      rcases List.mem_append.1 hq with hq | hq
      · exact h2 q hq
      · exact ⟨k, by rw [List.mem_singleton.1 hq]; exact hk⟩

theorem refsFrom_length : ∀ (n b : Nat), (refsFrom b n).length = n
  | 0, _ => rfl
  | n + 1, b => by rw [refsFrom, List.length_cons, refsFrom_length n]

theorem eval_specExpr (spec : Spec) (nd : spec.NoDup) (st : St σ) : eval rt call (specExpr spec) st =
    (.ok (.ref (st.heap.length + spec.length)),
      { st with heap := st.heap ++ (spec.map fun p => fieldObj p.2) ++ [.dict (specItems st.heap.length spec)] }) := by
  have hf : (specItems st.heap.length spec).foldl (fun d p => insert d p.1 p.2) [] = specItems st.heap.length spec := by
    refine foldl_insert _ [] (fun p hp => ?_) (fun p hp => by simp at hp) ?_
    · obtain ⟨q, -, hq⟩ := List.mem_map.1 (List.of_mem_zip hp).1
      exact ⟨_, hq.symm⟩
    · rw [List.nil_append, specItems, List.map_fst_zip (by simp [refsFrom_length])]
      have : (spec.map fun p => Val.str p.1) = spec.keys.map Val.str := by simp [Dict.keys]
      rw [this]
      exact List.Pairwise.map _ (fun a b h e => h (by cases e; rfl)) nd
  rw [specExpr, eval_dict, PyM.run_bind, inPairs_fields]
  simp only [specItems_plain, if_true, alloc, hf]
  simp

/-! ## A deep copy of the objects is the value the other theorems take -/

/-- The value of a dict with the values of what it refers to, `n` levels deep. -/
def deepCopy (h : List Obj) : Nat → Val → Val
  | n + 1, .ref l => match h[l]? with
    | some (.dict items) => .dict (items.map fun p => (p.1, deepCopy h n p.2))
    | _ => .ref l
  | _, v => v

/-- Fields with a description, and without the properties that have defaults: all fields of specs.py. -/
def Plain (fs : FieldSpec) : Bool := fs.desc.isSome && fs.lenCount.isNone && fs.leftPad.isNone && fs.rightPad.isNone

/-- The value of a field, as in `specVal`. -/
def fieldVal (fs : FieldSpec) : Val := .dict (
  [(.str py"data_enc", .str fs.dataEnc), (.str py"len_enc", .str fs.lenEnc), (.str py"len_type", .int fs.lenType), (.str py"max_len", .int fs.maxLen)] ++
  (match fs.lenCount with | some v => [(.str py"len_count", .str v)] | none => []) ++
  (match fs.leftPad with | some v => [(.str py"left_pad", .str v)] | none => []) ++
  (match fs.rightPad with | some v => [(.str py"right_pad", .str v)] | none => []) ++
  (match fs.desc with | some v => [(.str py"desc", .str v)] | none => []))

theorem specVal_eq (spec : Spec) : specVal spec = .dict (spec.map fun p => (.str p.1, fieldVal p.2)) := rfl

theorem deepCopy_field {h : List Obj} {l : Nat} {fs : FieldSpec} (hl : h[l]? = some (fieldObj fs)) (hp : Plain fs = true) :
    deepCopy h 1 (.ref l) = fieldVal fs := by
  obtain ⟨a, b, c, d, e, f, g, i⟩ := fs
  simp only [Plain, Bool.and_eq_true, Option.isNone_iff_eq_none] at hp
  obtain ⟨⟨⟨hi, rfl⟩, rfl⟩, rfl⟩ := hp
  cases i with
  | none => cases hi
  | some i =>
    rw [deepCopy, hl]
    rfl

theorem deepCopy_items {h : List Obj} : ∀ (spec : Spec) (b : Nat), (∀ i p, spec[i]? = some p → h[b + i]? = some (fieldObj p.2)) → (∀ p ∈ spec, Plain p.2 = true) →
    (specItems b spec).map (fun p => (p.1, deepCopy h 1 p.2)) = spec.map fun p => (.str p.1, fieldVal p.2)
  | [], _, _, _ => rfl
  | p :: t, b, h1, h2 => by
    have h3 := deepCopy_field (h1 0 p rfl) (h2 p (by simp))
    have ih := deepCopy_items t (b + 1) (fun i q hq => by rw [Nat.add_right_comm]; exact h1 (i + 1) q hq) fun q hq => h2 q (by simp [hq])
    rw [specItems] at ih ⊢
    simp only [List.map_cons, List.length_cons, refsFrom, List.zip_cons_cons, ih]
    rw [Nat.add_zero] at h3
    rw [h3]

theorem deepCopy_spec {h : List Obj} {spec : Spec} {l b : Nat} (hl : h[l]? = some (.dict (specItems b spec)))
    (h1 : ∀ i p, spec[i]? = some p → h[b + i]? = some (fieldObj p.2)) (h2 : ∀ p ∈ spec, Plain p.2 = true) : deepCopy h 2 (.ref l) = specVal spec := by
  rw [specVal_eq, ← deepCopy_items spec b h1 h2, deepCopy, hl]

theorem shipped_plain : (∀ p ∈ defaultSpec, Plain p.2 = true) ∧ ∀ p ∈ defaultAsciiSpec, Plain p.2 = true := by decide +kernel

theorem shipped_noDup : defaultSpec.NoDup ∧ defaultAsciiSpec.NoDup := by
  unfold Dict.NoDup; decide +kernel

/-- The state after `x = <display of spec>`. -/
theorem exec_spec (x : Ident) (spec : Spec) (nd : spec.NoDup) (st : St σ) : exec rt call (.assign [.name x] (specExpr spec)) st =
    (.ok .next, { st with vars := st.vars.set x (.ref (st.heap.length + spec.length)),
                          heap := st.heap ++ (spec.map fun p => fieldObj p.2) ++ [.dict (specItems st.heap.length spec)] }) := by
  have h := eval_specExpr (rt := rt) (call := call) spec nd st
  simp only [src, h]

theorem copy_after {spec : Spec} {h g : List Obj} (h2 : ∀ p ∈ spec, Plain p.2 = true) :
    deepCopy (h ++ (spec.map fun p => fieldObj p.2) ++ [.dict (specItems h.length spec)] ++ g) 2 (.ref (h.length + spec.length)) = specVal spec := by
  refine deepCopy_spec (b := h.length) ?_ (fun i p hp => ?_) h2
  · rw [List.getElem?_append_left (by simp), List.getElem?_append_right (by simp)]
    simp
  · obtain ⟨hi, -⟩ := List.getElem?_eq_some_iff.1 hp
    rw [List.getElem?_append_left (by simp; omega), List.getElem?_append_left (by simp; omega), List.getElem?_append_right (by simp)]
    simp [hp]

/-- **C85**: importing specs.py sets `default` and `default_ascii` to two new dicts with the tables of the model, and
changes nothing that existed before. -/
theorem specs_source (st : St σ) : ∃ (a b : Nat) (h : List Obj),
    execs rt call specsModule st = (.ok .next, { st with vars := (st.vars.set .default (.ref a)).set .default_ascii (.ref b), heap := h }) ∧
    a ≠ b ∧ (∀ (l : Nat) o, st.heap[l]? = some o → h[l]? = some o) ∧
    deepCopy h 2 (.ref a) = specVal defaultSpec ∧ deepCopy h 2 (.ref b) = specVal defaultAsciiSpec := by
  have e1 := exec_spec (rt := rt) (call := call) .default defaultSpec shipped_noDup.1 st
  generalize hst1 : ({ st with vars := st.vars.set .default (.ref (st.heap.length + defaultSpec.length)), heap := st.heap ++ (defaultSpec.map fun p => fieldObj p.2) ++ [.dict (specItems st.heap.length defaultSpec)] } : St σ) = st1 at e1
  have e2 := exec_spec (rt := rt) (call := call) .default_ascii defaultAsciiSpec shipped_noDup.2 st1
  refine ⟨st.heap.length + defaultSpec.length, st1.heap.length + defaultAsciiSpec.length,
    st1.heap ++ (defaultAsciiSpec.map fun p => fieldObj p.2) ++ [.dict (specItems st1.heap.length defaultAsciiSpec)], ?_, ?_, ?_, ?_, ?_⟩
  · rw [specsModule, specs1_eq, specs2_eq]
    simp only [execs, PyM.run_bind, e1, e2, PyM.run_pure]
    subst hst1
    rfl
  · subst hst1
    simp
    omega
  · intro l o hl
    obtain ⟨hi, -⟩ := List.getElem?_eq_some_iff.1 hl
    subst hst1
    simp only [List.append_assoc]
    rw [List.getElem?_append_left hi]
    exact hl
  · have := copy_after (spec := defaultSpec) (h := st.heap) (g := (defaultAsciiSpec.map fun p => fieldObj p.2) ++ [.dict (specItems st1.heap.length defaultAsciiSpec)]) shipped_plain.1
    subst hst1
    simpa only [List.append_assoc] using this
  · have := copy_after (spec := defaultAsciiSpec) (h := st1.heap) (g := []) shipped_plain.2
    simpa only [List.append_nil] using this

/-- The two values are specifications: what `decode_source`, `encode_source` and `pp_source` ask for. -/
theorem specs_specVal (st : St σ) : ∃ (a b : Nat) (st1 : St σ), execs rt call specsModule st = (.ok .next, st1) ∧
    st1.vars .default = some (.ref a) ∧ st1.vars .default_ascii = some (.ref b) ∧
    SpecVal (deepCopy st1.heap 2 (.ref a)) defaultSpec ∧ SpecVal (deepCopy st1.heap 2 (.ref b)) defaultAsciiSpec := by
  obtain ⟨a, b, h, h1, -, -, h2, h3⟩ := specs_source (rt := rt) (call := call) st
  refine ⟨a, b, _, h1, rfl, rfl, ?_, ?_⟩
  · exact h2 ▸ specVal_is defaultSpec
  · exact h3 ▸ specVal_is defaultAsciiSpec

/-- Field 2 of both tables, as the text has it. -/
example (st : St Unit) : ∃ (a : Nat) (st1 : St Unit) (items : List (Val × Val)), execs plainRt (program plainRt []) specsModule st = (.ok .next, st1) ∧
    st1.vars .default = some (.ref a) ∧ deepCopy st1.heap 2 (.ref a) = .dict items ∧
    lookup items (.str py"2") = some (.dict [(.str py"data_enc", .str py"ascii"), (.str py"len_enc", .str py"ascii"), (.str py"len_type", .int 2), (.str py"max_len", .int 19), (.str py"desc", .str py"Primary Account Number (PAN)")]) := by
  obtain ⟨a, b, h, h1, -, -, h2, -⟩ := specs_source (rt := plainRt) (call := program plainRt []) st
  exact ⟨a, _, _, h1, rfl, h2, rfl⟩

end Iso8583.Src
