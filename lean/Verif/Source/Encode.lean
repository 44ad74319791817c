import Verif.Source.EncodeBitmap
import Verif.Source.Decode
import Verif.Lemmas.EncodeRun
/-!
# encoder.py: `encode`
-/

namespace Iso8583.Src

variable {ε σ : Type} {rt : Rt ε σ} {call : Caller ε σ} {dd de sl fl : Nat} {F F' : List (Nat × Obj)} {items : List (Val × Val)} {pv : Val} {spec : PartialSpec}

/-! ## The model in pieces -/

/-- encoder.py:159-162. -/
def encRest (env : PyEnv) (spec : PartialSpec) (acc : Bytes) (fields : List Nat) : EncM Bytes := do
  let ws ← encodeFieldsP env spec (sortedNat fields)
  return acc ++ ws

/-- `_encode_bitmap(…, spec[key], …)`. -/
def encBitmapOf (env : PyEnv) (spec : PartialSpec) (key : Str) (off : Nat) (ext : Bool) (fields : List Nat) : EncM Bytes := do
  let fs ← partialSpec .keyError spec key
  encodeBitmapP env key fs off ext fields

/-- encoder.py:147-162. -/
def encThird (env : PyEnv) (spec : PartialSpec) (acc : Bytes) (fields ter : List Nat) : EncM Bytes :=
  if 65 ∈ fields then do
    let w ← encBitmapOf env spec py"1" 128 true ter
    encRest env spec (acc ++ w) (setRemove fields 65)
  else encRest env spec acc fields

/-- encoder.py:135-162. -/
def encSecond (env : PyEnv) (spec : PartialSpec) (acc : Bytes) (fields sec ter : List Nat) : EncM Bytes :=
  if 1 ∈ fields then do
    let w ← encBitmapOf env spec py"1" 64 false sec
    encThird env spec (acc ++ w) (setRemove fields 1) ter
  else encThird env spec acc fields ter

/-- encoder.py:125-162. -/
def encPrimary (env : PyEnv) (spec : PartialSpec) (acc : Bytes) (fields sec ter : List Nat) : EncM Bytes := do
  let w ← encBitmapOf env spec py"p" 0 false (setInter fields 1 65)
  encSecond env spec (acc ++ w) fields sec ter

/-- encoder.py:107-162. -/
def encNumbers (env : PyEnv) (spec : PartialSpec) (acc : Bytes) (ints : List Int) : EncM Bytes :=
  if ints.all inRange then
    encPrimary env spec acc (f2Of (ints.map Int.toNat)) (secOf (ints.map Int.toNat)) (terOf (ints.map Int.toNat))
  else encFail (.outOfRange (sortedBy id (ints.filter fun n => ¬ inRange n))) py"p"

/-- The bitmaps and fields part of `encodeBodyP`, as it appears there. -/
def encodeTailP (env : PyEnv) (spec : PartialSpec) (h t : Bytes) (F : List Nat) : EncM Bytes := do
  let p ← encodeBitmapP env py"p" (← partialSpec .keyError spec py"p") 0 false (priOf F)
  let (b1, fields) ←
    if 1 ∈ f2Of F then do
      let w ← encodeBitmapP env py"1" (← partialSpec .keyError spec py"1") 64 false (secOf F)
      pure (w, setRemove (f2Of F) 1)
    else pure ([], f2Of F)
  let (b2, fields) ←
    if 65 ∈ fields then do
      let w ← encodeBitmapP env py"1" (← partialSpec .keyError spec py"1") 128 true (terOf F)
      pure (w, setRemove fields 65)
    else pure ([], fields)
  let ws ← encodeFieldsP env spec (sortedNat fields)
  return h ++ t ++ p ++ b1 ++ b2 ++ ws

theorem encodeBodyP_eq (env : PyEnv) (spec : PartialSpec) :
    encodeBodyP env spec = (do
      PyM.modify fun st => { st with dec := (st.dec.pop (.str py"1")).pop (.str py"65") }
      let h ← encodeHeaderP env spec
      let t ← encodeTypeP env spec
      let ks := (← PyM.get).dec.keys
      let nums ← PyM.lift (numericKeys env ks ks)
      let ints := setUpdate [] nums
      if ¬ ints.all inRange then
        encFail (.outOfRange (sortedBy id (ints.filter fun n => ¬ inRange n))) py"p"
      encodeTailP env spec h t (ints.map Int.toNat) : EncM Bytes) := rfl

theorem encodeTail_split (env : PyEnv) (spec : PartialSpec) (h t : Bytes) (F : List Nat) (es : EncState) :
    encodeTailP env spec h t F es = encPrimary env spec (h ++ t) (f2Of F) (secOf F) (terOf F) es := by
  simp only [encodeTailP, encPrimary, encBitmapOf, PyM.run_bind, priOf]
  rcases (partialSpec .keyError spec py"p" : EncM PartialField) es with ⟨_ | fs, es⟩
  · rfl
  simp only
  rcases encodeBitmapP env py"p" fs 0 false (setInter (f2Of F) 1 65) es with ⟨_ | p, es⟩
  · rfl
  simp only [PyM.run_ite, PyM.run_bind, encSecond, encThird, encBitmapOf, encRest]
  generalize f2Of F = G
  split
  · rcases (partialSpec .keyError spec py"1" : EncM PartialField) es with ⟨_ | fs, es⟩
    · rfl
    simp only
    rcases encodeBitmapP env py"1" fs 64 false (secOf F) es with ⟨_ | w, es⟩
    · rfl
    simp only [PyM.run_pure]
    split
    · rcases (partialSpec .keyError spec py"1" : EncM PartialField) es with ⟨_ | fs, es⟩
      · rfl
      simp only
    · simp only [PyM.run_pure, List.append_nil]
  · simp only [PyM.run_pure, List.append_nil]
    split
    · rcases (partialSpec .keyError spec py"1" : EncM PartialField) es with ⟨_ | fs, es⟩
      · rfl
      simp only
    · rfl

theorem encodeBody_split (env : PyEnv) (spec : PartialSpec) : encodeBodyP env spec = (do
    PyM.modify fun st => { st with dec := (st.dec.pop (.str py"1")).pop (.str py"65") }
    let h ← encodeHeaderP env spec
    let t ← encodeTypeP env spec
    let ks := (← PyM.get).dec.keys
    let nums ← PyM.lift (numericKeys env ks ks)
    encNumbers env spec (h ++ t) (setUpdate [] nums)) := by
  rw [encodeBodyP_eq]
  funext es
  simp only [PyM.run_bind]
  rcases PyM.modify _ es with ⟨_ | _, es⟩
  · rfl
  simp only
  rcases encodeHeaderP env spec es with ⟨e | h, es⟩
  · rfl
  simp only
  rcases encodeTypeP env spec es with ⟨e | t, es⟩
  · rfl
  simp only [PyM.run_get, PyM.run_lift]
  rcases numericKeys env es.dec.keys es.dec.keys with e | nums
  · rfl
  simp only [encNumbers]
  generalize setUpdate [] nums = ints
  by_cases hin : ints.all inRange = true
  · simp only [hin, not_true, if_true, if_false, PyM.run_bind, PyM.run_pure, encodeTail_split]
  · simp only [hin, not_false_eq_true, if_true, Bool.false_eq_true, if_false, encFail, PyM.run_raise, PyM.run_bind]

/-! ## Calls -/

/-- What the names called in `encode` are. -/
structure MainCallsE (rt : Rt ε σ) (call : Caller ε σ) : Prop where
  err : call .EncodeError = invoke rt (builtin rt) encodeErrorInitDef
  bytearray : call .bytearray = builtin rt .bytearray
  set : call .set = builtin rt .set
  str : call .str = builtin rt .str
  int : call .int = builtin rt .int
  range : call .range = builtin rt .range
  sorted : call .sorted = builtin rt .sorted
  isinstance : call .isinstance = builtin rt .isinstance
  TypeError : call .TypeError = builtin rt .TypeError
  field : call ._encode_field = invoke rt (program rt [encodeBindaryFieldDef, addPadFieldDef, encodeTextFieldDef, encodeErrorInitDef]) encodeFieldDef
  bitmap : ∃ call', EncCalls rt call' ∧ call ._encode_bitmap = invoke rt call' encodeBitmapDef
  type : ∃ call', EncCalls rt call' ∧ call ._encode_type = invoke rt call' encodeTypeDef
  header : ∃ call', EncCallsF rt call' ∧ call ._encode_header = invoke rt call' encodeHeaderDef

theorem mainCallsE : MainCallsE rt (program rt [encodeHeaderDef, encodeTypeDef, encodeBitmapDef, encodeFieldDef, encodeBindaryFieldDef, addPadFieldDef,
    encodeTextFieldDef, encodeErrorInitDef]) where
  err := by iterate 7 rw [program_ne _ _ (by decide)]
            exact program_eq _ _ rfl
  bytearray := by iterate 8 rw [program_ne _ _ (by decide)]
                  rfl
  set := by iterate 8 rw [program_ne _ _ (by decide)]
            rfl
  str := by iterate 8 rw [program_ne _ _ (by decide)]
            rfl
  int := by iterate 8 rw [program_ne _ _ (by decide)]
            rfl
  range := by iterate 8 rw [program_ne _ _ (by decide)]
              rfl
  sorted := by iterate 8 rw [program_ne _ _ (by decide)]
               rfl
  isinstance := by iterate 8 rw [program_ne _ _ (by decide)]
                   rfl
  TypeError := by iterate 8 rw [program_ne _ _ (by decide)]
                  rfl
  field := by iterate 3 rw [program_ne _ _ (by decide)]
              exact program_eq _ _ rfl
  bitmap := ⟨_, (encCalls_base (rt := rt)).cons (d := encodeFieldDef) (by decide), by
    iterate 2 rw [program_ne _ _ (by decide)]
    exact program_eq _ _ rfl⟩
  type := ⟨_, ((encCalls_base (rt := rt)).cons (d := encodeFieldDef) (by decide)).cons (d := encodeBitmapDef) (by decide), by
    rw [program_ne _ _ (by decide)]
    exact program_eq _ _ rfl⟩
  header := ⟨_, ⟨(((encCalls_base (rt := rt)).cons (d := encodeFieldDef) (by decide)).cons (d := encodeBitmapDef) (by decide)).cons
      (d := encodeTypeDef) (by decide), by
    iterate 2 rw [program_ne _ _ (by decide)]
    exact program_eq _ _ rfl⟩, program_eq _ _ rfl⟩

/-- The variables of `encode` that do not change once they are set. -/
structure MainVarsE (V : Vars) (pv : Val) (dd de sl : Nat) : Prop where
  doc_dec : V .doc_dec = some (.ref dd)
  spec : V .spec = some pv
  s : V .s = some (.ref sl)
  doc_enc : V .doc_enc = some (.ref de)
  other : ∀ x ∉ [Ident.doc_dec, .spec, .s, .doc_enc, .fields, .tertiary_fields, .secondary_fields, .field_key, .k, .i], V x = none

theorem MainVarsE.set {V : Vars} (h : MainVarsE V pv dd de sl) {x : Ident} (v : Val)
    (hx : x ∈ [Ident.fields, .tertiary_fields, .secondary_fields, .field_key, .k, .i]) : MainVarsE (V.set x v) pv dd de sl := by
  obtain ⟨a1, a2, a3, a4, a5⟩ := h
  refine ⟨?_, ?_, ?_, ?_, fun y hy => ?_⟩
  iterate 4
    simp only [List.mem_cons, List.not_mem_nil, or_false] at hx
    rcases hx with rfl | rfl | rfl | rfl | rfl | rfl <;> simp [src, *]
  have : y ≠ x := by
    rintro rfl
    exact hy (by
      simp only [List.mem_cons, List.not_mem_nil, or_false] at hx ⊢
      rcases hx with rfl | rfl | rfl | rfl | rfl | rfl <;> simp)
  simp only [src, if_neg this, a5 y hy]

theorem MainVarsE.setS {V : Vars} (h : MainVarsE V pv dd de sl) : MainVarsE (V.set .s (.ref sl)) pv dd de sl := by
  have : V.set .s (.ref sl) = V := by
    funext x
    by_cases hx : x = .s
    · subst hx; simp [src, h.s]
    · simp [src, hx]
  rw [this]; exact h

theorem Rep.swap {h : List Obj} {dec : List (Val × Val)} {enc : EncDoc} {p q : Nat × Obj} (r : Rep h dd de dec enc (p :: q :: F)) :
    Rep h dd de dec enc (q :: p :: F) := by
  refine r.mono fun x hx => ?_
  simp only [List.mem_cons] at hx ⊢
  rcases hx with h | h | h
  · exact .inr (.inl h)
  · exact .inl h
  · exact .inr (.inr h)

/-- The objects at the end: the message, if there is one, and the others. -/
def outE (sl : Nat) (F : List (Nat × Obj)) : Except EncRaise Bytes → List (Nat × Obj)
  | .ok b => (sl, .barray b) :: F
  | .error _ => F

theorem simEX_weaken {α : Type} {items' : List (Val × Val)} {G G' : Except EncRaise α → List (Nat × Obj)} {toV : α → Val} {res : Except EncRaise α × EncState}
    {st : St σ} {out : Except (Exc ε) Flow × St σ} (h : SimEX rt dd de items' G toV res st out) (hk : Keeps items items')
    (hG : ∀ r, ∀ p ∈ G' r, p ∈ G r) : SimEX rt dd de items G' toV res st out := by
  obtain ⟨h', x, vs, it, h1, h2, h3, h4, h5⟩ := h
  exact ⟨h', x, vs, it, h1, h2.mono (hG _), h3, hk.trans h4, h5⟩

/-- `s += f(…)`. -/
theorem aug_sim {acc : Bytes} {res : Except EncRaise Bytes × EncState} {st : St σ} {e : Expr} (hF : ∀ p ∈ F, p.1 ≠ sl)
    (hs : st.vars .s = some (.ref sl)) (h : SimE rt dd de items (fun _ => (sl, .barray acc) :: F) (fun b => .bytes b) res st (eval rt call e st)) :
    (∃ h' a items' es', res = (.ok a, es') ∧
      exec rt call (.aug (.name .s) .add e) st = (.ok .next, { st with vars := st.vars.set .s (.ref sl), heap := h' }) ∧
      Rep h' dd de items' es'.enc ((sl, .barray (acc ++ a)) :: F) ∧ DocIs items' es'.dec ∧ Keeps items items') ∨
    (∃ h' er exc items' es', res = (.error er, es') ∧ exec rt call (.aug (.name .s) .add e) st = (.error exc, { st with heap := h' }) ∧
      Rep h' dd de items' es'.enc F ∧ DocIs items' es'.dec ∧ Keeps items items' ∧ ErrIsE rt h' dd de er exc) := by
  obtain ⟨h', v, items', ho, hr, hd, hk, hx⟩ := h
  rcases hres : res with ⟨er | a, es'⟩
  · rw [hres] at hr hx hd
    obtain ⟨exc, rfl, he⟩ := hx
    exact .inr ⟨h', er, exc, items', es', rfl, by simp [src, getVar, hs, ho], hr.weaken, hd, hk, he⟩
  · rw [hres] at hr hx hd
    simp only at hx
    subst hx
    refine .inl ⟨h'.set sl (.barray (acc ++ a)), a, items', es', rfl, ?_, hr.setFrame hF _, hd, hk⟩
    have ha : (augop .add (.ref sl) (.bytes a) : M ε σ Val) { st with heap := h' } =
        (.ok (.ref sl), { st with heap := h'.set sl (.barray (acc ++ a)) }) := by
      simp only [augop, PyM.run_bind, deref_run (st := { st with heap := h' }) hr.frame_get, store_run, PyM.run_pure]
    simp [src, getVar, hs, ho, ha]

/-! ## Sets of field numbers -/

theorem mem_rangeUp : ∀ (f : Nat) (lo hi n : Int), (hi - lo).toNat ≤ f → (n ∈ rangeUp 1 f lo hi ↔ lo ≤ n ∧ n < hi)
  | 0, lo, hi, n, h => by
    simp only [rangeUp, List.not_mem_nil, false_iff]; omega
  | f + 1, lo, hi, n, h => by
    unfold rangeUp
    split
    · rw [List.mem_cons, mem_rangeUp f _ _ _ (by omega)]; omega
    · simp only [List.not_mem_nil, false_iff]; omega

theorem mem_rangeList (lo hi n : Int) : n ∈ rangeList lo hi 1 ↔ lo ≤ n ∧ n < hi := mem_rangeUp _ _ _ _ (Nat.le_refl _)

theorem ints_map : ∀ ns : List Int, ints (ns.map .int) = some ns
  | [] => rfl
  | n :: t => by simp only [List.map_cons, ints, ints_map t, Option.map_some]

/-- `fields.intersection(range(a, b))`. -/
theorem inter_run {st : St σ} {fields : List Nat} (h : st.heap[fl]? = some (fieldSet fields)) (a b : Nat)
    {lo hi : Int} (h1 : lo = a) (h2 : hi = b) : (objMethod fl .intersection [.list ((rangeList lo hi 1).map .int)] [] : M ε σ Val) st =
      (.ok (.ref st.heap.length), { st with heap := st.heap ++ [fieldSet (setInter fields a b)] }) := by
  subst h1 h2
  rw [objMethod_set h]
  have : (fields.map fun n : Nat => (n : Int)).filter (· ∈ rangeList a b 1) = (setInter fields a b).map fun n : Nat => (n : Int) := by
    rw [List.filter_map, setInter]
    refine congrArg _ (List.filter_congr fun n _ => ?_)
    simp [mem_rangeList]
  simp only [setMethod_intersection, ints_map, alloc_run, this]
  rfl

/-- `if fields:`. -/
theorem truth_fields {st : St σ} {fields : List Nat} (h : st.heap[fl]? = some (fieldSet fields)) :
    (truth (.ref fl) : M ε σ Bool) st = (.ok (decide (fields ≠ [])), st) := by
  simp only [truth, PyM.run_bind, deref_run h]
  cases fields <;> rfl

/-- `fields.add(n)`. -/
theorem fields_add {st : St σ} {fields : List Nat} (h : st.heap[fl]? = some (fieldSet fields)) (n : Nat) {m : Int} (hm : m = n) :
    (objMethod fl .add [.int m] [] : M ε σ Val) st = (.ok .none, { st with heap := st.heap.set fl (fieldSet (setAdd fields n)) }) := by
  subst hm
  rw [objMethod_set h]
  simp [src, fieldSet, setAdd_int]

theorem fieldSet_toNat {xs : List Int} (h : xs.all inRange = true) : Obj.set xs = fieldSet (xs.map Int.toNat) := by
  rw [fieldSet, List.map_map]
  refine congrArg _ ?_
  conv => lhs; rw [← List.map_id xs]
  refine List.map_congr_left fun n hn => ?_
  have := List.all_eq_true.1 h n hn
  simp only [inRange, Bool.and_eq_true, decide_eq_true_eq] at this
  simp; omega

theorem range_all (xs : List Int) : xs.all (· ∈ rangeList 1 193 1) = xs.all inRange := by
  refine congrArg (List.all xs) (funext fun n => ?_)
  rw [Bool.eq_iff_iff]
  simp [mem_rangeList, inRange]

/-- `fields.issubset(range(1, 193))`. -/
theorem issubset_run {st : St σ} {xs : List Int} (h : st.heap[fl]? = some (.set xs)) :
    (objMethod fl .issubset [.list ((rangeList 1 193 1).map .int)] [] : M ε σ Val) st = (.ok (.bool (xs.all inRange)), st) := by
  rw [objMethod_set h]
  simp only [setMethod_issubset, ints_map, PyM.run_pure, range_all]

/-- `fields.difference(range(1, 193))`. -/
theorem difference_run {st : St σ} {xs : List Int} (h : st.heap[fl]? = some (.set xs)) :
    (objMethod fl .difference [.list ((rangeList 1 193 1).map .int)] [] : M ε σ Val) st =
      (.ok (.ref st.heap.length), { st with heap := st.heap ++ [.set (xs.filter fun n => ¬ inRange n)] }) := by
  rw [objMethod_set h]
  have : xs.filter (· ∉ rangeList 1 193 1) = xs.filter fun n => ¬ inRange n := by
    refine List.filter_congr fun n _ => ?_
    simp [mem_rangeList, inRange]
  simp only [setMethod_difference, ints_map, alloc_run, this]

/-- `sorted` of a set of ints. -/
theorem sorted_ints (ho : ∀ xs, (rt.order xs).Perm xs) {st : St σ} {l : Nat} {xs : List Int} (h : st.heap[l]? = some (.set xs)) :
    builtin rt .sorted [.ref l] [] st = (.ok (.list ((sortedBy id xs).map .int)), st) := by
  have h1 : builtin rt .sorted [.ref l] [] st = (.ok (.list ((sortedBy id (rt.order xs)).map .int)), st) := by
    simp only [builtin, PyM.run_bind, deref_run h]
    rfl
  rw [h1, sortedBy_id_perm (ho _)]

theorem reprElems_ints : ∀ (ns : List Int) (st : St σ), reprElems rt (ns.map .int) st =
    if ns.all (formats rt.env) then (.ok (ns.map intStr), st) else (.error (.std .ValueError .none), st)
  | [], st => rfl
  | n :: t, st => by
    have h : reprElem rt (.int n) st = _ := intText_run n st
    simp only [List.map_cons, reprElems, PyM.run_bind, h, List.all_cons]
    by_cases hn : formats rt.env n
    · simp only [hn, if_true, reprElems_ints t, Bool.true_and]
      by_cases ht : t.all (formats rt.env) = true
      · simp only [ht, if_true]; rfl
      · simp only [ht]; rfl
    · simp only [hn, Bool.false_and]
      rfl

theorem textOf_list (xs : List Val) : textOf rt (.list xs) = (do
    let rs ← reprElems rt xs
    pure (py"[" ++ commaJoin rs ++ py"]")) := rfl

/-! ## The keys of the caller's dict -/

theorem DocIs.keys : ∀ {items : List (Val × Val)} {doc : Doc}, DocIs items doc → (items.map Prod.fst).map keyOf = doc.keys.map some
  | [], [], _ => rfl
  | p :: t, q :: t', h => by
    obtain ⟨h1, _, h3⟩ := h
    simp only [List.map_cons, Dict.keys, h1, List.cons.injEq, true_and]
    exact h3.keys

/-- encoder.py:97: the numbers. -/
theorem numeric_run (hc : call .int = builtin rt .int) (all : List Key) : ∀ (ks : List Val) (qs : List Key), ks.map keyOf = qs.map some →
    ∀ st : St σ, st.vars .int = none → ∃ (V : Vars) (x : Except (Exc ε) (List Val)),
      gather (evalComp rt call (.when (.meth (.name .k) .isnumeric [] [] []) (.yield (.call .int [(.name .k)] [] [])))) [.k] ks st = (x, { st with vars := V }) ∧
      match numericKeys rt.env all qs with
      | .ok ns => x = .ok (ns.map .int)
      | .error e => (e = .valueError ∧ x = .error (.std .ValueError .none)) ∨
        (e = .err (.invalidFields (all.filterMap fun | .obj r => some r | .str _ => none)) py"p" ∧ x = .error (.std .AttributeError .none))
  | [], [], _, st, _ => ⟨st.vars, _, rfl, rfl⟩
  | [], _ :: _, h, _, _ => by simp at h
  | _ :: _, [], h, _, _ => by simp at h
  | v :: ks, q :: qs, h, st, hv => by
    simp only [List.map_cons, List.cons.injEq] at h
    obtain ⟨hk, ht⟩ := h
    have hv' : (st.vars.set .k v) .int = none := by simp [src, hv]
    obtain ⟨V, x, hV, hx⟩ := numeric_run hc all ks qs ht { st with vars := st.vars.set .k v } hv'
    have hgk : getVar rt .k { st with vars := st.vars.set .k v } = (.ok v, { st with vars := st.vars.set .k v }) := getVar_some (by simp [src])
    rcases keyOf_cases (rt := rt) hk with ⟨k, rfl, rfl⟩ | ⟨r, rfl, hm, -⟩
    · have hm : method rt (.str k) .isnumeric [] [] = pure (.bool (isNumeric rt.env k)) := rfl
      have hi : intVal rt (.str k) = match pyInt rt.env k with
        | some n => pure (.int n)
        | none => fail .ValueError := rfl
      by_cases hn : isNumeric rt.env k = true
      · cases hp : pyInt rt.env k with
        | none =>
          rw [hp] at hi
          refine ⟨st.vars.set .k (.str k), .error (.std .ValueError .none), ?_, ?_⟩
          · simp [gather, bindNames, evalComp, src, hgk, hm, hn, hv', hc, hi]
          · simp [numericKeys, hn, hp]
        | some n =>
          rw [hp] at hi
          have he : evalComp rt call (.when (.meth (.name .k) .isnumeric [] [] []) (.yield (.call .int [(.name .k)] [] []))) { st with vars := st.vars.set .k (.str k) } =
              (.ok [.int n], { st with vars := st.vars.set .k (.str k) }) := by
            simp [evalComp, src, hgk, hm, hn, hv', hc, hi]
          cases hr : numericKeys rt.env all qs with
          | error e =>
            rw [hr] at hx
            have hxe : ∃ y, x = .error y := by rcases hx with ⟨_, h⟩ | ⟨_, h⟩ <;> exact ⟨_, h⟩
            obtain ⟨y, rfl⟩ := hxe
            refine ⟨V, .error y, ?_, ?_⟩
            · simp only [gather, bindNames, PyM.run_bind, setVar_run, he, hV]
            · simp only [numericKeys, hn, if_true, hp, hr]; exact hx
          | ok ns =>
            rw [hr] at hx
            simp only at hx
            subst hx
            refine ⟨V, .ok ((n :: ns).map .int), ?_, ?_⟩
            · simp only [gather, bindNames, PyM.run_bind, setVar_run, he, hV]; rfl
            · simp only [numericKeys, hn, if_true, hp, hr]
      · have he : evalComp rt call (.when (.meth (.name .k) .isnumeric [] [] []) (.yield (.call .int [(.name .k)] [] []))) { st with vars := st.vars.set .k (.str k) } =
            (.ok [], { st with vars := st.vars.set .k (.str k) }) := by
          simp [evalComp, src, hgk, hm, hn]
        refine ⟨V, x, ?_, ?_⟩
        · simp only [gather, bindNames, PyM.run_bind, setVar_run, he, hV]
          cases x <;> rfl
        · simp only [numericKeys, hn]; exact hx
    · refine ⟨st.vars.set .k v, .error (.std .AttributeError .none), ?_, ?_⟩
      · simp [gather, bindNames, evalComp, src, hgk, hm]
      · exact .inr ⟨rfl, rfl⟩

/-- encoder.py:100: the keys that are not strings. -/
theorem invalid_run (hg : ∀ x, rt.globals x = none) (hdig : rt.env.maxStrDigits = 0 ∨ 640 ≤ rt.env.maxStrDigits) (hc : call .isinstance = builtin rt .isinstance) : ∀ (ks : List Val) (qs : List Key), ks.map keyOf = qs.map some →
    ∀ st : St σ, st.vars .isinstance = none → st.vars .str = none → .str ∉ st.locals → ∃ (V : Vars) (ys : List Val),
      gather (evalComp rt call (.when (.not (.call .isinstance [(.name .k), (.name .str)] [] [])) (.yield (.name .k)))) [.k] ks st = (.ok ys, { st with vars := V }) ∧
      ∀ st' : St σ, reprElems rt ys st' = (.ok (qs.filterMap fun | .obj r => some r | .str _ => none), st')
  | [], [], _, st, _, _, _ => ⟨st.vars, [], rfl, fun _ => rfl⟩
  | [], _ :: _, h, _, _, _, _ => by simp at h
  | _ :: _, [], h, _, _, _, _ => by simp at h
  | v :: ks, q :: qs, h, st, h1, h2, h3 => by
    simp only [List.map_cons, List.cons.injEq] at h
    obtain ⟨hk, ht⟩ := h
    have h1' : (st.vars.set .k v) .isinstance = none := by simp [src, h1]
    have h2' : (st.vars.set .k v) .str = none := by simp [src, h2]
    obtain ⟨V, ys, hV, hys⟩ := invalid_run hg hdig hc ks qs ht { st with vars := st.vars.set .k v } h1' h2' h3
    have hgk : getVar rt .k { st with vars := st.vars.set .k v } = (.ok v, { st with vars := st.vars.set .k v }) := getVar_some (by simp [src])
    have hgs : getVar rt .str { st with vars := st.vars.set .k v } = (.ok (.glob .str), { st with vars := st.vars.set .k v }) := by
      simp [getVar, h2', h3, hg, namesGlobal]
    rcases keyOf_cases (rt := rt) hk with ⟨k, rfl, rfl⟩ | ⟨r, rfl, -, hi, hr⟩
    · have hi : builtin rt .isinstance [.str k, .glob .str] [] = pure (.bool true) := rfl
      have he : evalComp rt call (.when (.not (.call .isinstance [(.name .k), (.name .str)] [] [])) (.yield (.name .k))) { st with vars := st.vars.set .k (.str k) } =
          (.ok [], { st with vars := st.vars.set .k (.str k) }) := by
        simp [evalComp, src, hgk, hgs, h1', hc, hi]
      refine ⟨V, ys, ?_, hys⟩
      simp only [gather, bindNames, PyM.run_bind, setVar_run, he, hV]; rfl
    · have hr := hr (fun n hn => formats_abs hdig hn)
      have he : evalComp rt call (.when (.not (.call .isinstance [(.name .k), (.name .str)] [] [])) (.yield (.name .k))) { st with vars := st.vars.set .k v } =
          (.ok [v], { st with vars := st.vars.set .k v }) := by
        simp [evalComp, src, hgk, hgs, h1', hc, hi]
      refine ⟨V, v :: ys, ?_, fun st' => ?_⟩
      · simp only [gather, bindNames, PyM.run_bind, setVar_run, he, hV]; rfl
      · simp only [reprElems, hr, PyM.run_bind, PyM.run_pure, hys, List.filterMap_cons]

/-! ## Calls in `encode` -/

section
variable (hg : ∀ x, rt.globals x = none) (hc : MainCallsE rt call) (hp : PSpecVal pv spec)
include hg hc hp

theorem headerE_call {st : St σ} (vs : MainVarsE st.vars pv dd de sl) {es : EncState} (r : Rep st.heap dd de items es.enc F) (di : DocIs items es.dec) :
    SimE rt dd de items (fun _ => F) (fun b => .bytes b) (encodeHeaderP rt.env spec es) st
      (eval rt call (.call ._encode_header [(.name .doc_dec), (.name .doc_enc), (.name .spec)] [] []) st) := by
  obtain ⟨call', h1, h2⟩ := hc.header
  have := encodeHeader_sim (call := call') hg h1 hp r di
  have v : st.vars ._encode_header = none := vs.other _ (by simp)
  simpa [src, getVar, vs.spec, vs.doc_dec, vs.doc_enc, v, h2] using this

theorem typeE_call {st : St σ} (vs : MainVarsE st.vars pv dd de sl) {es : EncState} (r : Rep st.heap dd de items es.enc F) (di : DocIs items es.dec) :
    SimE rt dd de items (fun _ => F) (fun b => .bytes b) (encodeTypeP rt.env spec es) st
      (eval rt call (.call ._encode_type [(.name .doc_dec), (.name .doc_enc), (.name .spec)] [] []) st) := by
  obtain ⟨call', h1, h2⟩ := hc.type
  have := encodeType_sim (call := call') hg h1 hp r di
  have v : st.vars ._encode_type = none := vs.other _ (by simp)
  simpa [src, getVar, vs.spec, vs.doc_dec, vs.doc_enc, v, h2] using this

theorem fieldE_call {st : St σ} (vs : MainVarsE st.vars pv dd de sl) {key : Str} (v1 : st.vars .field_key = some (.str key)) {es : EncState}
    (r : Rep st.heap dd de items es.enc F) (di : DocIs items es.dec) :
    SimE rt dd de items (fun _ => F) (fun b => .bytes b) ((do let fs ← partialSpec .keyError spec key; encodeFieldP rt.env key fs : EncM Bytes) es) st
      (eval rt call (.call ._encode_field [(.name .doc_dec), (.name .doc_enc), (.name .field_key), (.sub (.name .spec) (.name .field_key))] [] []) st) := by
  have v : st.vars ._encode_field = none := vs.other _ (by simp)
  rcases subVal_spec (ε := ε) hp key st with ⟨h1, h2⟩ | ⟨fs, fv, h1, hv, h2⟩
  · have hm : (do let fs ← partialSpec .keyError spec key; encodeFieldP rt.env key fs : EncM Bytes) es = (.error (.keyError key), es) := by
      simp [partialSpec, need, h1, PyM.run_bind]
    rw [hm]
    refine ⟨st.heap, .error (.std .KeyError (.str key)), items, ?_, r, di, Keeps.refl _, _, rfl, rfl⟩
    simp [src, getVar, vs.spec, vs.doc_dec, vs.doc_enc, v, v1, h2]
  · have hm : (do let fs ← partialSpec .keyError spec key; encodeFieldP rt.env key fs : EncM Bytes) es = encodeFieldP rt.env key fs es := by
      simp [partialSpec, need, h1, PyM.run_bind]
    rw [hm]
    have := encodeField_sim (rt := rt) (key := key) hg encCalls_base hv r di
    simpa [src, getVar, vs.spec, vs.doc_dec, vs.doc_enc, v, v1, h2, hc.field] using this

/-- `_encode_bitmap(doc_dec, doc_enc, key, spec[key], off, ext, e)`, with `e` giving a set. -/
theorem bitmapE_call (ho : ∀ xs, (rt.order xs).Perm xs) {st : St σ} (vs : MainVarsE st.vars pv dd de sl) {key : Str} (hkey : key = py"p" ∨ key = py"1")
    {off : Nat} {n : Int} (hn : n = off) {ext : Bool} {fields : List Nat} (hr : ∀ f ∈ fields, off + 1 ≤ f ∧ f ≤ off + 64) {e : Expr} {l : Nat} {t : List Obj}
    (he : eval rt call e st = (.ok (.ref l), { st with heap := st.heap ++ t })) {es : EncState}
    (r : Rep (st.heap ++ t) dd de items es.enc F) (r0 : Rep st.heap dd de items es.enc F') (hF : ∀ p ∈ F', p ∈ F) (hl : (l, fieldSet fields) ∈ F) (di : DocIs items es.dec) :
    SimE rt dd de items (fun _ => F') (fun b => .bytes b) (encBitmapOf rt.env spec key off ext fields es) st
      (eval rt call (.call ._encode_bitmap [(.name .doc_dec), (.name .doc_enc), (.str key), (.sub (.name .spec) (.str key)), (.int n), (.bool ext), e] [] []) st) := by
  subst hn
  have v : st.vars ._encode_bitmap = none := vs.other _ (by simp)
  rcases subVal_spec (ε := ε) hp key st with ⟨h1, h2⟩ | ⟨fs, fv, h1, hv, h2⟩
  · have hm : encBitmapOf rt.env spec key off ext fields es = (.error (.keyError key), es) := by
      simp [encBitmapOf, partialSpec, need, h1, PyM.run_bind]
    rw [hm]
    refine ⟨st.heap, .error (.std .KeyError (.str key)), items, ?_, r0, di, Keeps.refl _, _, rfl, rfl⟩
    simp [src, getVar, vs.spec, vs.doc_dec, vs.doc_enc, v, h2]
  · have hm : encBitmapOf rt.env spec key off ext fields es = encodeBitmapP rt.env key fs off ext fields es := by
      simp [encBitmapOf, partialSpec, need, h1, PyM.run_bind]
    rw [hm]
    obtain ⟨call', c1, c2⟩ := hc.bitmap
    obtain ⟨h', x, items', o1, o2, o3, o4, o5⟩ := encodeBitmap_sim (rt := rt) (call := call') (st := { st with heap := st.heap ++ t }) (ext := ext) hg ho c1 hkey hr hv r hl di
    refine ⟨h', x, items', ?_, o2.mono hF, o3, o4, o5⟩
    simp only [eval_call v, src, getVar, vs.spec, vs.doc_dec, vs.doc_enc, h2, he, c2, PyM.run_bind, PyM.run_pure]
    simpa [PyM.run_bind] using o1

/-- encoder.py:160. -/
def fieldStmtE : Stmt :=
  .aug (.name .s) .add (.call ._encode_field [(.name .doc_dec), (.name .doc_enc), (.name .field_key), (.sub (.name .spec) (.name .field_key))] [] [])

/-- encoder.py:159-160 once the list of keys is known. -/
theorem fieldsE_loop (hF : ∀ p ∈ F, p.1 ≠ sl) : ∀ (ns : List Nat) (st : St σ), MainVarsE st.vars pv dd de sl → ∀ (acc : Bytes) (items : List (Val × Val)) (es : EncState),
    Rep st.heap dd de items es.enc ((sl, .barray acc) :: F) → DocIs items es.dec →
    (∃ h' V items' ws es', encodeFieldsP rt.env spec ns es = (.ok ws, es') ∧
      iterate (execs rt call [fieldStmtE]) [.field_key] (ns.map fun n => .str (natStr n)) st = (.ok .next, { st with vars := V, heap := h' }) ∧
      MainVarsE V pv dd de sl ∧ Rep h' dd de items' es'.enc ((sl, .barray (acc ++ ws)) :: F) ∧ DocIs items' es'.dec ∧ Keeps items items') ∨
    (∃ h' V er exc items' es', encodeFieldsP rt.env spec ns es = (.error er, es') ∧
      iterate (execs rt call [fieldStmtE]) [.field_key] (ns.map fun n => .str (natStr n)) st = (.error exc, { st with vars := V, heap := h' }) ∧
      Rep h' dd de items' es'.enc F ∧ DocIs items' es'.dec ∧ Keeps items items' ∧ ErrIsE rt h' dd de er exc)
  | [], st, vs, acc, items, es, r, di => .inl ⟨st.heap, st.vars, items, [], es, rfl, rfl, vs, by rw [List.append_nil]; exact r, di, Keeps.refl _⟩
  | n :: ns, st, vs, acc, items, es, r, di => by
    have vs1 := vs.set (x := .field_key) (.str (natStr n)) (by simp)
    have hs := fieldE_call hg hc hp (st := { st with vars := st.vars.set .field_key (.str (natStr n)) }) vs1 (key := natStr n) (by simp [src]) r di
    have hdef : encodeFieldsP rt.env spec (n :: ns) es =
        ((do let fs ← partialSpec .keyError spec (natStr n); encodeFieldP rt.env (natStr n) fs : EncM Bytes) >>= fun w =>
          encodeFieldsP rt.env spec ns >>= fun ws => pure (w ++ ws)) es := by
      simp only [encodeFieldsP, PyM.run_bind]
      rcases (partialSpec .keyError spec (natStr n) : EncM PartialField) es with ⟨e | fs, d⟩ <;> rfl
    rw [hdef, PyM.run_bind]
    rcases aug_sim (st := { st with vars := st.vars.set .field_key (.str (natStr n)) }) hF vs1.s hs with ⟨h', a, items', es', h1, h2, h3, h4, h5⟩ | ⟨h', er, exc, items', es', h1, h2, h3, h4, h5, h6⟩
    · rw [h1]
      simp only [PyM.run_bind]
      have key := fieldsE_loop hF ns { st with vars := (st.vars.set .field_key (.str (natStr n))).set .s (.ref sl), heap := h' }
        vs1.setS (acc ++ a) items' es' h3 h4
      have hi : iterate (execs rt call [fieldStmtE]) [.field_key] ((n :: ns).map fun n => .str (natStr n)) st =
          iterate (execs rt call [fieldStmtE]) [.field_key] (ns.map fun n => .str (natStr n))
            { st with vars := (st.vars.set .field_key (.str (natStr n))).set .s (.ref sl), heap := h' } := by
        have hx : execs rt call [fieldStmtE] { st with vars := st.vars.set .field_key (.str (natStr n)) } =
            (.ok .next, { st with vars := (st.vars.set .field_key (.str (natStr n))).set .s (.ref sl), heap := h' }) := by
          rw [execs_cons, fieldStmtE, h2]; rfl
        simp only [List.map_cons, iterate, bindNames, PyM.run_bind, setVar_run, hx]
      rw [hi]
      rcases key with ⟨k1, k2, k3, k4, k5, k6, k7, k8, k9, k10, k11⟩ | ⟨k1, k2, k3, k4, k5, k6, k7, k8, k9, k10, k11, k12⟩
      · exact .inl ⟨k1, k2, k3, a ++ k4, k5, by rw [k6]; rfl, k7, k8, by rw [← List.append_assoc]; exact k9, k10, h5.trans k11⟩
      · exact .inr ⟨k1, k2, k3, k4, k5, k6, by rw [k7], k8, k9, k10, h5.trans k11, k12⟩
    · right
      rw [h1]
      refine ⟨h', st.vars.set .field_key (.str (natStr n)), er, exc, items', es', rfl, ?_, h3, h4, h5, h6⟩
      have hx : execs rt call [fieldStmtE] { st with vars := st.vars.set .field_key (.str (natStr n)) } =
          (.error exc, { st with vars := st.vars.set .field_key (.str (natStr n)), heap := h' }) := by
        rw [execs_cons, fieldStmtE, h2]
      simp only [List.map_cons, iterate, bindNames, PyM.run_bind, setVar_run, hx]

/-- encoder.py:159-162. -/
theorem encRest_sim (ho : ∀ xs, (rt.order xs).Perm xs) {st st0 : St σ} (h0 : { st with vars := st0.vars, heap := st0.heap } = st0)
    (vs : MainVarsE st.vars pv dd de sl) (v1 : st.vars .fields = some (.ref fl)) {acc : Bytes} {es : EncState} {fields : List Nat}
    (hn : Small rt.env fields) (r : Rep st.heap dd de items es.enc ((sl, .barray acc) :: (fl, fieldSet fields) :: F)) (hsf : fl ≠ sl) (hF : ∀ p ∈ F, p.1 ≠ sl)
    (di : DocIs items es.dec) :
    SimEX rt dd de items (outE sl F) (fun _ => .tuple [.ref sl, .ref de]) (encRest rt.env spec acc fields es) st0
      (execs rt call [encode17, encode18] st) := by
  obtain ⟨V, hV⟩ := keys_run (rt := rt) hc.str (sortedNat fields) st (fun n hm => hn n (mem_sortedNat.1 hm)) (vs.other _ (by simp))
  have hk : eval rt call (.comp (.loop [.i] (.call .sorted [(.name .fields)] [] []) (.yield (.call .str [(.name .i)] [] [])))) st =
      (.ok (.list ((sortedNat fields).map fun n => .str (natStr n))), st) := by
    rw [eval_comp, evalComp]
    have v2 : st.vars .sorted = none := vs.other _ (by simp)
    simp [src, getVar, v2, v1, hc.sorted, sorted_run ho (r.frame _ (List.mem_cons_of_mem _ List.mem_cons_self)).1, hV]
  have hF' : ∀ p ∈ (fl, fieldSet fields) :: F, p.1 ≠ sl := by
    intro p hp
    rcases List.mem_cons.1 hp with rfl | hp
    · exact hsf
    · exact hF p hp
  have h17 : exec rt call encode17 st = iterate (execs rt call [fieldStmtE]) [.field_key] ((sortedNat fields).map fun n => .str (natStr n)) st := by
    simp [encode17, src, hk, fieldStmtE]
  simp only [encRest, PyM.run_bind]
  rcases fieldsE_loop hg hc hp hF' (sortedNat fields) st vs acc items es r di with
    ⟨h', V, items', ws, es', h1, h2, h3, h4, h5, h6⟩ | ⟨h', V, er, exc, items', es', h1, h2, h3, h4, h5, h6⟩
  · rw [h1]
    refine simEX_cons (h17.trans h2) ?_
    refine simEX_ret (st := { st with vars := V, heap := h' }) (vs := V) (h := h') (G := outE sl F) (h4.swap.weaken) h5 h6 ?_ h0
    simp [encode18, src, getVar, h3.s, h3.doc_enc]
  · rw [h1]
    exact simEX_err (G := outE sl F) h3.weaken h4 h5 (h17.trans h2) h6 h0

/-- encoder.py:147-162. -/
theorem encThird_sim (ho : ∀ xs, (rt.order xs).Perm xs) {st st0 : St σ} (h0 : { st with vars := st0.vars, heap := st0.heap } = st0)
    (vs : MainVarsE st.vars pv dd de sl) (v1 : st.vars .fields = some (.ref fl)) {tl : Nat} (v2 : st.vars .tertiary_fields = some (.ref tl))
    {acc : Bytes} {es : EncState} {fields ter : List Nat}
    (hn : Small rt.env fields) (r : Rep st.heap dd de items es.enc ((sl, .barray acc) :: (fl, fieldSet fields) :: F)) (hsf : fl ≠ sl) (hF : ∀ p ∈ F, p.1 ≠ sl)
    (hf : ∀ p ∈ F, p.1 ≠ fl) (ht : (tl, fieldSet ter) ∈ F) (hr : ∀ f ∈ ter, 128 + 1 ≤ f ∧ f ≤ 128 + 64) (di : DocIs items es.dec) :
    SimEX rt dd de items (outE sl F) (fun _ => .tuple [.ref sl, .ref de]) (encThird rt.env spec acc fields ter es) st0
      (execs rt call [encode16, encode17, encode18] st) := by
  have hm : (contains (.int 65) (.ref fl) : M ε σ Bool) st = (.ok (decide (65 ∈ fields)), st) := fields_mem r.swap.frame_get 65
  have hF' : ∀ p ∈ (fl, fieldSet fields) :: F, p.1 ≠ sl := by
    intro p hp
    rcases List.mem_cons.1 hp with rfl | hp
    · exact hsf
    · exact hF p hp
  by_cases h65 : 65 ∈ fields
  · simp only [h65, decide_true] at hm
    simp only [encThird, h65, if_true, PyM.run_bind]
    have hs := bitmapE_call hg hc hp ho vs (.inr rfl) (off := 128) (n := 128) rfl (ext := true) hr (e := .name .tertiary_fields) (l := tl) (t := [])
      (by simp [src, getVar, v2]) (by simpa using r) r (fun p hp => hp) (List.mem_cons_of_mem _ (List.mem_cons_of_mem _ ht)) di
    rcases aug_sim hF' vs.s hs with ⟨h', a, items', es', h1, h2, h3, h4, h5⟩ | ⟨h', er, exc, items', es', h1, h2, h3, h4, h5, h6⟩
    · rw [h1]
      simp only
      have hrem : (objMethod fl .remove [.int 65] [] : M ε σ Val) { st with vars := st.vars.set .s (.ref sl), heap := h' } =
          (.ok .none, { st with vars := st.vars.set .s (.ref sl), heap := h'.set fl (fieldSet (setRemove fields 65)) }) :=
        fields_remove (st := { st with vars := st.vars.set .s (.ref sl), heap := h' }) h3.swap.frame_get h65
      have h16 : exec rt call encode16 st = (.ok .next, { st with vars := st.vars.set .s (.ref sl), heap := h'.set fl (fieldSet (setRemove fields 65)) }) := by
        simp [encode16, src, getVar, v1, hm, h2, hrem]
      refine simEX_cons h16 ?_
      have r' := h3.swap.setFrame (o' := fieldSet (setRemove fields 65)) (by
        intro p hp
        rcases List.mem_cons.1 hp with rfl | hp
        · exact Ne.symm hsf
        · exact hf p hp)
      refine simEX_weaken (encRest_sim hg hc hp ho (st := { st with vars := st.vars.set .s (.ref sl), heap := h'.set fl (fieldSet (setRemove fields 65)) })
        h0 vs.setS (by simp [src, v1]) (fun n hm => hn n (mem_setRemove.1 hm).1) r'.swap hsf hF h4) h5 (fun _ _ hp => hp)
    · rw [h1]
      refine simEX_err (G := outE sl F) (vs := st.vars) h3.weaken h4 h5 (h := h') ?_ h6 h0
      simp [encode16, src, getVar, v1, hm, h2]
  · simp only [h65, decide_false] at hm
    simp only [encThird, h65, if_false]
    have h16 : exec rt call encode16 st = (.ok .next, st) := by
      simp [encode16, src, getVar, v1, hm]
    exact simEX_cons h16 (encRest_sim hg hc hp ho h0 vs v1 hn r hsf hF di)

/-- encoder.py:135-162. -/
theorem encSecond_sim (ho : ∀ xs, (rt.order xs).Perm xs) {st st0 : St σ} (h0 : { st with vars := st0.vars, heap := st0.heap } = st0)
    (vs : MainVarsE st.vars pv dd de sl) (v1 : st.vars .fields = some (.ref fl)) {tl xl : Nat} (v2 : st.vars .tertiary_fields = some (.ref tl))
    (v3 : st.vars .secondary_fields = some (.ref xl)) {acc : Bytes} {es : EncState} {fields sec ter : List Nat}
    (hn : Small rt.env fields) (r : Rep st.heap dd de items es.enc ((sl, .barray acc) :: (fl, fieldSet fields) :: F)) (hsf : fl ≠ sl) (hF : ∀ p ∈ F, p.1 ≠ sl)
    (hf : ∀ p ∈ F, p.1 ≠ fl) (ht : (tl, fieldSet ter) ∈ F) (hr : ∀ f ∈ ter, 128 + 1 ≤ f ∧ f ≤ 128 + 64)
    (hx : (xl, fieldSet sec) ∈ F) (hr' : ∀ f ∈ sec, 64 + 1 ≤ f ∧ f ≤ 64 + 64) (di : DocIs items es.dec) :
    SimEX rt dd de items (outE sl F) (fun _ => .tuple [.ref sl, .ref de]) (encSecond rt.env spec acc fields sec ter es) st0
      (execs rt call [encode15, encode16, encode17, encode18] st) := by
  have hm : (contains (.int 1) (.ref fl) : M ε σ Bool) st = (.ok (decide (1 ∈ fields)), st) := fields_mem r.swap.frame_get 1
  have hF' : ∀ p ∈ (fl, fieldSet fields) :: F, p.1 ≠ sl := by
    intro p hp
    rcases List.mem_cons.1 hp with rfl | hp
    · exact hsf
    · exact hF p hp
  by_cases h65 : 1 ∈ fields
  · simp only [h65, decide_true] at hm
    simp only [encSecond, h65, if_true, PyM.run_bind]
    have hs := bitmapE_call hg hc hp ho vs (.inr rfl) (off := 64) (n := 64) rfl (ext := false) hr' (e := .name .secondary_fields) (l := xl) (t := [])
      (by simp [src, getVar, v3]) (by simpa using r) r (fun p hp => hp) (List.mem_cons_of_mem _ (List.mem_cons_of_mem _ hx)) di
    rcases aug_sim hF' vs.s hs with ⟨h', a, items', es', h1, h2, h3, h4, h5⟩ | ⟨h', er, exc, items', es', h1, h2, h3, h4, h5, h6⟩
    · rw [h1]
      simp only
      have hrem : (objMethod fl .remove [.int 1] [] : M ε σ Val) { st with vars := st.vars.set .s (.ref sl), heap := h' } =
          (.ok .none, { st with vars := st.vars.set .s (.ref sl), heap := h'.set fl (fieldSet (setRemove fields 1)) }) :=
        fields_remove (st := { st with vars := st.vars.set .s (.ref sl), heap := h' }) h3.swap.frame_get h65
      have h15 : exec rt call encode15 st = (.ok .next, { st with vars := st.vars.set .s (.ref sl), heap := h'.set fl (fieldSet (setRemove fields 1)) }) := by
        simp [encode15, src, getVar, v1, hm, h2, hrem]
      refine simEX_cons h15 ?_
      have r' := h3.swap.setFrame (o' := fieldSet (setRemove fields 1)) (by
        intro p hp
        rcases List.mem_cons.1 hp with rfl | hp
        · exact Ne.symm hsf
        · exact hf p hp)
      refine simEX_weaken (encThird_sim hg hc hp ho (st := { st with vars := st.vars.set .s (.ref sl), heap := h'.set fl (fieldSet (setRemove fields 1)) })
        h0 vs.setS (by simp [src, v1]) (by simp [src, v2]) (fun n hm => hn n (mem_setRemove.1 hm).1) r'.swap hsf hF hf ht hr h4) h5 (fun _ _ hp => hp)
    · rw [h1]
      refine simEX_err (G := outE sl F) (vs := st.vars) h3.weaken h4 h5 (h := h') ?_ h6 h0
      simp [encode15, src, getVar, v1, hm, h2]
  · simp only [h65, decide_false] at hm
    simp only [encSecond, h65, if_false]
    have h15 : exec rt call encode15 st = (.ok .next, st) := by
      simp [encode15, src, getVar, v1, hm]
    exact simEX_cons h15 (encThird_sim hg hc hp ho h0 vs v1 v2 hn r hsf hF hf ht hr di)

/-- encoder.py:125-162. -/
theorem encPrimary_sim (ho : ∀ xs, (rt.order xs).Perm xs) {st st0 : St σ} (h0 : { st with vars := st0.vars, heap := st0.heap } = st0)
    (vs : MainVarsE st.vars pv dd de sl) (v1 : st.vars .fields = some (.ref fl)) {tl xl : Nat} (v2 : st.vars .tertiary_fields = some (.ref tl))
    (v3 : st.vars .secondary_fields = some (.ref xl)) {acc : Bytes} {es : EncState} {fields sec ter : List Nat}
    (hn : Small rt.env fields) (r : Rep st.heap dd de items es.enc ((sl, .barray acc) :: (fl, fieldSet fields) :: F)) (hsf : fl ≠ sl) (hF : ∀ p ∈ F, p.1 ≠ sl)
    (hf : ∀ p ∈ F, p.1 ≠ fl) (ht : (tl, fieldSet ter) ∈ F) (hr : ∀ f ∈ ter, 128 + 1 ≤ f ∧ f ≤ 128 + 64)
    (hx : (xl, fieldSet sec) ∈ F) (hr' : ∀ f ∈ sec, 64 + 1 ≤ f ∧ f ≤ 64 + 64) (di : DocIs items es.dec) :
    SimEX rt dd de items (outE sl F) (fun _ => .tuple [.ref sl, .ref de]) (encPrimary rt.env spec acc fields sec ter es) st0
      (execs rt call [encode14, encode15, encode16, encode17, encode18] st) := by
  have hF' : ∀ p ∈ (fl, fieldSet fields) :: F, p.1 ≠ sl := by
    intro p hp
    rcases List.mem_cons.1 hp with rfl | hp
    · exact hsf
    · exact hF p hp
  have hi : eval rt call (.meth (.name .fields) .intersection [(.call .range [(.int 1), (.int 65)] [] [])] [] []) st =
      (.ok (.ref st.heap.length), { st with heap := st.heap ++ [fieldSet (setInter fields 1 65)] }) := by
    have v4 : st.vars .range = none := vs.other _ (by simp)
    have := inter_run (ε := ε) (st := st) r.swap.frame_get 1 65 (lo := 1) (hi := 65) rfl rfl
    simp [src, getVar, v1, v4, hc.range]
    exact this
  have hs := bitmapE_call hg hc hp ho vs (.inl rfl) (off := 0) (n := 0) rfl (ext := false) (fields := setInter fields 1 65) (fun f hf => by
      simp only [mem_setInter] at hf; omega) hi (r.alloc _) r (fun p hp => List.mem_cons_of_mem _ hp) List.mem_cons_self di
  simp only [encPrimary, PyM.run_bind]
  rcases aug_sim hF' vs.s hs with ⟨h', a, items', es', h1, h2, h3, h4, h5⟩ | ⟨h', er, exc, items', es', h1, h2, h3, h4, h5, h6⟩
  · rw [h1]
    refine simEX_cons h2 ?_
    exact simEX_weaken (encSecond_sim hg hc hp ho (st := { st with vars := st.vars.set .s (.ref sl), heap := h' })
        h0 vs.setS (by simp [src, v1]) (by simp [src, v2]) (by simp [src, v3]) hn h3 hsf hF hf ht hr hx hr' h4) h5 (fun _ _ hp => hp)
  · rw [h1]
    exact simEX_err (G := outE sl F) (vs := st.vars) h3.weaken h4 h5 (h := h') h2 h6 h0

/-- encoder.py:116-162. -/
theorem encSets_sim (ho : ∀ xs, (rt.order xs).Perm xs) (hdig : rt.env.maxStrDigits = 0 ∨ 640 ≤ rt.env.maxStrDigits) {st st0 : St σ}
    (h0 : { st with vars := st0.vars, heap := st0.heap } = st0)
    (vs : MainVarsE st.vars pv dd de sl) (v1 : st.vars .fields = some (.ref fl)) {acc : Bytes} {es : EncState} {fields : List Nat}
    (hn : ∀ n ∈ fields, n < 193) (r : Rep st.heap dd de items es.enc ((sl, .barray acc) :: (fl, fieldSet fields) :: F)) (hsf : fl ≠ sl) (hF : ∀ p ∈ F, p.1 ≠ sl)
    (hf : ∀ p ∈ F, p.1 ≠ fl) (di : DocIs items es.dec) :
    SimEX rt dd de items (outE sl F) (fun _ => .tuple [.ref sl, .ref de]) (encPrimary rt.env spec acc (f2Of fields) (secOf fields) (terOf fields) es) st0
      (execs rt call [encode10, encode11, encode12, encode13, encode14, encode15, encode16, encode17, encode18] st) := by
  have v4 : ∀ (x : Ident) (v : Val), x ∈ [Ident.tertiary_fields, .secondary_fields] → (st.vars.set x v) .range = none := fun x v hx => by
    have h1 : st.vars .range = none := vs.other _ (by simp)
    simp only [List.mem_cons, List.not_mem_nil, or_false] at hx
    rcases hx with rfl | rfl <;> simp [src, h1]
  have v4' : st.vars .range = none := vs.other _ (by simp)
  -- encoder.py:116
  have e10 : exec rt call encode10 st = (.ok .next, { st with vars := st.vars.set .tertiary_fields (.ref st.heap.length), heap := st.heap ++ [fieldSet (terOf fields)] }) := by
    have := inter_run (ε := ε) (st := st) r.swap.frame_get 129 193 (lo := 129) (hi := 193) rfl rfl
    simp [encode10, src, getVar, v1, v4', hc.range, this]
    rfl
  refine simEX_cons e10 ?_
  clear e10
  have hFt : ∀ p ∈ (sl, .barray acc) :: (fl, fieldSet fields) :: F, p.1 ≠ st.heap.length := r.frame_ne
  have r1 := r.alloc (fieldSet (terOf fields))
  generalize st.heap ++ [fieldSet (terOf fields)] = H1 at r1 ⊢
  generalize st.heap.length = tl at r1 hFt ⊢
  have vs1 := vs.set (x := .tertiary_fields) (.ref tl) (by simp)
  have a1 : (st.vars.set .tertiary_fields (.ref tl)) .fields = some (.ref fl) := by simp [src, v1]
  have a2 : (st.vars.set .tertiary_fields (.ref tl)) .tertiary_fields = some (.ref tl) := by simp [src]
  have a3 := v4 .tertiary_fields (.ref tl) (by simp)
  generalize st.vars.set .tertiary_fields (.ref tl) = V1 at vs1 a1 a2 a3 ⊢
  have r1' : Rep H1 dd de items es.enc ((fl, fieldSet fields) :: (sl, .barray acc) :: (tl, fieldSet (terOf fields)) :: F) := r1.mono fun p hp => by
    simp only [List.mem_cons] at hp ⊢; rcases hp with h | h | h | h <;> simp [h]
  have hne : ∀ p ∈ (sl, .barray acc) :: (tl, fieldSet (terOf fields)) :: F, p.1 ≠ fl := by
    intro p hp
    simp only [List.mem_cons] at hp
    rcases hp with rfl | rfl | hp
    · exact Ne.symm hsf
    · exact Ne.symm (hFt (fl, fieldSet fields) (by simp))
    · exact hf p hp
  -- encoder.py:117-118
  obtain ⟨H2, e11, r2⟩ : ∃ H2, exec rt call encode11 { st with vars := V1, heap := H1 } = (.ok .next, { st with vars := V1, heap := H2 }) ∧
      Rep H2 dd de items es.enc ((fl, fieldSet (f1Of fields)) :: (sl, .barray acc) :: (tl, fieldSet (terOf fields)) :: F) := by
    have ht := truth_fields (ε := ε) (st := { st with vars := V1, heap := H1 }) r1.frame_get
    by_cases h : terOf fields ≠ []
    · have hadd := fields_add (ε := ε) (st := { st with vars := V1, heap := H1 }) r1'.frame_get 65 (m := 65) rfl
      refine ⟨H1.set fl (fieldSet (setAdd fields 65)), ?_, ?_⟩
      · simp only [h, not_false_eq_true, decide_true, ne_eq] at ht
        simp [encode11, src, getVar, a2, a1, ht, hadd]
      · rw [f1Of, if_pos h]; exact r1'.setFrame hne _
    · refine ⟨H1, ?_, ?_⟩
      · simp only [h, decide_false] at ht
        simp [encode11, src, getVar, a2, a1, ht]
      · rw [f1Of, if_neg h]; exact r1'
  refine simEX_cons e11 ?_
  clear e11
  -- encoder.py:121
  have e12 : exec rt call encode12 { st with vars := V1, heap := H2 } =
      (.ok .next, { st with vars := V1.set .secondary_fields (.ref H2.length), heap := H2 ++ [fieldSet (secOf fields)] }) := by
    have := inter_run (ε := ε) (st := { st with vars := V1, heap := H2 }) r2.frame_get 65 129 (lo := 65) (hi := 129) rfl rfl
    simp [encode12, src, getVar, a1, a3, hc.range, this]
    rfl
  refine simEX_cons e12 ?_
  clear e12
  have hFx := r2.frame_ne
  have r3 := r2.alloc (fieldSet (secOf fields))
  generalize H2 ++ [fieldSet (secOf fields)] = H3 at r3 ⊢
  generalize H2.length = xl at r3 hFx ⊢
  have vs2 := vs1.set (x := .secondary_fields) (.ref xl) (by simp)
  have b1 : (V1.set .secondary_fields (.ref xl)) .fields = some (.ref fl) := by simp [src, a1]
  have b2 : (V1.set .secondary_fields (.ref xl)) .tertiary_fields = some (.ref tl) := by simp [src, a2]
  have b3 : (V1.set .secondary_fields (.ref xl)) .secondary_fields = some (.ref xl) := by simp [src]
  generalize V1.set .secondary_fields (.ref xl) = V2 at vs2 b1 b2 b3 ⊢
  have r3' : Rep H3 dd de items es.enc ((fl, fieldSet (f1Of fields)) :: (sl, .barray acc) :: (tl, fieldSet (terOf fields)) :: (xl, fieldSet (secOf fields)) :: F) :=
    r3.mono fun p hp => by
      simp only [List.mem_cons] at hp ⊢; rcases hp with h | h | h | h | h <;> simp [h]
  have hne' : ∀ p ∈ (sl, .barray acc) :: (tl, fieldSet (terOf fields)) :: (xl, fieldSet (secOf fields)) :: F, p.1 ≠ fl := by
    intro p hp
    simp only [List.mem_cons] at hp
    rcases hp with rfl | rfl | rfl | hp
    · exact Ne.symm hsf
    · exact hne _ (by simp)
    · exact Ne.symm (hFx (fl, fieldSet (f1Of fields)) (by simp))
    · exact hf p hp
  -- encoder.py:122-123
  obtain ⟨H4, e13, r4⟩ : ∃ H4, exec rt call encode13 { st with vars := V2, heap := H3 } = (.ok .next, { st with vars := V2, heap := H4 }) ∧
      Rep H4 dd de items es.enc ((fl, fieldSet (f2Of fields)) :: (sl, .barray acc) :: (tl, fieldSet (terOf fields)) :: (xl, fieldSet (secOf fields)) :: F) := by
    have ht := truth_fields (ε := ε) (st := { st with vars := V2, heap := H3 }) r3.frame_get
    by_cases h : secOf fields ≠ []
    · have hadd := fields_add (ε := ε) (st := { st with vars := V2, heap := H3 }) r3'.frame_get 1 (m := 1) rfl
      refine ⟨H3.set fl (fieldSet (setAdd (f1Of fields) 1)), ?_, ?_⟩
      · simp only [h, not_false_eq_true, decide_true, ne_eq] at ht
        simp [encode13, src, getVar, b3, b1, ht, hadd]
      · rw [f2Of, if_pos h]; exact r3'.setFrame hne' _
    · refine ⟨H3, ?_, ?_⟩
      · simp only [h, decide_false] at ht
        simp [encode13, src, getVar, b3, b1, ht]
      · rw [f2Of, if_neg h]; exact r3'
  refine simEX_cons e13 ?_
  clear e13
  have hsl : ∀ p ∈ (tl, fieldSet (terOf fields)) :: (xl, fieldSet (secOf fields)) :: F, p.1 ≠ sl := by
    intro p hp
    simp only [List.mem_cons] at hp
    rcases hp with rfl | rfl | hp
    · exact Ne.symm (hFt (sl, .barray acc) (by simp))
    · exact Ne.symm (hFx (sl, .barray acc) (by simp))
    · exact hF p hp
  have hsmall : Small rt.env (f2Of fields) := by
    intro n hm
    refine formats_small hdig (Nat.lt_of_lt_of_le (m := 193) ?_ (by decide))
    simp only [f2Of, f1Of] at hm
    split at hm <;> split at hm
    · simp only [mem_setAdd] at hm; rcases hm with (hm | rfl) | rfl <;> first | exact hn n hm | decide
    · simp only [mem_setAdd] at hm; rcases hm with hm | rfl <;> first | exact hn n hm | decide
    · simp only [mem_setAdd] at hm; rcases hm with hm | rfl <;> first | exact hn n hm | decide
    · exact hn n hm
  refine simEX_weaken (encPrimary_sim hg hc hp ho (st := { st with vars := V2, heap := H4 }) (F := (tl, fieldSet (terOf fields)) :: (xl, fieldSet (secOf fields)) :: F)
    h0 vs2 b1 b2 b3 hsmall r4.swap hsf hsl (fun p hp => hne' p (List.mem_cons_of_mem _ hp)) (by simp) (fun f hf => ?_) (by simp) (fun f hf => ?_) di)
    (Keeps.refl _) (fun x p hp => ?_)
  · simp only [terOf, mem_setInter] at hf; omega
  · simp only [secOf, mem_setInter] at hf; omega
  · cases x with
    | error e => exact List.mem_cons_of_mem _ (List.mem_cons_of_mem _ hp)
    | ok b =>
      simp only [outE, List.mem_cons] at hp ⊢
      rcases hp with h | h <;> simp [h]

/-- encoder.py:107-162. -/
theorem encNumbers_sim (ho : ∀ xs, (rt.order xs).Perm xs) (hdig : rt.env.maxStrDigits = 0 ∨ 640 ≤ rt.env.maxStrDigits) {st st0 : St σ}
    (h0 : { st with vars := st0.vars, heap := st0.heap } = st0)
    (vs : MainVarsE st.vars pv dd de sl) (v1 : st.vars .fields = some (.ref fl)) {acc : Bytes} {es : EncState} {xs : List Int}
    (r : Rep st.heap dd de items es.enc ((sl, .barray acc) :: (fl, .set xs) :: F)) (hsf : fl ≠ sl) (hF : ∀ p ∈ F, p.1 ≠ sl)
    (hf : ∀ p ∈ F, p.1 ≠ fl) (di : DocIs items es.dec) :
    SimEX rt dd de items (outE sl F) (fun _ => .tuple [.ref sl, .ref de]) (encNumbers rt.env spec acc xs es) st0
      (execs rt call [encode9, encode10, encode11, encode12, encode13, encode14, encode15, encode16, encode17, encode18] st) := by
  have v2 : st.vars .range = none := vs.other _ (by simp)
  have hsub := issubset_run (ε := ε) r.swap.frame_get
  by_cases hin : xs.all inRange = true
  · rw [hin] at hsub
    simp only [encNumbers, hin, if_true]
    have e9 : exec rt call encode9 st = (.ok .next, st) := by
      simp [encode9, src, getVar, v1, v2, hc.range, hsub]
    refine simEX_cons e9 ?_
    rw [fieldSet_toNat hin] at r
    refine encSets_sim hg hc hp ho hdig (st := st) h0 vs v1 (fun n hn => ?_) r hsf hF hf di
    obtain ⟨m, hm, rfl⟩ := List.mem_map.1 hn
    have := List.all_eq_true.1 hin m hm
    simp only [inRange, Bool.and_eq_true, decide_eq_true_eq] at this
    omega
  · rw [Bool.not_eq_true] at hin
    rw [hin] at hsub
    simp only [encNumbers, hin, Bool.false_eq_true, if_false, encFail, PyM.run_raise]
    generalize hns : (xs.filter fun n => ¬ inRange n) = ns
    have hdiff := difference_run (ε := ε) r.swap.frame_get
    rw [hns] at hdiff
    have r1 := r.alloc (.set ns)
    have hsort := sorted_ints ho (st := { st with heap := st.heap ++ [.set ns] }) r1.frame_get
    have v3 : st.vars .sorted = none := vs.other _ (by simp)
    have v4 : st.vars .EncodeError = none := vs.other _ (by simp)
    have hr := exec_raiseE (rt := rt) (call := call) (dd := dd) (de := de) hg hc.err (.outOfRange (sortedBy id ns)) [] py"p"
      (.fstr [(.str py"Dictionary contains fields outside of 1-192 range "), (.call .sorted [(.meth (.name .fields) .difference [(.call .range [(.int 1), (.int 193)] [] [])] [] [])] [] [])])
      (.str py"p") st { st with heap := st.heap ++ [.set ns] } (by
        have hrep := fun s' : St σ => reprElems_ints (rt := rt) (sortedBy id ns) s'
        simp only [EncMsg.numbers]
        by_cases hfm : (sortedBy id ns).all (formats rt.env) = true
        · simp only [hfm, if_true] at hrep
          simp [src, getVar, v1, v2, v3, hc.range, hc.sorted, hdiff, hsort, textOf_list, hrep, hfm, EncMsg.text]
        · simp only [hfm] at hrep
          simp [src, getVar, v1, v2, v3, hc.range, hc.sorted, hdiff, hsort, textOf_list, hrep, hfm])
      (by simp [src]) v4 vs.doc_dec vs.doc_enc
    refine simEX_raises (d := []) (G := outE sl F) (fun _ => rfl) (st := st) (vs := st.vars) (h := st.heap ++ [.set ns]) ((r.append _).weaken.weaken) di (Keeps.refl _) ?_ h0
    simp [encode9, src, getVar, v1, v2, hc.range, hsub, hr]

/-- encoder.py:96-162. -/
theorem encKeys_sim (ho : ∀ xs, (rt.order xs).Perm xs) (hdig : rt.env.maxStrDigits = 0 ∨ 640 ≤ rt.env.maxStrDigits) {st st0 : St σ}
    (h0 : { st with vars := st0.vars, heap := st0.heap } = st0) (hloc : st.locals = encodeDef.locals)
    (vs : MainVarsE st.vars pv dd de sl) {acc : Bytes} {es : EncState}
    (r : Rep st.heap dd de items es.enc ((sl, .barray acc) :: F)) (hF : ∀ p ∈ F, p.1 ≠ sl) (di : DocIs items es.dec) :
    SimEX rt dd de items (outE sl F) (fun _ => .tuple [.ref sl, .ref de])
      ((do
        let nums ← PyM.lift (numericKeys rt.env es.dec.keys es.dec.keys)
        encNumbers rt.env spec acc (setUpdate [] nums) : EncM Bytes) es) st0
      (execs rt call [encode8, encode9, encode10, encode11, encode12, encode13, encode14, encode15, encode16, encode17, encode18] st) := by
  have v1 : st.vars .set = none := vs.other _ (by simp)
  have v2 : st.vars .int = none := vs.other _ (by simp)
  have v3 : st.vars .EncodeError = none := vs.other _ (by simp)
  have v4 : st.vars .isinstance = none := vs.other _ (by simp)
  have v5 : st.vars .str = none := vs.other _ (by simp)
  obtain ⟨V, x, hV, hx⟩ := numeric_run (rt := rt) hc.int es.dec.keys (items.map Prod.fst) es.dec.keys di.keys st v2
  have hcomp : eval rt call (.comp (.loop [.k] (.meth (.name .doc_dec) .keys [] [] []) (.when (.meth (.name .k) .isnumeric [] [] []) (.yield (.call .int [(.name .k)] [] []))))) st =
      match x with
      | .ok ys => (.ok (.list ys), st)
      | .error e => (.error e, st) := by
    rw [eval_comp, evalComp]
    have hm := objMethod_dict (ε := ε) r.hdec .keys [] []
    have hel : ∀ xs, elements rt (.list xs) = pure xs := fun _ => rfl
    cases x <;> simp [src, getVar, vs.doc_dec, hm, hel, hV]
  simp only [PyM.run_bind, PyM.run_lift]
  cases hn : numericKeys rt.env es.dec.keys es.dec.keys with
  | ok ns =>
    rw [hn] at hx
    simp only at hx
    subst hx
    simp only at hcomp ⊢
    have hset : builtin rt .set [.list (ns.map .int)] [] = alloc (.set (setUpdate [] ns)) := by
      have : builtin rt .set [.list (ns.map .int)] [] = match ints (ns.map .int) with
        | some ns => alloc (.set (addAll [] ns))
        | none => stuck := rfl
      rw [this, ints_map]; rfl
    have e8 : exec rt call encode8 st = (.ok .next, { st with vars := st.vars.set .fields (.ref st.heap.length), heap := st.heap ++ [.set (setUpdate [] ns)] }) := by
      simp [encode8, src, v1, hc.set, hcomp, hset]
    refine simEX_cons e8 ?_
    have lt : ∀ p ∈ (sl, Obj.barray acc) :: F, p.1 < st.heap.length := fun p hp => lt_of_getElem? (r.frame p hp).1
    refine encNumbers_sim hg hc hp ho hdig (st := { st with vars := st.vars.set .fields (.ref st.heap.length), heap := st.heap ++ [.set (setUpdate [] ns)] }) (fl := st.heap.length)
      h0 (vs.set _ (by simp)) (by simp [src]) (r.alloc _).swap ?_ hF ?_ di
    · have := lt _ List.mem_cons_self
      exact fun h => absurd this (by simp [← h])
    · intro p hp h
      have := lt p (List.mem_cons_of_mem _ hp)
      omega
  | error e =>
    rw [hn] at hx
    simp only at hx ⊢
    rcases hx with ⟨rfl, rfl⟩ | ⟨rfl, rfl⟩
    · simp only at hcomp
      have e8 : exec rt call encode8 st = (.error (.std .ValueError .none), st) := by
        simp [encode8, src, v1, hcomp]
      exact simEX_err (G := outE sl F) (st := st) (vs := st.vars) (h := st.heap) r.weaken di (Keeps.refl _) e8 rfl h0
    · simp only at hcomp
      obtain ⟨V', ys, hV', hys⟩ := invalid_run (rt := rt) hg hdig hc.isinstance (items.map Prod.fst) es.dec.keys di.keys st v4 v5 (by rw [hloc]; decide)
      have hcomp' : eval rt call (.comp (.loop [.k] (.meth (.name .doc_dec) .keys [] [] []) (.when (.not (.call .isinstance [(.name .k), (.name .str)] [] [])) (.yield (.name .k))))) st =
          (.ok (.list ys), st) := by
        rw [eval_comp, evalComp]
        have hm := objMethod_dict (ε := ε) r.hdec .keys [] []
        have hel : ∀ xs, elements rt (.list xs) = pure xs := fun _ => rfl
        simp [src, getVar, vs.doc_dec, hm, hel, hV']
      have hr := exec_raiseE (rt := rt) (call := call) (dd := dd) (de := de) hg hc.err (.invalidFields (es.dec.keys.filterMap fun | .obj r => some r | .str _ => none)) [] py"p"
        (.fstr [(.str py"Dictionary contains invalid fields "), (.comp (.loop [.k] (.meth (.name .doc_dec) .keys [] [] []) (.when (.not (.call .isinstance [(.name .k), (.name .str)] [] [])) (.yield (.name .k)))))])
        (.str py"p") st st (by simp [src, hcomp', textOf_list, hys, EncMsg.text, EncMsg.numbers]) (by simp [src]) v3 vs.doc_dec vs.doc_enc
      refine simEX_raises (d := []) (G := outE sl F) (fun _ => rfl) (st := st) (vs := st.vars) (h := st.heap) r.weaken di (Keeps.refl _) ?_ h0
      simp [encode8, src, v1, hcomp, hr]

end

/-! ## `encode` -/

theorem lookup_delete_ne {k : Val} {s : Str} (h : k.same (.str s) = false) : ∀ items : List (Val × Val),
    lookup (delete items (.str s)) k = lookup items k
  | [] => rfl
  | p :: t => by
    simp only [delete, lookup]
    split
    next h1 =>
      have : p.1 = .str s := by
        cases hp : p.1 <;> simp [hp, Val.same] at h1
        rw [h1]
      simp only [this, same_str_symm, h, Bool.false_eq_true, if_false]
    next h1 => simp only [lookup, lookup_delete_ne h t]

theorem Keeps.delete {items : List (Val × Val)} {key : Str} (hk : key = py"1" ∨ key = py"65") : Keeps items (Src.delete items (.str key)) := by
  intro k _ h1 h2
  rcases hk with rfl | rfl
  · exact lookup_delete_ne h1 _
  · exact lookup_delete_ne h2 _

/-- The objects there are before the call, without the dict at `dd`. -/
def others (h : List Obj) (dd : Nat) : List (Nat × Obj) := (objs h).filter fun p => p.1 != dd

theorem rep_newE {h : List Obj} {dd : Nat} {items : List (Val × Val)} (hd : h[dd]? = some (.dict items)) :
    Rep (h ++ [.barray []] ++ [.dict []]) dd (h.length + 1) items [] ((h.length, .barray []) :: others h dd) where
  hdec := by rw [List.append_assoc]; exact getElem?_append_of hd _
  henc := ⟨fun _ => 0, by simp [encItems], by simp [Dict.get?], by simp [Dict.get?]⟩
  ne := by have := lt_of_getElem? hd; omega
  nodup := by simp [Dict.NoDup, Dict.keys]
  frame := by
    have := lt_of_getElem? hd
    intro p hp
    rcases List.mem_cons.1 hp with rfl | hp
    · simp; omega
    · obtain ⟨hp, hne⟩ := List.mem_filter.1 hp
      have h1 := mem_objs.1 hp
      have := lt_of_getElem? h1
      exact ⟨by rw [List.append_assoc]; exact getElem?_append_of h1 _, by simpa using hne, by omega⟩

/-- `doc_dec.pop(key, None)`. -/
theorem Rep.popDec {h : List Obj} {dec dec' : List (Val × Val)} {enc : EncDoc} (r : Rep h dd de dec enc F) :
    Rep (h.set dd (.dict dec')) dd de dec' enc F where
  hdec := by simp [lt_of_getElem? r.hdec]
  henc := by
    obtain ⟨loc, h1, h2, h3⟩ := r.henc
    refine ⟨loc, ?_, fun k e hk => ⟨?_, (h2 k e hk).2⟩, h3⟩
    · rw [List.getElem?_set_ne r.ne]; exact h1
    · rw [List.getElem?_set_ne (h2 k e hk).2.1.symm]; exact (h2 k e hk).1
  ne := r.ne
  nodup := r.nodup
  frame p hp := ⟨by rw [List.getElem?_set_ne (r.frame p hp).2.1.symm]; exact (r.frame p hp).1, (r.frame p hp).2⟩

/-- encoder.py:42-162 `encode`, called in any state of the interpreter. -/
theorem encode_sim (hg : ∀ x, rt.globals x = none) (hp : PSpecVal pv spec)
    (ho : ∀ xs, (rt.order xs).Perm xs) (hdig : rt.env.maxStrDigits = 0 ∨ 640 ≤ rt.env.maxStrDigits) {doc : Doc} (st : St σ)
    (hd : st.heap[dd]? = some (.dict items)) (di : DocIs items doc) :
    SimE rt dd (st.heap.length + 1) items (outE st.heap.length (others st.heap dd))
      (fun _ => .tuple [.ref st.heap.length, .ref (st.heap.length + 1)]) (encodeBodyP rt.env spec ⟨doc, []⟩) st
      (program rt encoderDefs .encode [.ref dd, pv] [] st) := by
  have hprog : program rt encoderDefs .encode = invoke rt (program rt [encodeHeaderDef, encodeTypeDef, encodeBitmapDef, encodeFieldDef, encodeBindaryFieldDef, addPadFieldDef,
    encodeTextFieldDef, encodeErrorInitDef]) encodeDef := program_eq _ _ rfl
  rw [hprog]
  have hc := mainCallsE (rt := rt)
  generalize program rt [encodeHeaderDef, encodeTypeDef, encodeBitmapDef, encodeFieldDef, encodeBindaryFieldDef, addPadFieldDef,
    encodeTextFieldDef, encodeErrorInitDef] = call at hc ⊢
  refine simE_of_body rfl rfl rfl rfl ?_
  generalize hst0 : ({ st with vars := _, locals := _, ys := _ } : St σ) = st0
  have hheap : st0.heap = st.heap := by subst hst0; rfl
  have hloc : st0.locals = encodeDef.locals := by subst hst0; rfl
  have v1 : st0.vars .doc_dec = some (.ref dd) := by subst hst0; simp [src, encodeDef]
  have v2 : st0.vars .spec = some pv := by subst hst0; simp [src, encodeDef]
  have v3 : ∀ x, x ≠ .doc_dec → x ≠ .spec → st0.vars x = none := by intro x h1 h2; subst hst0; simp [src, encodeDef, h1, h2]
  clear hst0
  rw [← hheap] at hd ⊢
  have hi : builtin rt .isinstance [.ref dd, .glob .dict] [] st0 = (.ok (.bool true), st0) := by
    have : builtin rt .isinstance [.ref dd, .glob .dict] [] = (do pure (.bool (← instanceOf (.ref dd) .dict))) := rfl
    rw [this]
    simp [instanceOf, deref_run hd, PyM.run_bind]
  have e1 : exec rt call encode1 st0 = (.ok .next, st0) := by
    simp [encode1, src, getVar, v1, v3, hg, hloc, encodeDef, hc.isinstance, hi]
  refine simEX_cons (vs := st0.vars) (h := st0.heap) e1 ?_
  refine simEX_cons (vs := st0.vars.set .s (.ref st0.heap.length)) (h := st0.heap ++ [.barray []]) (by
    have : builtin rt .bytearray [] [] = alloc (.barray []) := rfl
    simp [encode2, src, v3, hc.bytearray, this]) ?_
  refine simEX_cons (vs := (st0.vars.set .s (.ref st0.heap.length)).set .doc_enc (.ref (st0.heap.length + 1)))
    (h := st0.heap ++ [.barray []] ++ [.dict []]) (by simp [encode3, src]) ?_
  have vs : MainVarsE ((st0.vars.set .s (.ref st0.heap.length)).set .doc_enc (.ref (st0.heap.length + 1))) pv dd (st0.heap.length + 1) st0.heap.length := by
    refine ⟨by simp [src, v1], by simp [src, v2], by simp [src], by simp [src], fun x hx => ?_⟩
    simp only [List.mem_cons, not_or] at hx
    simp [src, hx, v3]
  have r := rep_newE hd
  have hF : ∀ p ∈ others st0.heap dd, p.1 ≠ st0.heap.length := by
    intro p hp
    have := lt_of_getElem? (mem_objs.1 (List.mem_filter.1 hp).1)
    omega
  generalize (st0.vars.set .s (.ref st0.heap.length)).set .doc_enc (.ref (st0.heap.length + 1)) = V at vs ⊢
  generalize st0.heap ++ [.barray []] ++ [.dict []] = H at r ⊢
  generalize others st0.heap dd = F at r hF ⊢
  generalize st0.heap.length + 1 = de at vs r ⊢
  generalize st0.heap.length = sl at vs r hF ⊢
  refine simEX_cons (vs := V) (h := H.set dd (.dict (delete items (.str py"1")))) (by
    have hm := objMethod_dict (ε := ε) (st := { st0 with vars := V, heap := H }) r.hdec .pop [.str py"1", .none] []
    simp [encode4, src, getVar, vs.doc_dec, hm]) ?_
  have r1 := r.popDec (dec' := delete items (.str py"1"))
  generalize H.set dd (.dict (delete items (.str py"1"))) = H1 at r1 ⊢
  refine simEX_cons (vs := V) (h := H1.set dd (.dict (delete (delete items (.str py"1")) (.str py"65")))) (by
    have hm := objMethod_dict (ε := ε) (st := { st0 with vars := V, heap := H1 }) r1.hdec .pop [.str py"65", .none] []
    simp [encode5, src, getVar, vs.doc_dec, hm]) ?_
  have r2 := r1.popDec (dec' := delete (delete items (.str py"1")) (.str py"65"))
  have d2 := (di.pop (k := py"1")).pop (k := py"65")
  have k2 : Keeps items (delete (delete items (.str py"1")) (.str py"65")) := (Keeps.delete (.inl rfl)).trans (Keeps.delete (.inr rfl))
  generalize H1.set dd (.dict (delete (delete items (.str py"1")) (.str py"65"))) = H2 at r2 ⊢
  generalize delete (delete items (.str py"1")) (.str py"65") = items2 at r2 d2 k2 ⊢
  refine simEX_weaken (G := outE sl F) ?_ k2 (fun _ _ h => h)
  rw [encodeBody_split]
  simp only [PyM.run_bind, PyM.run_modify]
  have hh := headerE_call hg hc hp (st := { st0 with vars := V, heap := H2 }) vs
    (es := ⟨(doc.pop (.str py"1")).pop (.str py"65"), []⟩) r2 d2
  rcases aug_sim (st := { st0 with vars := V, heap := H2 }) hF vs.s hh with
    ⟨h', a, items', es', h1, h2, h3, h4, h5⟩ | ⟨h', er, exc, items', es', h1, h2, h3, h4, h5, h6⟩
  rotate_left
  · rw [h1]
    exact simEX_err (G := outE sl F) (st := { st0 with vars := V, heap := H2 }) h3 h4 h5 h2 h6 rfl
  rw [h1]
  simp only [List.nil_append] at h3 ⊢
  refine simEX_weaken (G := outE sl F) (simEX_cons (st := { st0 with vars := V, heap := H2 }) h2 ?_) h5 (fun _ _ h => h)
  have vs' := vs.setS
  generalize V.set .s (.ref sl) = V' at vs' ⊢
  have ht := typeE_call hg hc hp (st := { st0 with vars := V', heap := h' }) vs' (es := es') h3 h4
  clear h1 h2 hh
  rcases aug_sim (st := { st0 with vars := V', heap := h' }) hF vs'.s ht with
    ⟨h'', b, items'', es'', h1, h2, h3, h4, h5⟩ | ⟨h'', er, exc, items'', es'', h1, h2, h3, h4, h5, h6⟩
  rotate_left
  · rw [h1]
    exact simEX_err (G := outE sl F) (st := { st0 with vars := V', heap := h' }) h3 h4 h5 h2 h6 rfl
  rw [h1]
  refine simEX_weaken (G := outE sl F) (simEX_cons (st := { st0 with vars := V', heap := h' }) h2 ?_) h5 (fun _ _ h => h)
  have := encKeys_sim hg hc hp ho hdig (st := { st0 with vars := V'.set .s (.ref sl), heap := h'' }) (st0 := st0) rfl hloc vs'.setS h3 hF h4
  simpa only [PyM.run_get, PyM.run_bind] using this

end Iso8583.Src
