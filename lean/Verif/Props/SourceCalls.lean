import Verif.Props.SourceArgs
/-!
# C93: positional and keyword arguments

`decode`, `encode` and `pp` may be called with arguments by position, by name in any order, or both, and `pp`
with arguments left out.  Every such call does what the call with all arguments by position does, and any
other call raises `TypeError`.
-/

namespace Iso8583.Src

variable {ε σ : Type} {rt : Rt ε σ}

/-- A call with these arguments gives the parameters `ps`, the last of which have the defaults `ds`, the
values `vs`: the first ones by position, each other one by name or, when it is not named, by default. -/
structure Passes (ps : List Ident) (ds : List Val) (args : List Val) (kws : List (Ident × Val)) (vs : List Val) : Prop where
  length : vs.length = ps.length
  positional : args <+: vs
  once : (kws.map Prod.fst).Nodup
  named : ∀ q ∈ kws, ∃ i, args.length ≤ i ∧ ps[i]? = some q.1
  other : ∀ (i : Nat) p v, args.length ≤ i → ps[i]? = some p → vs[i]? = some v →
    (p, v) ∈ kws ∨ (∀ q ∈ kws, q.1 ≠ p) ∧ ps.length ≤ i + ds.length ∧ ds[i + ds.length - ps.length]? = some v

theorem attrGet_iff {kws : List (Ident × Val)} (hn : (kws.map Prod.fst).Nodup) {p : Ident} {v : Val} : attrGet kws p = some v ↔ (p, v) ∈ kws := by
  induction kws with
  | nil => simp [attrGet]
  | cons q r ih =>
    obtain ⟨a, w⟩ := q
    simp only [List.map_cons, List.nodup_cons] at hn
    rw [attrGet]
    by_cases h : a = p
    · subst h
      simp only [if_true, Option.some.injEq, List.mem_cons, Prod.mk.injEq, true_and]
      refine ⟨fun h => .inl h.symm, ?_⟩
      rintro (h | h)
      · exact h.symm
      · exact absurd (List.mem_map_of_mem (f := Prod.fst) h) hn.1
    · simp only [h, if_false, ih hn.2, List.mem_cons, Prod.mk.injEq]
      exact ⟨.inr, fun h' => h'.resolve_left fun h'' => h h''.1.symm⟩

theorem attrGet_none {kws : List (Ident × Val)} {p : Ident} : attrGet kws p = none ↔ ∀ q ∈ kws, q.1 ≠ p := by
  induction kws with
  | nil => simp [attrGet]
  | cons q r ih =>
    obtain ⟨a, w⟩ := q
    rw [attrGet]
    by_cases h : a = p <;> simp [h, ih]

/-- `fillParams`, entry by entry. -/
theorem fillParams_iff {kws : List (Ident × Val)} : ∀ {ps : List (Ident × Option Val)} {xs : List Val},
    fillParams kws ps = some xs ↔ xs.length = ps.length ∧ ∀ (i : Nat) q v, ps[i]? = some q → xs[i]? = some v → (attrGet kws q.1).or q.2 = some v
  | [], xs => by cases xs <;> simp [fillParams]
  | (p, d) :: t, xs => by
    rw [fillParams]
    cases xs with
    | nil =>
      cases (attrGet kws p).or d <;> cases fillParams kws t <;> simp
    | cons x xs =>
      have ih := fillParams_iff (kws := kws) (ps := t) (xs := xs)
      have : (match (attrGet kws p).or d, fillParams kws t with | some v, some r => some (v :: r) | _, _ => none) = some (x :: xs) ↔
          (attrGet kws p).or d = some x ∧ fillParams kws t = some xs := by
        cases (attrGet kws p).or d <;> cases fillParams kws t <;> simp
      refine Iff.trans this ?_
      rw [ih]
      constructor
      · rintro ⟨h1, h2, h3⟩
        refine ⟨by simp [h2], fun i q v hq hv => ?_⟩
        cases i with
        | zero => simp at hq hv; subst hq hv; exact h1
        | succ i => exact h3 i q v (by simpa using hq) (by simpa using hv)
      · rintro ⟨h2, h3⟩
        exact ⟨h3 0 (p, d) x rfl rfl, by simpa using h2, fun i q v hq hv => h3 (i + 1) q v (by simpa using hq) (by simpa using hv)⟩

theorem withDefaults_length {ps : List Ident} {ds : List Val} (hd : ds.length ≤ ps.length) : (withDefaults ps ds).length = ps.length := by
  simp [withDefaults]; omega

theorem withDefaults_get {ps : List Ident} {ds : List Val} (hd : ds.length ≤ ps.length) {i : Nat} {p : Ident} (h : ps[i]? = some p) :
    (withDefaults ps ds)[i]? = some (p, if ps.length ≤ i + ds.length then ds[i + ds.length - ps.length]? else none) := by
  have hi : i < ps.length := (List.getElem?_eq_some_iff.1 h).1
  rw [withDefaults, List.getElem?_zip_eq_some]
  refine ⟨h, ?_⟩
  by_cases hc : i < ps.length - ds.length
  · rw [List.getElem?_append_left (by simpa using hc), List.getElem?_replicate, if_pos hc, if_neg (by omega)]
  · rw [List.getElem?_append_right (by simpa using hc), if_pos (by omega), List.length_replicate, List.getElem?_map]
    have e : i - (ps.length - ds.length) = i + ds.length - ps.length := by omega
    rw [e]
    cases hx : ds[i + ds.length - ps.length]? with
    | some v => rfl
    | none => exact absurd hx (by rw [List.getElem?_eq_none_iff]; omega)

/-- `placeArgs` is `Passes`. -/
theorem placeArgs_iff {ps : List Ident} {ds args : List Val} {kws : List (Ident × Val)} {vs : List Val} (hd : ds.length ≤ ps.length) :
    placeArgs ps args kws ds = some vs ↔ Passes ps ds args kws vs := by
  have hk : (∀ q ∈ kws, q.1 ∈ ps.drop args.length) ↔ ∀ q ∈ kws, ∃ i, args.length ≤ i ∧ ps[i]? = some q.1 := by
    refine forall_congr' fun q => forall_congr' fun _ => ?_
    rw [List.mem_iff_getElem?]
    constructor
    · rintro ⟨i, h⟩; exact ⟨args.length + i, by omega, by simpa using h⟩
    · rintro ⟨i, h1, h2⟩; exact ⟨i - args.length, by rw [List.getElem?_drop, show args.length + (i - args.length) = i by omega]; exact h2⟩
  rw [placeArgs]
  by_cases hc : args.length ≤ ps.length ∧ (kws.map Prod.fst).Nodup ∧ ∀ q ∈ kws, ∃ i, args.length ≤ i ∧ ps[i]? = some q.1
  · rw [if_pos ⟨hc.1, hc.2.1, hk.2 hc.2.2⟩]
    obtain ⟨h1, h2, h3⟩ := hc
    have key : ∀ xs, fillParams kws ((withDefaults ps ds).drop args.length) = some xs ↔ Passes ps ds args kws (args ++ xs) := by
      intro xs
      rw [fillParams_iff]
      simp only [List.length_drop, withDefaults_length hd]
      have hor : ∀ (i : Nat) p v, (attrGet kws p).or (if ps.length ≤ i + ds.length then ds[i + ds.length - ps.length]? else none) = some v ↔
          ((p, v) ∈ kws ∨ (∀ q ∈ kws, q.1 ≠ p) ∧ ps.length ≤ i + ds.length ∧ ds[i + ds.length - ps.length]? = some v) := by
        intro i p v
        rw [← attrGet_iff h2, ← attrGet_none]
        cases attrGet kws p with
        | some w => simp
        | none => split <;> simp [*]
      constructor
      · rintro ⟨hl, hx⟩
        refine ⟨by simp [hl]; omega, ⟨xs, rfl⟩, h2, h3, fun i p v hi hp hv => (hor i p v).1 ?_⟩
        rw [List.getElem?_append_right hi] at hv
        refine hx (i - args.length) (p, if ps.length ≤ i + ds.length then ds[i + ds.length - ps.length]? else none) v ?_ hv
        rw [List.getElem?_drop, show args.length + (i - args.length) = i by omega]
        exact withDefaults_get hd hp
      · intro h
        refine ⟨by have := h.length; simp at this; omega, fun i q v hq hv => ?_⟩
        rw [List.getElem?_drop] at hq
        have hb : args.length + i < ps.length := by
          have := (List.getElem?_eq_some_iff.1 hq).1; rwa [withDefaults_length hd] at this
        obtain ⟨p, hp⟩ : ∃ p, ps[args.length + i]? = some p := ⟨_, List.getElem?_eq_getElem hb⟩
        rw [withDefaults_get hd hp] at hq
        cases hq
        refine (hor _ p v).2 (h.other _ p v (by omega) hp ?_)
        rw [List.getElem?_append_right (by omega), show args.length + i - args.length = i by omega]
        exact hv
    cases hf : fillParams kws ((withDefaults ps ds).drop args.length) with
    | none =>
      simp only [Option.map_none, reduceCtorEq, false_iff]
      intro h
      obtain ⟨xs, rfl⟩ := h.positional
      rw [← key, hf] at h
      cases h
    | some xs =>
      simp only [Option.map_some, Option.some.injEq]
      constructor
      · rintro rfl; exact (key xs).1 hf
      · intro h
        obtain ⟨ys, rfl⟩ := h.positional
        rw [← key, hf] at h
        cases h; rfl
  · rw [if_neg fun h => hc ⟨h.1, h.2.1, hk.1 h.2.2⟩]
    simp only [reduceCtorEq, false_iff]
    intro h
    refine hc ⟨?_, h.once, h.named⟩
    rw [← h.length]; exact h.positional.length_le

/-- Without keyword arguments. -/
theorem bindParams_place {ps : List Ident} {ds args : List Val} (hd : ds.length ≤ ps.length) : bindParams ps args ds = (placeArgs ps args [] ds).bind (bindParams ps · []) := by
  have hb : ∀ vs, vs.length = ps.length → bindParams ps vs [] = some ((ps.zip vs).foldl (fun (e : Vars) p => e.set p.1 p.2) fun _ => none) := by
    intro vs h; simp [bindParams, h]
  by_cases hl : (args ++ ds.drop (ds.length - (ps.length - args.length))).length = ps.length
  · have hp : placeArgs ps args [] ds = some (args ++ ds.drop (ds.length - (ps.length - args.length))) := by
      rw [placeArgs_iff hd]
      refine ⟨hl, ⟨_, rfl⟩, by simp, by simp, fun i p v hi hp hv => .inr ⟨by simp, ?_⟩⟩
      have hip := (List.getElem?_eq_some_iff.1 hp).1
      rw [List.getElem?_append_right hi, List.getElem?_drop] at hv
      simp only [List.length_append, List.length_drop] at hl
      refine ⟨by omega, ?_⟩
      rw [show i + ds.length - ps.length = ds.length - (ps.length - args.length) + (i - args.length) by omega]
      exact hv
    rw [hp]
    show _ = bindParams ps _ []
    rw [hb _ hl, bindParams]
    simp only [hl, if_true]
  · have hn : placeArgs ps args [] ds = none := by
      cases hp : placeArgs ps args [] ds with
      | none => rfl
      | some vs =>
        refine absurd ?_ hl
        have h := (placeArgs_iff hd).1 hp
        obtain ⟨xs, rfl⟩ := h.positional
        have h1 := h.length
        simp only [List.length_append, List.length_drop] at h1 ⊢
        cases xs with
        | nil => simp at h1; omega
        | cons x xs =>
          have := h.other args.length (ps[args.length]'(by simp at h1; omega)) x (Nat.le_refl _) (by simp) (by simp)
          rcases this with h2 | ⟨-, h2, -⟩
          · cases h2
          · simp at h1; omega
    rw [hn, bindParams]
    simp only [hl, if_false]; rfl

theorem bindArgs_place {ps : List Ident} {ds args : List Val} {kws : List (Ident × Val)} (hd : ds.length ≤ ps.length) :
    bindArgs ps args kws ds = (placeArgs ps args kws ds).bind (bindParams ps · []) := by
  cases kws with
  | nil => exact bindParams_place hd
  | cons q r => rfl

theorem bindParams_full {ps : List Ident} {vs ds : List Val} (h : vs.length = ps.length) : bindParams ps vs ds = bindParams ps vs [] := by
  simp [bindParams, h]

/-- A call of a function, by position and by name. -/
theorem invoke_forms {call : Caller ε σ} {d : Def} {ds : List Val} (hc : d.isClass = false) (he : evals rt call d.defaults = pure ds) (hd : ds.length ≤ d.params.length)
    (args : List Val) (kws : List (Ident × Val)) :
    (∀ vs, Passes d.params ds args kws vs → invoke rt call d args kws = invoke rt call d vs []) ∧
    ((∀ vs, ¬ Passes d.params ds args kws vs) → ∀ st, invoke rt call d args kws st = (.error (.std .TypeError .none), st)) := by
  constructor
  · intro vs h
    rw [invoke, invoke, he, hc]
    funext st
    simp only [PyM.run_bind, PyM.run_pure, bindArgs_nil, bindParams_full h.length, bindArgs_place hd, (placeArgs_iff hd).2 h]; rfl
  · intro h st
    have hn : placeArgs d.params args kws ds = none := by
      cases hp : placeArgs d.params args kws ds with
      | none => rfl
      | some vs => exact absurd ((placeArgs_iff hd).1 hp) (h vs)
    rw [invoke, he, hc]
    simp only [PyM.run_bind, PyM.run_pure, bindArgs_place hd, hn]; rfl

/-- **C93**: `decode(s, spec)`. -/
theorem decode_forms (args : List Val) (kws : List (Ident × Val)) :
    (∀ vs, Passes [.s, .spec] [] args kws vs → program rt decoderDefs .decode args kws = program rt decoderDefs .decode vs []) ∧
    ((∀ vs, ¬ Passes [.s, .spec] [] args kws vs) → ∀ st, program rt decoderDefs .decode args kws st = (.error (.std .TypeError .none), st)) := by
  have hprog : program rt decoderDefs .decode = invoke rt (program rt [decodeHeaderDef, decodeTypeDef, decodeBitmapDef, decodeFieldDef, removePadFieldDef,
    decodeTextDataDef, decodeErrorInitDef]) decodeDef := program_eq _ _ rfl
  rw [hprog]
  exact invoke_forms (d := decodeDef) rfl rfl (by decide) args kws

/-- **C93** (encode): `encode(doc_dec, spec)`. -/
theorem encode_forms (args : List Val) (kws : List (Ident × Val)) :
    (∀ vs, Passes [.doc_dec, .spec] [] args kws vs → program rt encoderDefs .encode args kws = program rt encoderDefs .encode vs []) ∧
    ((∀ vs, ¬ Passes [.doc_dec, .spec] [] args kws vs) → ∀ st, program rt encoderDefs .encode args kws st = (.error (.std .TypeError .none), st)) := by
  have hprog : program rt encoderDefs .encode = invoke rt (program rt [encodeHeaderDef, encodeTypeDef, encodeBitmapDef, encodeFieldDef, encodeBindaryFieldDef, addPadFieldDef,
    encodeTextFieldDef, encodeErrorInitDef]) encodeDef := program_eq _ _ rfl
  rw [hprog]
  exact invoke_forms (d := encodeDef) rfl rfl (by decide) args kws

/-- **C93** (pp): `pp(doc, spec, desc_width=30, stream=None, line_width=80)`. -/
theorem pp_forms (args : List Val) (kws : List (Ident × Val)) :
    (∀ vs, Passes [.doc, .spec, .desc_width, .stream, .line_width] [.int 30, .none, .int 80] args kws vs →
      program rt toolsDefs .pp args kws = program rt toolsDefs .pp vs []) ∧
    ((∀ vs, ¬ Passes [.doc, .spec, .desc_width, .stream, .line_width] [.int 30, .none, .int 80] args kws vs) →
      ∀ st, program rt toolsDefs .pp args kws st = (.error (.std .TypeError .none), st)) := by
  have hprog : program rt toolsDefs .pp = invoke rt (program rt [ppFieldDef, pprintStrDef, pprintBytesDef, wrapStrReprDef, wrapBytesReprDef]) ppDef := program_eq _ _ rfl
  rw [hprog]
  exact invoke_forms (d := ppDef) rfl rfl (by decide) args kws

/-- The values are determined by the call. -/
theorem Passes.unique {ps : List Ident} {ds args : List Val} {kws : List (Ident × Val)} {vs ws : List Val} (hd : ds.length ≤ ps.length)
    (h : Passes ps ds args kws vs) (h' : Passes ps ds args kws ws) : vs = ws := by
  have h1 := (placeArgs_iff hd).2 h
  rw [(placeArgs_iff hd).2 h'] at h1
  cases h1; rfl

/-! ## The hypotheses are met -/

/-- `decode(spec=spec, s=s)`. -/
example (sv pv : Val) : program rt decoderDefs .decode [] [(.spec, pv), (.s, sv)] = program rt decoderDefs .decode [sv, pv] [] :=
  (decode_forms [] [(.spec, pv), (.s, sv)]).1 [sv, pv] ((placeArgs_iff (by decide)).1 (by rfl))

/-- `encode(doc, spec=spec)`. -/
example (dv pv : Val) : program rt encoderDefs .encode [dv] [(.spec, pv)] = program rt encoderDefs .encode [dv, pv] [] :=
  (encode_forms [dv] [(.spec, pv)]).1 [dv, pv] ((placeArgs_iff (by decide)).1 (by rfl))

/-- `pp(doc, spec, line_width=60, stream=out)`. -/
example (dv pv : Val) : program rt toolsDefs .pp [dv, pv] [(.line_width, .int 60), (.stream, .stream false)] =
    program rt toolsDefs .pp [dv, pv, .int 30, .stream false, .int 60] [] :=
  (pp_forms [dv, pv] [(.line_width, .int 60), (.stream, .stream false)]).1 _ ((placeArgs_iff (by decide)).1 (by rfl))

/-- `decode(s, spec, s=s)`, `encode(doc)` and `pp(doc, spec, width=60)` are refused.  (`pp` has no parameter named `width`.) -/
example (sv pv : Val) (st : St σ) : program rt decoderDefs .decode [sv, pv] [(.s, sv)] st = (.error (.std .TypeError .none), st) ∧
    program rt encoderDefs .encode [sv] [] st = (.error (.std .TypeError .none), st) ∧
    program rt toolsDefs .pp [sv, pv] [(.width, .int 60)] st = (.error (.std .TypeError .none), st) := by
  refine ⟨(decode_forms _ _).2 (fun vs h => ?_) st, (encode_forms _ _).2 (fun vs h => ?_) st, (pp_forms _ _).2 (fun vs h => ?_) st⟩
  · obtain ⟨i, h1, h2⟩ := h.named _ (List.mem_singleton.2 rfl)
    have := (List.getElem?_eq_some_iff.1 h2).1
    simp at h1 this; omega
  · have hl := h.length
    rcases vs with _ | ⟨a, _ | ⟨b, t⟩⟩
    · cases hl
    · cases hl
    · rcases h.other 1 .spec b (Nat.le_refl _) rfl rfl with h' | ⟨-, h', -⟩
      · cases h'
      · exact absurd h' (by decide)
  · obtain ⟨i, -, h2⟩ := h.named _ (List.mem_singleton.2 rfl)
    have := List.mem_of_getElem? h2
    exact absurd this (by decide)

end Iso8583.Src
