import Verif.Source.EncodeText
/-!
# encoder.py: `_encode_bindary_field`
-/

namespace Iso8583.Src

variable {ε σ : Type} {rt : Rt ε σ} {call : Caller ε σ} {dd de : Nat} {F : List (Nat × Obj)} {items : List (Val × Val)}

theorem len_valOf {x : Val} {v : Iso8583.Val} (h : valOf x = some v) : builtin rt .len [x] [] =
    match v.len? with
    | some n => pure (.int n)
    | none => fail .TypeError := by
  cases x
  case obj a b n => cases n <;> cases h <;> rfl
  case thing i k => cases i <;> cases k <;> cases h <;> rfl
  all_goals (cases h; try rfl)

theorem a2b_valOf {x : Val} {v : Iso8583.Val} (h : valOf x = some v) :
    (∃ b, v.a2bHex = some b ∧ method rt (.glob .binascii) .a2b_hex [x] [] = pure (.bytes b)) ∨
    (∃ c, v.a2bHex = none ∧ (c = .ValueError ∨ c = .TypeError) ∧ method rt (.glob .binascii) .a2b_hex [x] [] = fail c) := by
  cases x
  case str s =>
    cases h
    have hm : method rt (.glob .binascii) .a2b_hex [.str s] [] = match a2bHex s with
      | some b => pure (.bytes b)
      | none => fail .ValueError := rfl
    rcases ha : a2bHex s with _ | b
    · exact .inr ⟨.ValueError, ha, .inl rfl, by rw [hm, ha]⟩
    · exact .inl ⟨b, ha, by rw [hm, ha]⟩
  case bytes s =>
    cases h
    have hm : method rt (.glob .binascii) .a2b_hex [.bytes s] [] = match a2bHex (s.map UInt8.toNat) with
      | some b => pure (.bytes b)
      | none => fail .ValueError := rfl
    rcases ha : a2bHex (s.map UInt8.toNat) with _ | b
    · exact .inr ⟨.ValueError, ha, .inl rfl, by rw [hm, ha]⟩
    · exact .inl ⟨b, ha, by rw [hm, ha]⟩
  case barray s =>
    cases h
    have hm : method rt (.glob .binascii) .a2b_hex [.barray s] [] = match a2bHex (s.map UInt8.toNat) with
      | some b => pure (.bytes b)
      | none => fail .ValueError := rfl
    rcases ha : a2bHex (s.map UInt8.toNat) with _ | b
    · exact .inr ⟨.ValueError, ha, .inl rfl, by rw [hm, ha]⟩
    · exact .inl ⟨b, ha, by rw [hm, ha]⟩
  case obj a b n => cases n <;> cases h <;> exact .inr ⟨.TypeError, rfl, .inr rfl, rfl⟩
  case thing i k =>
    cases i with | none => cases h | some i =>
    cases k with
    | bytes s =>
      cases h
      have hm : method rt (.glob .binascii) .a2b_hex [.thing (some i) (.bytes s)] [] = match a2bHex (s.map UInt8.toNat) with
        | some b => pure (.bytes b)
        | none => fail .ValueError := rfl
      rcases ha : a2bHex (s.map UInt8.toNat) with _ | b
      · exact .inr ⟨.ValueError, ha, .inl rfl, by rw [hm, ha]⟩
      · exact .inl ⟨b, ha, by rw [hm, ha]⟩
    | _ => cases h; exact .inr ⟨.TypeError, rfl, .inr rfl, rfl⟩
  all_goals (cases h; try exact .inr ⟨.TypeError, rfl, .inr rfl, rfl⟩)

theorem fmod_two (n : Nat) : Int.fmod n 2 = ((n % 2 : Nat) : Int) := by
  rw [Int.fmod_eq_emod_of_nonneg _ (by decide)]; simp

/-- The handlers of a `try`. -/
def handlersOf : Stmt → List Handler
  | .attempt _ hs => hs
  | _ => []

/-- encoder.py:557-577. -/
theorem binaryHandler_run (hg : ∀ x, rt.globals x = none) (hc : call .EncodeError = invoke rt (builtin rt) encodeErrorInitDef)
    (hlen : call .len = builtin rt .len) {st : St σ} {key count : Str} {dte : Option Val} {v : Option Iso8583.Val}
    (hloc : st.locals = encodeBindaryFieldDef.locals) (v0 : st.vars .EncodeError = none) (v1 : st.vars .doc_dec = some (.ref dd)) (v2 : st.vars .doc_enc = some (.ref de))
    (v3 : st.vars .field_key = some (.str key)) (v4 : st.vars .len_count = some (.str count)) (v5 : st.vars .len = none)
    (v6 : st.vars .data_to_encode = dte) (hd : dte.bind valOf = v) (hn : dte.isSome = v.isSome)
    {c : Ident} (hcc : c = .ValueError ∨ c = .TypeError) :
    ∃ exc h', handle rt call (.std c .none) (handlersOf encodeBindaryField1) st = (.error exc, { st with heap := h' }) ∧
      ErrIsE rt h' dd de (binaryHandler v key count) exc ∧ ∃ t, h' = st.heap ++ t := by
  have hcb : (Exc.std c .none : Exc ε).caughtBy .Exception = true := by rcases hcc with rfl | rfl <;> rfl
  cases dte with
  | none =>
    cases hd
    refine ⟨.std .UnboundLocalError .none, st.heap, ?_, rfl, [], by simp⟩
    have hgv : getVar rt .data_to_encode st = (.error (.std .UnboundLocalError .none), st) := by
      simp [getVar, v6, hloc, encodeBindaryFieldDef]
    by_cases hcount : count = py"nibbles" <;>
      simp [handlersOf, encodeBindaryField1, src, hcb, -Exc.caughtBy, getVar_some v4, hcount, v5, hgv]
  | some x =>
    simp only [Option.bind_some] at hd
    obtain ⟨w, rfl⟩ : ∃ w, v = some w := by cases v <;> simp_all
    simp only [binaryHandler]
    have hl := len_valOf (rt := rt) hd
    cases hlw : w.len? with
    | none =>
      rw [hlw] at hl
      refine ⟨.std .TypeError .none, st.heap, ?_, rfl, [], by simp⟩
      by_cases hcount : count = py"nibbles" <;>
        simp [handlersOf, encodeBindaryField1, src, hcb, -Exc.caughtBy, getVar, v4, hcount, v5, v6, hlen, hl, -builtin_len]
    | some n =>
      rw [hlw] at hl
      simp only []
      have key1 : ∀ m : EncMsg, m.numbers = [] → m ≠ .lenInvalid →
          handle rt call (.std c .none) (handlersOf encodeBindaryField1) st =
            (.error (raisesE rt st.heap dd de m [] key).1, { st with heap := (raisesE rt st.heap dd de m [] key).2 }) →
          ∃ exc h', handle rt call (.std c .none) (handlersOf encodeBindaryField1) st = (.error exc, { st with heap := h' }) ∧
            ErrIsE rt h' dd de (.err m key) exc ∧ ∃ t, h' = st.heap ++ t := by
        intro m _ hm h
        exact ⟨_, _, h, raisesE_is _ _ _ _ _ _ (by simp)⟩
      have e1 : (((n % 2 : Nat) : Int) = 1) ↔ n % 2 = 1 := by omega
      by_cases h1 : n % 2 = 1
      · by_cases hcount : count = py"nibbles"
        · rw [if_pos ⟨hcount, h1⟩]
          refine key1 _ rfl (by simp) ?_
          have hr := exec_raiseE_lit (dd := dd) (de := de) hg hc .oddNibbles rfl rfl key (.name .field_key) st (by simp [src, getVar, v3]) v0 v1 v2
          simp only [EncMsg.text] at hr
          simp [handlersOf, encodeBindaryField1, src, hcb, -Exc.caughtBy, getVar, v4, hcount, v5, v6, hlen, hl, -builtin_len, fmod_two, h1, hr]
        · rw [if_neg (by simp [hcount]), if_pos h1]
          refine key1 _ rfl (by simp) ?_
          have hr := exec_raiseE_lit (dd := dd) (de := de) hg hc .oddHex rfl rfl key (.name .field_key) st (by simp [src, getVar, v3]) v0 v1 v2
          simp only [EncMsg.text] at hr
          simp [handlersOf, encodeBindaryField1, src, hcb, -Exc.caughtBy, getVar, v4, hcount, v5, v6, hlen, hl, -builtin_len, fmod_two, h1, hr]
      · have h1' : n % 2 = 0 := by omega
        rw [if_neg (by simp [h1]), if_neg h1]
        refine key1 _ rfl (by simp) ?_
        have hr := exec_raiseE_lit (dd := dd) (de := de) hg hc .nonHex rfl rfl key (.name .field_key) st (by simp [src, getVar, v3]) v0 v1 v2
        simp only [EncMsg.text] at hr
        by_cases hcount : count = py"nibbles" <;>
          simp [handlersOf, encodeBindaryField1, src, hcb, -Exc.caughtBy, getVar, v4, hcount, v5, v6, hlen, hl, -builtin_len, fmod_two, h1', hr]

/-- The body of a `try`. -/
def tryOf : Stmt → List Stmt
  | .attempt b _ => b
  | _ => []

/-- encoder.py:516-584 `_encode_bindary_field`. -/
theorem encodeBinaryField_sim (hg : ∀ x, rt.globals x = none) {fv x : Val} {v : Iso8583.Val} {fs : FieldSpec} {key count : Str}
    {es : EncState} {st : St σ} (hlp : PropVal fv py"left_pad" (fs.leftPad.map .str))
    (hrp : PropVal fv py"right_pad" (fs.rightPad.map .str)) (hx : valOf x = some v) (r : Rep st.heap dd de items es.enc F) (di : DocIs items es.dec) :
    SimE rt dd de items (fun _ => F) pairVal (encodeBinaryField v key fs count, es) st
      (invoke rt (program rt [addPadFieldDef, encodeTextFieldDef, encodeErrorInitDef]) encodeBindaryFieldDef
        [.ref dd, .ref de, x, .str key, fv, .str count] [] st) := by
  have hc : program rt [addPadFieldDef, encodeTextFieldDef, encodeErrorInitDef] .EncodeError = invoke rt (builtin rt) encodeErrorInitDef := by
    rw [program_ne _ _ (by decide), program_ne _ _ (by decide)]; exact program_eq _ _ rfl
  have hlen : program rt [addPadFieldDef, encodeTextFieldDef, encodeErrorInitDef] .len = builtin rt .len := by
    rw [program_ne _ _ (by decide), program_ne _ _ (by decide), program_ne _ _ (by decide)]; rfl
  have hpad : program rt [addPadFieldDef, encodeTextFieldDef, encodeErrorInitDef] ._add_pad_field =
    invoke rt (program rt [encodeTextFieldDef, encodeErrorInitDef]) addPadFieldDef := program_eq _ _ rfl
  generalize program rt [addPadFieldDef, encodeTextFieldDef, encodeErrorInitDef] = call at hc hlen hpad ⊢
  refine simE_of_body rfl rfl rfl rfl ?_
  generalize hst0 : ({ st with vars := _, locals := _, ys := _ } : St σ) = st0
  have hheap : st0.heap = st.heap := by subst hst0; rfl
  have hloc : st0.locals = encodeBindaryFieldDef.locals := by subst hst0; rfl
  have v1 : st0.vars .doc_dec = some (.ref dd) := by subst hst0; simp [src, encodeBindaryFieldDef]
  have v2 : st0.vars .doc_enc = some (.ref de) := by subst hst0; simp [src, encodeBindaryFieldDef]
  have v3 : st0.vars .field_data = some x := by subst hst0; simp [src, encodeBindaryFieldDef]
  have v4 : st0.vars .field_key = some (.str key) := by subst hst0; simp [src, encodeBindaryFieldDef]
  have v5 : st0.vars .field_spec = some fv := by subst hst0; simp [src, encodeBindaryFieldDef]
  have v6 : st0.vars .len_count = some (.str count) := by subst hst0; simp [src, encodeBindaryFieldDef]
  have v7 : st0.vars .len = none := by subst hst0; simp [src, encodeBindaryFieldDef]
  have v8 : st0.vars .EncodeError = none := by subst hst0; simp [src, encodeBindaryFieldDef]
  have v9 : st0.vars ._add_pad_field = none := by subst hst0; simp [src, encodeBindaryFieldDef]
  have v10 : st0.vars .binascii = none := by subst hst0; simp [src, encodeBindaryFieldDef]
  have v11 : st0.vars .data_to_encode = none := by subst hst0; simp [src, encodeBindaryFieldDef]
  clear hst0
  rw [← hheap] at r
  -- the `try` fails
  have hfail : ∀ (c : Ident) (dte : Option Val) (w : Option Iso8583.Val) (V : Vars), (c = .ValueError ∨ c = .TypeError) →
      execs rt call (tryOf encodeBindaryField1) st0 = (.error (.std c .none), { st0 with vars := V }) →
      dte.bind valOf = w → dte.isSome = w.isSome → V .data_to_encode = dte → (∀ y, y ≠ .data_to_encode → V y = st0.vars y) →
      encodeBinaryField v key fs count = .error (binaryHandler w key count) →
      SimEX rt dd de items (fun _ => F) pairVal (encodeBinaryField v key fs count, es) st0 (execs rt call encodeBindaryFieldDef.body st0) := by
    intro c dte w V hcc hex hd hn hV1 hV2 hm
    rw [hm]
    obtain ⟨exc, h', hh, he, t, rfl⟩ := binaryHandler_run (dd := dd) (de := de) (st := { st0 with vars := V }) (key := key) (count := count)
      hg hc hlen hloc
      (by rw [← v8]; exact hV2 _ (by decide)) (by rw [← v1]; exact hV2 _ (by decide)) (by rw [← v2]; exact hV2 _ (by decide))
      (by rw [← v4]; exact hV2 _ (by decide)) (by rw [← v6]; exact hV2 _ (by decide)) (by rw [← v7]; exact hV2 _ (by decide))
      hV1 hd hn hcc
    refine simEX_err (vs := V) (G := fun _ => F) (r.append t) di (Keeps.refl _) ?_ he rfl
    have : encodeBindaryField1 = .attempt (tryOf encodeBindaryField1) (handlersOf encodeBindaryField1) := rfl
    rw [this, exec_attempt, hex]
    exact hh
  -- the `try` succeeds
  have hok : ∀ (n : Nat) (b : Bytes) (y : Val),
      exec rt call encodeBindaryField1 st0 = (.ok .next, { st0 with vars := (st0.vars.set .data_to_encode y).set .encoded_data (.bytes b) }) →
      encodeBinaryField v key fs count = .ok (b, n) →
      (count = py"nibbles" → v.len? = some n) → (count ≠ py"nibbles" → n = b.length) →
      SimEX rt dd de items (fun _ => F) pairVal (encodeBinaryField v key fs count, es) st0 (execs rt call encodeBindaryFieldDef.body st0) := by
    intro n b y hex hm h1 h2
    rw [hm]
    refine simEX_cons (vs := (st0.vars.set .data_to_encode y).set .encoded_data (.bytes b)) (h := st0.heap) hex ?_
    refine simEX_ret (h := st0.heap) (vs := (st0.vars.set .data_to_encode y).set .encoded_data (.bytes b)) (G := fun _ => F) r di (Keeps.refl _) ?_ rfl
    by_cases hcount : count = py"nibbles"
    · have hl := len_valOf (rt := rt) hx
      rw [h1 hcount] at hl
      simp [encodeBindaryField2, src, getVar, v3, v6, v7, hcount, hlen, hl, -builtin_len, pairVal]
    · simp [encodeBindaryField2, src, getVar, v6, v7, hcount, hlen, pairVal, h2 hcount]
  -- from `data_to_encode` on
  have hmain : ∀ (y : Val) (w : Iso8583.Val), valOf y = some w →
      execs rt call (tryOf encodeBindaryField1) st0 =
        execs rt call (tryOf encodeBindaryField1).tail { st0 with vars := st0.vars.set .data_to_encode y } →
      (if count = py"nibbles" then
        match v.len? with
        | none => none
        | some n => if n % 2 = 1 then addPadField v fs else some v
      else some v) = some w →
      SimEX rt dd de items (fun _ => F) pairVal (encodeBinaryField v key fs count, es) st0 (execs rt call encodeBindaryFieldDef.body st0) := by
    intro y w hy hex hdte
    rcases a2b_valOf (rt := rt) hy with ⟨b, ha, hm⟩ | ⟨c, ha, hcc, hm⟩
    · by_cases hcount : count = py"nibbles"
      · cases hlv : v.len? with
        | none => rw [if_pos hcount, hlv] at hdte; cases hdte
        | some n =>
          refine hok n b y ?_ ?_ (fun _ => hlv) (fun h => absurd hcount h)
          · have : encodeBindaryField1 = .attempt (tryOf encodeBindaryField1) (handlersOf encodeBindaryField1) := rfl
            rw [this, exec_attempt, hex]
            simp [tryOf, encodeBindaryField1, src, getVar, v10, hloc, encodeBindaryFieldDef, hg, hm]
          · rw [hlv] at hdte
            simp [encodeBinaryField, hdte, ha, hcount, hlv]
            simp [hcount] at hdte
            simp [hdte, ha]
      · refine hok b.length b y ?_ ?_ (fun h => absurd h hcount) (fun _ => rfl)
        · have : encodeBindaryField1 = .attempt (tryOf encodeBindaryField1) (handlersOf encodeBindaryField1) := rfl
          rw [this, exec_attempt, hex]
          simp [tryOf, encodeBindaryField1, src, getVar, v10, hloc, encodeBindaryFieldDef, hg, hm]
        · rw [if_neg hcount] at hdte
          cases hdte
          simp [encodeBinaryField, ha, hcount]
    · refine hfail c (some y) (some w) (st0.vars.set .data_to_encode y) hcc ?_ hy rfl (by simp [src]) (fun z hz => by simp [src, hz]) ?_
      · rw [hex]
        simp [tryOf, encodeBindaryField1, src, getVar, v10, hloc, encodeBindaryFieldDef, hg, hm]
      · simp only [encodeBinaryField]
        by_cases hcount : count = py"nibbles"
        · cases hlv : v.len? with
          | none => rw [if_pos hcount, hlv] at hdte; cases hdte
          | some n =>
            rw [if_pos hcount, hlv] at hdte
            simp only [] at hdte
            simp [hcount, hdte, ha]
        · rw [if_neg hcount] at hdte
          cases hdte
          simp [hcount, ha]
  have hid : ({ st0 with vars := st0.vars } : St σ) = st0 := rfl
  by_cases hcount : count = py"nibbles"
  · have hl := len_valOf (rt := rt) hx
    cases hlv : v.len? with
    | none =>
      rw [hlv] at hl
      refine hfail .TypeError none none st0.vars (.inr rfl) ?_ rfl rfl v11 (fun _ _ => rfl) ?_
      · simp [tryOf, encodeBindaryField1, src, getVar, v3, v6, v7, hcount, hlen, hl, -builtin_len]
      · simp [encodeBinaryField, hcount, hlv]
    | some n =>
      rw [hlv] at hl
      have hb : (intAnd (n : Int) 1) = ((n % 2 : Nat) : Int) := by rw [intAnd_one]; omega
      by_cases h1 : n % 2 = 1
      · rcases addPadField_run (rt := rt) hlp hrp hx st0 with ⟨y, w, hw, hy, hi⟩ | ⟨hw, hi⟩
        · refine hmain y w hy ?_ (by simp [hcount, hlv, h1, hw])
          simp [tryOf, encodeBindaryField1, src, getVar, v3, v5, v6, v7, v9, hcount, hlen, hl, -builtin_len, hb, h1, hpad, hi]
        · refine hfail .TypeError none none st0.vars (.inr rfl) ?_ rfl rfl v11 (fun _ _ => rfl) ?_
          · simp [tryOf, encodeBindaryField1, src, getVar, v3, v5, v6, v7, v9, hcount, hlen, hl, -builtin_len, hb, h1, hpad, hi]
          · simp [encodeBinaryField, hcount, hlv, h1, hw]
      · have h1' : n % 2 = 0 := by omega
        refine hmain x v hx ?_ (by simp [hcount, hlv, h1])
        simp [tryOf, encodeBindaryField1, src, getVar, v3, v6, v7, hcount, hlen, hl, -builtin_len, hb, h1']
  · refine hmain x v hx ?_ (by simp [hcount])
    simp [tryOf, encodeBindaryField1, src, getVar, v3, v6, hcount]

end Iso8583.Src
