import Verif.Source.EncodeBase
/-!
# encoder.py: `_encode_text_field`, `_add_pad_field`, `_encode_bindary_field`
-/

namespace Iso8583.Src

variable {ε σ : Type} {rt : Rt ε σ} {call : Caller ε σ} {dd de : Nat} {F : List (Nat × Obj)} {items : List (Val × Val)}

theorem encodeVal_run (text name : Str) (st : St σ) : encodeVal rt text name st =
    match strEncode rt.env name text with
    | .ok b => (.ok (.bytes b), st)
    | .error .lookup => (.error (.std .LookupError (.str (rt.detail name text))), st)
    | .error .invalid => (.error (.std .UnicodeError (.str (rt.detail name text))), st) := by
  unfold encodeVal
  rcases strEncode rt.env name text with (_ | _) | _ <;> rfl

theorem method_encode (s n : Str) : method rt (.str s) .encode [.str n] [] = encodeVal rt s n := rfl

theorem valOf_str {x : Val} {s : Str} (h : valOf x = some (.str s)) : x = .str s := by
  cases x
  case str t => cases h; rfl
  case obj a b n => cases n <;> cases h
  case thing i k => cases i <;> cases k <;> cases h
  all_goals cases h

/-- `x + text`, `text + x` for anything but a `str`. -/
theorem valOf_add {x : Val} {v : Iso8583.Val} (h : valOf x = some v) (hn : ∀ s, v ≠ .str s) (p : Str) :
    (binop .add (.str p) x : M ε σ Val) = fail .TypeError ∧ (binop .add x (.str p) : M ε σ Val) = fail .TypeError := by
  cases x
  case str t => cases h; exact absurd rfl (hn _)
  all_goals first | exact ⟨rfl, rfl⟩ | cases h

/-- `x.encode` for anything but a `str`. -/
theorem textMethod_other {x : Val} {v : Iso8583.Val} (hx : valOf x = some v) (hn : ∀ s, v ≠ .str s) :
    textMethod x = (fail .AttributeError : M ε σ Unit) := by
  cases x
  case str t => cases hx; exact absurd rfl (hn _)
  all_goals first | rfl | cases hx

/-- encoder.py:674-677. -/
theorem encodeTextField2_run (hlen : call .len = builtin rt .len) {b : Bytes} {count : Str} {st : St σ} (v1 : st.vars .encoded_data = some (.bytes b))
    (v2 : st.vars .len_count = some (.str count)) (v3 : st.vars .len = none) :
    exec rt call encodeTextField2 st = (.ok (.ret (.tuple [.bytes b, .int (if count = py"nibbles" then b.length * 2 else b.length : Nat)])), st) := by
  by_cases h : count = py"nibbles" <;> simp [encodeTextField2, src, getVar, v1, v2, v3, h, hlen]

/-- Data and length. -/
def pairVal (p : Bytes × Nat) : Val := .tuple [.bytes p.1, .int p.2]

/-- encoder.py:621-677 `_encode_text_field`. -/
theorem encodeTextField_sim (hg : ∀ x, rt.globals x = none) {fv x : Val} {v : Iso8583.Val} {fs : FieldSpec} {key count : Str}
    {es : EncState} {st : St σ} (hv : PropVal fv py"data_enc" (some (.str fs.dataEnc))) (hx : valOf x = some v) (r : Rep st.heap dd de items es.enc F) (di : DocIs items es.dec) :
    SimE rt dd de items (fun _ => F) pairVal (encodeTextField rt.env v key fs count, es) st
      (invoke rt (program rt [encodeErrorInitDef]) encodeTextFieldDef [.ref dd, .ref de, x, .str key, fv, .str count] [] st) := by
  obtain ⟨its, rfl, h1⟩ := hv
  have hc : program rt [encodeErrorInitDef] .EncodeError = invoke rt (builtin rt) encodeErrorInitDef := program_eq _ _ rfl
  have hlen : program rt [encodeErrorInitDef] .len = builtin rt .len := by rw [program_ne _ _ (by decide)]; rfl
  generalize program rt [encodeErrorInitDef] = call at hc hlen ⊢
  refine simE_of_body rfl rfl rfl rfl ?_
  generalize hst0 : ({ st with vars := _, locals := _, ys := _ } : St σ) = st0
  have hheap : st0.heap = st.heap := by subst hst0; rfl
  have v1 : st0.vars .doc_dec = some (.ref dd) := by subst hst0; simp [src, encodeTextFieldDef]
  have v2 : st0.vars .doc_enc = some (.ref de) := by subst hst0; simp [src, encodeTextFieldDef]
  have v3 : st0.vars .field_data = some x := by subst hst0; simp [src, encodeTextFieldDef]
  have v4 : st0.vars .field_key = some (.str key) := by subst hst0; simp [src, encodeTextFieldDef]
  have v5 : st0.vars .field_spec = some (.dict its) := by subst hst0; simp [src, encodeTextFieldDef]
  have v6 : st0.vars .len_count = some (.str count) := by subst hst0; simp [src, encodeTextFieldDef]
  have v7 : st0.vars .len = none := by subst hst0; simp [src, encodeTextFieldDef]
  have v8 : st0.vars .EncodeError = none := by subst hst0; simp [src, encodeTextFieldDef]
  clear hst0
  rw [← hheap] at r
  have hinv : encodeTextField rt.env v key fs count = .error (.err .invalidData key) →
      ((∃ t, x = .str t ∧ ∀ st', ∃ a, method rt (.str t) .encode [.str fs.dataEnc] [] st' = (.error (.std .UnicodeError a), st')) ∨
        textMethod x = (fail .AttributeError : M ε σ Unit)) →
      SimEX rt dd de items (fun _ => F) pairVal (encodeTextField rt.env v key fs count, es) st0 (execs rt call encodeTextFieldDef.body st0) := by
    intro hm hd
    rw [hm]
    have hr := exec_raiseE_lit (dd := dd) (de := de) hg hc .invalidData rfl rfl key (.name .field_key) st0 (by simp [src, getVar, v4]) v8 v1 v2
    simp only [EncMsg.text] at hr
    refine simEX_raises (d := []) (by simp) (h := st0.heap) (vs := st0.vars) (G := fun _ => F) r di (Keeps.refl _) ?_ rfl
    rcases hd with ⟨t, rfl, hd⟩ | hd
    · obtain ⟨a, hd⟩ := hd st0
      simp [encodeTextField1, src, getVar, v3, v5, h1, hd, hr]
    · simp [encodeTextField1, src, getVar, v3, v5, h1, hd, hr]
  cases v with
  | str t =>
    have hx' : x = .str t := valOf_str hx
    subst hx'
    rcases hd : strEncode rt.env fs.dataEnc t with (_ | _) | b
    · have hm : encodeTextField rt.env (.str t) key fs count = .error (.err .unknownEncoding key) := by simp [encodeTextField, hd]
      rw [hm]
      have hr := exec_raiseE_lit (dd := dd) (de := de) hg hc .unknownEncoding rfl rfl key (.name .field_key) st0 (by simp [src, getVar, v4]) v8 v1 v2
      simp only [EncMsg.text] at hr
      refine simEX_raises (d := []) (by simp) (h := st0.heap) (vs := st0.vars) (G := fun _ => F) r di (Keeps.refl _) ?_ rfl
      simp [encodeTextField1, src, getVar, v3, v5, h1, method_encode, encodeVal_run, hd, hr]
    · exact hinv (by simp [encodeTextField, hd]) (.inl ⟨t, rfl, fun st' => ⟨_, by rw [method_encode, encodeVal_run, hd]⟩⟩)
    · have hm : encodeTextField rt.env (.str t) key fs count = .ok (b, if count = py"nibbles" then b.length * 2 else b.length) := by
        simp [encodeTextField, hd]
      rw [hm]
      refine simEX_cons (vs := st0.vars.set .encoded_data (.bytes b)) (h := st0.heap)
        (by simp [encodeTextField1, src, getVar, v3, v5, h1, method_encode, encodeVal_run, hd]) ?_
      refine simEX_ret (st := { st0 with vars := st0.vars.set .encoded_data (.bytes b) }) (h := st0.heap) (vs := st0.vars.set .encoded_data (.bytes b))
        (G := fun _ => F) r di (Keeps.refl _) ?_ rfl
      exact encodeTextField2_run hlen (by simp [src]) (by simp [src, v6]) (by simp [src, v7])
  | bytes b => exact hinv rfl (.inr (textMethod_other hx (by simp)))
  | sized n => exact hinv rfl (.inr (textMethod_other hx (by simp)))
  | unsized => exact hinv rfl (.inr (textMethod_other hx (by simp)))

/-- encoder.py:587-618 `_add_pad_field`. -/
theorem addPadField_run {fv x : Val} {v : Iso8583.Val} {fs : FieldSpec} (hl : PropVal fv py"left_pad" (fs.leftPad.map .str))
    (hrp : PropVal fv py"right_pad" (fs.rightPad.map .str)) (hx : valOf x = some v) (st : St σ) :
    (∃ y w, addPadField v fs = some w ∧ valOf y = some w ∧
      invoke rt (program rt [encodeTextFieldDef, encodeErrorInitDef]) addPadFieldDef [x, fv] [] st = (.ok y, st)) ∨
    (addPadField v fs = none ∧
      invoke rt (program rt [encodeTextFieldDef, encodeErrorInitDef]) addPadFieldDef [x, fv] [] st = (.error (.std .TypeError .none), st)) := by
  obtain ⟨its, rfl, hl⟩ := hl
  obtain ⟨its', h, hrp⟩ := hrp
  cases h
  have hlen : program rt [encodeTextFieldDef, encodeErrorInitDef] .len = builtin rt .len := by
    rw [program_ne _ _ (by decide), program_ne _ _ (by decide)]; rfl
  generalize program rt [encodeTextFieldDef, encodeErrorInitDef] = call at hlen ⊢
  have hl' : sliceOf (fs.leftPad.getD []) none (some 1) = padChar fs.leftPad := sliceOf_take _ 1
  have hr' : sliceOf (fs.rightPad.getD []) none (some 1) = padChar fs.rightPad := sliceOf_take _ 1
  simp only [addPadField]
  generalize padChar fs.leftPad = L at hl' ⊢
  generalize padChar fs.rightPad = R at hr' ⊢
  have e1 : ∀ p, (∀ s, v ≠ .str s) → (binop .add (.str p) x : M ε σ Val) = fail .TypeError := fun p hn => (valOf_add hx hn p).1
  have e2 : ∀ p, (∀ s, v ≠ .str s) → (binop .add x (.str p) : M ε σ Val) = fail .TypeError := fun p hn => (valOf_add hx hn p).2
  by_cases hL : 0 < L.length
  · by_cases hs : ∃ s, v = .str s
    · obtain ⟨s, rfl⟩ := hs
      have hx' : x = .str s := valOf_str hx
      subst hx'
      left
      refine ⟨.str (L ++ s), .str (L ++ s), by simp [hL], rfl, ?_⟩
      simp [src, invoke, bindParams, runBody, addPadFieldDef, addPadField1, addPadField2, getVar, hl, getD_str, hl', hlen, hL]
    · right
      have hs : ∀ s, v ≠ .str s := fun s h => hs ⟨s, h⟩
      refine ⟨by cases v <;> simp_all, ?_⟩
      simp [src, invoke, bindParams, runBody, addPadFieldDef, addPadField1, addPadField2, getVar, hl, getD_str, hl', hlen, hL, e1 _ hs]
  · by_cases hR : 0 < R.length
    · by_cases hs : ∃ s, v = .str s
      · obtain ⟨s, rfl⟩ := hs
        have hx' : x = .str s := valOf_str hx
        subst hx'
        left
        refine ⟨.str (s ++ R), .str (s ++ R), by simp [hL, hR], rfl, ?_⟩
        simp [src, invoke, bindParams, runBody, addPadFieldDef, addPadField1, addPadField2, addPadField3, addPadField4, getVar, hl, hrp, getD_str, hl', hr', hlen, hL, hR]
      · right
        have hs : ∀ s, v ≠ .str s := fun s h => hs ⟨s, h⟩
        refine ⟨by cases v <;> simp_all, ?_⟩
        simp [src, invoke, bindParams, runBody, addPadFieldDef, addPadField1, addPadField2, addPadField3, addPadField4, getVar, hl, hrp, getD_str, hl', hr', hlen, hL, hR, e2 _ hs]
    · left
      refine ⟨x, v, by simp [hL, hR], hx, ?_⟩
      simp [src, invoke, bindParams, runBody, addPadFieldDef, addPadField1, addPadField2, addPadField3, addPadField4, addPadField5, getVar, hl, hrp, getD_str, hl', hr', hlen, hL, hR]

end Iso8583.Src
