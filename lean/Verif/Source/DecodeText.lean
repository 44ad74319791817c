import Verif.Source.DecodeBase
/-!
# decoder.py: `_decode_text_data`, `_remove_pad_field`
-/
namespace Iso8583.Src
variable {ε σ : Type} {rt : Rt ε σ} {sv : Val} {dd de : Nat} {F : List (Nat × Obj)}
theorem decodeVal_run (data : Bytes) (name : Str) (st : St σ) : decodeVal rt data name st =
    match bytesDecode rt.env name data with
    | .ok t => (.ok (.str t), st)
    | .error .lookup => (.error (.std .LookupError (.str (rt.detail name (data.map UInt8.toNat)))), st)
    | .error .invalid => (.error (.std .UnicodeError (.str (rt.detail name (data.map UInt8.toNat)))), st) := by
  unfold decodeVal
  rcases bytesDecode rt.env name data with (_ | _) | _ <;> rfl

/-- decoder.py:658-718 `_decode_text_data`. -/
theorem decodeTextData_sim (hg : ∀ x, rt.globals x = none) {fv dv : Val} {fs : FieldSpec} {data : Bytes} {idx : Nat} {key : Str}
    {ds : DecState} {st : St σ} (hv : PropVal fv py"data_enc" (some (.str fs.dataEnc))) (hb : BytesVal dv data) (r : Rep st.heap dd de (decItems ds.dec) ds.enc F) :
    Sim rt sv dd de (fun _ => F) .str (decodeTextData rt.env data idx key fs ds) st
      (invoke rt (program rt [decodeErrorInitDef]) decodeTextDataDef [sv, dv, .int idx, .ref dd, .ref de, .str key, fv] [] st) := by
  obtain ⟨items, rfl, h1⟩ := hv
  have hc : program rt [decodeErrorInitDef] .DecodeError = invoke rt (builtin rt) decodeErrorInitDef := program_eq _ _ rfl
  have hm : method rt dv .decode [.str fs.dataEnc] [] = decodeVal rt data fs.dataEnc := by
    rcases hb with rfl | rfl <;> rfl
  generalize program rt [decodeErrorInitDef] = call at hc ⊢
  rcases hd : bytesDecode rt.env fs.dataEnc data with (_ | _) | t
  · have hr := exec_raise_lit hg hc .unknownEncoding rfl rfl sv dd de idx key
    have := @sim_raises ε σ rt Str sv dd de (fun _ => F) .str ds .unknownEncoding idx key st _ r
    simp only [DecMsg.text] at hr
    simpa [src, invoke, bindParams, runBody, decodeTextDataDef, decodeTextData1, getVar, h1, hm, decodeVal_run, hd, decodeTextData, decFail, hr] using this
  · have hr := exec_raise_lit hg hc .invalidData rfl rfl sv dd de idx key
    have := @sim_raises ε σ rt Str sv dd de (fun _ => F) .str ds .invalidData idx key st _ r
    simp only [DecMsg.text] at hr
    simpa [src, invoke, bindParams, runBody, decodeTextDataDef, decodeTextData1, getVar, h1, hm, decodeVal_run, hd, decodeTextData, decFail, hr] using this
  · have := @sim_ok ε σ rt Str sv dd de (fun _ => F) .str ds t st _ r
    simpa [src, invoke, bindParams, runBody, decodeTextDataDef, decodeTextData1, getVar, h1, hm, decodeVal_run, hd, decodeTextData] using this

theorem sliceOf_take {α : Type} (xs : List α) (n : Nat) : sliceOf xs none (some n) = xs.take n := by
  have : ¬ ((n : Int) < 0) := by omega
  simp [sliceOf, bound, this]

theorem sliceOf_drop {α : Type} (xs : List α) (n : Nat) : sliceOf xs (some n) none = xs.drop n := by
  have : ¬ ((n : Int) < 0) := by omega
  simp [sliceOf, bound, this, List.take_of_length_le]

theorem sliceOf_last {α : Type} (xs : List α) : sliceOf xs (some (-1)) none = xs.drop (xs.length - 1) := by
  have : ((-1 : Int) + xs.length).toNat = xs.length - 1 := by omega
  simp [sliceOf, bound, this, List.take_of_length_le]

theorem sliceOf_init {α : Type} (xs : List α) : sliceOf xs none (some (-1)) = xs.take (xs.length - 1) := by
  have : ((-1 : Int) + xs.length).toNat = xs.length - 1 := by omega
  simp [sliceOf, bound, this]

/-- `doc_dec[k]`. -/
theorem subVal_dec {h : List Obj} {dec : DecDoc} {enc : EncDoc} (r : Rep h dd de (decItems dec) enc F) (k : Str) {st : St σ} (hs : st.heap = h) :
    (subVal (.ref dd) (.str k) : M ε σ Val) st = match dec.get? k with
      | some v => (.ok (.str v), st)
      | none => (.error (.std .KeyError (.str k)), st) := by
  rw [subVal_ref_dict _ (by rw [hs]; exact r.hdec) rfl, decItems_get]
  cases dec.get? k <;> rfl

theorem getD_str (o : Option Str) (d : Str) : (o.map Val.str).getD (.str d) = .str (o.getD d) := by cases o <;> rfl

theorem natStr_int (n : Nat) : intStr (n : Int) = natStr n := by
  have : ¬ ((n : Int) < 0) := by omega
  simp [intStr, this]

/-- decoder.py:648-655. -/
theorem removePadField5_run (hg : ∀ x, rt.globals x = none) {call : Caller ε σ} (hc : call .DecodeError = invoke rt (builtin rt) decodeErrorInitDef)
    (hlen : call .len = builtin rt .len) {idx : Nat} {key cur : Str} {n : Int} {dec : List (Val × Val)} {st : St σ}
    (hv : st.vars .DecodeError = none) (hv' : st.vars .len = none) (h1 : st.vars .s = some sv) (h2 : st.vars .doc_dec = some (.ref dd))
    (h3 : st.vars .doc_enc = some (.ref de)) (h4 : st.vars .idx = some (.int idx)) (h5 : st.vars .field_key = some (.str key))
    (h6 : st.vars .enc_field_len = some (.int n)) (h7 : st.heap[dd]? = some (.dict dec)) (h8 : lookup dec (.str key) = some (.str cur)) :
    exec rt call removePadField5 st = (.error (raises rt st.heap sv dd de (.padMissing cur.length n) idx key).1,
      { st with heap := (raises rt st.heap sv dd de (.padMissing cur.length n) idx key).2 }) := by
  refine exec_raise hg hc _ _ _ _ _ _ _ _ _ ?_ ?_ hv h1 h2 h3 h4
  · by_cases ha : formats rt.env cur.length <;> by_cases hb : formats rt.env n <;>
      simp [src, getVar, h2, h5, h6, hv', hlen, subVal_ref_dict _ h7, h8, ha, hb, DecMsg.numbers, DecMsg.text, natStr_int]
  · simp [src, getVar, h5]

/-- decoder.py:601-655 `_remove_pad_field`. -/
theorem removePadField_sim (hg : ∀ x, rt.globals x = none) {fv : Val} {fs : FieldSpec} {idx : Nat} {key : Str} {n : Int}
    {ds : DecState} {st : St σ} {cur : Str} (hd : ds.dec.get? key = some cur) (hv : PropVal fv py"left_pad" (fs.leftPad.map .str))
    (hv' : PropVal fv py"right_pad" (fs.rightPad.map .str)) (r : Rep st.heap dd de (decItems ds.dec) ds.enc F) :
    Sim rt sv dd de (fun _ => F) .str (removePadField idx key fs n ds) st
      (invoke rt (program rt [decodeTextDataDef, decodeErrorInitDef]) removePadFieldDef
        [sv, .int idx, .ref dd, .ref de, .str key, fv, .int n] [] st) := by
  obtain ⟨items, rfl, hl⟩ := hv
  obtain ⟨_, h, hrp⟩ := hv'
  cases h
  have hc : program rt [decodeTextDataDef, decodeErrorInitDef] .DecodeError = invoke rt (builtin rt) decodeErrorInitDef := by
    rw [program_ne _ _ (by decide)]; exact program_eq _ _ rfl
  have hlen : program rt [decodeTextDataDef, decodeErrorInitDef] .len = builtin rt .len := by
    rw [program_ne _ _ (by decide), program_ne _ _ (by decide)]; rfl
  generalize program rt [decodeTextDataDef, decodeErrorInitDef] = call at hc hlen ⊢
  have hsub := fun (k : Str) (st' : St σ) (h : st'.heap = st.heap) => subVal_dec (ε := ε) r k h
  have hd' : lookup (decItems ds.dec) (.str key) = some (.str cur) := by rw [decItems_get, hd]; rfl
  have e1 : sliceOf cur none (some 1) = cur.take 1 := sliceOf_take cur 1
  have e2 : sliceOf cur (some 1) none = cur.drop 1 := sliceOf_drop cur 1
  have hl' : sliceOf (fs.leftPad.getD []) none (some 1) = padChar fs.leftPad := sliceOf_take _ 1
  have hr' : sliceOf (fs.rightPad.getD []) none (some 1) = padChar fs.rightPad := sliceOf_take _ 1
  simp only [removePadField, getDec, hd, PyM.run_bind, PyM.run_get, PyM.run_pure]
  have hok := fun t => @sim_ok ε σ rt Str sv dd de (fun _ => F) .str ds t st _ r
  have herr := @sim_raises ε σ rt Str sv dd de (fun _ => F) .str ds (.padMissing cur.length n) idx key st _ r
  generalize padChar fs.leftPad = L at hl' ⊢
  generalize padChar fs.rightPad = R at hr' ⊢
  have hp := fun (st : St σ) => @removePadField5_run ε σ rt sv dd de hg call hc hlen idx key cur n (decItems ds.dec) st
  by_cases h1 : 0 < L.length ∧ cur.take 1 = L
  · have := hok (cur.drop 1)
    simpa [src, invoke, bindParams, runBody, removePadFieldDef, removePadField1, removePadField2, getVar, hl, getD_str, e1, e2, hlen, hsub, hd, h1, hl'] using this
  · by_cases h2 : 0 < L.length
    · have h1' : ¬ cur.take 1 = L := fun h => h1 ⟨h2, h⟩
      by_cases h3 : 0 < R.length
      · by_cases h4 : cur.drop (cur.length - 1) = R
        · have := hok (cur.take (cur.length - 1))
          simpa [src, invoke, bindParams, runBody, removePadFieldDef, removePadField1, removePadField2, removePadField3, removePadField4, getVar, hl, hrp, getD_str, e1, e2, hlen,
            hsub, hd, h1', h2, h3, h4, hl', hr', sliceOf_last, sliceOf_init] using this
        · simpa [src, invoke, bindParams, runBody, removePadFieldDef, removePadField1, removePadField2, removePadField3, removePadField4, getVar, hl, hrp, getD_str, e1, e2, hlen,
            hsub, hd, h1', h2, h3, h4, hl', hr', sliceOf_last, sliceOf_init, hp, r.hdec, hd', decFail] using herr
      · simpa [src, invoke, bindParams, runBody, removePadFieldDef, removePadField1, removePadField2, removePadField3, removePadField4, getVar, hl, hrp, getD_str, e1, e2, hlen,
            hsub, hd, h1', h2, h3, hl', hr', sliceOf_last, sliceOf_init, hp, r.hdec, hd', decFail] using herr
    · by_cases h3 : 0 < R.length
      · by_cases h4 : cur.drop (cur.length - 1) = R
        · have := hok (cur.take (cur.length - 1))
          simpa [src, invoke, bindParams, runBody, removePadFieldDef, removePadField1, removePadField2, removePadField3, removePadField4, getVar, hl, hrp, getD_str, e1, e2, hlen,
            hsub, hd, h2, h3, h4, hl', hr', sliceOf_last, sliceOf_init] using this
        · simpa [src, invoke, bindParams, runBody, removePadFieldDef, removePadField1, removePadField2, removePadField3, removePadField4, getVar, hl, hrp, getD_str, e1, e2, hlen,
            hsub, hd, h2, h3, h4, hl', hr', sliceOf_last, sliceOf_init, hp, r.hdec, hd', decFail] using herr
      · simpa [src, invoke, bindParams, runBody, removePadFieldDef, removePadField1, removePadField2, removePadField3, removePadField4, getVar, hl, hrp, getD_str, e1, e2, hlen,
            hsub, hd, h2, h3, hl', hr', sliceOf_last, sliceOf_init, hp, r.hdec, hd', decFail] using herr

end Iso8583.Src
