import Verif.Source.DecodeField
/-!
# decoder.py: `_decode_bitmap`
-/

namespace Iso8583.Src

variable {ε σ : Type} {rt : Rt ε σ} {sv : Val} {dd de : Nat} {F : List (Nat × Obj)} {call : Caller ε σ}

/-! ## The comprehension -/

/-- Field numbers as values. -/
def natVals (xs : List Nat) : List Val := xs.map fun n : Nat => .int (n : Int)

/-- `[… for byte_idx, byte in enumerate(bitmap) if (byte >> (8 - bit)) & 1]` without its `for`. -/
def columnBody : Comp :=
  .when (.bin .band (.bin .shr (.name .byte) (.bin .sub (.int 8) (.name .bit))) (.int 1)) (.yield (.bin .add (.bin .add (.name .field_offset) (.bin .mul (.name .byte_idx) (.int 8))) (.name .bit)))

theorem shr_and_one (a k : Nat) : intAnd ((a : Int).fdiv (2 ^ k)) 1 = ((a >>> k) &&& 1 : Nat) := by
  rw [intAnd_one, Int.fdiv_eq_ediv_of_nonneg _ (by exact_mod_cast Nat.zero_le (2 ^ k)), Nat.and_one_is_mod, Nat.shiftRight_eq_div_pow]
  norm_cast

theorem column_run {off bit : Nat} (hbit : bit ≤ 8) : ∀ (bs : Bytes) (i : Nat) (st : St σ),
    st.vars .field_offset = some (.int off) → st.vars .bit = some (.int bit) →
    ∃ V, gather (evalComp rt call columnBody) [.byte_idx, .byte] (number i (bs.map fun x => .int x.toNat)) st =
        (.ok (natVals (bitColumn off bit i bs)), { st with vars := V }) ∧
      ∀ x, x ≠ .byte_idx → x ≠ .byte → V x = st.vars x
  | [], i, st, h1, h2 => ⟨st.vars, by simp [number, gather, bitColumn, natVals, src], fun _ _ _ => rfl⟩
  | b :: bs, i, st, h1, h2 => by
    obtain ⟨V, hV, hV'⟩ := column_run (off := off) hbit bs (i + 1) { st with vars := (st.vars.set .byte_idx (.int i)).set .byte (.int b.toNat) }
      (by simp [src, h1]) (by simp [src, h2])
    refine ⟨V, ?_, fun x h1 h2 => by rw [hV' x h1 h2]; simp [src, h1, h2]⟩
    have hsh : ((8 : Int) - bit).toNat = 8 - bit := by omega
    have hneg : ¬ ((8 : Int) - bit < 0) := by omega
    have hneg' : ¬ ((8 : Int) < bit) := by omega
    rcases Nat.and_one_is_mod (b.toNat >>> (8 - bit)) ▸ Nat.mod_two_eq_zero_or_one (b.toNat >>> (8 - bit)) with h | h
    · have hc : bitColumn off bit i (b :: bs) = bitColumn off bit (i + 1) bs := by simp [bitColumn, h]
      simp only [List.map_cons, number, gather, bindNames, PyM.run_bind, setVar_run, hc]
      have he : evalComp rt call columnBody { st with vars := (st.vars.set .byte_idx (.int i)).set .byte (.int b.toNat) } =
          (.ok [], { st with vars := (st.vars.set .byte_idx (.int i)).set .byte (.int b.toNat) }) := by
        simp [columnBody, evalComp, src, getVar, h2, hneg, hneg', hsh, shr_and_one, h]
      simp only [he, hV, PyM.run_pure, List.nil_append]
    · have hc : bitColumn off bit i (b :: bs) = (off + i * 8 + bit) :: bitColumn off bit (i + 1) bs := by simp [bitColumn, h]
      simp only [List.map_cons, number, gather, bindNames, PyM.run_bind, setVar_run, hc]
      have he : evalComp rt call columnBody { st with vars := (st.vars.set .byte_idx (.int i)).set .byte (.int b.toNat) } =
          (.ok [.int (off + i * 8 + bit : Nat)], { st with vars := (st.vars.set .byte_idx (.int i)).set .byte (.int b.toNat) }) := by
        simp [columnBody, evalComp, src, getVar, h1, h2, hneg, hneg', hsh, shr_and_one, h]
      simp only [he, hV, PyM.run_pure, List.cons_append, List.nil_append, natVals, List.map_cons]

theorem columns_run {off : Nat} {bitmap : Bytes} {bv : Val} (hb : BytesVal bv bitmap) (hc : call .enumerate = builtin rt .enumerate) :
    ∀ (bits : List Nat) (st : St σ), (∀ b ∈ bits, b ≤ 8) → st.vars .field_offset = some (.int off) → st.vars .bitmap = some bv →
    st.vars .enumerate = none →
    ∃ V, gather (evalComp rt call (.loop [.byte_idx, .byte] (.call .enumerate [(.name .bitmap)] [] []) columnBody)) [.bit] (natVals bits) st =
        (.ok (natVals (bits.flatMap fun bit => bitColumn off bit 0 bitmap)), { st with vars := V })
  | [], st, h0, h1, h2, h3 => ⟨st.vars, by simp [natVals, gather, src]⟩
  | bit :: bits, st, h0, h1, h2, h3 => by
    obtain ⟨V, hV, hV'⟩ := column_run (rt := rt) (call := call) (off := off) (bit := bit) (h0 bit (by simp)) bitmap 0
      { st with vars := st.vars.set .bit (.int bit) } (by simp [src, h1]) (by simp [src])
    obtain ⟨W, hW⟩ := columns_run (off := off) hb hc bits { st with vars := V } (fun b h => h0 b (by simp [h]))
      (by simp [src, hV', h1]) (by simp [src, hV', h2])
      (by simp [src, hV', h3])
    refine ⟨W, ?_⟩
    have he : evalComp rt call (.loop [.byte_idx, .byte] (.call .enumerate [(.name .bitmap)] [] []) columnBody) { st with vars := st.vars.set .bit (.int bit) } =
        (.ok (natVals (bitColumn off bit 0 bitmap)), { st with vars := V }) := by
      have hel : elements rt bv = pure (bitmap.map fun x => .int x.toNat) := by rcases hb with rfl | rfl <;> rfl
      simp only [evalComp]
      simp [src, getVar, h2, h3, hc, hel, hV]
    simp only [natVals, List.map_cons, gather, bindNames, PyM.run_bind, setVar_run, List.flatMap_cons, List.map_append] at he hW ⊢
    simp only [he, hW, PyM.run_pure]

/-- decoder.py:395-400. -/
theorem eval_fields {off : Nat} {bitmap : Bytes} {bv : Val} (hb : BytesVal bv bitmap) (hc : call .enumerate = builtin rt .enumerate)
    (hr : call .range = builtin rt .range) {st : St σ} (h1 : st.vars .field_offset = some (.int off)) (h2 : st.vars .bitmap = some bv)
    (h3 : st.vars .enumerate = none) (h4 : st.vars .range = none) :
    eval rt call (.comp (.loop [.bit] (.call .range [(.int 1), (.int 9)] [] []) (.loop [.byte_idx, .byte] (.call .enumerate [(.name .bitmap)] [] []) columnBody))) st =
      (.ok (.list (natVals (bitmapFields off bitmap))), st) := by
  obtain ⟨V, hV⟩ := columns_run (rt := rt) (call := call) (off := off) hb hc [1, 2, 3, 4, 5, 6, 7, 8] st (by simp) h1 h2 h3
  have hrange : (rangeList 1 9 1).map Val.int = natVals [1, 2, 3, 4, 5, 6, 7, 8] := rfl
  rw [eval_comp, evalComp]
  simp [src, h4, hr, hrange, hV, bitmapFields]

/-- A set of field numbers as an object. -/
def fieldSet (xs : List Nat) : Obj := .set (xs.map fun n : Nat => (n : Int))

theorem ints_natVals : ∀ xs : List Nat, ints (natVals xs) = some (xs.map fun n : Nat => (n : Int))
  | [] => rfl
  | x :: xs => by
    have := ints_natVals xs
    simp only [natVals, List.map_cons, ints] at this ⊢
    rw [this]; rfl

theorem mem_intList {n : Nat} {xs : List Nat} : (n : Int) ∈ xs.map (fun n : Nat => (n : Int)) ↔ n ∈ xs := by
  simp [Int.ofNat_inj]

theorem setAdd_int (xs : List Nat) (n : Nat) :
    setAdd (xs.map fun n : Nat => (n : Int)) (n : Int) = (setAdd xs n).map fun n : Nat => (n : Int) := by
  unfold setAdd
  by_cases h : n ∈ xs
  · rw [if_pos h, if_pos (mem_intList.2 h)]
  · rw [if_neg h, if_neg fun h' => h (mem_intList.1 h')]; simp

theorem addAll_int : ∀ (ys xs : List Nat),
    addAll (xs.map fun n : Nat => (n : Int)) (ys.map fun n : Nat => (n : Int)) = (setUpdate xs ys).map fun n : Nat => (n : Int)
  | [], xs => rfl
  | y :: ys, xs => by
    have := addAll_int ys (setAdd xs y)
    simp only [addAll, setUpdate, List.map_cons, List.foldl_cons, setAdd_int] at this ⊢
    exact this

theorem setRemove_int (xs : List Nat) (n : Nat) :
    setRemove (xs.map fun n : Nat => (n : Int)) (n : Int) = (setRemove xs n).map fun n : Nat => (n : Int) := by
  unfold setRemove
  rw [List.filter_map]
  congr 1
  refine List.filter_congr fun x _ => ?_
  simp [Int.ofNat_inj]

/-! ## The rest -/

/-- decoder.py:340-346 of the model. -/
def bitmapStore (key : Str) (data : Bytes) (isExtended : Bool) : DecM Unit :=
  if isExtended then do
    let e ← getEnc key
    setEnc key { e with data := e.data ++ data }
  else do
    setDec key []
    setEnc key ⟨[], data⟩

/-- decoder.py:361-365, 376-380 of the model. -/
def bitmapText (key decoded : Str) (isExtended : Bool) : DecM Unit := do
  if isExtended then
    setDec key ((← getDec key) ++ decoded)
  else
    setDec key decoded

/-- decoder.py:358-392 of the model. -/
def bitmapData (env : PyEnv) (idx : Nat) (key : Str) (fs : FieldSpec) (data : Bytes) (isExtended : Bool) : DecM Bytes :=
  if fs.dataEnc = py"b" then do
    bitmapText key (upperAscii (bytesHex data)) isExtended
    pure data
  else do
    let decoded ← decodeTextData env data idx key fs
    bitmapText key decoded isExtended
    match fromHex decoded with
    | some b => pure b
    | none => decFail .nonHexBitmap idx key

/-- decoder.py:340-403 of the model; `data` should have `expected` bytes. -/
def bitmapRest (env : PyEnv) (idx : Nat) (key : Str) (fs : FieldSpec) (offset : Nat) (isExtended : Bool) (fields : List Nat) (expected : Nat)
    (data : Bytes) : DecM (Nat × List Nat) := do
  bitmapStore key data isExtended
  if data.length ≠ expected then
    let e ← getEnc key
    decFail (.fieldDataBytes e.data.length (if isExtended then expected * 2 else expected)) idx key
  let bitmap ← bitmapData env idx key fs data isExtended
  return (idx + expected, setUpdate fields (bitmapFields offset bitmap))

theorem decodeBitmap_split (env : PyEnv) (s : Bytes) (idx : Nat) (key : Str) (fs : FieldSpec) (offset : Nat) (isExtended : Bool) (fields : List Nat) :
    decodeBitmap env s idx key fs offset isExtended fields =
      bitmapRest env idx key fs offset isExtended fields (if fs.dataEnc = py"b" then 8 else 16)
        (slice s idx (idx + (if fs.dataEnc = py"b" then 8 else 16 : Nat))) := by
  have assoc : ∀ {α β γ : Type} (x : DecM α) (f : α → DecM β) (g : β → DecM γ), (x >>= f) >>= g = x >>= fun a => f a >>= g := by
    intro α β γ x f g
    funext st
    simp only [PyM.run_bind]
    rcases x st with ⟨_ | a, st'⟩ <;> rfl
  have hm : ∀ (decoded : Str) (f : Bytes → DecM (Nat × List Nat)), (match fromHex decoded with
      | some b => pure b
      | none => decFail .nonHexBitmap idx key : DecM Bytes) >>= f = (match fromHex decoded with
      | some b => pure b >>= f
      | none => decFail .nonHexBitmap idx key >>= f : DecM _) := fun d f => by cases fromHex d <;> rfl
  cases isExtended <;> by_cases h : fs.dataEnc = py"b" <;>
    simp [decodeBitmap, bitmapRest, bitmapStore, bitmapData, bitmapText, h, assoc, hm] <;> rfl

/-- The variables of `_decode_bitmap` that `FieldVars` leaves out. -/
structure BitmapVars (V : Vars) (off : Nat) (isExtended : Bool) (fl : Nat) : Prop where
  range : V .range = none
  enumerate : V .enumerate = none
  field_offset : V .field_offset = some (.int off)
  is_extended : V .is_extended = some (.bool isExtended)
  fields : V .fields = some (.ref fl)

theorem BitmapVars.set {V : Vars} {off fl : Nat} {ext : Bool} (h : BitmapVars V off ext fl) {x : Ident} (v : Val)
    (hx : x ∈ [Ident.expected_field_len, .encoded_field_data, .decoded_field_data, .bitmap]) : BitmapVars (V.set x v) off ext fl := by
  obtain ⟨h1, h2, h3, h4, h5⟩ := h
  simp only [List.mem_cons, List.not_mem_nil, or_false] at hx
  rcases hx with rfl | rfl | rfl | rfl <;> constructor <;> simp [src, *]

variable {off fl : Nat} {ext : Bool} {key : Str} {fv : Val}

/-- decoder.py:340-346. -/
theorem decodeBitmap3_run (hc : DecCalls rt call) {st : St σ} (vs : FieldVars st.vars sv dd de key fv) (bs : BitmapVars st.vars off ext fl)
    {data : Bytes} {dv : Val} (hd : BytesVal dv data) (v1 : st.vars .encoded_field_data = some dv) {ds : DecState}
    (r : Rep st.heap dd de (decItems ds.dec) ds.enc F) :
    (∃ h' ds' e, bitmapStore key data ext ds = (.ok (), ds') ∧ exec rt call decodeBitmap3 st = (.ok .next, { st with heap := h' }) ∧
      Rep h' dd de (decItems ds'.dec) ds'.enc F ∧ ds'.enc.get? key = some e) ∨
    (bitmapStore key data ext ds = (.error (.keyError key), ds) ∧ exec rt call decodeBitmap3 st = (.error (.std .KeyError (.str key)), st)) := by
  have hkey : ∀ h, eval rt call (.name .field_key) { st with heap := h } = (.ok (.str key), { st with heap := h }) :=
      fun h => getVar_some vs.field_key
  have hb : ∀ h, eval rt call (.call .bytes [(.name .encoded_field_data)] [] []) { st with heap := h } = (.ok (.bytes data), { st with heap := h }) := by
    intro h
    simp [src, getVar, vs.bytes, v1, hc.bytes, bytes_bytesVal hd]
  cases ext with
  | true =>
    cases he : ds.enc.get? key with
    | none =>
      right
      obtain ⟨loc, h1, -⟩ := r.henc
      have hi : lookup (encItems loc ds.enc) (.str key) = none := by rw [encItems_get, he]; rfl
      refine ⟨by simp [bitmapStore, getEnc, PyM.run_bind, PyM.run_get, he], ?_⟩
      simp [decodeBitmap3, src, getVar, bs.is_extended, vs.doc_enc, vs.field_key, subVal_ref_dict _ h1, hi]
    | some e =>
      left
      obtain ⟨h', e1, r1⟩ := exec_setData (rt := rt) (call := call) (key := .name .field_key)
        (v := .bin .add (.sub (.sub (.name .doc_enc) (.name .field_key)) (.str py"data")) (.call .bytes [(.name .encoded_field_data)] [] []))
        (b := e.data ++ data) r vs.doc_enc (hkey _) he (by
          simp [src, eval_encData (rt := rt) (call := call) (key := .name .field_key) r vs.doc_enc (hkey _) he, getVar, vs.bytes, v1, hc.bytes, bytes_bytesVal hd])
      refine ⟨h', { ds with enc := ds.enc.set key ⟨e.len, e.data ++ data⟩ }, ⟨e.len, e.data ++ data⟩, ?_, ?_, r1, Dict.get?_set_same _ _ _⟩
      · simp [bitmapStore, getEnc, setEnc, PyM.run_bind, PyM.run_get, he]
      · simp [decodeBitmap3, src, getVar, bs.is_extended, e1]
  | false =>
    left
    have e1 := exec_setDec (rt := rt) (call := call) (e := .str py"") (st := st) (v := []) rfl r vs.doc_dec (hkey _)
    obtain ⟨h2, e2, r2⟩ := exec_newEnc (rt := rt) (call := call) (a := .bytes []) (l := [])
      (b := .call .bytes [(.name .encoded_field_data)] [] []) (d := data)
      (st := { st with heap := st.heap.set dd (.dict (decItems (ds.dec.set key []))) })
      (r.setDec _) vs.doc_enc rfl (hb _) (fun h => hkey h)
    refine ⟨h2, { dec := ds.dec.set key [], enc := ds.enc.set key ⟨[], data⟩ }, _, ?_, ?_, r2, Dict.get?_set_same _ _ _⟩
    · simp [bitmapStore, setDec, setEnc, PyM.run_bind]
    · simp [decodeBitmap3, src, getVar, bs.is_extended, e1, e2]

/-- decoder.py:348-356. -/
theorem decodeBitmap4_run (hg : ∀ x, rt.globals x = none) (hc : DecCalls rt call) {st : St σ} (vs : FieldVars st.vars sv dd de key fv)
    (bs : BitmapVars st.vars off ext fl) {idx n : Nat} (v0 : st.vars .idx = some (.int idx)) (v2 : st.vars .expected_field_len = some (.int n))
    {data : Bytes} {dv : Val} (hd : BytesVal dv data) (v1 : st.vars .encoded_field_data = some dv) {ds : DecState} {e : EncEntry}
    (r : Rep st.heap dd de (decItems ds.dec) ds.enc F) (he : ds.enc.get? key = some e) :
    exec rt call decodeBitmap4 st =
      if data.length = n then (.ok .next, st)
      else
        let m := DecMsg.fieldDataBytes e.data.length (if ext then n * 2 else n)
        (.error (raises rt st.heap sv dd de m idx key).1, { st with heap := (raises rt st.heap sv dd de m idx key).2 }) := by
  have hlen := len_bytesVal (rt := rt) hd
  simp only [builtin_len] at hlen
  by_cases hl : data.length = n
  · simp [decodeBitmap4, src, getVar, vs.len, v1, hc.len, hlen, v2, hl]
  · have hl' : ¬ (data.length : Int) = n := by omega
    have hraise := exec_raise (rt := rt) (call := call) hg hc.err (.fieldDataBytes e.data.length (if ext then n * 2 else n)) sv dd de idx key
      (.fstr [(.str py"Field data is "), (.call .len [(.sub (.sub (.name .doc_enc) (.name .field_key)) (.str py"data"))] [] []), (.str py" bytes, expecting "), (.ite (.name .is_extended) (.bin .mul (.name .expected_field_len) (.int 2)) (.name .expected_field_len))])
      (.name .field_key) st (by
        have hdd := eval_encData (rt := rt) (call := call) (key := .name .field_key) r vs.doc_enc (getVar_some vs.field_key) he
        have hc2 : ((n : Int) * 2) = (n * 2 : Nat) := by omega
        cases ext
        · by_cases ha : formats rt.env e.data.length <;> by_cases hb : formats rt.env n <;>
            simp [src, getVar, vs.len, hdd, hc.len, bs.is_extended, v2, ha, hb, DecMsg.numbers, DecMsg.text, natStr_int]
        · by_cases ha : formats rt.env e.data.length <;> by_cases hb : formats rt.env (n * 2 : Nat) <;>
            simp [src, getVar, vs.len, hdd, hc.len, bs.is_extended, v2, ha, hb, DecMsg.numbers, DecMsg.text, hc2, natStr_int, -Int.natCast_mul])
      (by simp [src, getVar, vs.field_key]) vs.DecodeError vs.s vs.doc_dec vs.doc_enc v0
    simp [decodeBitmap4, src, getVar, vs.len, v1, hc.len, hlen, v2, hl, hl', hraise]

/-- decoder.py:361-365, 376-380. -/
theorem bitmapText_run {st : St σ} (vs : FieldVars st.vars sv dd de key fv)
    (bs : BitmapVars st.vars off ext fl) {t : Str} (v1 : st.vars .decoded_field_data = some (.str t)) {ds : DecState}
    (r : Rep st.heap dd de (decItems ds.dec) ds.enc F) :
    (∃ h' ds', bitmapText key t ext ds = (.ok (), ds') ∧
      exec rt call (.assign [(.sub (.name .doc_dec) (.name .field_key))] (.ite (.name .is_extended) (.bin .add (.sub (.name .doc_dec) (.name .field_key)) (.name .decoded_field_data)) (.name .decoded_field_data))) st =
        (.ok .next, { st with heap := h' }) ∧
      Rep h' dd de (decItems ds'.dec) ds'.enc F) ∨
    (bitmapText key t ext ds = (.error (.keyError key), ds) ∧
      exec rt call (.assign [(.sub (.name .doc_dec) (.name .field_key))] (.ite (.name .is_extended) (.bin .add (.sub (.name .doc_dec) (.name .field_key)) (.name .decoded_field_data)) (.name .decoded_field_data))) st =
        (.error (.std .KeyError (.str key)), st)) := by
  have hkey : eval rt call (.name .field_key) st = (.ok (.str key), st) := getVar_some vs.field_key
  have hsub := subVal_dec (ε := ε) r key (st := st) rfl
  cases ext with
  | true =>
    cases hd : ds.dec.get? key with
    | none =>
      right
      exact ⟨by simp [bitmapText, getDec, PyM.run_bind, PyM.run_get, hd], by simp [src, getVar, bs.is_extended, vs.doc_dec, vs.field_key, hsub, hd]⟩
    | some d =>
      left
      have e1 := exec_setDec (rt := rt) (call := call) (v := d ++ t)
        (e := .ite (.name .is_extended) (.bin .add (.sub (.name .doc_dec) (.name .field_key)) (.name .decoded_field_data)) (.name .decoded_field_data))
        (st := st) (by simp [src, getVar, bs.is_extended, vs.doc_dec, vs.field_key, hsub, hd, v1]) r vs.doc_dec hkey
      exact ⟨_, { ds with dec := ds.dec.set key (d ++ t) }, by simp [bitmapText, getDec, setDec, PyM.run_bind, PyM.run_get, hd], e1, r.setDec _⟩
  | false =>
    left
    have e1 := exec_setDec (rt := rt) (call := call) (v := t)
      (e := .ite (.name .is_extended) (.bin .add (.sub (.name .doc_dec) (.name .field_key)) (.name .decoded_field_data)) (.name .decoded_field_data))
      (st := st) (by simp [src, getVar, bs.is_extended, v1]) r vs.doc_dec hkey
    exact ⟨_, { ds with dec := ds.dec.set key t }, by simp [bitmapText, setDec], e1, r.setDec _⟩

/-- decoder.py:358-392. -/
theorem decodeBitmap5_run (hg : ∀ x, rt.globals x = none) (hc : DecCalls rt call) {fs : FieldSpec} (hv : PropVal fv py"data_enc" (some (.str fs.dataEnc))) {st : St σ}
    (vs : FieldVars st.vars sv dd de key fv) (hloc : st.locals = decodeBitmapDef.locals)
    (bs : BitmapVars st.vars off ext fl) {idx : Nat} (v0 : st.vars .idx = some (.int idx))
    {data : Bytes} {dv : Val} (hd : BytesVal dv data) (v1 : st.vars .encoded_field_data = some dv) {ds : DecState}
    (r : Rep st.heap dd de (decItems ds.dec) ds.enc F) :
    (∃ h' ds' bm bv V, bitmapData rt.env idx key fs data ext ds = (.ok bm, ds') ∧
      exec rt call decodeBitmap5 st = (.ok .next, { st with vars := V, heap := h' }) ∧
      Rep h' dd de (decItems ds'.dec) ds'.enc F ∧ BytesVal bv bm ∧ V .bitmap = some bv ∧
      ∀ x, x ≠ .decoded_field_data → x ≠ .bitmap → V x = st.vars x) ∨
    (∃ h' ds' e exc V, bitmapData rt.env idx key fs data ext ds = (.error e, ds') ∧
      exec rt call decodeBitmap5 st = (.error exc, { st with vars := V, heap := h' }) ∧
      Rep h' dd de (decItems ds'.dec) ds'.enc F ∧ ErrIs rt h' sv dd de e exc) := by
  have hv0 := hv
  obtain ⟨items, rfl, g0⟩ := hv
  have hby : ∀ V h, V .bytes = none → eval rt call (.name .bytes) { st with vars := V, heap := h } =
      (.ok (.glob .bytes), { st with vars := V, heap := h }) := by
    intro V h hV
    have : Ident.bytes ∉ st.locals := by rw [hloc]; decide
    simp [src, getVar, hV, hg, this]
  by_cases henc : fs.dataEnc = py"b"
  · have e0 : exec rt call (.assign [(.name .decoded_field_data)] (.meth (.meth (.name .encoded_field_data) .hex [] [] []) .upper [] [] [])) st =
        (.ok .next, { st with vars := st.vars.set .decoded_field_data (.str (upperAscii (bytesHex data))) }) := by
      simp [src, getVar, v1, hex_bytesVal hd]
    rcases bitmapText_run (rt := rt) (call := call) (st := { st with vars := st.vars.set .decoded_field_data (.str (upperAscii (bytesHex data))) })
      (vs.set _ (by simp)) (bs.set _ (by simp)) (t := upperAscii (bytesHex data)) (by simp [src]) r with ⟨h', ds', hm, e1, r1⟩ | ⟨hm, e1⟩
    · left
      refine ⟨h', ds', data, dv, (st.vars.set .decoded_field_data (.str (upperAscii (bytesHex data)))).set .bitmap dv, ?_, ?_, r1, hd, by simp [src],
        fun x h1 h2 => by simp [src, h1, h2]⟩
      · simp [bitmapData, henc, PyM.run_bind, hm]
      · simp [decodeBitmap5, src, getVar, vs.field_spec, g0, henc, e0, e1, v1]
    · right
      refine ⟨st.heap, ds, .keyError key, _, st.vars.set .decoded_field_data (.str (upperAscii (bytesHex data))), ?_, ?_, r, rfl⟩
      · simp [bitmapData, henc, PyM.run_bind, hm]
      · simp [decodeBitmap5, src, getVar, vs.field_spec, g0, henc, e0, e1]
  · obtain ⟨h', x, ho, hr, hx⟩ := decodeTextData_sim (sv := sv) hg (st := st) (idx := idx) (key := key) hv0 hd r
    rcases hres : decodeTextData rt.env data idx key fs ds with ⟨e | t, ds4⟩
    · rw [hres] at hr hx
      obtain ⟨exc, rfl, he⟩ := hx
      right
      refine ⟨h', ds4, e, exc, st.vars, ?_, ?_, hr, he⟩
      · simp [bitmapData, henc, PyM.run_bind, hres]
      · simp [decodeBitmap5, src, getVar, vs.field_spec, g0, henc, vs.text, vs.s, vs.doc_dec, vs.doc_enc, vs.field_key, v0, v1, hc.text, ho]
    · rw [hres] at hr hx
      subst hx
      have e0 : exec rt call (.assign [(.name .decoded_field_data)] (.call ._decode_text_data [(.name .s), (.name .encoded_field_data), (.name .idx), (.name .doc_dec), (.name .doc_enc), (.name .field_key), (.name .field_spec)] [] [])) st =
          (.ok .next, { st with vars := st.vars.set .decoded_field_data (.str t), heap := h' }) := by
        simp [src, getVar, vs.field_spec, vs.text, vs.s, vs.doc_dec, vs.doc_enc, vs.field_key, v0, v1, hc.text, ho]
      have vs2 := vs.set (x := .decoded_field_data) (.str t) (by simp)
      rcases bitmapText_run (rt := rt) (call := call) (st := { st with vars := st.vars.set .decoded_field_data (.str t), heap := h' })
        (vs.set _ (by simp)) (bs.set _ (by simp)) (t := t) (by simp [src]) hr with ⟨h'', ds', hm, e1, r1⟩ | ⟨hm, e1⟩
      · cases hx : fromHex t with
        | some bm =>
          left
          refine ⟨h'', ds', bm, .bytes bm, (st.vars.set .decoded_field_data (.str t)).set .bitmap (.bytes bm), ?_, ?_, r1, .inl rfl, by simp [src],
            fun x h1 h2 => by simp [src, h1, h2]⟩
          · simp [bitmapData, henc, PyM.run_bind, hres, hm, hx]
          · simp [decodeBitmap5, src, getVar, vs.field_spec, g0, henc, e0, e1, hby, vs.bytes, hx]
        | none =>
          right
          have hr2 := exec_raise_lit hg hc.err .nonHexBitmap rfl rfl sv dd de idx key
          simp only [DecMsg.text] at hr2
          obtain ⟨a1, tt, a2⟩ := raises_is (rt := rt) h'' sv dd de .nonHexBitmap idx key
          refine ⟨_, ds', .err .nonHexBitmap idx key, _, st.vars.set .decoded_field_data (.str t), ?_, ?_, ?_, a1⟩
          · simp [bitmapData, henc, PyM.run_bind, hres, hm, hx, decFail]
          · simp [decodeBitmap5, src, getVar, vs.field_spec, g0, henc, e0, e1, hby, vs.bytes, hx, hr2, vs.DecodeError, vs.s, vs.doc_dec,
              vs.doc_enc, vs.field_key, v0]
          · rw [a2]; exact r1.append tt
      · right
        refine ⟨h', ds4, .keyError key, _, st.vars.set .decoded_field_data (.str t), ?_, ?_, hr, rfl⟩
        · simp [bitmapData, henc, PyM.run_bind, hres, hm]
        · simp [decodeBitmap5, src, getVar, vs.field_spec, g0, henc, e0, e1]

/-- decoder.py:394-401. -/
theorem decodeBitmap6_run (hc : DecCalls rt call) {st : St σ} (vs : FieldVars st.vars sv dd de key fv) (bs : BitmapVars st.vars off ext fl)
    {bm : Bytes} {bv : Val} (hb : BytesVal bv bm) (v1 : st.vars .bitmap = some bv) {fields : List Nat} (hf : st.heap[fl]? = some (fieldSet fields)) :
    exec rt call decodeBitmap6 st = (.ok .next, { st with heap := st.heap.set fl (fieldSet (setUpdate fields (bitmapFields off bm))) }) := by
  have he := eval_fields (rt := rt) (call := call) hb hc.enumerate hc.range bs.field_offset v1 bs.enumerate bs.range
  simp only [columnBody] at he
  have hm : objMethod fl .update [.list (natVals (bitmapFields off bm))] [] st =
      ((.ok .none : Except (Exc ε) Val), { st with heap := st.heap.set fl (fieldSet (setUpdate fields (bitmapFields off bm))) }) := by
    simp [src, objMethod_set hf, fieldSet, ints_natVals, addAll_int]
  simp [decodeBitmap6, src, getVar, bs.fields, he, hm]

theorem Rep.frame_get {h : List Obj} {dec : List (Val × Val)} {enc : EncDoc} {l : Nat} {o : Obj} (r : Rep h dd de dec enc ((l, o) :: F)) :
    h[l]? = some o := (r.frame (l, o) List.mem_cons_self).1

/-- The set of field numbers after `_decode_bitmap`. -/
def fieldsAfter (fl : Nat) (old : List Nat) (F : List (Nat × Obj)) : Except DecRaise (Nat × List Nat) → List (Nat × Obj)
  | .ok p => (fl, fieldSet p.2) :: F
  | .error _ => (fl, fieldSet old) :: F

/-- decoder.py:332: without `data_enc`. -/
theorem decodeBitmap_missing (hg : ∀ x, rt.globals x = none) {f : PartialField} {idx : Nat}
    {ds : DecState} {st : St σ} (hv : PFieldVal fv f) (hde : f.dataEnc = none) {fields : List Nat}
    (r : Rep st.heap dd de (decItems ds.dec) ds.enc ((fl, fieldSet fields) :: F)) :
    Sim rt sv dd de (fieldsAfter fl fields F) (fun p : Nat × List Nat => .int p.1) (.error (.keyError py"data_enc"), ds) st
      (invoke rt (program rt [decodeFieldDef, removePadFieldDef, decodeTextDataDef, decodeErrorInitDef]) decodeBitmapDef
        [sv, .ref dd, .ref de, .int idx, .str key, fv, .int off, .bool ext, .ref fl] [] st) := by
  obtain ⟨items, rfl, g0, -⟩ := hv
  rw [hde] at g0
  have := sim_keyError (rt := rt) (sv := sv) (F := fieldsAfter fl fields F) (toV := fun p : Nat × List Nat => .int p.1) (k := py"data_enc") (st := st) r
  simpa [src, invoke, bindParams, runBody, decodeBitmapDef, decodeBitmap1, getVar, g0] using this

/-- decoder.py:286-403 `_decode_bitmap`. -/
theorem decodeBitmap_sim (hg : ∀ x, rt.globals x = none) {fs : FieldSpec} {s : Bytes} (hb : BytesAt F sv s) {idx : Nat}
    {ds : DecState} {st : St σ} (hv : PropVal fv py"data_enc" (some (.str fs.dataEnc))) {fields : List Nat}
    (r : Rep st.heap dd de (decItems ds.dec) ds.enc ((fl, fieldSet fields) :: F)) (hF : ∀ p ∈ F, p.1 ≠ fl) :
    Sim rt sv dd de (fieldsAfter fl fields F) (fun p : Nat × List Nat => .int p.1) (decodeBitmap rt.env s idx key fs off ext fields ds) st
      (invoke rt (program rt [decodeFieldDef, removePadFieldDef, decodeTextDataDef, decodeErrorInitDef]) decodeBitmapDef
        [sv, .ref dd, .ref de, .int idx, .str key, fv, .int off, .bool ext, .ref fl] [] st) := by
  have hc := (decCalls_base (rt := rt)).cons decodeFieldDef (by decide)
  generalize program rt [decodeFieldDef, removePadFieldDef, decodeTextDataDef, decodeErrorInitDef] = call at hc ⊢
  have hv0 := hv
  obtain ⟨items, rfl, g0⟩ := hv
  rw [decodeBitmap_split]
  refine sim_of_body rfl rfl rfl rfl ?_
  generalize hst0 : ({ st with vars := _, locals := _, ys := _ } : St σ) = st0
  have vs : FieldVars st0.vars sv dd de key (.dict items) := by
    subst hst0; constructor <;> simp [src, decodeBitmapDef]
  have bs : BitmapVars st0.vars off ext fl := by
    subst hst0; constructor <;> simp [src, decodeBitmapDef]
  have v0 : st0.vars .idx = some (.int idx) := by subst hst0; simp [src, decodeBitmapDef]
  have hloc : st0.locals = decodeBitmapDef.locals := by subst hst0; rfl
  have r0 : Rep st0.heap dd de (decItems ds.dec) ds.enc ((fl, fieldSet fields) :: F) := by subst hst0; exact r
  clear hst0 r
  generalize hn : (if fs.dataEnc = py"b" then 8 else 16 : Nat) = n
  have e1 : exec rt call decodeBitmap1 st0 = (.ok .next, { st0 with vars := st0.vars.set .expected_field_len (.int n) }) := by
    by_cases h : fs.dataEnc = py"b"
    · rw [if_pos h] at hn; subst hn
      simp [decodeBitmap1, src, getVar, vs.field_spec, g0, h]
    · rw [if_neg h] at hn; subst hn
      simp [decodeBitmap1, src, getVar, vs.field_spec, g0, h]
  refine simX_cons (h := st0.heap) e1 ?_
  obtain ⟨dv, hd, hs⟩ := eval_slice_run (rt := rt) (call := call) (x := .expected_field_len) (n := (n : Int)) (idx := idx)
    (st := { st0 with vars := st0.vars.set .expected_field_len (.int n) }) (r0.bytes (hb.cons _)) (by simp [src, vs.s]) (by simp [src, v0]) (by simp [src])
  have e2 : exec rt call decodeBitmap2 { st0 with vars := st0.vars.set .expected_field_len (.int n) } =
      (.ok .next, { st0 with vars := (st0.vars.set .expected_field_len (.int n)).set .encoded_field_data dv }) := by
    simp [decodeBitmap2, src, hs]
  refine simX_cons (h := st0.heap) e2 ?_
  generalize slice s idx (idx + (n : Int)) = data at hd ⊢
  clear hs e1 e2
  have vs2 := (vs.set (x := .expected_field_len) (.int n) (by simp)).set (x := .encoded_field_data) dv (by simp)
  have bs2 := (bs.set (x := .expected_field_len) (.int n) (by simp)).set (x := .encoded_field_data) dv (by simp)
  have w0 : ((st0.vars.set .expected_field_len (.int n)).set .encoded_field_data dv) .idx = some (.int idx) := by simp [src, v0]
  have w1 : ((st0.vars.set .expected_field_len (.int n)).set .encoded_field_data dv) .expected_field_len = some (.int n) := by simp [src]
  have w2 : ((st0.vars.set .expected_field_len (.int n)).set .encoded_field_data dv) .encoded_field_data = some dv := by simp [src]
  generalize (st0.vars.set .expected_field_len (.int n)).set .encoded_field_data dv = V at vs2 bs2 w0 w1 w2 ⊢
  rcases decodeBitmap3_run (rt := rt) (call := call) (st := { st0 with vars := V }) hc vs2 bs2 hd w2 r0 with
    ⟨h3, ds3, e, hm3, e3, r3, he3⟩ | ⟨hm3, e3⟩
  · refine simX_cons e3 ?_
    have e4 := decodeBitmap4_run (rt := rt) (call := call) (st := { st0 with vars := V, heap := h3 }) hg hc vs2 bs2 w0 w1 hd w2 r3 he3
    by_cases hl : data.length = n
    · rw [if_pos hl] at e4
      refine simX_cons e4 ?_
      have hrun : bitmapRest rt.env idx key fs off ext fields n data ds = (do
          let bitmap ← bitmapData rt.env idx key fs data ext
          return (idx + n, setUpdate fields (bitmapFields off bitmap)) : DecM (Nat × List Nat)) ds3 := by
        simp [bitmapRest, PyM.run_bind, hm3, hl]
      rw [hrun]
      rcases decodeBitmap5_run (st := { st0 with vars := V, heap := h3 }) hg hc hv0 vs2 hloc bs2 w0 hd w2 r3 with
        ⟨h5, ds5, bm, bv, W, hm5, e5, r5, hbm, wb, hW⟩ | ⟨h5, ds5, er, exc, W, hm5, e5, r5, her⟩
      · refine simX_cons e5 ?_
        simp only [PyM.run_bind, hm5]
        have bs5 : BitmapVars W off ext fl := by
          obtain ⟨a1, a2, a3, a4, a5⟩ := bs2
          constructor <;> rw [hW _ (by decide) (by decide)] <;> assumption
        have vs5 : FieldVars W sv dd de key (.dict items) := by
          obtain ⟨a1, a2, a3, a4, a5, a6, a7, a8, a9, a10, a11⟩ := vs2
          constructor <;> rw [hW _ (by decide) (by decide)] <;> assumption
        have x0 := (hW .idx (by decide) (by decide)).trans w0
        have x1 := (hW .expected_field_len (by decide) (by decide)).trans w1
        have e6 := decodeBitmap6_run (rt := rt) (call := call) (st := { st0 with vars := W, heap := h5 }) hc vs5 bs5 hbm wb r5.frame_get
        refine simX_cons e6 ?_
        refine simX_ret (st0 := st0) (st := { st0 with vars := W, heap := h5.set fl _ }) (vs := W) (r5.setFrame hF _) ?_ rfl
        simp [decodeBitmap7, src, getVar, x0, x1]
      · simp only [PyM.run_bind, hm5]
        exact simX_err (F := fieldsAfter fl fields F) (st := { st0 with vars := V, heap := h3 }) r5 e5 her rfl
    · rw [if_neg hl] at e4
      have hrun : bitmapRest rt.env idx key fs off ext fields n data ds =
          (.error (.err (.fieldDataBytes e.data.length (if ext then n * 2 else n)) idx key), ds3) := by
        simp [bitmapRest, PyM.run_bind, hm3, hl, getEnc, PyM.run_get, he3, decFail]
      rw [hrun]
      exact simX_raises (F := fieldsAfter fl fields F) (st := { st0 with vars := V, heap := h3 }) r3 e4 rfl
  · have hrun : bitmapRest rt.env idx key fs off ext fields n data ds = (.error (.keyError key), ds) := by
      simp [bitmapRest, PyM.run_bind, hm3]
    rw [hrun]
    exact simX_err (F := fieldsAfter fl fields F) (sv := sv) (e := .keyError key) (st := { st0 with vars := V }) r0 e3 rfl rfl

end Iso8583.Src
