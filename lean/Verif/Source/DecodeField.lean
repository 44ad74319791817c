import Verif.Source.DecodeStmt
import Verif.Lemmas.Partial
/-!
# decoder.py: `_decode_field`
-/

namespace Iso8583.Src

variable {ε σ : Type} {rt : Rt ε σ} {sv : Val} {dd de : Nat} {F : List (Nat × Obj)} {call : Caller ε σ}

/-- The names the functions of decoder.py call. -/
structure DecCalls (rt : Rt ε σ) (call : Caller ε σ) : Prop where
  err : call .DecodeError = invoke rt (builtin rt) decodeErrorInitDef
  len : call .len = builtin rt .len
  bytes : call .bytes = builtin rt .bytes
  int : call .int = builtin rt .int
  range : call .range = builtin rt .range
  enumerate : call .enumerate = builtin rt .enumerate
  text : call ._decode_text_data = invoke rt (program rt [decodeErrorInitDef]) decodeTextDataDef
  pad : call ._remove_pad_field = invoke rt (program rt [decodeTextDataDef, decodeErrorInitDef]) removePadFieldDef

/-- The variables of `_decode_field` that stay the same. -/
structure FieldVars (V : Vars) (sv : Val) (dd de : Nat) (key : Str) (fv : Val) : Prop where
  DecodeError : V .DecodeError = none
  len : V .len = none
  bytes : V .bytes = none
  int : V .int = none
  text : V ._decode_text_data = none
  pad : V ._remove_pad_field = none
  s : V .s = some sv
  doc_dec : V .doc_dec = some (.ref dd)
  doc_enc : V .doc_enc = some (.ref de)
  field_key : V .field_key = some (.str key)
  field_spec : V .field_spec = some fv

/-- `s[idx:idx + x]`. -/
theorem eval_slice_run {s : Bytes} {st : St σ} (hb : BytesIn st.heap sv s) {idx : Nat} {n : Int} {x : Ident} (h1 : st.vars .s = some sv)
    (h2 : st.vars .idx = some (.int idx)) (h3 : st.vars x = some (.int n)) :
    ∃ dv, BytesVal dv (slice s idx (idx + n)) ∧
      eval rt call (.slice (.name .s) (.name .idx) (.bin .add (.name .idx) (.name x))) st = (.ok dv, st) := by
  obtain ⟨dv, hd, he⟩ := sliceVal_run (ε := ε) (σ := σ) hb idx (idx + n)
  exact ⟨dv, hd, by simp [src, eval_slice, getVar, h1, h2, h3, he]⟩

/-- decoder.py:462-540 of the model. -/
def lengthOf (env : PyEnv) (lenBytes : Bytes) (idx : Nat) (key : Str) (f : PartialField) (lenType : Nat) : DecM Int :=
  if lenType = 0 then need .keyError py"max_len" f.maxLen
  else do
    let _ ← need .keyError py"len_enc" f.lenEnc
    let n ← decodeLength env lenBytes idx key f.seen
    let maxLen ← need .keyError py"max_len" f.maxLen
    if n > maxLen then
      decFail (.tooLong n f.seen.count maxLen) idx key
    pure n

/-- decoder.py:533-540. -/
theorem tooLong_run (hg : ∀ x, rt.globals x = none) (hc : DecCalls rt call) {idx : Nat} {key cnt : Str} {n m : Int} {items : List (Val × Val)}
    {st : St σ} (vs : FieldVars st.vars sv dd de key (.dict items)) (hm : lookup items (.str py"max_len") = some (.int m))
    (v1 : st.vars .idx = some (.int idx)) (v2 : st.vars .enc_field_len = some (.int n)) (v3 : st.vars .len_count = some (.str cnt)) :
    exec rt call (.raise (.call .DecodeError [(.fstr [(.str py"Field data is "), (.name .enc_field_len), (.str py" "), (.name .len_count), (.str py", larger than maximum "), (.sub (.name .field_spec) (.str py"max_len"))]), (.name .s), (.name .doc_dec), (.name .doc_enc), (.name .idx), (.name .field_key)] [] [])) st =
      (.error (raises rt st.heap sv dd de (.tooLong n cnt m) idx key).1, { st with heap := (raises rt st.heap sv dd de (.tooLong n cnt m) idx key).2 }) := by
  refine exec_raise hg hc.err _ _ _ _ _ _ _ _ _ ?_ ?_ vs.DecodeError vs.s vs.doc_dec vs.doc_enc v1
  · by_cases ha : formats rt.env n <;> by_cases hb : formats rt.env m <;>
      simp [src, getVar, v2, v3, vs.field_spec, hm, ha, hb, DecMsg.numbers, DecMsg.text]
  · simp [src, getVar, vs.field_key]

theorem FieldVars.set {V : Vars} {key : Str} {fv : Val} (h : FieldVars V sv dd de key fv) {x : Ident} (v : Val)
    (hx : x ∈ [Ident.len_type, .len_count, .enc_field_len, .decoded_length, .idx, .byte_field_len, .actual_field_len,
      .expected_field_len, .encoded_field_data, .decoded_field_data, .bitmap]) :
    FieldVars (V.set x v) sv dd de key fv := by
  obtain ⟨h1, h2, h3, h4, ha, hb, h5, h6, h7, h8, h9⟩ := h
  simp only [List.mem_cons, List.not_mem_nil, or_false] at hx
  rcases hx with rfl | rfl | rfl | rfl | rfl | rfl | rfl | rfl | rfl | rfl | rfl <;> constructor <;> simp [src, *]

/-- The branches of an `if`. -/
def thenOf : Stmt → List Stmt
  | .ite _ a _ => a
  | _ => []
@[inherit_doc thenOf]
def elseOf : Stmt → List Stmt
  | .ite _ _ b => b
  | _ => []

/-- decoder.py:465-530, the first statement of the branch. -/
def decodeField6a : Stmt := (elseOf decodeField6).head?.getD (.ret .none)

/-- decoder.py:465-530. -/
theorem decodeField6a_run (hg : ∀ x, rt.globals x = none) (hc : DecCalls rt call) {fs : FieldSpec} {b : Bytes} {idx : Nat} {dv : Val}
    {key : Str} {fv : Val} (hv : PropVal fv py"len_enc" (some (.str fs.lenEnc))) {st : St σ} (vs : FieldVars st.vars sv dd de key fv)
    (v1 : st.vars .idx = some (.int idx)) (hloc : st.locals = decodeFieldDef.locals) (hd : BytesVal dv b)
    (hsl : eval rt call (.slice (.name .s) (.name .idx) (.bin .add (.name .idx) (.name .len_type))) st = (.ok dv, st)) (ds : DecState) :
    (∃ n V, decodeLength rt.env b idx key fs ds = (.ok n, ds) ∧
      exec rt call decodeField6a st = (.ok .next, { st with vars := V }) ∧
      V .enc_field_len = some (.int n) ∧ ∀ x, x ≠ .enc_field_len → x ≠ .decoded_length → V x = st.vars x) ∨
    (∃ m V, decodeLength rt.env b idx key fs ds = (.error (.err m idx key), ds) ∧
      exec rt call decodeField6a st = (.error (raises rt st.heap sv dd de m idx key).1, { st with vars := V, heap := (raises rt st.heap sv dd de m idx key).2 })) := by
  obtain ⟨items, rfl, g1⟩ := hv
  have hs : ({ st with vars := st.vars } : St σ) = st := rfl
  obtain ⟨w1, w2, w3, w4, wa, wb, w5, w6, w7, w8, w9⟩ := vs
  by_cases hb1 : fs.lenEnc = py"b"
  · left
    refine ⟨fromBytesBE b, st.vars.set .enc_field_len (.int (fromBytesBE b)), by simp [decodeLength, hb1], ?_, by simp [src], fun x h1 h2 => by simp [src, h1]⟩
    simp [src, hsl, decodeField6a, decodeField6, elseOf, getVar, w9, g1, hb1, w4, hg, hloc, decodeFieldDef, from_bytes_bytesVal hd]
  by_cases hb2 : fs.lenEnc = py"bcd"
  · cases hp : pyInt rt.env (bytesHex b) with
    | none =>
      right
      have hr := exec_raise_lit hg hc.err .lenInvalidBcd rfl rfl sv dd de idx key
      simp only [DecMsg.text] at hr
      refine ⟨.lenInvalidBcd, st.vars, by simp [decodeLength, hb2, hp, decFail], ?_⟩
      simp [src, hsl, decodeField6a, decodeField6, elseOf, getVar, w1, w4, w5, w6, w7, w8, w9, v1, g1, hb2, hc.int, hex_bytesVal hd, intVal, hp, hr]
    | some n =>
      left
      refine ⟨n, st.vars.set .enc_field_len (.int n), by simp [decodeLength, hb2, hp], ?_, by simp [src], fun x h1 h2 => by simp [src, h1]⟩
      simp [src, hsl, decodeField6a, decodeField6, elseOf, getVar, w4, w9, g1, hb2, hc.int, hex_bytesVal hd, intVal, hp]
  rcases hde : bytesDecode rt.env fs.lenEnc b with (_ | _) | t
  · right
    have hr := exec_raise_lit hg hc.err .lenUnknownEncoding rfl rfl sv dd de idx key
    simp only [DecMsg.text] at hr
    refine ⟨.lenUnknownEncoding, st.vars, by simp [decodeLength, hb1, hb2, hde, decFail], ?_⟩
    simp [src, hsl, decodeField6a, decodeField6, elseOf, getVar, w1, w4, w5, w6, w7, w8, w9, v1, g1, hb1, hb2, decode_bytesVal hd, decodeVal_run, hde, hr]
  · right
    have hr := exec_raise_lit hg hc.err .lenInvalidData rfl rfl sv dd de idx key
    simp only [DecMsg.text] at hr
    refine ⟨.lenInvalidData, st.vars, by simp [decodeLength, hb1, hb2, hde, decFail], ?_⟩
    simp [src, hsl, decodeField6a, decodeField6, elseOf, getVar, w1, w4, w5, w6, w7, w8, w9, v1, g1, hb1, hb2, decode_bytesVal hd, decodeVal_run, hde, hr]
  · cases hp : pyInt rt.env t with
    | none =>
      right
      have hr := exec_raise_lit hg hc.err .lenNonNumeric rfl rfl sv dd de idx key
      simp only [DecMsg.text] at hr
      refine ⟨.lenNonNumeric, st.vars.set .decoded_length (.str t), by simp [decodeLength, hb1, hb2, hde, hp, decFail], ?_⟩
      simp [src, hsl, decodeField6a, decodeField6, elseOf, getVar, w1, w4, w5, w6, w7, w8, w9, v1, g1, hb1, hb2, decode_bytesVal hd, decodeVal_run, hde, hr, hc.int, intVal, hp]
    | some n =>
      left
      refine ⟨n, (st.vars.set .decoded_length (.str t)).set .enc_field_len (.int n), by simp [decodeLength, hb1, hb2, hde, hp], ?_, by simp [src], fun x h1 h2 => by simp [src, h1, h2]⟩
      simp [src, hsl, decodeField6a, decodeField6, elseOf, getVar, w4, w9, g1, hb1, hb2, hc.int, decode_bytesVal hd, decodeVal_run, hde, intVal, hp]

/-- decoder.py:462-540. -/
theorem decodeField6_run (hg : ∀ x, rt.globals x = none) (hc : DecCalls rt call) {f : PartialField} {t : Nat} {s : Bytes} {idx : Nat}
    {key : Str} {fv : Val} (hv : PFieldVal fv f) {st : St σ} (hb : BytesIn st.heap sv s) (vs : FieldVars st.vars sv dd de key fv) (hloc : st.locals = decodeFieldDef.locals)
    (v1 : st.vars .idx = some (.int idx)) (v2 : st.vars .len_type = some (.int t)) (v3 : st.vars .len_count = some (.str f.seen.count))
    (ds : DecState) :
    (∃ n V, lengthOf rt.env (slice s idx (idx + t)) idx key f t ds = (.ok n, ds) ∧
      exec rt call decodeField6 st = (.ok .next, { st with vars := V }) ∧
      V .enc_field_len = some (.int n) ∧ ∀ x, x ≠ .enc_field_len → x ≠ .decoded_length → V x = st.vars x) ∨
    (∃ e exc V tl, lengthOf rt.env (slice s idx (idx + t)) idx key f t ds = (.error e, ds) ∧
      exec rt call decodeField6 st = (.error exc, { st with vars := V, heap := st.heap ++ tl }) ∧ ErrIs rt (st.heap ++ tl) sv dd de e exc) := by
  obtain ⟨items, rfl, -, g1, g2, g3, -, -, -, -⟩ := hv
  obtain ⟨dv, hd, hsl⟩ := eval_slice_run (rt := rt) (call := call) hb vs.s v1 v2
  by_cases h0 : t = 0
  · cases hmax : f.maxLen with
    | none =>
      right
      rw [hmax] at g3
      refine ⟨.keyError py"max_len", _, st.vars, [], by simp [lengthOf, h0, hmax, need], ?_, rfl⟩
      simp [src, decodeField6, getVar, v2, h0, vs.field_spec, g3]
    | some m =>
      left
      rw [hmax] at g3
      refine ⟨m, st.vars.set .enc_field_len (.int m), by simp [lengthOf, h0, hmax, need], ?_, by simp [src], fun x h1 h2 => by simp [src, h1]⟩
      simp [src, decodeField6, getVar, v2, h0, vs.field_spec, g3]
  have h6 : exec rt call decodeField6 st = execs rt call (decodeField6a :: (elseOf decodeField6).tail) st := by
    simp [src, decodeField6, decodeField6a, elseOf, getVar, v2, h0]
  rw [h6, execs_cons]
  cases hle : f.lenEnc with
  | none =>
    right
    rw [hle] at g1
    refine ⟨.keyError py"len_enc", _, st.vars, [], by simp [lengthOf, h0, hle, need, PyM.run_bind], ?_, rfl⟩
    simp [src, decodeField6a, elseOf, decodeField6, getVar, vs.field_spec, g1]
  | some le =>
  have g1' : lookup items (.str py"len_enc") = some (.str f.seen.lenEnc) := by rw [g1, seen_lenEnc hle, hle]; rfl
  rcases decodeField6a_run hg hc ⟨items, rfl, g1'⟩ vs v1 hloc hd hsl ds with ⟨n, V, hm, he, hV, hV'⟩ | ⟨m, V, hm, he⟩
  · have vs' : FieldVars V sv dd de key (.dict items) := by
      obtain ⟨w1, w2, w3, w4, wa, wb, w5, w6, w7, w8, w9⟩ := vs
      constructor <;> rw [hV' _ (by decide) (by decide)] <;> assumption
    rw [he]
    cases hmax : f.maxLen with
    | none =>
      right
      rw [hmax] at g3
      refine ⟨.keyError py"max_len", _, V, [], by simp [lengthOf, h0, hle, hm, hmax, need, PyM.run_bind], ?_, rfl⟩
      simp [src, elseOf, decodeField6, getVar, hV, vs'.field_spec, g3]
    | some mx =>
    rw [hmax] at g3
    replace g3 : lookup items (.str py"max_len") = some (.int mx) := g3
    have ht := tooLong_run (st := { st with vars := V }) hg hc vs' g3 ((hV' _ (by decide) (by decide)).trans v1) hV
      ((hV' _ (by decide) (by decide)).trans v3)
    by_cases hgt : n > mx
    · right
      obtain ⟨a1, tl, a2⟩ := raises_is (rt := rt) st.heap sv dd de (.tooLong n f.seen.count mx) idx key
      refine ⟨.err (.tooLong n f.seen.count mx) idx key, _, V, tl, ?_, ?_, by rw [← a2]; exact a1⟩
      · simp [lengthOf, h0, hle, hmax, need, hm, hgt, decFail, PyM.run_bind, PyM.run_raise]
      · rw [← a2]
        simp [src, elseOf, decodeField6, getVar, hV, vs'.field_spec, g3, hgt, ht]
    · left
      refine ⟨n, V, ?_, ?_, hV, hV'⟩
      · simp [lengthOf, h0, hle, hmax, need, hm, hgt, PyM.run_bind]
      · simp [src, elseOf, decodeField6, getVar, hV, vs'.field_spec, g3, hgt]
  · right
    obtain ⟨a1, tl, a2⟩ := raises_is (rt := rt) st.heap sv dd de m idx key
    refine ⟨.err m idx key, _, V, tl, ?_, ?_, by rw [← a2]; exact a1⟩
    · simp [lengthOf, h0, hle, need, hm, PyM.run_bind]
    · rw [he, ← a2]

/-- decoder.py:545-598 of the model; `idx` is the position of the data. -/
def fieldRest (env : PyEnv) (s : Bytes) (idx : Nat) (key : Str) (f : PartialField) (lenBytes : Bytes) (encLen : Int) : DecM Nat := do
  if encLen = 0 then
    return idx
  let byteLen := byteFieldLen f.seen encLen
  let data := slice s idx (idx + byteLen)
  setEnc key ⟨lenBytes, data⟩
  if (data.length : Int) ≠ byteLen then
    decFail (.dataShort (if f.seen.count = py"nibbles" then data.length * 2 else data.length) f.seen.count encLen) idx key
  let dataEnc ← need .keyError py"data_enc" f.dataEnc
  if dataEnc = py"b" then
    setDec key (upperAscii (bytesHex data))
    if f.seen.count = py"nibbles" ∧ encLen % 2 = 1 then
      setDec key (← removePadField idx key f.seen encLen)
  else
    setDec key (← decodeTextData env data idx key f.seen)
  return (idx + byteLen).toNat

theorem decodeField_split (env : PyEnv) (s : Bytes) (idx : Nat) (key : Str) (f : PartialField) :
    decodeFieldP env s idx key f = (do
      let t ← need .keyError py"len_type" f.lenType
      setDec key []
      let lenBytes := slice s idx (idx + t)
      setEnc key ⟨lenBytes, []⟩
      if lenBytes.length ≠ t then
        decFail (.lenWidth lenBytes.length t) idx key
      let n ← lengthOf env lenBytes idx key f t
      fieldRest env s (idx + t) key f lenBytes n) := by
  unfold decodeFieldP
  cases f.lenType with
  | none => rfl
  | some t =>
  have hcnt : f.lenCount.getD py"bytes" = f.seen.count := rfl
  rw [hcnt]
  funext ds
  simp only [need, PyM.run_bind, setDec, setEnc, PyM.run_modify, PyM.run_pure]
  by_cases h1 : (slice s idx (idx + t)).length = t
  · simp only [h1, ne_eq, not_true, if_false, PyM.run_bind, PyM.run_pure]
    unfold lengthOf
    by_cases h2 : t = 0
    · simp only [if_pos h2]
      cases f.maxLen <;> rfl
    · simp only [if_neg h2, PyM.run_bind]
      cases f.lenEnc with
      | none => rfl
      | some le =>
      simp only [need, PyM.run_pure]
      rcases decodeLength env (slice s idx (idx + t)) idx key f.seen _ with ⟨_ | n, ds'⟩
      · rfl
      · cases f.maxLen with
        | none => rfl
        | some m =>
        by_cases h3 : n > m
        · simp [h3, decFail, PyM.run_bind, PyM.run_raise]
        · simp only [PyM.run_pure, h3, if_false]; rfl
  · simp [h1, decFail, PyM.run_bind, PyM.run_raise]

theorem intAnd_one (n : Int) : intAnd n 1 = n % 2 := by
  cases n with
  | ofNat m =>
    have : intAnd (.ofNat m) 1 = Int.ofNat (m &&& 1) := rfl
    rw [this, Nat.and_one_is_mod]
    rfl
  | negSucc m =>
    have : intAnd (.negSucc m) 1 = Int.ofNat (1 - (1 &&& m)) := rfl
    rw [this, Nat.and_comm, Nat.and_one_is_mod, Int.negSucc_eq]
    simp only [Int.ofNat_eq_natCast]
    omega

/-- decoder.py:550-556. -/
theorem decodeField9_run {fs : FieldSpec} {n : Int} {st : St σ} (v1 : st.vars .len_count = some (.str fs.count))
    (v2 : st.vars .enc_field_len = some (.int n)) :
    exec rt call decodeField9 st = (.ok .next, { st with vars := st.vars.set .byte_field_len (.int (byteFieldLen fs n)) }) := by
  by_cases h1 : fs.count = py"nibbles"
  · have h2 := Int.emod_two_eq n
    rcases h2 with h2 | h2
    · simp [src, decodeField9, getVar, v1, v2, h1, intAnd_one, h2, byteFieldLen, Int.fdiv_eq_ediv_of_nonneg]
    · simp [src, decodeField9, getVar, v1, v2, h1, intAnd_one, h2, byteFieldLen, Int.fdiv_eq_ediv_of_nonneg]
  · simp [src, decodeField9, getVar, v1, v2, h1, byteFieldLen]

/-- decoder.py:560-573 when the data is short. -/
theorem decodeField11_run (hg : ∀ x, rt.globals x = none) (hc : DecCalls rt call) {fs : FieldSpec} {idx : Nat} {key : Str} {fv : Val} {n m : Int}
    {st : St σ} (vs : FieldVars st.vars sv dd de key fv) (v1 : st.vars .idx = some (.int idx)) (v2 : st.vars .enc_field_len = some (.int n))
    (v3 : st.vars .len_count = some (.str fs.count)) (v4 : st.vars .byte_field_len = some (.int m)) {dec : List (Val × Val)} {enc : EncDoc}
    (r : Rep st.heap dd de dec enc F) {e : EncEntry} (he : enc.get? key = some e) :
    exec rt call decodeField11 st =
      if (e.data.length : Int) = m then (.ok .next, st)
      else
        let k : Nat := if fs.count = py"nibbles" then e.data.length * 2 else e.data.length
        (.error (raises rt st.heap sv dd de (.dataShort k fs.count n) idx key).1,
          { st with vars := st.vars.set .actual_field_len (.int k), heap := (raises rt st.heap sv dd de (.dataShort k fs.count n) idx key).2 }) := by
  have hd := eval_encData (rt := rt) (call := call) (key := .name .field_key) r vs.doc_enc (getVar_some vs.field_key) he
  by_cases h1 : (e.data.length : Int) = m
  · simp [decodeField11, src, getVar, vs.len, hd, hc.len, v4, h1]
  · simp only [if_neg h1]
    generalize hk : (if fs.count = py"nibbles" then e.data.length * 2 else e.data.length) = k
    have hraise := exec_raise hg hc.err (.dataShort k fs.count n) sv dd de idx key
      (.fstr [(.str py"Field data is "), (.name .actual_field_len), (.str py" "), (.name .len_count), (.str py", expecting "), (.name .enc_field_len)])
      (.name .field_key) { st with vars := st.vars.set .actual_field_len (.int k) } (by
        by_cases ha : formats rt.env k <;> by_cases hb : formats rt.env n <;>
          simp [src, getVar, v2, v3, ha, hb, DecMsg.numbers, DecMsg.text, natStr_int])
      (by simp [src, getVar, vs.field_key]) (by simp [src, vs.DecodeError]) (by simp [src, vs.s]) (by simp [src, vs.doc_dec])
      (by simp [src, vs.doc_enc]) (by simp [src, v1])
    by_cases h2 : fs.count = py"nibbles"
    · rw [if_pos h2] at hk
      have hk' : (e.data.length : Int) * 2 = k := by omega
      simp only [h2] at hraise
      simp [decodeField11, src, getVar, vs.len, hd, hc.len, v4, h1, v3, h2, hk', hraise]
    · rw [if_neg h2] at hk
      subst hk
      simp [decodeField11, src, getVar, vs.len, hd, hc.len, v4, h1, v3, h2, hraise]

/-- decoder.py:545-598. -/
theorem fieldRest_sim (hg : ∀ x, rt.globals x = none) (hc : DecCalls rt call) {f : PartialField} {s : Bytes} (hb : BytesAt F sv s) {idx : Nat}
    {key : Str} {fv : Val} (hv : PFieldVal fv f) {st st0 : St σ} (h0 : { st with vars := st0.vars, heap := st0.heap } = st0)
    (vs : FieldVars st.vars sv dd de key fv) {n : Int}
    (v1 : st.vars .idx = some (.int idx)) (v2 : st.vars .enc_field_len = some (.int n)) (v3 : st.vars .len_count = some (.str f.seen.count))
    {ds : DecState} (r : Rep st.heap dd de (decItems ds.dec) ds.enc F) {lenBytes : Bytes} (he : ds.enc.get? key = some ⟨lenBytes, []⟩) :
    SimX rt sv dd de (fun _ => F) (fun n : Nat => .int n) (fieldRest rt.env s idx key f lenBytes n ds) st0
      (execs rt call [decodeField8, decodeField9, decodeField10, decodeField11, decodeField12, decodeField13] st) := by
  obtain ⟨items, rfl, g0, -, -, -, -, g5, g6, -⟩ := hv
  by_cases hn : n = 0
  · subst hn
    exact simX_ret (vs := st.vars) (h := st.heap) r (by simp [decodeField8, src, getVar, v2, v1]) h0
  refine simX_cons (vs := st.vars) (h := st.heap) (by simp [decodeField8, src, getVar, v2, hn]) ?_
  refine simX_cons (h := st.heap) (decodeField9_run v3 v2) ?_
  generalize hm : byteFieldLen f.seen n = m
  obtain ⟨dv, hd, hsl⟩ := eval_slice_run (rt := rt) (call := call) (x := .byte_field_len) (n := m) (idx := idx)
    (st := { st with vars := st.vars.set .byte_field_len (.int m) }) (r.bytes hb) (by simp [src, vs.s]) (by simp [src, v1]) (by simp [src])
  have vs2 := vs.set (x := .byte_field_len) (.int m) (by simp)
  obtain ⟨h2, e2, r2⟩ := exec_setData (rt := rt) (call := call) (st := { st with vars := st.vars.set .byte_field_len (.int m) })
    (key := .name .field_key) (v := .call .bytes [(.slice (.name .s) (.name .idx) (.bin .add (.name .idx) (.name .byte_field_len)))] [] [])
    r vs2.doc_enc (getVar_some vs2.field_key) he (b := slice s idx (idx + m)) (by
      simp [src, vs.bytes, hsl, hc.bytes, bytes_bytesVal hd])
  refine simX_cons e2 ?_
  generalize hdata : slice s idx (idx + m) = data at r2 hd
  have he2 := Dict.get?_set_same ds.enc key (⟨lenBytes, data⟩ : EncEntry)
  have hst : ∀ V h, ({ st with vars := V, heap := h } : St σ) = { st0 with vars := V, heap := h } := fun V h => by rw [← h0]
  have e3 := decodeField11_run (st := { st with vars := st.vars.set .byte_field_len (.int m), heap := h2 }) hg hc vs2
    (idx := idx) (by simp [src, v1]) (n := n) (by simp [src, v2]) (fs := f.seen) (by simp [src, v3]) (m := m) (by simp [src]) r2 he2
  have hrest : fieldRest rt.env s idx key f lenBytes n ds = (do
      if (data.length : Int) ≠ m then
        decFail (.dataShort (if f.seen.count = py"nibbles" then data.length * 2 else data.length) f.seen.count n) idx key
      let dataEnc ← need .keyError py"data_enc" f.dataEnc
      if dataEnc = py"b" then
        setDec key (upperAscii (bytesHex data))
        if f.seen.count = py"nibbles" ∧ n % 2 = 1 then
          setDec key (← removePadField idx key f.seen n)
      else
        setDec key (← decodeTextData rt.env data idx key f.seen)
      return (idx + m).toNat : DecM Nat) { ds with enc := ds.enc.set key ⟨lenBytes, data⟩ } := by
    subst hm
    simp [fieldRest, hn, hdata, setEnc, PyM.run_bind]
  rw [hrest]
  by_cases hl : (data.length : Int) = m
  · rw [if_pos hl] at e3
    refine simX_cons e3 ?_
    simp only [hl, ne_eq, not_true, if_false, PyM.run_bind, PyM.run_pure]
    clear e3 e2 hsl hrest
    have hidx : (((idx : Int) + m).toNat : Int) = idx + m := by omega
    have hV : ∀ x, x ≠ .byte_field_len → (st.vars.set .byte_field_len (.int m)) x = st.vars x := fun x hx => by simp [src, hx]
    have hV' : (st.vars.set .byte_field_len (.int m)) .byte_field_len = some (.int m) := by simp [src]
    generalize st.vars.set .byte_field_len (.int m) = V at vs2 hV hV' ⊢
    have w1 := (hV .idx (by decide)).trans v1
    have w2 := (hV .enc_field_len (by decide)).trans v2
    have w3 := (hV .len_count (by decide)).trans v3
    generalize hds : ({ ds with enc := ds.enc.set key ⟨lenBytes, data⟩ } : DecState) = ds2
    have r3 : Rep h2 dd de (decItems ds2.dec) ds2.enc F := by rw [← hds]; exact r2
    have he3 : ds2.enc.get? key = some ⟨lenBytes, data⟩ := by rw [← hds]; exact he2
    have hret : ∀ (ds' : DecState) (h : List Obj), Rep h dd de (decItems ds'.dec) ds'.enc F →
        SimX rt sv dd de (fun _ => F) (fun n : Nat => .int n) (.ok ((idx : Int) + m).toNat, ds') st0
          (execs rt call [decodeField13] { st with vars := V, heap := h }) := fun ds' h r =>
      simX_ret (vs := V) (h := h) r (by simp [decodeField13, src, getVar, w1, hV', hidx]) h0
    have hd := fun h => @eval_encData ε σ rt dd de F call { st with vars := V, heap := h }
    have hkey : ∀ h, eval rt call (.name .field_key) { st with vars := V, heap := h } = (.ok (.str key), { st with vars := V, heap := h }) :=
      fun h => getVar_some vs2.field_key
    cases hde : f.dataEnc with
    | none =>
      rw [hde] at g0
      refine simX_err (F := fun _ => F) (e := .keyError py"data_enc") (st := { st with vars := V, heap := h2 }) (vs := V) r3 ?_ rfl h0
      simp [decodeField12, src, getVar, vs2.field_spec, g0]
    | some den =>
    have g0' : lookup items (.str py"data_enc") = some (.str f.seen.dataEnc) := by rw [g0, seen_dataEnc hde, hde]; rfl
    have g0 := g0'
    have hdn : den = f.seen.dataEnc := (seen_dataEnc hde).symm
    subst hdn
    simp only [need, PyM.run_pure]
    by_cases henc : f.seen.dataEnc = py"b"
    · have hdata := hd h2 (key := .name .field_key) r3 vs2.doc_enc (hkey h2) he3
      have hs1 := exec_setDec (rt := rt) (call := call) (e := .meth (.meth (.sub (.sub (.name .doc_enc) (.name .field_key)) (.str py"data")) .hex [] [] []) .upper [] [] [])
        (st := { st with vars := V, heap := h2 }) (v := upperAscii (bytesHex data)) (by simp [src, hdata]) r3 vs2.doc_dec (hkey h2)
      have r4 := r3.setDec (decItems (ds2.dec.set key (upperAscii (bytesHex data))))
      simp only [henc, if_true, PyM.run_bind, setDec, PyM.run_modify]
      by_cases hpad : f.seen.count = py"nibbles" ∧ n % 2 = 1
      · obtain ⟨h', x, ho, hr, hx⟩ := removePadField_sim (sv := sv) hg (idx := idx) (n := n) (key := key)
          (ds := { ds2 with dec := ds2.dec.set key (upperAscii (bytesHex data)) })
          (st := { st with vars := V, heap := h2.set dd (.dict (decItems (ds2.dec.set key (upperAscii (bytesHex data))))) })
          (Dict.get?_set_same _ _ _) ⟨items, rfl, g5⟩ ⟨items, rfl, g6⟩ (fs := f.seen) r4
        simp only [hpad, and_self, if_true, PyM.run_bind]
        rcases hres : removePadField idx key f.seen n { ds2 with dec := ds2.dec.set key (upperAscii (bytesHex data)) } with ⟨e | t, ds4⟩
        · rw [hres] at hr hx
          obtain ⟨exc, rfl, he⟩ := hx
          refine simX_err hr (vs := V) ?_ he h0
          simp [decodeField12, src, getVar, vs2.field_spec, g0, henc, hs1, w1, w2, w3, hpad, intAnd_one, vs2.pad, vs2.s, vs2.doc_dec, vs2.doc_enc,
            vs2.field_key, hc.pad, ho]
        · rw [hres] at hr hx
          subst hx
          refine simX_cons (vs := V) ?_ (hret _ _ (hr.setDec _))
          have hs2 := exec_setDec (rt := rt) (call := call) (e := .call ._remove_pad_field [(.name .s), (.name .idx), (.name .doc_dec), (.name .doc_enc), (.name .field_key), (.name .field_spec), (.name .enc_field_len)] [] [])
            (st := { st with vars := V, heap := h2.set dd (.dict (decItems (ds2.dec.set key (upperAscii (bytesHex data))))) })
            (st1 := { st with vars := V, heap := h' }) (v := t)
            (by simp [src, getVar, vs2.field_spec, w1, w2, vs2.pad, vs2.s, vs2.doc_dec, vs2.doc_enc, vs2.field_key, hc.pad, ho]) hr vs2.doc_dec (hkey _)
          simp [decodeField12, src, getVar, vs2.field_spec, g0, henc, hs1, hs2, w2, w3, hpad, intAnd_one]
      · simp only [hpad, if_false, PyM.run_pure]
        refine simX_cons (vs := V) ?_ (hret _ _ r4)
        by_cases hcnt : f.seen.count = py"nibbles"
        · have hodd : ¬ n % 2 = 1 := fun h => hpad ⟨hcnt, h⟩
          have heven : n % 2 = 0 := by omega
          simp [decodeField12, src, getVar, vs2.field_spec, g0, henc, hs1, w2, w3, hcnt, heven, intAnd_one]
        · simp [decodeField12, src, getVar, vs2.field_spec, g0, henc, hs1, w3, hcnt]
    · have hs := decodeTextData_sim (sv := sv) hg (st := { st with vars := V, heap := h2 }) (idx := idx) (key := key) (fs := f.seen) ⟨items, rfl, g0⟩ (.inl rfl : BytesVal (.bytes data) data) r3
      obtain ⟨h', x, ho, hr, hx⟩ := hs
      have hdata := hd h2 (key := .name .field_key) r3 vs2.doc_enc (hkey h2) he3
      simp only [henc, if_false, PyM.run_bind]
      rcases hres : decodeTextData rt.env data idx key f.seen ds2 with ⟨e | t, ds4⟩
      · rw [hres] at hr hx
        obtain ⟨exc, rfl, he⟩ := hx
        refine simX_err hr (vs := V) ?_ he h0
        simp [decodeField12, src, getVar, vs2.field_spec, g0, henc, vs2.text, vs2.s, vs2.doc_dec, vs2.doc_enc, vs2.field_key, w1, hdata, hc.text, ho]
      · rw [hres] at hr hx
        subst hx
        refine simX_cons (vs := V) ?_ (hret _ _ (hr.setDec _))
        have hs2 := exec_setDec (rt := rt) (call := call) (e := .call ._decode_text_data [(.name .s), (.sub (.sub (.name .doc_enc) (.name .field_key)) (.str py"data")), (.name .idx), (.name .doc_dec), (.name .doc_enc), (.name .field_key), (.name .field_spec)] [] [])
          (st := { st with vars := V, heap := h2 }) (st1 := { st with vars := V, heap := h' }) (v := t)
          (by simp [src, getVar, vs2.field_spec, vs2.text, vs2.s, vs2.doc_dec, vs2.doc_enc, vs2.field_key, w1, hdata, hc.text, ho]) hr vs2.doc_dec (hkey _)
        simp [decodeField12, src, getVar, vs2.field_spec, g0, henc, hs2]
  · rw [if_neg hl] at e3
    have := simX_raises (F := fun _ => F) (toV := fun n : Nat => .int n) (ds := { ds with enc := ds.enc.set key ⟨lenBytes, data⟩ }) (st0 := st0)
      (t := [decodeField12, decodeField13]) r2 e3 h0
    simpa [hl, decFail, PyM.run_bind] using this

/-- decoder.py:451-458. -/
theorem lenWidth_run (hg : ∀ x, rt.globals x = none) (hc : DecCalls rt call) {idx : Nat} {key : Str} {t : Nat} {b : Bytes} {dv : Val} {fv : Val}
    {st : St σ} (vs : FieldVars st.vars sv dd de key fv) (v1 : st.vars .idx = some (.int idx)) (v2 : st.vars .len_type = some (.int t))
    (hd : BytesVal dv b)
    (hsl : eval rt call (.slice (.name .s) (.name .idx) (.bin .add (.name .idx) (.name .len_type))) st = (.ok dv, st)) :
    exec rt call (.raise (.call .DecodeError [(.fstr [(.str py"Field length is "), (.call .len [(.slice (.name .s) (.name .idx) (.bin .add (.name .idx) (.name .len_type)))] [] []), (.str py" bytes wide, expecting "), (.name .len_type)]), (.name .s), (.name .doc_dec), (.name .doc_enc), (.name .idx), (.name .field_key)] [] [])) st =
      (.error (raises rt st.heap sv dd de (.lenWidth b.length t) idx key).1, { st with heap := (raises rt st.heap sv dd de (.lenWidth b.length t) idx key).2 }) := by
  refine exec_raise hg hc.err _ _ _ _ _ _ _ _ _ ?_ ?_ vs.DecodeError vs.s vs.doc_dec vs.doc_enc v1
  · have hlen := fun h : BytesVal dv b => len_bytesVal (rt := rt) h
    simp only [builtin_len] at hlen
    by_cases ha : formats rt.env b.length <;> by_cases hb : formats rt.env t <;>
      simp [src, getVar, vs.len, v2, hsl, hc.len, hlen hd, ha, hb, DecMsg.numbers, DecMsg.text, natStr_int]
  · simp [src, getVar, vs.field_key]

theorem decCalls_base : DecCalls rt (program rt [removePadFieldDef, decodeTextDataDef, decodeErrorInitDef]) where
  err := by rw [program_ne _ _ (by decide), program_ne _ _ (by decide)]; exact program_eq _ _ rfl
  len := by rw [program_ne _ _ (by decide), program_ne _ _ (by decide), program_ne _ _ (by decide)]; rfl
  bytes := by rw [program_ne _ _ (by decide), program_ne _ _ (by decide), program_ne _ _ (by decide)]; rfl
  int := by rw [program_ne _ _ (by decide), program_ne _ _ (by decide), program_ne _ _ (by decide)]; rfl
  range := by rw [program_ne _ _ (by decide), program_ne _ _ (by decide), program_ne _ _ (by decide)]; rfl
  enumerate := by rw [program_ne _ _ (by decide), program_ne _ _ (by decide), program_ne _ _ (by decide)]; rfl
  text := by rw [program_ne _ _ (by decide)]; exact program_eq _ _ rfl
  pad := program_eq _ _ rfl

theorem DecCalls.cons {ds : List Def} (h : DecCalls rt (program rt ds)) (d : Def)
    (hd : d.name ∉ [Ident.DecodeError, .len, .bytes, .int, .range, .enumerate, ._decode_text_data, ._remove_pad_field]) : DecCalls rt (program rt (d :: ds)) := by
  simp only [List.mem_cons, List.not_mem_nil, or_false, not_or] at hd
  obtain ⟨d1, d2, d3, d4, d5, d6, d7, d8⟩ := hd
  obtain ⟨h1, h2, h3, h4, h5, h6, h7, h8⟩ := h
  constructor <;> rw [program_ne _ _ (Ne.symm (by assumption))] <;> assumption

/-- decoder.py:406-598 `_decode_field`. -/
theorem decodeField_sim (hg : ∀ x, rt.globals x = none) {fv : Val} {f : PartialField} {s : Bytes} (hb : BytesAt F sv s) {idx : Nat} {key : Str}
    {ds : DecState} {st : St σ} (hv : PFieldVal fv f) (r : Rep st.heap dd de (decItems ds.dec) ds.enc F) :
    Sim rt sv dd de (fun _ => F) (fun n : Nat => .int n) (decodeFieldP rt.env s idx key f ds) st
      (invoke rt (program rt [removePadFieldDef, decodeTextDataDef, decodeErrorInitDef]) decodeFieldDef
        [sv, .ref dd, .ref de, .int idx, .str key, fv] [] st) := by
  have hc := decCalls_base (rt := rt)
  generalize program rt [removePadFieldDef, decodeTextDataDef, decodeErrorInitDef] = call at hc ⊢
  have hv0 := hv
  obtain ⟨items, rfl, g0, g1, g2, g3, g4, -⟩ := hv
  rw [decodeField_split]
  refine sim_of_body rfl rfl rfl rfl ?_
  generalize hst0 : ({ st with vars := _, locals := _, ys := _ } : St σ) = st0
  have vs : FieldVars st0.vars sv dd de key (.dict items) := by
    subst hst0; constructor <;> simp [src, decodeFieldDef]
  have v1 : st0.vars .idx = some (.int idx) := by subst hst0; simp [src, decodeFieldDef]
  have hloc : st0.locals = decodeFieldDef.locals := by subst hst0; rfl
  have r0 : Rep st0.heap dd de (decItems ds.dec) ds.enc F := by subst hst0; exact r
  clear hst0 r
  cases hlt : f.lenType with
  | none =>
    rw [hlt] at g2
    refine simX_err (F := fun _ => F) (e := .keyError py"len_type") (st := st0) (vs := st0.vars) r0 ?_ rfl rfl
    simp [decodeField1, src, getVar, vs.field_spec, g2]
  | some t =>
  rw [hlt] at g2
  replace g2 : lookup items (.str py"len_type") = some (.int t) := g2
  simp only [need, PyM.run_bind, PyM.run_pure]
  have e1 : exec rt call decodeField1 st0 = (.ok .next, { st0 with vars := st0.vars.set .len_type (.int t) }) := by
    simp [decodeField1, src, getVar, vs.field_spec, g2]
  refine simX_cons (h := st0.heap) e1 ?_
  have e2 : exec rt call decodeField2 { st0 with vars := st0.vars.set .len_type (.int t) } =
      (.ok .next, { st0 with vars := (st0.vars.set .len_type (.int t)).set .len_count (.str f.seen.count) }) := by
    simp [decodeField2, src, getVar, vs.field_spec, g4, getD_str, FieldSpec.count, PartialField.seen]
  refine simX_cons (h := st0.heap) e2 ?_
  have vs2 := (vs.set (x := .len_type) (.int t) (by simp)).set (x := .len_count) (.str f.seen.count) (by simp)
  have w1 : ((st0.vars.set .len_type (.int t)).set .len_count (.str f.seen.count)) .idx = some (.int idx) := by simp [src, v1]
  have w2 : ((st0.vars.set .len_type (.int t)).set .len_count (.str f.seen.count)) .len_type = some (.int t) := by simp [src]
  have w3 : ((st0.vars.set .len_type (.int t)).set .len_count (.str f.seen.count)) .len_count = some (.str f.seen.count) := by simp [src]
  generalize (st0.vars.set .len_type (.int t)).set .len_count (.str f.seen.count) = V at vs2 w1 w2 w3 ⊢
  have hkey : ∀ h, eval rt call (.name .field_key) { st0 with vars := V, heap := h } = (.ok (.str key), { st0 with vars := V, heap := h }) :=
      fun h => getVar_some vs2.field_key
  have e3 := exec_setDec (rt := rt) (call := call) (e := .str py"") (st := { st0 with vars := V }) (v := []) rfl r0 vs2.doc_dec (hkey _)
  refine simX_cons e3 ?_
  have r3 := r0.setDec (decItems (ds.dec.set key []))
  have hsl := fun h hb => eval_slice_run (rt := rt) (call := call) (s := s) (st := { st0 with vars := V, heap := h }) hb vs2.s w1 w2
  obtain ⟨dv, hd, hs⟩ := hsl (st0.heap.set dd (.dict (decItems (ds.dec.set key [])))) (r3.bytes hb)
  obtain ⟨h4, e4, r4⟩ := exec_newEnc (rt := rt) (call := call)
    (a := .call .bytes [(.slice (.name .s) (.name .idx) (.bin .add (.name .idx) (.name .len_type)))] [] []) (b := .bytes [])
    (st := { st0 with vars := V, heap := st0.heap.set dd (.dict (decItems (ds.dec.set key []))) }) (l := slice s idx (idx + t)) (d := [])
    r3 vs2.doc_enc (by simp [src, vs2.bytes, hs, hc.bytes, bytes_bytesVal hd]) rfl (fun h => hkey h)
  refine simX_cons e4 ?_
  have he4 := Dict.get?_set_same ds.enc key (⟨slice s idx (idx + t), []⟩ : EncEntry)
  simp only [PyM.run_bind, setDec, setEnc, PyM.run_modify]
  generalize hds : ({ dec := ds.dec.set key [], enc := ds.enc.set key ⟨slice s idx (idx + t), []⟩ } : DecState) = ds4
  have r5 : Rep h4 dd de (decItems ds4.dec) ds4.enc F := by subst hds; exact r4
  have he5 : ds4.enc.get? key = some ⟨slice s idx (idx + t), []⟩ := by subst hds; exact he4
  clear e3 e4 hs hd dv
  obtain ⟨dv, hd, hs⟩ := hsl h4 (r5.bytes hb)
  have hlen := len_bytesVal (rt := rt) hd
  simp only [builtin_len] at hlen
  by_cases hl : (slice s idx (idx + t)).length = t
  · have hl' : ((slice s idx (idx + t)).length : Int) = t := by omega
    have e5 : exec rt call decodeField5 { st0 with vars := V, heap := h4 } = (.ok .next, { st0 with vars := V, heap := h4 }) := by
      simp [decodeField5, src, getVar, vs2.len, hs, hc.len, hlen, w2, hl']
    refine simX_cons e5 ?_
    simp only [hl, ne_eq, not_true, if_false, PyM.run_pure]
    rcases decodeField6_run (st := { st0 with vars := V, heap := h4 }) hg hc hv0 (r5.bytes hb) vs2 hloc w1 w2 w3 ds4 with ⟨n, W, hm, e6, hn, hW⟩ | ⟨er, exc, W, tl, hm, e6, her⟩
    · refine simX_cons e6 ?_
      simp only [PyM.run_bind, hm]
      have x1 := (hW .idx (by decide) (by decide)).trans w1
      have x2 := (hW .len_type (by decide) (by decide)).trans w2
      have x3 := (hW .len_count (by decide) (by decide)).trans w3
      have vs3 : FieldVars W sv dd de key (.dict items) := by
        obtain ⟨a1, a2, a3, a4, a5, a6, a7, a8, a9, a10, a11⟩ := vs2
        constructor <;> rw [hW _ (by decide) (by decide)] <;> assumption
      have e7 : exec rt call decodeField7 { st0 with vars := W, heap := h4 } =
          (.ok .next, { st0 with vars := W.set .idx (.int (idx + t : Nat)), heap := h4 }) := by
        simp [decodeField7, src, getVar, x1, x2]
      refine simX_cons e7 ?_
      exact fieldRest_sim (st := { st0 with vars := W.set .idx (.int (idx + t : Nat)), heap := h4 }) (st0 := st0) hg hc hb hv0 rfl
        (vs3.set _ (by simp)) (idx := idx + t) (n := n) (by simp [src]) (by simp [src, hn]) (by simp [src, x3]) r5 he5
    · simp only [PyM.run_bind, hm]
      exact simX_err (F := fun _ => F) (st := { st0 with vars := V, heap := h4 }) (r5.append tl) e6 her rfl
  · have e5 := lenWidth_run (rt := rt) (call := call) (st := { st0 with vars := V, heap := h4 }) hg hc vs2 w1 w2 hd hs
    have hl' : ¬ ((slice s idx (idx + t)).length : Int) = t := by omega
    generalize hmsg : DecMsg.lenWidth (slice s idx (idx + t)).length t = msg at e5
    have e6 : exec rt call decodeField5 { st0 with vars := V, heap := h4 } = (.error (raises rt h4 sv dd de msg idx key).1,
        { st0 with vars := V, heap := (raises rt h4 sv dd de msg idx key).2 }) := by
      simp [decodeField5, src, getVar, vs2.len, hs, hc.len, hlen, w2, hl', e5]
    have := simX_raises (F := fun _ => F) (toV := fun n : Nat => .int n) (ds := ds4) (st := { st0 with vars := V, heap := h4 }) (st0 := st0)
      (t := [decodeField6, decodeField7, decodeField8, decodeField9, decodeField10, decodeField11, decodeField12, decodeField13]) r5 e6 rfl
    simpa [hl, decFail, PyM.run_bind, hmsg] using this

end Iso8583.Src
