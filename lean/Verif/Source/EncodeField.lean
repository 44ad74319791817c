import Verif.Source.EncodeStmt
import Verif.Lemmas.Partial
/-!
# encoder.py: `_encode_field`
-/

namespace Iso8583.Src

variable {ε σ : Type} {rt : Rt ε σ} {call : Caller ε σ} {dd de : Nat} {F : List (Nat × Obj)} {items : List (Val × Val)}

/-- The variables of `_encode_field` that stay the same. -/
structure FieldVarsE (V : Vars) (dd de : Nat) (key : Str) (fv : Val) : Prop where
  EncodeError : V .EncodeError = none
  len : V .len = none
  bytes : V .bytes = none
  binascii : V .binascii = none
  text : V ._encode_text_field = none
  binary : V ._encode_bindary_field = none
  doc_dec : V .doc_dec = some (.ref dd)
  doc_enc : V .doc_enc = some (.ref de)
  field_key : V .field_key = some (.str key)
  field_spec : V .field_spec = some fv

theorem FieldVarsE.set {V : Vars} {key : Str} {fv : Val} (h : FieldVarsE V dd de key fv) {x : Ident} (v : Val)
    (hx : x ∈ [Ident.len_type, .len_count, .enc_field_len, .bcd_field_len, .e]) : FieldVarsE (V.set x v) dd de key fv := by
  obtain ⟨h1, h2, h3, h4, h5, h6, h7, h8, h9, h10⟩ := h
  simp only [List.mem_cons, List.not_mem_nil, or_false] at hx
  rcases hx with rfl | rfl | rfl | rfl | rfl <;> constructor <;> simp [src, *]

theorem format_run (n w : Nat) (w' : Int) (hw : w' = w) : method rt (.str py"{:0{len_type}d}") .format [.int n] [(.len_type, .int w')] =
    pure (.str (zeroPad w n)) := by
  subst hw
  have h : method rt (.str py"{:0{len_type}d}") .format [.int n] [(.len_type, .int w)] =
    formatVal py"{:0{len_type}d}" [.int n] [(.len_type, .int w)] := rfl
  have h1 : ¬ ((n : Int) < 0 ∨ (w : Int) < 0) := by omega
  rw [h]; unfold formatVal
  rw [if_pos rfl]
  simp only [if_neg h1, Int.toNat_natCast]

theorem to_bytes_run (n w : Nat) : method rt (.int n) .to_bytes [.int w, .str py"big"] [(.signed, .bool false)] =
    match toBytesBE n w with
    | some b => pure (.bytes b)
    | none => fail .OverflowError := by
  have h : method rt (.int n) .to_bytes [.int w, .str py"big"] [(.signed, .bool false)] =
    if py"big" = py"big" ∧ (0 : Int) ≤ n ∧ (0 : Int) ≤ w then
      match toBytesBE (n : Int).toNat (w : Int).toNat with
      | some b => pure (.bytes b)
      | none => fail .OverflowError
    else stuck := rfl
  rw [h, if_pos ⟨rfl, by omega, by omega⟩]
  simp only [Int.toNat_natCast]

theorem builtin_bytes_str (t n : Str) : builtin rt .bytes [.str t, .str n] [] = encodeVal rt t n := rfl

/-- encoder.py:450-511. -/
theorem encodeField7_run (hg : ∀ x, rt.globals x = none) (hc : EncCalls rt call) {fv : Val} {fs : FieldSpec} {key : Str} {n : Nat}
    {es : EncState} {st : St σ} {e : EncEntry} (hv : PropVal fv py"len_enc" (some (.str fs.lenEnc))) (r : Rep st.heap dd de items es.enc F)
    (vs : FieldVarsE st.vars dd de key fv) (hloc : st.locals = encodeFieldDef.locals)
    (v1 : st.vars .enc_field_len = some (.int n)) (v2 : st.vars .len_type = some (.int fs.lenType)) (he : es.enc.get? key = some e) :
    (∃ l V h', encodeLength rt.env n key fs es = (.ok (), { es with enc := es.enc.set key ⟨l, e.data⟩ }) ∧
      exec rt call encodeField7 st = (.ok .next, { st with vars := V, heap := h' }) ∧
      Rep h' dd de items (es.enc.set key ⟨l, e.data⟩) F ∧ FieldVarsE V dd de key fv) ∨
    (∃ x exc enc V h', encodeLength rt.env n key fs es = (.error x, { es with enc := enc }) ∧
      exec rt call encodeField7 st = (.error exc, { st with vars := V, heap := h' }) ∧
      Rep h' dd de items enc F ∧ ErrIsE rt h' dd de x exc) := by
  obtain ⟨its, rfl, g1⟩ := hv
  obtain ⟨w1, w2, w3, w4, w5, w6, w7, w8, w9, w10⟩ := vs
  have hk : eval rt call (.name .field_key) st = (.ok (.str key), st) := by simp [src, getVar_some w9]
  have hg1 : encGet key es = (.ok e, es) := by
    simp only [encGet, PyM.run_bind, PyM.run_get, he]; rfl
  have hid : ({ st with vars := st.vars } : St σ) = st := rfl
  have hvs : FieldVarsE st.vars dd de key (.dict its) := ⟨w1, w2, w3, w4, w5, w6, w7, w8, w9, w10⟩
  have hfit : ∀ st1 : St σ, st1.vars = st.vars → exec rt call (.raise (.call .EncodeError [(.str py"Failed to encode field length, field length does not fit into configured field size"), (.name .doc_dec), (.name .doc_enc), (.name .field_key)] [] [])) st1 =
      (.error (raisesE rt st1.heap dd de .lenDoesNotFit [] key).1, { st1 with heap := (raisesE rt st1.heap dd de .lenDoesNotFit [] key).2 }) := by
    intro st1 h
    exact exec_raiseE_lit (dd := dd) (de := de) hg hc.err .lenDoesNotFit rfl rfl key (.name .field_key) st1 (by simp [src, getVar, h, w9])
      (by rw [h]; exact w1) (by rw [h]; exact w7) (by rw [h]; exact w8)
  have herr : ∀ (m : EncMsg) (d : Str) (h : List Obj) (enc : EncDoc), (m ≠ .lenInvalid → d = []) → Rep h dd de items enc F →
      Rep (raisesE rt h dd de m d key).2 dd de items enc F ∧ ErrIsE rt (raisesE rt h dd de m d key).2 dd de (.err m key) (raisesE rt h dd de m d key).1 := by
    intro m d h enc hd rr
    obtain ⟨h1, t, h2⟩ := raisesE_is (rt := rt) h dd de m d key hd
    exact ⟨by rw [h2]; exact rr.append t, h1⟩
  by_cases hb : fs.lenEnc = py"b"
  · have hto := to_bytes_run (rt := rt) n fs.lenType
    cases ht : toBytesBE n fs.lenType with
    | none =>
      rw [ht] at hto
      right
      obtain ⟨h1, h2⟩ := herr .lenDoesNotFit [] _ _ (by simp) r
      refine ⟨_, _, es.enc, st.vars, _, ?_, ?_, h1, h2⟩
      · simp only [encodeLength, PyM.run_bind, hg1, hb, if_true, ht]; rfl
      · simp [encodeField7, src, getVar, w10, g1, hb, v1, v2, hto, hfit st rfl]
    | some l =>
      rw [ht] at hto
      left
      obtain ⟨h', hx, hr⟩ := exec_setLen (rt := rt) (call := call) (key := .name .field_key)
        (v := .meth (.name .enc_field_len) .to_bytes [(.name .len_type), (.str py"big")] [.signed] [(.bool false)]) r w8 hk he
        (b := l) (by simp [src, getVar, v1, v2, hto])
      refine ⟨l, st.vars, h', ?_, ?_, hr, hvs⟩
      · simp only [encodeLength, PyM.run_bind, hg1, hb, if_true, ht]; rfl
      · simp [encodeField7, src, getVar, w10, g1, hb, hx]
  by_cases hb2 : fs.lenEnc = py"bcd"
  · have hfm := format_run (rt := rt) n (fs.lenType * 2) (fs.lenType * 2) (by omega)
    generalize ht : zeroPad (fs.lenType * 2) n = t at hfm
    have e1 : ((fs.lenType : Int) * 2 < (t.length : Int)) ↔ fs.lenType * 2 < t.length := by omega
    have hvs' := hvs.set (x := .bcd_field_len) (.str t) (by simp)
    by_cases hl : t.length > fs.lenType * 2
    · right
      have hr1 := exec_raiseE_lit (dd := dd) (de := de) (st := { st with vars := st.vars.set .bcd_field_len (.str t) }) hg hc.err .lenDoesNotFit rfl rfl key (.name .field_key)
        (by simp [src, getVar, w9]) (by simp [src, w1]) (by simp [src, w7]) (by simp [src, w8])
      simp only [EncMsg.text] at hr1
      obtain ⟨h1, h2⟩ := herr .lenDoesNotFit [] _ _ (by simp) r
      refine ⟨_, _, es.enc, st.vars.set .bcd_field_len (.str t), _, ?_, ?_, h1, h2⟩
      · simp only [encodeLength, PyM.run_bind, hg1, hb, hb2, if_true, if_false, ht, hl]; rfl
      · simp [encodeField7, src, getVar, w2, w10, g1, hb2, v1, v2, hfm, hc.len, e1, hl, hr1]
    · cases ha : a2bHex t with
      | none =>
        right
        have hm : method rt (.glob .binascii) .a2b_hex [.str t] [] = fail .ValueError := by
          have : method rt (.glob .binascii) .a2b_hex [.str t] [] = match a2bHex t with
            | some b => pure (.bytes b)
            | none => fail .ValueError := rfl
          rw [this, ha]
        refine ⟨.valueError, .std .ValueError .none, es.enc, st.vars.set .bcd_field_len (.str t), st.heap, ?_, ?_, r, rfl⟩
        · simp only [encodeLength, PyM.run_bind, hg1, hb, hb2, if_true, if_false, ht, hl]
          rw [if_neg (by decide)]
          simp only [PyM.run_bind, ha]; rfl
        · simp [encodeField7, src, getVar, w2, w4, w10, g1, hb2, v1, v2, hfm, hc.len, e1, hl, hloc, encodeFieldDef, hg, hm]
      | some l =>
        left
        have hm : method rt (.glob .binascii) .a2b_hex [.str t] [] = pure (.bytes l) := by
          have : method rt (.glob .binascii) .a2b_hex [.str t] [] = match a2bHex t with
            | some b => pure (.bytes b)
            | none => fail .ValueError := rfl
          rw [this, ha]
        obtain ⟨h', hx, hr⟩ := exec_setLen (rt := rt) (call := call) (key := .name .field_key) (st := { st with vars := st.vars.set .bcd_field_len (.str t) })
          (v := .meth (.name .binascii) .a2b_hex [(.name .bcd_field_len)] [] []) r (by simp [src, w8]) (by simp [src, getVar, w9]) he
          (b := l) (by simp [src, getVar, w4, hloc, encodeFieldDef, hg, hm])
        refine ⟨l, st.vars.set .bcd_field_len (.str t), h', ?_, ?_, hr, hvs'⟩
        · simp only [encodeLength, PyM.run_bind, hg1, hb, hb2, if_true, if_false, ht, hl]
          rw [if_neg (by decide)]
          simp only [PyM.run_bind, ha]; rfl
        · simp [encodeField7, src, getVar, w2, w10, g1, hb2, v1, v2, hfm, hc.len, e1, hl, hx]
  have hfm := format_run (rt := rt) n fs.lenType fs.lenType rfl
  generalize ht : zeroPad fs.lenType n = t at hfm
  have hval : eval rt call (.call .bytes [(.meth (.str py"{:0{len_type}d}") .format [(.name .enc_field_len)] [.len_type] [(.name .len_type)]), (.sub (.name .field_spec) (.str py"len_enc"))] [] []) st =
      encodeVal rt t fs.lenEnc st := by
    simp only [eval_call w3, hc.bytes]
    simp [src, getVar, v1, v2, w10, g1, hfm, builtin_bytes_str]
  rw [encodeVal_run] at hval
  rcases hs : strEncode rt.env fs.lenEnc t with (_ | _) | l
  · right
    have hr1 := exec_raiseE_lit (dd := dd) (de := de) (st := st) hg hc.err .lenUnknownEncoding rfl rfl key (.name .field_key) hk w1 w7 w8
    simp only [EncMsg.text] at hr1
    obtain ⟨h1, h2⟩ := herr .lenUnknownEncoding [] _ _ (by simp) r
    refine ⟨_, _, es.enc, st.vars, _, ?_, ?_, h1, h2⟩
    · simp only [encodeLength, PyM.run_bind, hg1, hb, hb2, if_false, ht, hs]; rfl
    · simp only [hs] at hval
      simp [encodeField7, src, getVar, w10, g1, hb, hb2, hval, hr1]
  · right
    have hr1 := exec_raiseE (dd := dd) (de := de) (st := { st with vars := st.vars.set .e (.exn .UnicodeError (.str (rt.detail fs.lenEnc t))) })
      (st1 := { st with vars := st.vars.set .e (.exn .UnicodeError (.str (rt.detail fs.lenEnc t))) }) hg hc.err .lenInvalid (rt.detail fs.lenEnc t) key
      (.fstr [(.str py"Failed to encode field length, "), (.name .e)]) (.name .field_key)
      (by simp [src, getVar, EncMsg.numbers, EncMsg.text]) (by simp [src, getVar, w9]) (by simp [src, w1]) (by simp [src, w7]) (by simp [src, w8])
    obtain ⟨h1, h2⟩ := herr .lenInvalid (rt.detail fs.lenEnc t) _ _ (by simp) r
    refine ⟨_, _, es.enc, fun y => if y = .e then none else (st.vars.set .e (.exn .UnicodeError (.str (rt.detail fs.lenEnc t)))) y, _, ?_, ?_, h1, h2⟩
    · simp only [encodeLength, PyM.run_bind, hg1, hb, hb2, if_false, ht, hs]; rfl
    · simp only [hs] at hval
      simp [encodeField7, src, getVar, w10, g1, hb, hb2, hval, Exc.val, hr1]
  · simp only [hs] at hval
    obtain ⟨h', hx, hr⟩ := exec_setLen (rt := rt) (call := call) (key := .name .field_key) r w8 hk he hval
    have hl := eval_encLen (rt := rt) (call := call) (key := .name .field_key) (k := key) (st := { st with heap := h' }) hr w8 (by simp [src, getVar, w9]) (Dict.get?_set_same _ _ _)
    have hmod : ∀ k : EncM Unit, (encSet key ⟨l, e.data⟩ >>= fun _ => k) es = k { es with enc := es.enc.set key ⟨l, e.data⟩ } := fun k => rfl
    by_cases hlen : l.length > fs.lenType
    · right
      have hr1 := hfit { st with heap := h' } rfl
      obtain ⟨h1, h2⟩ := herr .lenDoesNotFit [] _ _ (by simp) hr
      refine ⟨_, _, es.enc.set key ⟨l, e.data⟩, st.vars, _, ?_, ?_, h1, h2⟩
      · simp only [encodeLength, PyM.run_bind, hg1, hb, hb2, if_false, ht, hs]
        rw [if_pos hlen]; rfl
      · simp [encodeField7, src, getVar, w2, w10, g1, hb, hb2, hx, hl, hc.len, v2, hlen, hr1]
    · left
      refine ⟨l, st.vars, h', ?_, ?_, hr, hvs⟩
      · simp only [encodeLength, PyM.run_bind, hg1, hb, hb2, if_false, ht, hs]
        rw [if_neg hlen]; rfl
      · simp [encodeField7, src, getVar, w2, w10, g1, hb, hb2, hx, hl, hc.len, v2, hlen]

/-- encoder.py:425-513 of the model. -/
def fieldTail (env : PyEnv) (key : Str) (f : PartialField) (p : Bytes × Nat) : EncM Bytes := do
  let lenType ← need .keyError py"len_type" f.lenType
  let maxLen ← need .keyError py"max_len" f.maxLen
  if lenType = 0 then
    if (p.2 : Int) ≠ maxLen then
      encFail (.fixedLen p.2 (f.lenCount.getD py"bytes") maxLen) key
    return p.1
  if (p.2 : Int) > maxLen then
    encFail (.tooLong p.2 (f.lenCount.getD py"bytes") maxLen) key
  let _ ← need .keyError py"len_enc" f.lenEnc
  encodeLength env p.2 key f.seen
  let e ← encGet key
  return e.len ++ e.data

theorem encodeField_split {f : PartialField} (hd : f.dataEnc.isSome) (env : PyEnv) (key : Str) (es : EncState) :
    encodeFieldP env key f es =
      match dataOf env key f.seen (f.lenCount.getD py"bytes") { es with enc := es.enc.set key ⟨[], []⟩ } with
      | (.error e, s) => (.error e, s)
      | (.ok p, s) => fieldTail env key f p { s with enc := s.enc.set key ⟨[], p.1⟩ } := by
  obtain ⟨den, hd⟩ := Option.isSome_iff_exists.1 hd
  have hs : f.seen.dataEnc = den := (seen_dataEnc hd)
  unfold encodeFieldP dataOf fieldTail
  simp only [PyM.run_bind, encSet, PyM.run_modify, hd, hs, need, PyM.run_pure]
  rcases docGet key { es with enc := es.enc.set key ⟨[], []⟩ } with ⟨_ | v, s⟩
  · rfl
  · simp only []
    rcases (PyM.lift (if den = py"b" then encodeBinaryField v key f.seen (f.lenCount.getD py"bytes") else encodeTextField env v key f.seen (f.lenCount.getD py"bytes")) : EncM _) s with ⟨_ | p, s'⟩
    · rfl
    · rfl

theorem encodeField_missing {f : PartialField} (hd : f.dataEnc = none) (env : PyEnv) (key : Str) (es : EncState) :
    encodeFieldP env key f es = (.error (.keyError py"data_enc"), { es with enc := es.enc.set key ⟨[], []⟩ }) := by
  unfold encodeFieldP
  simp only [PyM.run_bind, encSet, PyM.run_modify, hd, need]
  rfl

/-- encoder.py:367-513 `_encode_field`. -/
theorem encodeField_sim (hg : ∀ x, rt.globals x = none) (hc : EncCalls rt call) {fv : Val} {f : PartialField} {key : Str}
    {es : EncState} {st : St σ} (hv : PFieldVal fv f) (r : Rep st.heap dd de items es.enc F) (di : DocIs items es.dec) :
    SimE rt dd de items (fun _ => F) (fun b => .bytes b) (encodeFieldP rt.env key f es) st
      (invoke rt call encodeFieldDef [.ref dd, .ref de, .str key, fv] [] st) := by
  refine simE_of_body rfl rfl rfl rfl ?_
  generalize hst0 : ({ st with vars := _, locals := _, ys := _ } : St σ) = st0
  have hheap : st0.heap = st.heap := by subst hst0; rfl
  have hloc : st0.locals = encodeFieldDef.locals := by subst hst0; rfl
  have hvs : FieldVarsE st0.vars dd de key fv := by subst hst0; constructor <;> simp [src, encodeFieldDef]
  clear hst0
  rw [← hheap] at r
  obtain ⟨its, rfl, g1, g2, g3, g4, g5, g6, g7, -⟩ := hv
  -- encoder.py:399
  obtain ⟨h1, hx1, r1⟩ := exec_newEnc (rt := rt) (call := call) (key := .name .field_key) (a := .bytes []) (b := .bytes []) (k := key) (l := []) (d := []) r hvs.doc_enc
    (by simp [src]) (by simp [src]) (fun h => by simp [src, getVar, hvs.field_key])
  refine simEX_cons (vs := st0.vars) (h := h1) hx1 ?_
  -- encoder.py:402
  refine simEX_cons (vs := st0.vars.set .len_count (.str (f.lenCount.getD py"bytes"))) (h := h1)
    (by simp [encodeField2, src, getVar, hvs.field_spec, g5, getD_str]) ?_
  have hvs2 := hvs.set (x := .len_count) (.str (f.lenCount.getD py"bytes")) (by simp)
  have hcnt : (st0.vars.set .len_count (.str (f.lenCount.getD py"bytes"))) .len_count = some (.str (f.lenCount.getD py"bytes")) := by simp [src]
  generalize st0.vars.set .len_count (.str (f.lenCount.getD py"bytes")) = V2 at hvs2 hcnt ⊢
  -- encoder.py:405-423
  cases hde : f.dataEnc with
  | none =>
    rw [hde] at g1
    rw [encodeField_missing hde]
    refine simEX_err (s := encodeField3) (vs := V2) (h := h1) (G := fun _ => F) r1 di (Keeps.refl _) ?_ (e := .keyError py"data_enc") (exc := .std .KeyError (.str py"data_enc")) rfl rfl
    exact dataStmt_missing ⟨its, rfl, g1⟩ (by simp [src, getVar, hvs2.field_spec])
  | some den =>
  have g1' : lookup its (.str py"data_enc") = some (.str f.seen.dataEnc) := by rw [g1, seen_dataEnc hde, hde]; rfl
  rw [encodeField_split (by rw [hde]; rfl)]
  have hd := dataStmt_run (rt := rt) (call := call) (st := { st0 with vars := V2, heap := h1 }) (es := { es with enc := es.enc.set key ⟨[], []⟩ })
    (e := ⟨[], []⟩) (keyE := .name .field_key) (specE := .name .field_spec) (countE := .name .len_count) (key := key) (count := (f.lenCount.getD py"bytes"))
    hg hc ⟨its, rfl, g1'⟩ ⟨its, rfl, g6⟩ ⟨its, rfl, g7⟩ r1 di hvs2.doc_dec hvs2.doc_enc hvs2.binary hvs2.text (fun h => by simp [src, getVar, hvs2.field_key])
    (by simp [src, getVar, hvs2.field_spec]) (by simp [src, getVar, hcnt]) (Dict.get?_set_same _ _ _)
  rcases hd with ⟨p, h2, items2, hm, hx, r2, d2, k2⟩ | ⟨x, exc, h2, items2, hm, hx, r2, d2, k2, he⟩
  rotate_left
  · rw [hm]
    exact simEX_err (st0 := st0) (st := { st0 with vars := V2, heap := h1 }) (s := encodeField3) (vs := V2) (h := h2) (G := fun _ => F) r2 d2 k2 hx he rfl
  rw [hm]
  refine simEX_cons (s := encodeField3) (vs := V2.set .enc_field_len (.int p.2)) (h := h2) hx ?_
  -- encoder.py:425
  cases hlt0 : f.lenType with
  | none =>
    rw [hlt0] at g3
    simp only [Dict.set_set] at r2 ⊢
    have hmod : fieldTail rt.env key f p { es with enc := es.enc.set key ⟨[], p.1⟩ } =
        (.error (.keyError py"len_type"), { es with enc := es.enc.set key ⟨[], p.1⟩ }) := by
      simp only [fieldTail, hlt0, need, PyM.run_bind]; rfl
    rw [hmod]
    refine simEX_err (s := encodeField4) (vs := V2.set .enc_field_len (.int p.2)) (h := h2) (G := fun _ => F) r2 d2 k2 ?_ (e := .keyError py"len_type") (exc := .std .KeyError (.str py"len_type")) rfl rfl
    simp [encodeField4, src, getVar, hvs2.field_spec, g3]
  | some lt =>
  have g3' : lookup its (.str py"len_type") = some (.int lt) := by rw [g3, hlt0]; rfl
  refine simEX_cons (vs := (V2.set .enc_field_len (.int p.2)).set .len_type (.int lt)) (h := h2)
    (by simp [encodeField4, src, getVar, hvs2.field_spec, g3']) ?_
  have hvs3 := (hvs2.set (x := .enc_field_len) (.int p.2) (by simp)).set (x := .len_type) (.int lt) (by simp)
  have a1 : ((V2.set .enc_field_len (.int p.2)).set .len_type (.int lt)) .enc_field_len = some (.int p.2) := by simp [src]
  have a2 : ((V2.set .enc_field_len (.int p.2)).set .len_type (.int lt)) .len_type = some (.int lt) := by simp [src]
  have a3 : ((V2.set .enc_field_len (.int p.2)).set .len_type (.int lt)) .len_count = some (.str (f.lenCount.getD py"bytes")) := by simp [src, hcnt]
  generalize (V2.set .enc_field_len (.int p.2)).set .len_type (.int lt) = V3 at hvs3 a1 a2 a3 ⊢
  simp only [Dict.set_set] at r2 ⊢
  have hget : (es.enc.set key ⟨[], p.1⟩).get? key = some ⟨[], p.1⟩ := Dict.get?_set_same _ _ _
  cases hml0 : f.maxLen with
  | none =>
    rw [hml0] at g4
    have hmod : fieldTail rt.env key f p { es with enc := es.enc.set key ⟨[], p.1⟩ } =
        (.error (.keyError py"max_len"), { es with enc := es.enc.set key ⟨[], p.1⟩ }) := by
      simp only [fieldTail, hlt0, hml0, need, PyM.run_bind, PyM.run_pure]; rfl
    rw [hmod]
    by_cases hlt : lt = 0
    · refine simEX_err (s := encodeField5) (vs := V3) (h := h2) (G := fun _ => F) r2 d2 k2 ?_ (e := .keyError py"max_len") (exc := .std .KeyError (.str py"max_len")) rfl rfl
      simp [encodeField5, src, getVar, a1, a2, hlt, hvs3.field_spec, g4]
    · refine simEX_cons (vs := V3) (h := h2) (by simp [encodeField5, src, getVar, a2, hlt]) ?_
      refine simEX_err (s := encodeField6) (vs := V3) (h := h2) (G := fun _ => F) r2 d2 k2 ?_ (e := .keyError py"max_len") (exc := .std .KeyError (.str py"max_len")) rfl rfl
      simp [encodeField6, src, getVar, a1, hvs3.field_spec, g4]
  | some ml =>
  have g4' : lookup its (.str py"max_len") = some (.int ml) := by rw [g4, hml0]; rfl
  clear g4
  have g4 := g4'
  by_cases hlt : lt = 0
  · have a2' : V3 .len_type = some (.int 0) := by rw [a2, hlt]; rfl
    by_cases hml : (p.2 : Int) = ml
    · have hmod : fieldTail rt.env key f p { es with enc := es.enc.set key ⟨[], p.1⟩ } = (.ok p.1, { es with enc := es.enc.set key ⟨[], p.1⟩ }) := by
        simp [fieldTail, need, hlt0, hml0, hlt, hml, PyM.run_bind]
      rw [hmod]
      obtain ⟨h3, hx3, r3⟩ := exec_setLen (rt := rt) (call := call) (st := { st0 with vars := V3, heap := h2 }) (key := .name .field_key) (k := key)
        (v := .bytes []) (b := []) r2 hvs3.doc_enc (by simp [src, getVar, hvs3.field_key]) hget (by simp [src])
      have hdat := eval_encData (rt := rt) (call := call) (st := { st0 with vars := V3, heap := h3 }) (key := .name .field_key) (k := key) r3 hvs3.doc_enc
        (by simp [src, getVar, hvs3.field_key]) (Dict.get?_set_same _ _ _)
      rw [Dict.set_set] at r3
      refine simEX_ret (vs := V3) (h := h3) (G := fun _ => F) r3 d2 k2 ?_ rfl
      simp [encodeField5, src, getVar, a1, a2', hvs3.field_spec, g4, hml, hx3, hdat]
    · have hmod : fieldTail rt.env key f p { es with enc := es.enc.set key ⟨[], p.1⟩ } =
          (.error (.err (.fixedLen p.2 (f.lenCount.getD py"bytes") ml) key), { es with enc := es.enc.set key ⟨[], p.1⟩ }) := by
        simp [fieldTail, need, hlt0, hml0, hlt, hml, encFail, PyM.run_bind]
      rw [hmod]
      have hr1 := exec_raiseE (dd := dd) (de := de) (st := { st0 with vars := V3, heap := h2 }) (st1 := { st0 with vars := V3, heap := h2 }) hg hc.err
        (.fixedLen p.2 (f.lenCount.getD py"bytes") ml) [] key (.fstr [(.str py"Field data is "), (.name .enc_field_len), (.str py" "), (.name .len_count), (.str py", expecting "), (.sub (.name .field_spec) (.str py"max_len"))]) (.name .field_key)
        (by by_cases f1 : formats rt.env (p.2 : Int) <;> by_cases f2 : formats rt.env ml <;>
              simp [src, getVar, a1, a3, hvs3.field_spec, g4, f1, f2, EncMsg.numbers, EncMsg.text, natStr_int])
        (by simp [src, getVar, hvs3.field_key]) hvs3.EncodeError hvs3.doc_dec hvs3.doc_enc
      refine simEX_raises (d := []) (by simp) (h := h2) (vs := V3) (G := fun _ => F) r2 d2 k2 ?_ rfl
      simp [encodeField5, src, getVar, a1, a2', hvs3.field_spec, g4, hml, hr1]
  refine simEX_cons (vs := V3) (h := h2) (by simp [encodeField5, src, getVar, a2, hlt]) ?_
  by_cases hml : (p.2 : Int) > ml
  · have hmod : fieldTail rt.env key f p { es with enc := es.enc.set key ⟨[], p.1⟩ } =
        (.error (.err (.tooLong p.2 (f.lenCount.getD py"bytes") ml) key), { es with enc := es.enc.set key ⟨[], p.1⟩ }) := by
      simp [fieldTail, need, hlt0, hml0, hlt, hml, encFail, PyM.run_bind]
    rw [hmod]
    have hr1 := exec_raiseE (dd := dd) (de := de) (st := { st0 with vars := V3, heap := h2 }) (st1 := { st0 with vars := V3, heap := h2 }) hg hc.err
      (.tooLong p.2 (f.lenCount.getD py"bytes") ml) [] key (.fstr [(.str py"Field data is "), (.name .enc_field_len), (.str py" "), (.name .len_count), (.str py", larger than maximum "), (.sub (.name .field_spec) (.str py"max_len"))]) (.name .field_key)
      (by by_cases f1 : formats rt.env (p.2 : Int) <;> by_cases f2 : formats rt.env ml <;>
            simp [src, getVar, a1, a3, hvs3.field_spec, g4, f1, f2, EncMsg.numbers, EncMsg.text, natStr_int])
      (by simp [src, getVar, hvs3.field_key]) hvs3.EncodeError hvs3.doc_dec hvs3.doc_enc
    refine simEX_raises (d := []) (by simp) (h := h2) (vs := V3) (G := fun _ => F) r2 d2 k2 ?_ rfl
    simp [encodeField6, src, getVar, a1, hvs3.field_spec, g4, hml, hr1]
  refine simEX_cons (vs := V3) (h := h2) (by simp [encodeField6, src, getVar, a1, hvs3.field_spec, g4, hml]) ?_
  cases hle0 : f.lenEnc with
  | none =>
    rw [hle0] at g2
    have hmod : fieldTail rt.env key f p { es with enc := es.enc.set key ⟨[], p.1⟩ } =
        (.error (.keyError py"len_enc"), { es with enc := es.enc.set key ⟨[], p.1⟩ }) := by
      simp only [fieldTail, need, hlt0, hml0, hle0, hlt, hml, if_false, PyM.run_bind, PyM.run_pure]; rfl
    rw [hmod]
    refine simEX_err (s := encodeField7) (vs := V3) (h := h2) (G := fun _ => F) r2 d2 k2 ?_ (e := .keyError py"len_enc") (exc := .std .KeyError (.str py"len_enc")) rfl rfl
    simp [encodeField7, src, getVar, hvs3.field_spec, g2]
  | some len =>
  have g2' : lookup its (.str py"len_enc") = some (.str f.seen.lenEnc) := by rw [g2, seen_lenEnc hle0, hle0]; rfl
  have h7 := encodeField7_run (rt := rt) (call := call) (n := p.2) (st := { st0 with vars := V3, heap := h2 }) (es := { es with enc := es.enc.set key ⟨[], p.1⟩ })
    hg hc (fs := f.seen) ⟨its, rfl, g2'⟩ r2 hvs3 hloc a1 (by rw [seen_lenType hlt0]; exact a2) hget
  rcases h7 with ⟨l, V, h3, hm7, hx7, r3, hvs4⟩ | ⟨x, exc, enc, V, h3, hm7, hx7, r3, he⟩
  · have hmod : fieldTail rt.env key f p { es with enc := es.enc.set key ⟨[], p.1⟩ } =
        (.ok (l ++ p.1), { es with enc := (es.enc.set key ⟨[], p.1⟩).set key ⟨l, p.1⟩ }) := by
      simp only [fieldTail, need, hlt0, hml0, hle0, hlt, hml, if_false, PyM.run_bind, PyM.run_pure, hm7, encGet, PyM.run_get, Dict.get?_set_same]
    rw [hmod]
    refine simEX_cons (vs := V) (h := h3) hx7 ?_
    have hlen := eval_encLen (rt := rt) (call := call) (st := { st0 with vars := V, heap := h3 }) (key := .name .field_key) (k := key) r3 hvs4.doc_enc
      (by simp [src, getVar, hvs4.field_key]) (Dict.get?_set_same _ _ _)
    have hdat := eval_encData (rt := rt) (call := call) (st := { st0 with vars := V, heap := h3 }) (key := .name .field_key) (k := key) r3 hvs4.doc_enc
      (by simp [src, getVar, hvs4.field_key]) (Dict.get?_set_same _ _ _)
    refine simEX_ret (vs := V) (h := h3) (G := fun _ => F) r3 d2 k2 ?_ rfl
    simp [encodeField8, src, hlen, hdat]
  · have hmod : fieldTail rt.env key f p { es with enc := es.enc.set key ⟨[], p.1⟩ } = (.error x, { es with enc := enc }) := by
      simp only [fieldTail, need, hlt0, hml0, hle0, hlt, hml, if_false, PyM.run_bind, PyM.run_pure, hm7]
    rw [hmod]
    exact simEX_err (vs := V) (h := h3) (G := fun _ => F) r3 d2 k2 hx7 he rfl

end Iso8583.Src
