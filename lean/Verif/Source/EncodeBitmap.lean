import Verif.Source.EncodeHead
import Verif.Source.DecodeBitmap
import Verif.Lemmas.EncodeCongr
import Verif.Lemmas.Bits
/-!
# encoder.py: `_encode_bitmap`
-/

namespace Iso8583.Src

variable {ε σ : Type} {rt : Rt ε σ} {call : Caller ε σ} {dd de : Nat} {F : List (Nat × Obj)} {items : List (Val × Val)}

namespace Rep
variable {h : List Obj} {dec : List (Val × Val)} {enc : EncDoc}

/-- Forget objects. -/
theorem mono {F' : List (Nat × Obj)} (r : Rep h dd de dec enc F) (hF : ∀ p ∈ F', p ∈ F) : Rep h dd de dec enc F' where
  hdec := r.hdec
  henc := by
    obtain ⟨loc, h1, h2, h3⟩ := r.henc
    exact ⟨loc, h1, fun k e hk => ⟨(h2 k e hk).1, (h2 k e hk).2.1, (h2 k e hk).2.2.1, fun p hp => (h2 k e hk).2.2.2 p (hF p hp)⟩, h3⟩
  ne := r.ne
  nodup := r.nodup
  frame p hp := r.frame p (hF p hp)

/-- A new object. -/
theorem alloc (r : Rep h dd de dec enc F) (o : Obj) : Rep (h ++ [o]) dd de dec enc ((h.length, o) :: F) where
  hdec := (r.append [o]).hdec
  henc := by
    obtain ⟨loc, h1, h2, h3⟩ := r.henc
    refine ⟨loc, getElem?_append_of h1 _, fun k e hk => ?_, h3⟩
    have := h2 k e hk
    refine ⟨getElem?_append_of this.1 _, this.2.1, this.2.2.1, fun p hp => ?_⟩
    rcases List.mem_cons.1 hp with rfl | hp
    · have := lt_of_getElem? this.1
      exact fun h => by simp only [] at h; omega
    · exact this.2.2.2 p hp
  ne := r.ne
  nodup := r.nodup
  frame p hp := by
    rcases List.mem_cons.1 hp with rfl | hp
    · have h1 := lt_of_getElem? r.hdec
      obtain ⟨loc, h2, -⟩ := r.henc
      have h2 := lt_of_getElem? h2
      exact ⟨by simp, by simp only []; omega, by simp only []; omega⟩
    · exact (r.append [o]).frame p hp

/-- The objects of a frame are not new. -/
theorem frame_ne (r : Rep h dd de dec enc F) : ∀ p ∈ F, p.1 ≠ h.length := by
  intro p hp h1
  have := lt_of_getElem? (r.frame p hp).1
  omega

end Rep

theorem same_str_symm {k : Val} {s : Str} : Val.same (.str s) k = k.same (.str s) := by
  cases k <;> simp [Val.same, Bool.beq_comm]

theorem lookup_insert_ne {k : Val} {s : Str} {v : Val} (h : k.same (.str s) = false) : ∀ items : List (Val × Val),
    lookup (insert items (.str s) v) k = lookup items k
  | [] => by
    simp only [insert, lookup, same_str_symm, h]; rfl
  | p :: t => by
    simp only [insert, lookup]
    split
    next h1 =>
      have : p.1 = .str s := by
        cases hp : p.1 <;> simp [hp, Val.same] at h1
        rw [h1]
      simp only [lookup, this, same_str_symm, h, Bool.false_eq_true, if_false]
    next h1 => simp only [lookup, lookup_insert_ne h t]

theorem Keeps.insert {items : List (Val × Val)} {key : Str} (hk : key = py"p" ∨ key = py"1") (v : Val) :
    Keeps items (Src.insert items (.str key) v) := by
  intro k h1 h2 _
  rcases hk with rfl | rfl
  · exact lookup_insert_ne h1 _
  · exact lookup_insert_ne h2 _

/-! ## The loop -/

theorem orAt_set : ∀ {bm : Bytes} {i bit : Nat}, i < bm.length →
    orAt bm i bit = some (bm.set i (UInt8.ofNat ((bm[i]?.getD 0).toNat ||| 1 <<< bit)))
  | b :: t, 0, bit, _ => rfl
  | b :: t, i + 1, bit, h => by
    simp only [orAt, orAt_set (bm := t) (i := i) (bit := bit) (by simpa using h)]
    simp

/-- encoder.py:326-337. -/
def bitmapBody : List Stmt :=
  match encodeBitmap2 with
  | .loop _ _ b => b
  | _ => []

theorem exec_aug_sub (c k e : Expr) (op : BinOp) (st : St σ) : exec rt call (.aug (.sub c k) op e) st = (do
    let c ← eval rt call c
    let k ← eval rt call k
    let a ← subVal c k
    let b ← eval rt call e
    subSet c k (← augop op a b)
    pure .next : M ε σ Flow) st := rfl

theorem subVal_ref_barray {l : Nat} {st : St σ} {b : Bytes} {i : Nat} (h : st.heap[l]? = some (.barray b)) (hi : i < b.length) :
    (subVal (.ref l) (.int i) : M ε σ Val) st = (.ok (.int ((b[i]?.getD 0).toNat)), st) := by
  have h1 : ¬ ((i : Int) < 0) := by omega
  have h2 : (0 : Int) ≤ i ∧ (i : Int) < b.length := by omega
  simp only [subVal, PyM.run_bind, deref_run h, indexOf, if_neg h1, if_pos h2, Int.toNat_natCast, PyM.run_pure]

theorem subSet_ref_barray {l : Nat} {st : St σ} {b : Bytes} {i y : Nat} (h : st.heap[l]? = some (.barray b)) (hi : i < b.length) (hy : y < 256) :
    (subSet (.ref l) (.int i) (.int y) : M ε σ Unit) st = (.ok (), { st with heap := st.heap.set l (.barray (b.set i (UInt8.ofNat y))) }) := by
  have h1 : ¬ ((i : Int) < 0) := by omega
  have h2 : (0 : Int) ≤ i ∧ (i : Int) < b.length := by omega
  have h3 : (0 : Int) ≤ y ∧ (y : Int) < 256 := by omega
  simp only [subSet, PyM.run_bind, deref_run h, indexOf, if_neg h1, if_pos h2, Int.toNat_natCast, if_pos h3, store_run]

theorem bitmap_loop {off bl : Nat} {enc : EncDoc} (hF : ∀ p ∈ F, p.1 ≠ bl) : ∀ (L : List Nat) (bm : Bytes) (st : St σ), bm.length = 8 →
    (∀ f ∈ L, off + 1 ≤ f ∧ f ≤ off + 64) → st.vars .bitmap = some (.ref bl) → st.vars .field_offset = some (.int off) →
    Rep st.heap dd de items enc ((bl, .barray bm) :: F) →
    ∃ V bm' h', bitmapLoop off L bm = some bm' ∧
      iterate (execs rt call bitmapBody) [.field] (natVals L) st = (.ok .next, { st with vars := V, heap := h' }) ∧
      Rep h' dd de items enc ((bl, .barray bm') :: F) ∧ ∀ x, x ≠ .field → x ≠ .byte → x ≠ .bit → V x = st.vars x
  | [], bm, st, _, _, _, _, r => ⟨st.vars, bm, st.heap, rfl, rfl, r, fun _ _ _ _ => rfl⟩
  | f :: L, bm, st, hl, hr, v1, v2, r => by
    have hf := hr f (by simp)
    generalize hk : f - (1 + off) = k
    have hi : k / 8 < bm.length := by omega
    generalize hbit : 7 - (k - k / 8 * 8) = bit
    have hb8 : bit < 8 := by omega
    have e1 : (f : Int) - (1 + off) = (k : Int) := by omega
    have e2 : (k : Int).fdiv 8 = ((k / 8 : Nat) : Int) := by
      rw [Int.fdiv_eq_ediv_of_nonneg _ (by decide)]; simp
    have e3 : (7 : Int) - ((k : Int) - ((k / 8 : Nat) : Int) * 8) = (bit : Int) := by omega
    have e4 : ¬ ((bit : Int) < 0) := by omega
    obtain ⟨w, hw⟩ : ∃ w : Nat, w = 1 <<< bit := ⟨_, rfl⟩
    have e5 : (1 : Int) * (2 : Int) ^ bit = (w : Int) := by rw [hw]; simp [Nat.shiftLeft_eq]
    have hget := subVal_ref_barray (ε := ε) (st := { st with vars := (((st.vars.set .field (.int f)).set .field (.int k)).set .byte (.int (k / 8 : Nat))).set .bit (.int bit) }) r.frame_get hi
    generalize hy : (bm[k / 8]?.getD 0).toNat ||| w = y
    have hy256 : y < 256 := by
      subst hy
      have h1 : (bm[k / 8]?.getD 0).toNat < 2 ^ 8 := UInt8.toNat_lt _
      have h2 : w < 2 ^ 8 := by
        rw [hw, Nat.one_shiftLeft]; exact Nat.pow_lt_pow_right (by decide) hb8
      exact Nat.or_lt_two_pow h1 h2
    have hset := subSet_ref_barray (ε := ε) (st := { st with vars := (((st.vars.set .field (.int f)).set .field (.int k)).set .byte (.int (k / 8 : Nat))).set .bit (.int bit) }) r.frame_get hi hy256
    have hor : orAt bm (k / 8) bit = some (bm.set (k / 8) (UInt8.ofNat y)) := by rw [orAt_set hi, ← hw, hy]
    obtain ⟨V, bm', h', g1, g2, g3, g4⟩ := bitmap_loop hF L (bm.set (k / 8) (UInt8.ofNat y))
      { st with vars := (((st.vars.set .field (.int f)).set .field (.int k)).set .byte (.int (k / 8 : Nat))).set .bit (.int bit),
                heap := st.heap.set bl (.barray (bm.set (k / 8) (UInt8.ofNat y))) }
      (by simpa using hl) (fun x hx => hr x (by simp [hx])) (by simp [src, v1]) (by simp [src, v2]) (r.setFrame hF _)
    refine ⟨V, bm', h', ?_, ?_, g3, fun x a b c => by rw [g4 x a b c]; simp [src, a, b, c]⟩
    · simp only [bitmapLoop, hk, hbit, hor]; exact g1
    · have e6 : ¬ (((bm[k / 8]?.getD 0).toNat : Int) < 0 ∨ (w : Int) < 0) := by omega
      have hbody : execs rt call bitmapBody { st with vars := st.vars.set .field (.int f) } =
          (.ok .next, { st with vars := (((st.vars.set .field (.int f)).set .field (.int k)).set .byte (.int (k / 8 : Nat))).set .bit (.int bit),
                                heap := st.heap.set bl (.barray (bm.set (k / 8) (UInt8.ofNat y))) }) := by
        simp only [bitmapBody, encodeBitmap2]
        have s1 : exec rt call (.aug (.name .field) .sub (.bin .add (.int 1) (.name .field_offset))) { st with vars := st.vars.set .field (.int f) } =
            (.ok .next, { st with vars := (st.vars.set .field (.int f)).set .field (.int k) }) := by
          simp [src, getVar, v2, e1]
        have s2 : exec rt call (.assign [(.name .byte)] (.bin .floordiv (.name .field) (.int 8))) { st with vars := (st.vars.set .field (.int f)).set .field (.int k) } =
            (.ok .next, { st with vars := ((st.vars.set .field (.int f)).set .field (.int k)).set .byte (.int (k / 8 : Nat)) }) := by
          simp [src, getVar, e2]
        have s3 : exec rt call (.assign [(.name .bit)] (.bin .sub (.int 7) (.bin .sub (.name .field) (.bin .mul (.name .byte) (.int 8))))) { st with vars := ((st.vars.set .field (.int f)).set .field (.int k)).set .byte (.int (k / 8 : Nat)) } =
            (.ok .next, { st with vars := (((st.vars.set .field (.int f)).set .field (.int k)).set .byte (.int (k / 8 : Nat))).set .bit (.int bit) }) := by
          have e3' : (7 : Int) - ((k : Int) - (k : Int) / 8 * 8) = (bit : Int) := by omega
          simp [src, getVar, e3']
        have s4 : exec rt call (.aug (.sub (.name .bitmap) (.name .byte)) .bor (.bin .shl (.int 1) (.name .bit))) { st with vars := (((st.vars.set .field (.int f)).set .field (.int k)).set .byte (.int (k / 8 : Nat))).set .bit (.int bit) } =
            (.ok .next, { st with vars := (((st.vars.set .field (.int f)).set .field (.int k)).set .byte (.int (k / 8 : Nat))).set .bit (.int bit),
                                  heap := st.heap.set bl (.barray (bm.set (k / 8) (UInt8.ofNat y))) }) := by
          have hgv : ∀ st' : St σ, st'.vars = (((st.vars.set .field (.int f)).set .field (.int k)).set .byte (.int (k / 8 : Nat))).set .bit (.int bit) →
              getVar rt .bitmap st' = (.ok (.ref bl), st') ∧ getVar rt .byte st' = (.ok (.int (k / 8 : Nat)), st') ∧ getVar rt .bit st' = (.ok (.int bit), st') := by
            intro st' h
            exact ⟨getVar_some (by rw [h]; simp [src, v1]), getVar_some (by rw [h]; simp [src]), getVar_some (by rw [h]; simp [src])⟩
          obtain ⟨q1, q2, q3⟩ := hgv { st with vars := (((st.vars.set .field (.int f)).set .field (.int k)).set .byte (.int (k / 8 : Nat))).set .bit (.int bit) } rfl
          rw [exec_aug_sub]
          simp only [src, q1, q2, q3, hget, if_neg e4, Int.toNat_natCast, e5, augop_int, if_neg e6, hy, hset]
        simp only [execs_cons, s1, s2, s3, s4]
        rfl
      simp only [natVals, List.map_cons, iterate, bindNames, PyM.run_bind, setVar_run, hbody]
      exact g2

/-! ## The rest -/

/-- encoder.py:341-345 of the model. -/
def bitmapDoc (key : Str) (ext : Bool) (hex : Str) : EncM Unit :=
  if ext then docAppend key hex
  else do
    docSet key hex
    encSet key ⟨[], []⟩

/-- encoder.py:347-357 of the model. -/
def bitmapEnc (env : PyEnv) (key : Str) (f : PartialField) (bm : Bytes) (hex : Str) : EncM Bytes := do
  let dataEnc ← need .keyError py"data_enc" f.dataEnc
  if dataEnc = py"b" then pure bm
  else do
    let p ← PyM.lift (encodeTextField env (.str hex) key f.seen py"bytes")
    pure p.1

/-- encoder.py:359-364 of the model. -/
def bitmapPut (key : Str) (ext : Bool) (data : Bytes) : EncM Bytes := do
  let e ← encGet key
  if ext then encSet key { e with data := e.data ++ data }
  else encSet key { e with data := data }
  return data

theorem encodeBitmap_split (env : PyEnv) (key : Str) (f : PartialField) (off : Nat) (ext : Bool) (fields : List Nat) {bm : Bytes}
    (hb : bitmapLoop off fields (List.replicate 8 0) = some bm) :
    encodeBitmapP env key f off ext fields = (do
      bitmapDoc key ext (upperAscii (bytesHex bm))
      let data ← bitmapEnc env key f bm (upperAscii (bytesHex bm))
      bitmapPut key ext data) := by
  funext es
  simp only [encodeBitmapP, hb, bitmapDoc, bitmapEnc, bitmapPut]
  cases hd : f.dataEnc with
  | none =>
    cases ext
    · simp [need, docSet, encSet, PyM.run_bind]
    · simp only [need, if_true, PyM.run_bind]
      rcases docAppend key (upperAscii (bytesHex bm)) es with ⟨_ | _, _⟩ <;> rfl
  | some den =>
  simp only [need]
  cases ext
  · by_cases h : den = py"b"
    · simp [h, docSet, encSet, PyM.run_bind]
    · simp only [h, Bool.false_eq_true, if_false, docSet, encSet, PyM.run_bind, PyM.run_modify, PyM.run_lift, PyM.run_pure]
      cases encodeTextField env (.str (upperAscii (bytesHex bm))) key f.seen py"bytes" <;> rfl
  · by_cases h : den = py"b"
    · simp [h, PyM.run_bind]
    · simp only [h, if_true, if_false, PyM.run_bind, PyM.run_lift, PyM.run_pure]
      rcases docAppend key (upperAscii (bytesHex bm)) es with ⟨_ | _, _⟩
      · rfl
      · cases encodeTextField env (.str (upperAscii (bytesHex bm))) key f.seen py"bytes" <;> rfl

/-- The variables of `_encode_bitmap` after its loop. -/
structure BitmapVarsE (V : Vars) (dd de bl : Nat) (key : Str) (fv : Val) (ext : Bool) : Prop where
  EncodeError : V .EncodeError = none
  bytes : V .bytes = none
  text : V ._encode_text_field = none
  doc_dec : V .doc_dec = some (.ref dd)
  doc_enc : V .doc_enc = some (.ref de)
  field_key : V .field_key = some (.str key)
  field_spec : V .field_spec = some fv
  is_extended : V .is_extended = some (.bool ext)
  bitmap : V .bitmap = some (.ref bl)

theorem BitmapVarsE.set {V : Vars} {bl : Nat} {key : Str} {fv : Val} {ext : Bool} (h : BitmapVarsE V dd de bl key fv ext) {x : Ident} (v : Val)
    (hx : x ∈ [Ident.hex_bitmap, .encoded_data, .underscore]) : BitmapVarsE (V.set x v) dd de bl key fv ext := by
  obtain ⟨h1, h2, h3, h4, h5, h6, h7, h8, h9⟩ := h
  simp only [List.mem_cons, List.not_mem_nil, or_false] at hx
  rcases hx with rfl | rfl | rfl <;> constructor <;> simp [src, *]

/-- `doc_enc[key]["data"]` for a missing key. -/
theorem eval_encData_none {st : St σ} {dec : List (Val × Val)} {enc : EncDoc} {key : Expr} {k : Str}
    (r : Rep st.heap dd de dec enc F) (hv : st.vars .doc_enc = some (.ref de)) (h1 : eval rt call key st = (.ok (.str k), st))
    (he : enc.get? k = none) :
    eval rt call (.sub (.sub (.name .doc_enc) key) (.str py"data")) st = (.error (.std .KeyError (.str k)), st) := by
  obtain ⟨loc, hi, -⟩ := r.henc
  simp [src, getVar_some hv, h1, subVal_ref_dict _ hi, encItems_get, he]

/-- `doc_dec[key] = v`. -/
theorem exec_docSet {st : St σ} {enc : EncDoc} {key : Expr} {e : Expr} {k v : Str}
    (h1 : eval rt call e st = (.ok (.str v), st)) (r : Rep st.heap dd de items enc F) (hv : st.vars .doc_dec = some (.ref dd))
    (h2 : eval rt call key st = (.ok (.str k), st)) :
    exec rt call (.assign [(.sub (.name .doc_dec) key)] e) st =
      (.ok .next, { st with heap := st.heap.set dd (.dict (insert items (.str k) (.str v))) }) := by
  simp [src, h1, getVar_some hv, h2, subSet_ref_dict _ _ r.hdec]

/-- encoder.py:341-345. -/
theorem encodeBitmap4_run {bl : Nat} {key hex : Str} {fv : Val} {ext : Bool} (hkey : key = py"p" ∨ key = py"1") {es : EncState} {st : St σ}
    (vs : BitmapVarsE st.vars dd de bl key fv ext) (v1 : st.vars .hex_bitmap = some (.str hex))
    (r : Rep st.heap dd de items es.enc F) (di : DocIs items es.dec) :
    (∃ h' items' es', bitmapDoc key ext hex es = (.ok (), es') ∧ exec rt call encodeBitmap4 st = (.ok .next, { st with heap := h' }) ∧
      Rep h' dd de items' es'.enc F ∧ DocIs items' es'.dec ∧ Keeps items items') ∨
    (∃ x exc, bitmapDoc key ext hex es = (.error x, es) ∧ exec rt call encodeBitmap4 st = (.error exc, st) ∧ ∀ h, ErrIsE rt h dd de x exc) := by
  have hk : ∀ h, eval rt call (.name .field_key) { st with heap := h } = (.ok (.str key), { st with heap := h }) := fun h => by
    simp [src, getVar, vs.field_key]
  cases ext with
  | false =>
    left
    have s1 := exec_docSet (rt := rt) (call := call) (key := .name .field_key) (e := .name .hex_bitmap) (v := hex)
      (by simp [src, getVar, v1]) r vs.doc_dec (hk st.heap)
    obtain ⟨h', s2, r2⟩ := exec_newEnc (rt := rt) (call := call) (st := { st with heap := st.heap.set dd (.dict (insert items (.str key) (.str hex))) })
      (key := .name .field_key) (a := .bytes []) (b := .bytes []) (k := key) (l := []) (d := []) (r.setDec (insert items (.str key) (.str hex))) vs.doc_enc
      (by simp [src]) (by simp [src]) hk
    refine ⟨h', insert items (.str key) (.str hex), ⟨es.dec.set (.str key) (.str hex), es.enc.set key ⟨[], []⟩⟩, ?_, ?_, r2, di.set, Keeps.insert hkey _⟩
    · simp [bitmapDoc, docSet, encSet, PyM.run_bind]
    · simp [encodeBitmap4, src, getVar, vs.is_extended, s1, s2]
  | true =>
    rcases eval_docGet (rt := rt) (call := call) r di vs.doc_dec (hk st.heap) with ⟨hd, hev⟩ | ⟨x, v, hd, hx, hev⟩
    · right
      refine ⟨.keyError key, .std .KeyError (.str key), ?_, ?_, fun h => rfl⟩
      · simp [bitmapDoc, docAppend, docGet, PyM.run_bind, hd]
      · simp [encodeBitmap4, src, getVar, vs.is_extended, hev]
    · by_cases hs : ∃ s, v = .str s
      · obtain ⟨s, rfl⟩ := hs
        have hx' := valOf_str hx
        subst hx'
        left
        have s1 := exec_docSet (rt := rt) (call := call) (key := .name .field_key) (e := .bin .add (.sub (.name .doc_dec) (.name .field_key)) (.name .hex_bitmap)) (v := s ++ hex)
          (by simp [src, getVar, hev, v1]) r vs.doc_dec (hk st.heap)
        refine ⟨_, insert items (.str key) (.str (s ++ hex)), ⟨es.dec.set (.str key) (.str (s ++ hex)), es.enc⟩, ?_, ?_,
          r.setDec (insert items (.str key) (.str (s ++ hex))), di.set, Keeps.insert hkey _⟩
        · simp [bitmapDoc, docAppend, docGet, docSet, PyM.run_bind, hd]
        · simp [encodeBitmap4, src, getVar, vs.is_extended, s1]
      · have hs : ∀ s, v ≠ .str s := fun s h => hs ⟨s, h⟩
        have hadd : (binop .add x (.str hex) : M ε σ Val) = fail .TypeError := (valOf_add hx hs hex).2
        right
        refine ⟨.typeError, .std .TypeError .none, ?_, ?_, fun h => rfl⟩
        · simp only [bitmapDoc, if_true, docAppend, docGet, PyM.run_bind, PyM.run_get, hd]
          cases v with
          | str s => exact absurd rfl (hs s)
          | _ => rfl
        · simp [encodeBitmap4, src, getVar, vs.is_extended, hev, v1, hadd]

/-- encoder.py:347-357. -/
theorem encodeBitmap5_run (hg : ∀ x, rt.globals x = none) (hc : EncCalls rt call) {bl : Nat} {key hex : Str} {fv : Val} {f : PartialField} {ext : Bool}
    {bm : Bytes} (hv : PFieldVal fv f) {es : EncState} {st : St σ}
    (vs : BitmapVarsE st.vars dd de bl key fv ext) (v1 : st.vars .hex_bitmap = some (.str hex))
    (r : Rep st.heap dd de items es.enc F) (hF : (bl, .barray bm) ∈ F) (di : DocIs items es.dec) :
    (∃ data V h' items', bitmapEnc rt.env key f bm hex es = (.ok data, es) ∧
      exec rt call encodeBitmap5 st = (.ok .next, { st with vars := V, heap := h' }) ∧ BitmapVarsE V dd de bl key fv ext ∧
      V .encoded_data = some (.bytes data) ∧ Rep h' dd de items' es.enc F ∧ DocIs items' es.dec ∧ Keeps items items') ∨
    (∃ x exc h' items', bitmapEnc rt.env key f bm hex es = (.error x, es) ∧ exec rt call encodeBitmap5 st = (.error exc, { st with heap := h' }) ∧
      ErrIsE rt h' dd de x exc ∧ Rep h' dd de items' es.enc F ∧ DocIs items' es.dec ∧ Keeps items items') := by
  obtain ⟨its, rfl, g1, -⟩ := hv
  cases hde : f.dataEnc with
  | none =>
    right
    rw [hde] at g1
    refine ⟨.keyError py"data_enc", .std .KeyError (.str py"data_enc"), st.heap, items, by simp [bitmapEnc, need, hde, PyM.run_bind], ?_, rfl, r, di, Keeps.refl _⟩
    simp [encodeBitmap5, src, getVar, vs.field_spec, g1]
  | some den =>
  have g1' : lookup its (.str py"data_enc") = some (.str f.seen.dataEnc) := by rw [g1, seen_dataEnc hde, hde]; rfl
  rw [hde] at g1
  by_cases hb : den = py"b"
  · left
    refine ⟨bm, st.vars.set .encoded_data (.bytes bm), st.heap, items, by simp [bitmapEnc, need, hde, hb, PyM.run_bind], ?_, vs.set _ (by simp), by simp [src], r, di, Keeps.refl _⟩
    have hbb : (builtin rt .bytes [.ref bl] []) st = (.ok (.bytes bm), st) := by
      have : builtin rt .bytes [.ref bl] [] = (do
        match ← deref bl with
        | .barray b => pure (.bytes b)
        | _ => stuck) := rfl
      rw [this, PyM.run_bind, deref_run (r.frame _ hF).1]; rfl
    simp [encodeBitmap5, src, getVar, vs.field_spec, g1, hb, vs.bytes, hc.bytes, vs.bitmap, hbb]
  · have hm : bitmapEnc rt.env key f bm hex es = match encodeTextField rt.env (.str hex) key f.seen py"bytes" with
        | .ok p => (.ok p.1, es)
        | .error e => (.error e, es) := by
      simp only [bitmapEnc, need, hde, hb, if_false, PyM.run_bind, PyM.run_pure, PyM.run_lift]
      cases encodeTextField rt.env (.str hex) key f.seen py"bytes" <;> rfl
    rw [hm]
    have hsim := encodeTextField_sim (rt := rt) (key := key) (count := py"bytes") (x := .str hex) hg ⟨its, rfl, g1'⟩ rfl r di
    rw [← hc.text] at hsim
    obtain ⟨h', y, items', ho, hr, hdi, hk, hx⟩ := hsim
    have hcall : eval rt call (.call ._encode_text_field [(.name .doc_dec), (.name .doc_enc), (.name .hex_bitmap), (.name .field_key), (.name .field_spec), (.str py"bytes")] [] []) st =
        (y, { st with heap := h' }) := by
      simp [eval_call vs.text, src, getVar, vs.doc_dec, vs.doc_enc, v1, vs.field_key, vs.field_spec, ho]
    rcases hres : encodeTextField rt.env (.str hex) key f.seen py"bytes" with e | p
    · rw [hres] at hx hr
      obtain ⟨exc, rfl, hxx⟩ := hx
      right
      refine ⟨e, exc, h', items', rfl, ?_, hxx, hr, hdi, hk⟩
      simp [encodeBitmap5, src, getVar, vs.field_spec, g1, hb, exec, hcall]
    · rw [hres] at hx hr
      simp only [] at hx
      subst hx
      left
      refine ⟨p.1, (st.vars.set .encoded_data (.bytes p.1)).set .underscore (.int p.2), h', items', rfl, ?_,
        (vs.set _ (by simp)).set _ (by simp), by simp [src], hr, hdi, hk⟩
      simp [encodeBitmap5, src, getVar, vs.field_spec, g1, hb, exec, hcall, pairVal]

/-- encoder.py:359-362. -/
theorem encodeBitmap6_run {bl : Nat} {key : Str} {fv : Val} {ext : Bool} {data : Bytes} {es : EncState} {st : St σ}
    (vs : BitmapVarsE st.vars dd de bl key fv ext) (v1 : st.vars .encoded_data = some (.bytes data)) (r : Rep st.heap dd de items es.enc F)
    (hpre : ext = false → ∃ e, es.enc.get? key = some e) :
    (∃ h' enc', bitmapPut key ext data es = (.ok data, { es with enc := enc' }) ∧ exec rt call encodeBitmap6 st = (.ok .next, { st with heap := h' }) ∧
      Rep h' dd de items enc' F) ∨
    (∃ x exc, bitmapPut key ext data es = (.error x, es) ∧ exec rt call encodeBitmap6 st = (.error exc, st) ∧ ∀ h, ErrIsE rt h dd de x exc) := by
  have hk : eval rt call (.name .field_key) st = (.ok (.str key), st) := by simp [src, getVar, vs.field_key]
  cases he : es.enc.get? key with
  | none =>
    cases ext with
    | false => obtain ⟨e, h⟩ := hpre rfl; rw [he] at h; cases h
    | true =>
      right
      refine ⟨.keyError key, .std .KeyError (.str key), ?_, ?_, fun h => rfl⟩
      · simp [bitmapPut, encGet, PyM.run_bind, he]
      · have hd := eval_encData_none (rt := rt) (call := call) r vs.doc_enc hk he
        simp [encodeBitmap6, src, getVar, vs.is_extended, hd]
  | some e =>
    left
    cases ext with
    | false =>
      obtain ⟨h', hx, hr⟩ := exec_setData (rt := rt) (call := call) (v := .name .encoded_data) (b := data) r vs.doc_enc hk he (by simp [src, getVar, v1])
      refine ⟨h', _, ?_, ?_, hr⟩
      · simp [bitmapPut, encGet, encSet, PyM.run_bind, he]
      · simp [encodeBitmap6, src, getVar, vs.is_extended, hx]
    | true =>
      have hd := eval_encData (rt := rt) (call := call) r vs.doc_enc hk he
      obtain ⟨h', hx, hr⟩ := exec_setData (rt := rt) (call := call) (v := .bin .add (.sub (.sub (.name .doc_enc) (.name .field_key)) (.str py"data")) (.name .encoded_data)) (b := e.data ++ data)
        r vs.doc_enc hk he (by simp [src, hd, getVar, v1])
      refine ⟨h', _, ?_, ?_, hr⟩
      · simp [bitmapPut, encGet, encSet, PyM.run_bind, he]
      · simp [encodeBitmap6, src, getVar, vs.is_extended, hx]

/-- The elements of a set of field numbers, in some order. -/
theorem elements_fields (ho : ∀ xs, (rt.order xs).Perm xs) {st : St σ} {fl : Nat} {fields : List Nat} (h : st.heap[fl]? = some (fieldSet fields)) :
    ∃ L : List Nat, L.Perm fields ∧ elements rt (.ref fl) st = (.ok (natVals L), st) := by
  have hp := ho (fields.map fun n : Nat => (n : Int))
  refine ⟨(rt.order (fields.map fun n : Nat => (n : Int))).map Int.toNat, ?_, ?_⟩
  · have := hp.map Int.toNat
    rw [List.map_map] at this
    have e : (Int.toNat ∘ fun n : Nat => (n : Int)) = id := by funext n; simp
    rwa [e, List.map_id] at this
  · have : elements rt (.ref fl) st = (.ok ((rt.order (fields.map fun n : Nat => (n : Int))).map .int), st) := by
      simp only [elements, PyM.run_bind, deref_run h, fieldSet, PyM.run_pure]
    rw [this]
    simp only [natVals, List.map_map]
    refine congrArg (fun x => (Except.ok x, st)) (List.map_congr_left fun n hn => ?_)
    obtain ⟨m, -, rfl⟩ := List.mem_map.1 (hp.mem_iff.1 hn)
    simp

/-- encoder.py:283-364 `_encode_bitmap`. -/
theorem encodeBitmap_sim (hg : ∀ x, rt.globals x = none) (ho : ∀ xs, (rt.order xs).Perm xs) (hc : EncCalls rt call) {fv : Val} {f : PartialField} {key : Str}
    {off fl : Nat} {ext : Bool} {fields : List Nat} (hkey : key = py"p" ∨ key = py"1") (hr : ∀ f ∈ fields, off + 1 ≤ f ∧ f ≤ off + 64)
    {es : EncState} {st : St σ} (hv : PFieldVal fv f) (r : Rep st.heap dd de items es.enc F) (hfl : (fl, fieldSet fields) ∈ F) (di : DocIs items es.dec) :
    SimE rt dd de items (fun _ => F) (fun b => .bytes b) (encodeBitmapP rt.env key f off ext fields es) st
      (invoke rt call encodeBitmapDef [.ref dd, .ref de, .str key, fv, .int off, .bool ext, .ref fl] [] st) := by
  refine simE_of_body rfl rfl rfl rfl ?_
  generalize hst0 : ({ st with vars := _, locals := _, ys := _ } : St σ) = st0
  have hheap : st0.heap = st.heap := by subst hst0; rfl
  have v0 : st0.vars .EncodeError = none := by subst hst0; simp [src, encodeBitmapDef]
  have v1 : st0.vars .bytes = none := by subst hst0; simp [src, encodeBitmapDef]
  have v2 : st0.vars ._encode_text_field = none := by subst hst0; simp [src, encodeBitmapDef]
  have v3 : st0.vars .doc_dec = some (.ref dd) := by subst hst0; simp [src, encodeBitmapDef]
  have v4 : st0.vars .doc_enc = some (.ref de) := by subst hst0; simp [src, encodeBitmapDef]
  have v5 : st0.vars .field_key = some (.str key) := by subst hst0; simp [src, encodeBitmapDef]
  have v6 : st0.vars .field_spec = some fv := by subst hst0; simp [src, encodeBitmapDef]
  have v7 : st0.vars .is_extended = some (.bool ext) := by subst hst0; simp [src, encodeBitmapDef]
  have v8 : st0.vars .field_offset = some (.int off) := by subst hst0; simp [src, encodeBitmapDef]
  have v9 : st0.vars .fields = some (.ref fl) := by subst hst0; simp [src, encodeBitmapDef]
  have v10 : st0.vars .bytearray = none := by subst hst0; simp [src, encodeBitmapDef]
  clear hst0
  rw [← hheap] at r
  -- encoder.py:323
  have hba : builtin rt .bytearray [.bytes [0, 0, 0, 0, 0, 0, 0, 0]] [] = alloc (.barray [0, 0, 0, 0, 0, 0, 0, 0]) := rfl
  refine simEX_cons (vs := st0.vars.set .bitmap (.ref st0.heap.length)) (h := st0.heap ++ [.barray (List.replicate 8 0)])
    (by simp [encodeBitmap1, src, v10, hc.bytearray, hba]) ?_
  have r1 := r.alloc (.barray (List.replicate 8 0))
  have hF := r.frame_ne
  generalize st0.heap.length = bl at r1 hF ⊢
  generalize st0.heap ++ [Obj.barray (List.replicate 8 0)] = h1 at r1 ⊢
  -- encoder.py:325-337
  obtain ⟨L, hL, hel⟩ := elements_fields (rt := rt) ho (st := { st0 with vars := st0.vars.set .bitmap (.ref bl), heap := h1 })
    (r1.frame _ (List.mem_cons_of_mem _ hfl)).1
  obtain ⟨V, bm, h2, hb, hloop, r2, hV⟩ := bitmap_loop (rt := rt) (call := call) hF L (List.replicate 8 0)
    { st0 with vars := st0.vars.set .bitmap (.ref bl), heap := h1 } (by simp) (fun f hf => hr f (hL.mem_iff.1 hf))
    (by simp [src]) (by simp [src, v8]) r1
  rw [bitmapLoop_perm hL] at hb
  refine simEX_cons (vs := V) (h := h2) ?_ ?_
  · have : encodeBitmap2 = .loop [.field] (.name .fields) bitmapBody := rfl
    rw [this, exec_loop]
    have hn : getVar rt .fields { st0 with vars := st0.vars.set .bitmap (.ref bl), heap := h1 } =
      (.ok (.ref fl), { st0 with vars := st0.vars.set .bitmap (.ref bl), heap := h1 }) := getVar_some (by simp [src, v9])
    simp only [PyM.run_bind, eval_name, hn, hel, hloop]
  have vs : BitmapVarsE V dd de bl key fv ext := by
    constructor <;> rw [hV _ (by decide) (by decide) (by decide)] <;> simp [src, *]
  -- encoder.py:339
  refine simEX_cons (vs := V.set .hex_bitmap (.str (upperAscii (bytesHex bm)))) (h := h2) ?_ ?_
  · have hx := objMethod_hex (ε := ε) (st := { st0 with vars := V, heap := h2 }) r2.frame_get
    simp [encodeBitmap3, src, getVar, vs.bitmap, hx]
  have vs1 := vs.set (x := .hex_bitmap) (.str (upperAscii (bytesHex bm))) (by simp)
  have a1 : (V.set .hex_bitmap (.str (upperAscii (bytesHex bm)))) .hex_bitmap = some (.str (upperAscii (bytesHex bm))) := by simp [src]
  rw [encodeBitmap_split _ _ _ _ _ _ hb]
  generalize V.set .hex_bitmap (.str (upperAscii (bytesHex bm))) = V1 at vs1 a1 ⊢
  generalize upperAscii (bytesHex bm) = hex at a1 ⊢
  simp only [PyM.run_bind]
  -- encoder.py:341-345
  rcases encodeBitmap4_run (rt := rt) (call := call) (st := { st0 with vars := V1, heap := h2 }) hkey vs1 a1 r2 di with
    ⟨h3, items3, es3, m3, x3, r3, d3, k3⟩ | ⟨x, exc, m3, x3, e3⟩
  rotate_left
  · rw [m3]
    exact simEX_err (vs := V1) (h := h2) (G := fun _ => F) (r2.mono fun p hp => List.mem_cons_of_mem _ hp) di (Keeps.refl _) x3 (e3 _) rfl
  rw [m3]
  simp only []
  refine simEX_cons (vs := V1) (h := h3) x3 ?_
  have hpre : ext = false → ∃ e, es3.enc.get? key = some e := by
    rintro rfl
    simp [bitmapDoc, docSet, encSet, PyM.run_bind] at m3
    subst m3
    exact ⟨_, Dict.get?_set_same _ _ _⟩
  -- encoder.py:347-357
  rcases encodeBitmap5_run (rt := rt) (call := call) (st := { st0 with vars := V1, heap := h3 }) (bm := bm) hg hc hv vs1 a1 r3 List.mem_cons_self d3 with
    ⟨data, V2, h4, items4, m4, x4, vs2, a2, r4, d4, k4⟩ | ⟨x, exc, h4, items4, m4, x4, e4, r4, d4, k4⟩
  rotate_left
  · rw [m4]
    exact simEX_err (vs := V1) (h := h4) (G := fun _ => F) (r4.mono fun p hp => List.mem_cons_of_mem _ hp) d4 (k3.trans k4) x4 e4 rfl
  rw [m4]
  simp only []
  refine simEX_cons (vs := V2) (h := h4) x4 ?_
  -- encoder.py:359-362
  rcases encodeBitmap6_run (rt := rt) (call := call) (st := { st0 with vars := V2, heap := h4 }) vs2 a2 r4 hpre with
    ⟨h5, enc5, m5, x5, r5⟩ | ⟨x, exc, m5, x5, e5⟩
  rotate_left
  · rw [m5]
    exact simEX_err (vs := V2) (h := h4) (G := fun _ => F) (r4.mono fun p hp => List.mem_cons_of_mem _ hp) d4 (k3.trans k4) x5 (e5 _) rfl
  rw [m5]
  refine simEX_cons (vs := V2) (h := h5) x5 ?_
  refine simEX_ret (vs := V2) (h := h5) (G := fun _ => F) (r5.mono fun p hp => List.mem_cons_of_mem _ hp) d4 (k3.trans k4) ?_ rfl
  simp [encodeBitmap7, src, getVar, a2]

end Iso8583.Src
