import Verif.Lemmas.DecodeField
/-! # Decoding the message type and the bitmaps -/

namespace Iso8583
open PyM

/-- Text of data that is either binary or in a text encoding. -/
def plainValue (env : PyEnv) (fs : FieldSpec) (D : Bytes) : Except DecMsg Str :=
  if fs.dataEnc = py"b" then .ok (upperAscii (bytesHex D))
  else match bytesDecode env fs.dataEnc D with
    | .ok t => .ok t
    | .error .lookup => .error .unknownEncoding
    | .error .invalid => .error .invalidData

theorem decodeTextData_run (env : PyEnv) (D : Bytes) (idx : Nat) (key : Str) (fs : FieldSpec) (st : DecState)
    (hb : fs.dataEnc ≠ py"b") :
    decodeTextData env D idx key fs st =
      match plainValue env fs D with
      | .ok t => (.ok t, st)
      | .error m => (.error (.err m idx key), st) := by
  simp only [decodeTextData, plainValue, if_neg hb]
  cases bytesDecode env fs.dataEnc D with
  | ok t => rfl
  | error e => cases e <;> rfl

theorem plainValue_aboutData {env : PyEnv} {fs : FieldSpec} {D : Bytes} {m : DecMsg}
    (h : plainValue env fs D = .error m) : m.aboutData = true ∧ fs.dataEnc ≠ py"b" := by
  unfold plainValue at h
  split at h
  · simp at h
  · next hb =>
    refine ⟨?_, hb⟩
    cases hd : bytesDecode env fs.dataEnc D with
    | ok t => rw [hd] at h; simp at h
    | error e => cases e <;> simp only [hd, Except.error.injEq] at h <;> rw [← h] <;> rfl

/-! ## Message type -/

/-- Width of the message type in bytes. -/
def typeWidth (fs : FieldSpec) : Nat := if fs.dataEnc = py"b" then 2 else 4

/-- Outcome of decoding the message type. -/
def typeOut (env : PyEnv) (s : Bytes) (idx : Nat) (fs : FieldSpec) :
    Except (DecMsg × Nat) Nat × Str × EncEntry :=
  let D := slice s idx (idx + typeWidth fs)
  if D.length ≠ typeWidth fs then (.error (.fieldDataBytes D.length (typeWidth fs), idx), [], ⟨[], D⟩)
  else match plainValue env fs D with
    | .error m => (.error (m, idx), [], ⟨[], D⟩)
    | .ok t => (.ok (idx + typeWidth fs), t, ⟨[], D⟩)

theorem decodeType_run (env : PyEnv) (spec : Spec) (s : Bytes) (idx : Nat) (st : DecState) :
    decodeType env spec s idx st =
      match spec.get? py"t" with
      | none => (.error (.keyError py"t"), st)
      | some fs =>
        (tagErr py"t" (typeOut env s idx fs).1,
         ⟨st.dec.set py"t" (typeOut env s idx fs).2.1, st.enc.set py"t" (typeOut env s idx fs).2.2⟩) := by
  simp only [decodeType, decSpec]
  cases spec.get? py"t" with
  | none => simp [run_bind]
  | some fs =>
    simp only [run_bind, run_pure, setDec, setEnc, run_modify, run_ite, decFail, run_raise, typeOut]
    have hw : (if fs.dataEnc = py"b" then 2 else 4) = typeWidth fs := rfl
    simp only [hw]
    split
    · rfl
    · by_cases hb : fs.dataEnc = py"b"
      · simp [hb, plainValue, tagErr, Dict.set_set]
      · rw [if_neg hb, decodeTextData_run _ _ _ _ _ _ hb]
        cases plainValue env fs _ <;> simp [tagErr, Dict.set_set]

/-- Type bytes `D` are read as `v`. -/
structure TypeReads (env : PyEnv) (fs : FieldSpec) (D : Bytes) (v : Str) : Prop where
  width : D.length = typeWidth fs
  data : plainValue env fs D = .ok v

theorem prefix_take_iff {D l : Bytes} {n : Nat} (h : D.length = n) : D <+: l ↔ l.take n = D := by
  subst h
  exact ⟨fun hp => (List.prefix_iff_eq_take.1 hp).symm, fun e => List.prefix_iff_eq_take.2 e.symm⟩

theorem typeOut_ok_iff {env : PyEnv} {s : Bytes} {idx idx' : Nat} {fs : FieldSpec} {v : Str} {e : EncEntry} :
    typeOut env s idx fs = (.ok idx', v, e) ↔
      TypeReads env fs e.data v ∧ e.len = [] ∧ e.data <+: s.drop idx ∧ idx' = idx + e.data.length := by
  simp only [typeOut, slice_nat]
  constructor
  · intro h
    split at h
    · simp at h
    · next hw =>
      have hw := Decidable.not_not.1 hw
      cases hv : plainValue env fs (List.take (typeWidth fs) (List.drop idx s)) with
      | error m => rw [hv] at h; simp at h
      | ok t =>
        rw [hv] at h
        simp only [Prod.mk.injEq, Except.ok.injEq] at h
        obtain ⟨h1, h2, h3⟩ := h
        subst h1 h2 h3
        exact ⟨⟨hw, hv⟩, rfl, List.take_prefix _ _, by simp only [hw]⟩
  · rintro ⟨hr, hl, hp, rfl⟩
    obtain ⟨L, D⟩ := e
    simp only at hr hl hp ⊢
    subst hl
    rw [(prefix_take_iff hr.width).1 hp, hr.data, hr.width]
    simp

theorem typeOut_error {env : PyEnv} {s : Bytes} {idx pos : Nat} {fs : FieldSpec} {v : Str} {e : EncEntry}
    {m : DecMsg} (h : typeOut env s idx fs = (.error (m, pos), v, e)) :
    e.len = [] ∧ e.data <+: s.drop idx ∧ pos = idx ∧ m ≠ .extraData := by
  simp only [typeOut, slice_nat] at h
  split at h
  · simp only [Prod.mk.injEq, Except.error.injEq] at h
    obtain ⟨⟨h1, h2⟩, h3, h4⟩ := h
    subst h1 h2 h3 h4
    exact ⟨rfl, List.take_prefix _ _, rfl, by simp⟩
  · cases hv : plainValue env fs (List.take (typeWidth fs) (List.drop idx s)) with
    | ok t => rw [hv] at h; simp at h
    | error m =>
      rw [hv] at h
      simp only [Prod.mk.injEq, Except.error.injEq] at h
      obtain ⟨⟨h1, h2⟩, h3, h4⟩ := h
      subst h1 h2 h3 h4
      refine ⟨rfl, List.take_prefix _ _, rfl, ?_⟩
      rintro rfl
      simpa [DecMsg.aboutData] using (plainValue_aboutData hv).1

/-! ## Bitmaps -/

/-- Width of an encoded bitmap in bytes. -/
def bitmapWidth (fs : FieldSpec) : Nat := if fs.dataEnc = py"b" then 8 else 16

/-- The bitmap bytes denoted by encoded data `D` that was read as text `t`. -/
def bitmapBits (fs : FieldSpec) (D : Bytes) (t : Str) : Option Bytes :=
  if fs.dataEnc = py"b" then some D else fromHex t

/-- Outcome of decoding a bitmap: next index and bitmap, decoded text, encoded data.  `old` is
the number of bytes already in the entry, `mult` the number of bitmaps it should hold. -/
def bitmapOut (env : PyEnv) (s : Bytes) (idx : Nat) (fs : FieldSpec) (old mult : Nat) :
    Except (DecMsg × Nat) (Nat × Bytes) × Str × Bytes :=
  let D := slice s idx (idx + bitmapWidth fs)
  if D.length ≠ bitmapWidth fs then
    (.error (.fieldDataBytes (old + D.length) (bitmapWidth fs * mult), idx), [], D)
  else match plainValue env fs D with
    | .error m => (.error (m, idx), [], D)
    | .ok t => match bitmapBits fs D t with
      | none => (.error (.nonHexBitmap, idx), t, D)
      | some bm => (.ok (idx + bitmapWidth fs, bm), t, D)

/-- Add the fields of a bitmap to the set of fields. -/
def addFields (off : Nat) (fields : List Nat) : Except (DecMsg × Nat) (Nat × Bytes) → Except (DecMsg × Nat) (Nat × List Nat)
  | .ok (i, bm) => .ok (i, setUpdate fields (bitmapFields off bm))
  | .error e => .error e

theorem decodeBitmap_run (env : PyEnv) (s : Bytes) (idx : Nat) (key : Str) (fs : FieldSpec) (off : Nat)
    (fields : List Nat) (st : DecState) :
    decodeBitmap env s idx key fs off false fields st =
      (tagErr key (addFields off fields (bitmapOut env s idx fs 0 1).1),
       ⟨st.dec.set key (bitmapOut env s idx fs 0 1).2.1, st.enc.set key ⟨[], (bitmapOut env s idx fs 0 1).2.2⟩⟩) := by
  simp only [decodeBitmap, run_bind, run_pure, setDec, setEnc, run_modify, run_ite, decFail, run_raise, bitmapOut]
  have hw : (if fs.dataEnc = py"b" then 8 else 16) = bitmapWidth fs := rfl
  simp only [hw, Bool.false_eq_true, if_false]
  split
  · simp [getEnc, run_bind, Dict.get?_set_same, tagErr, addFields]
  · by_cases hb : fs.dataEnc = py"b"
    · simp [hb, plainValue, tagErr, Dict.set_set, bitmapBits, addFields]
    · rw [if_neg hb, decodeTextData_run _ _ _ _ _ _ hb]
      cases plainValue env fs _ with
      | error m => simp [tagErr, addFields]
      | ok t =>
        simp only [bitmapBits, if_neg hb, Dict.set_set]
        cases fromHex t <;> simp [tagErr, addFields, run_bind]

theorem decodeBitmap_ext_run (env : PyEnv) (s : Bytes) (idx : Nat) (key : Str) (fs : FieldSpec) (off : Nat)
    (fields : List Nat) (st : DecState) (t0 : Str) (e0 : EncEntry)
    (hd : st.dec.get? key = some t0) (he : st.enc.get? key = some e0) :
    decodeBitmap env s idx key fs off true fields st =
      (tagErr key (addFields off fields (bitmapOut env s idx fs e0.data.length 2).1),
       ⟨st.dec.set key (t0 ++ (bitmapOut env s idx fs e0.data.length 2).2.1),
        st.enc.set key ⟨e0.len, e0.data ++ (bitmapOut env s idx fs e0.data.length 2).2.2⟩⟩) := by
  simp only [decodeBitmap, run_bind, run_pure, setDec, setEnc, run_modify, run_ite, decFail, run_raise, bitmapOut,
    getEnc, getDec, run_get, he, hd]
  have hw : (if fs.dataEnc = py"b" then 8 else 16) = bitmapWidth fs := rfl
  simp only [hw, if_true, Dict.get?_set_same, run_pure]
  split
  · simp [tagErr, addFields, Dict.set_get?_self hd]
  · by_cases hb : fs.dataEnc = py"b"
    · simp [hb, plainValue, tagErr, Dict.set_set, bitmapBits, addFields]
    · rw [if_neg hb, decodeTextData_run _ _ _ _ _ _ hb]
      cases plainValue env fs _ with
      | error m => simp [tagErr, addFields, Dict.set_get?_self hd]
      | ok t =>
        simp only [bitmapBits, if_neg hb, Dict.set_set, hd]
        cases fromHex t <;> simp [tagErr, addFields, run_bind]

/-- Encoded bitmap `D` is read as text `t` and denotes the bitmap `bm`. -/
structure BitmapReads (env : PyEnv) (fs : FieldSpec) (D : Bytes) (t : Str) (bm : Bytes) : Prop where
  width : D.length = bitmapWidth fs
  data : plainValue env fs D = .ok t
  bits : bitmapBits fs D t = some bm

theorem bitmapOut_ok_iff {env : PyEnv} {s : Bytes} {idx idx' : Nat} {fs : FieldSpec} {old mult : Nat}
    {t : Str} {D bm : Bytes} :
    bitmapOut env s idx fs old mult = (.ok (idx', bm), t, D) ↔
      BitmapReads env fs D t bm ∧ D <+: s.drop idx ∧ idx' = idx + D.length := by
  simp only [bitmapOut, slice_nat]
  constructor
  · intro h
    split at h
    · simp at h
    · next hw =>
      have hw := Decidable.not_not.1 hw
      cases hv : plainValue env fs (List.take (bitmapWidth fs) (List.drop idx s)) with
      | error m => rw [hv] at h; simp at h
      | ok t' =>
        rw [hv] at h
        simp only at h
        cases hb : bitmapBits fs (List.take (bitmapWidth fs) (List.drop idx s)) t' with
        | none => rw [hb] at h; simp at h
        | some bm' =>
          rw [hb] at h
          simp only [Prod.mk.injEq, Except.ok.injEq] at h
          obtain ⟨⟨h0, h1⟩, h2, h3⟩ := h
          subst h0 h1 h2 h3
          exact ⟨⟨hw, hv, hb⟩, List.take_prefix _ _, by simp only [hw]⟩
  · rintro ⟨hr, hp, rfl⟩
    rw [(prefix_take_iff hr.width).1 hp, hr.data, hr.width]
    simp [hr.bits]

theorem bitmapOut_error {env : PyEnv} {s : Bytes} {idx pos : Nat} {fs : FieldSpec} {old mult : Nat}
    {t : Str} {D : Bytes} {m : DecMsg} (h : bitmapOut env s idx fs old mult = (.error (m, pos), t, D)) :
    D <+: s.drop idx ∧ pos = idx ∧ m ≠ .extraData := by
  simp only [bitmapOut, slice_nat] at h
  split at h
  · simp only [Prod.mk.injEq, Except.error.injEq] at h
    obtain ⟨⟨h1, h2⟩, h3, h4⟩ := h
    subst h1 h2 h3 h4
    exact ⟨List.take_prefix _ _, rfl, by simp⟩
  · cases hv : plainValue env fs (List.take (bitmapWidth fs) (List.drop idx s)) with
    | error m =>
      rw [hv] at h
      simp only [Prod.mk.injEq, Except.error.injEq] at h
      obtain ⟨⟨h1, h2⟩, h3, h4⟩ := h
      subst h1 h2 h3 h4
      refine ⟨List.take_prefix _ _, rfl, ?_⟩
      rintro rfl
      simpa [DecMsg.aboutData] using (plainValue_aboutData hv).1
    | ok t' =>
      rw [hv] at h
      simp only at h
      cases hb : bitmapBits fs (List.take (bitmapWidth fs) (List.drop idx s)) t' with
      | none =>
        rw [hb] at h
        simp only [Prod.mk.injEq, Except.error.injEq] at h
        obtain ⟨⟨h1, h2⟩, h3, h4⟩ := h
        subst h1 h2 h3 h4
        exact ⟨List.take_prefix _ _, rfl, by simp⟩
      | some bm' => rw [hb] at h; simp at h

theorem fromHex_length_le : ∀ {t : Str} {b : Bytes}, fromHex t = some b → 2 * b.length ≤ t.length := by
  intro t
  induction t using fromHex.induct with
  | case1 => intro b h; simp [fromHex] at h; subst h; simp
  | case2 a ha => intro b h; simp [fromHex, ha] at h; subst h; simp
  | case3 a ha => intro b h; simp [fromHex, ha] at h
  | case4 a b t ha ih =>
    intro r h
    rw [fromHex, if_pos ha] at h
    have := ih h; simp at this ⊢; omega
  | case5 a b t ha x y r hr hy hx ih =>
    intro c h
    rw [fromHex, if_neg ha, hr, hy, hx] at h
    simp at h; subst h
    have := ih hr
    simp at this ⊢; omega
  | case6 a b t ha hno ih =>
    intro c h
    rw [fromHex, if_neg ha] at h
    revert h
    cases h1 : hexVal? a <;> cases h2 : hexVal? b <;> cases h3 : fromHex t <;> simp
    exact absurd h3 (by intro h3; exact hno _ _ _ h1 h2 h3)

end Iso8583
