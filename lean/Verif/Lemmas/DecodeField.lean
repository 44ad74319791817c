import Verif.Lemmas.Bits
import Verif.Lemmas.Dict
import Verif.Lemmas.Num
/-!
# Decoding one field

The stateful `decodeField`, `decodeType` and `decodeBitmap` are rewritten as pure functions of
the input and the field specification; success is then characterised by relations that mention
only the field's own bytes.
-/

namespace Iso8583
open PyM

/-! ## Slices -/

theorem slice_eq_take (s : Bytes) (i : Nat) (j : Int) : ∃ n, slice s i j = (s.drop i).take n := ⟨_, rfl⟩

theorem slice_prefix (s : Bytes) (i : Nat) (j : Int) : slice s i j <+: s.drop i := List.take_prefix _ _

theorem slice_nat (s : Bytes) (i n : Nat) : slice s i ((i : Int) + (n : Int)) = (s.drop i).take n := by
  unfold slice
  simp only
  rw [if_neg (by omega)]
  congr 1
  omega

theorem slice_of_length {s : Bytes} {i : Nat} {n : Int} (h : ((slice s i ((i : Int) + n)).length : Int) = n) :
    slice s i ((i : Int) + n) = (s.drop i).take n.toNat := by
  have : (n.toNat : Int) = n := by omega
  conv => lhs; rw [← this]
  rw [slice_nat]

/-! ## Pure counterparts of the stateful helpers -/

/-- Value of a length prefix, including the check against `max_len`. -/
def lenValue (env : PyEnv) (fs : FieldSpec) (L : Bytes) : Except DecMsg Int :=
  if fs.lenEnc = py"b" then .ok (fromBytesBE L : Int)
  else if fs.lenEnc = py"bcd" then
    match pyInt env (bytesHex L) with
    | some n => .ok n
    | none => .error .lenInvalidBcd
  else
    match bytesDecode env fs.lenEnc L with
    | .error .lookup => .error .lenUnknownEncoding
    | .error .invalid => .error .lenInvalidData
    | .ok t =>
      match pyInt env t with
      | some n => .ok n
      | none => .error .lenNonNumeric

theorem decodeLength_run (env : PyEnv) (L : Bytes) (idx : Nat) (key : Str) (fs : FieldSpec) (st : DecState) :
    decodeLength env L idx key fs st =
      match lenValue env fs L with
      | .ok n => (.ok n, st)
      | .error m => (.error (.err m idx key), st) := by
  unfold decodeLength lenValue
  split
  · rfl
  · split
    · cases pyInt env (bytesHex L) <;> rfl
    · cases bytesDecode env fs.lenEnc L with
      | error e => cases e <;> rfl
      | ok t => simp only; cases pyInt env t <;> rfl

/-- Number of units of a field whose length prefix is `L`. -/
def unitsOf (env : PyEnv) (fs : FieldSpec) (L : Bytes) : Except DecMsg Int :=
  if fs.lenType = 0 then .ok fs.maxLen
  else match lenValue env fs L with
    | .error m => .error m
    | .ok n => if n > fs.maxLen then .error (.tooLong n fs.count fs.maxLen) else .ok n

/-- `_remove_pad_field` on the current hex text. -/
def stripPad (fs : FieldSpec) (encLen : Int) (cur : Str) : Except DecMsg Str :=
  if (padChar fs.leftPad).length > 0 ∧ cur.take 1 = padChar fs.leftPad then .ok (cur.drop 1)
  else if (padChar fs.rightPad).length > 0 ∧ cur.drop (cur.length - 1) = padChar fs.rightPad then
    .ok (cur.take (cur.length - 1))
  else .error (.padMissing cur.length encLen)

theorem removePadField_run (idx : Nat) (key : Str) (fs : FieldSpec) (n : Int) (st : DecState) (cur : Str)
    (h : st.dec.get? key = some cur) :
    removePadField idx key fs n st =
      match stripPad fs n cur with
      | .ok v => (.ok v, st)
      | .error m => (.error (.err m idx key), st) := by
  simp only [removePadField, getDec, run_bind, run_get, h, run_pure, run_ite, stripPad]
  split
  · rfl
  · split <;> rfl

/-- Text of non-empty data; the second component of an error is what `doc_dec` holds then. -/
def dataValue (env : PyEnv) (fs : FieldSpec) (n : Int) (D : Bytes) : Except (DecMsg × Str) Str :=
  if fs.dataEnc = py"b" then
    if fs.count = py"nibbles" ∧ n % 2 = 1 then
      match stripPad fs n (upperAscii (bytesHex D)) with
      | .ok v => .ok v
      | .error m => .error (m, upperAscii (bytesHex D))
    else .ok (upperAscii (bytesHex D))
  else match bytesDecode env fs.dataEnc D with
    | .ok t => .ok t
    | .error .lookup => .error (.unknownEncoding, [])
    | .error .invalid => .error (.invalidData, [])

/-- Outcome of decoding one field: next index or error, decoded value, encoded entry. -/
def fieldOut (env : PyEnv) (s : Bytes) (idx : Nat) (fs : FieldSpec) :
    Except (DecMsg × Nat) Nat × Str × EncEntry :=
  let L := slice s idx (idx + fs.lenType)
  if L.length ≠ fs.lenType then (.error (.lenWidth L.length fs.lenType, idx), [], ⟨L, []⟩)
  else match unitsOf env fs L with
    | .error m => (.error (m, idx), [], ⟨L, []⟩)
    | .ok n =>
      if n = 0 then (.ok (idx + fs.lenType), [], ⟨L, []⟩)
      else
        let byteLen := byteFieldLen fs n
        let D := slice s (idx + fs.lenType) ((idx + fs.lenType : Nat) + byteLen)
        if (D.length : Int) ≠ byteLen then
          (.error (.dataShort (if fs.count = py"nibbles" then D.length * 2 else D.length) fs.count n,
            idx + fs.lenType), [], ⟨L, D⟩)
        else match dataValue env fs n D with
          | .error (m, v) => (.error (m, idx + fs.lenType), v, ⟨L, D⟩)
          | .ok v => (.ok (((idx + fs.lenType : Nat) : Int) + byteLen).toNat, v, ⟨L, D⟩)

/-- Attach the field key to an error. -/
def tagErr {α : Type} (key : Str) : Except (DecMsg × Nat) α → Except DecRaise α
  | .ok a => .ok a
  | .error (m, pos) => .error (.err m pos key)

/-- `decodeField` sets exactly the entry `key` in both dicts, to values that depend only on the
input and the field specification. -/
theorem decodeField_run (env : PyEnv) (s : Bytes) (idx : Nat) (key : Str) (fs : FieldSpec) (st : DecState) :
    decodeField env s idx key fs st =
      (tagErr key (fieldOut env s idx fs).1,
       ⟨st.dec.set key (fieldOut env s idx fs).2.1, st.enc.set key (fieldOut env s idx fs).2.2⟩) := by
  simp only [decodeField, run_bind, run_ite, run_pure, setDec, setEnc, decFail, run_modify, run_raise,
    decodeLength_run, fieldOut]
  split
  · rfl
  · by_cases h0 : fs.lenType = 0
    · simp only [h0, if_true, unitsOf]
      split
      · rfl
      · simp only [Dict.set_set]
        split
        · rfl
        · simp only [dataValue]
          split
          · split
            · rw [removePadField_run (cur := upperAscii (bytesHex (slice s (idx + 0) (↑(idx + 0) + byteFieldLen fs fs.maxLen))))]
              · cases stripPad fs fs.maxLen _ <;> simp [tagErr, Dict.set_set]
              · simp [Dict.get?_set_same]
            · simp [tagErr]
          · simp only [decodeTextData]
            cases bytesDecode env fs.dataEnc (slice s (idx + 0) (↑(idx + 0) + byteFieldLen fs fs.maxLen)) with
            | ok t => simp [tagErr, Dict.set_set]
            | error e => cases e <;> simp [tagErr, decFail]
    · simp only [h0, if_false, unitsOf]
      cases hl : lenValue env fs (slice s idx (↑idx + ↑fs.lenType)) with
      | error m => simp [tagErr]
      | ok n =>
        simp only [Dict.set_set]
        split
        · simp [tagErr]
        · simp only
          split
          · simp [tagErr]
          · split
            · simp [tagErr]
            · simp only [dataValue]
              split
              · split
                · rw [removePadField_run (cur := upperAscii (bytesHex (slice s (idx + fs.lenType) (↑(idx + fs.lenType) + byteFieldLen fs n))))]
                  · cases stripPad fs n _ <;> simp [tagErr, Dict.set_set]
                  · simp [Dict.get?_set_same]
                · simp [tagErr]
              · simp only [decodeTextData]
                cases bytesDecode env fs.dataEnc (slice s (idx + fs.lenType) (↑(idx + fs.lenType) + byteFieldLen fs n)) with
                | ok t => simp [tagErr, Dict.set_set]
                | error e => cases e <;> simp [tagErr, decFail]

/-! ## Success -/

/-- A field with length prefix `L` and data `D` holds `n` units and is read as `v`. -/
structure FieldReads (env : PyEnv) (fs : FieldSpec) (n : Int) (L D : Bytes) (v : Str) : Prop where
  lenWidth : L.length = fs.lenType
  units : unitsOf env fs L = .ok n
  empty : n = 0 → D = [] ∧ v = []
  dataLen : (D.length : Int) = byteFieldLen fs n
  data : n ≠ 0 → dataValue env fs n D = .ok v

theorem byteFieldLen_zero (fs : FieldSpec) : byteFieldLen fs 0 = 0 := by
  unfold byteFieldLen; split <;> simp

theorem byteFieldLen_eq (fs : FieldSpec) (n : Int) :
    byteFieldLen fs n = if fs.count = py"nibbles" then (n + 1) / 2 else n := by
  unfold byteFieldLen
  split
  · split <;> omega
  · rfl

/-- Success of a field, in terms of the bytes it occupies. -/
theorem fieldOut_ok_iff {env : PyEnv} {s : Bytes} {idx idx' : Nat} {fs : FieldSpec} {v : Str} {e : EncEntry} :
    fieldOut env s idx fs = (.ok idx', v, e) ↔
      ∃ n, FieldReads env fs n e.len e.data v ∧ e.len ++ e.data <+: s.drop idx ∧
        idx' = idx + e.len.length + e.data.length := by
  have hL : slice s idx (↑idx + ↑fs.lenType) = (s.drop idx).take fs.lenType := slice_nat _ _ _
  constructor
  · intro h
    unfold fieldOut at h
    simp only at h
    split at h
    · simp at h
    · next hw =>
      have hw := Decidable.not_not.1 hw
      cases hu : unitsOf env fs (slice s idx (↑idx + ↑fs.lenType)) with
      | error m => simp [hu] at h
      | ok n =>
        simp only [hu] at h
        split at h
        · next hn =>
          simp only [Prod.mk.injEq, Except.ok.injEq] at h
          obtain ⟨h1, h2, h3⟩ := h
          subst h1 h2 h3 hn
          refine ⟨0, ⟨hw, hu, by simp, by simp [byteFieldLen_zero], by simp⟩, ?_, by simp [hw]⟩
          simp only [List.append_nil]
          exact slice_prefix _ _ _
        · next hn =>
          split at h
          · simp at h
          · next hd =>
            have hd := Decidable.not_not.1 hd
            cases hv : dataValue env fs n (slice s (idx + fs.lenType) (↑(idx + fs.lenType) + byteFieldLen fs n)) with
            | error m => rw [hv] at h; simp at h
            | ok v' =>
              simp only [hv, Prod.mk.injEq, Except.ok.injEq] at h
              obtain ⟨h1, h2, h3⟩ := h
              subst h1 h2 h3
              refine ⟨n, ⟨hw, hu, fun h => absurd h hn, hd, fun _ => hv⟩, ?_, ?_⟩
              · simp only
                rw [slice_of_length hd, hL, ← List.drop_drop, ← List.take_add]
                exact List.take_prefix _ _
              · simp only [hw]; omega
  · rintro ⟨n, hr, hp, rfl⟩
    obtain ⟨L, D⟩ := e
    simp only at hr hp ⊢
    obtain ⟨rest, hrest⟩ := hp
    have hs : (s.drop idx).take fs.lenType = L := by
      rw [← hrest, List.append_assoc, ← hr.lenWidth]; simp
    have hd : (s.drop (idx + fs.lenType)) = D ++ rest := by
      rw [← List.drop_drop, ← hrest, List.append_assoc, ← hr.lenWidth]; simp
    unfold fieldOut
    simp only [hL, hs, hr.lenWidth, hr.units, ne_eq, not_true_eq_false, if_false]
    by_cases hn : n = 0
    · obtain ⟨h1, h2⟩ := hr.empty hn
      subst h1 h2 hn
      simp
    · rw [if_neg hn]
      have hlen := hr.dataLen
      have hD : slice s (idx + fs.lenType) (↑(idx + fs.lenType) + byteFieldLen fs n) = D := by
        rw [← hlen, slice_nat, hd]; simp
      rw [hD, hr.data hn]
      simp only [hlen, not_true_eq_false, if_false, Prod.mk.injEq, Except.ok.injEq, and_true]
      omega

/-- The bytes a field occupies are determined by the input. -/
theorem FieldReads.unique {env : PyEnv} {fs : FieldSpec} {n n' : Int} {L D L' D' : Bytes} {v v' : Str}
    {rest rest' : Bytes} (h : FieldReads env fs n L D v) (h' : FieldReads env fs n' L' D' v')
    (e : L ++ D ++ rest = L' ++ D' ++ rest') : n = n' ∧ L = L' ∧ D = D' ∧ v = v' := by
  rw [List.append_assoc, List.append_assoc] at e
  obtain ⟨hL, e2⟩ := List.append_inj e (by rw [h.lenWidth, h'.lenWidth])
  subst hL
  have hn : n = n' := by
    have := h.units.symm.trans h'.units
    exact Except.ok.inj this
  subst hn
  have hlen : D.length = D'.length := by have := h.dataLen; have := h'.dataLen; omega
  obtain ⟨hD, _⟩ := List.append_inj e2 hlen
  subst hD
  refine ⟨rfl, rfl, rfl, ?_⟩
  by_cases h0 : n = 0
  · rw [(h.empty h0).2, (h'.empty h0).2]
  · exact Except.ok.inj ((h.data h0).symm.trans (h'.data h0))

/-! ## Failure -/

/-- Messages about the length prefix. -/
def DecMsg.aboutLen : DecMsg → Bool
  | .lenWidth .. | .lenInvalidBcd | .lenUnknownEncoding | .lenInvalidData | .lenNonNumeric | .tooLong .. => true
  | _ => false

theorem DecMsg.not_aboutData {m : DecMsg} (h : m.aboutLen = true) : m.aboutData = false ∧ m ≠ .extraData := by
  cases m <;> simp_all [DecMsg.aboutLen, DecMsg.aboutData]

theorem lenValue_aboutLen {env : PyEnv} {fs : FieldSpec} {L : Bytes} {m : DecMsg}
    (h : lenValue env fs L = .error m) : m.aboutLen = true := by
  unfold lenValue at h
  split at h
  · simp at h
  · split at h
    · cases hp : pyInt env (bytesHex L) with
      | some n => simp [hp] at h
      | none => simp only [hp, Except.error.injEq] at h; subst h; rfl
    · cases hb : bytesDecode env fs.lenEnc L with
      | error e => cases e <;> simp only [hb, Except.error.injEq] at h <;> subst h <;> rfl
      | ok t =>
        simp only [hb] at h
        cases hp : pyInt env t with
        | some n => simp [hp] at h
        | none => simp only [hp, Except.error.injEq] at h; subst h; rfl

theorem unitsOf_aboutLen {env : PyEnv} {fs : FieldSpec} {L : Bytes} {m : DecMsg}
    (h : unitsOf env fs L = .error m) : m.aboutLen = true := by
  unfold unitsOf at h
  split at h
  · simp at h
  · cases hl : lenValue env fs L with
    | error m' => simp only [hl, Except.error.injEq] at h; subst h; exact lenValue_aboutLen hl
    | ok n =>
      simp only [hl] at h
      split at h
      · simp only [Except.error.injEq] at h; subst h; rfl
      · simp at h

theorem stripPad_error {fs : FieldSpec} {n : Int} {cur : Str} {m : DecMsg} (h : stripPad fs n cur = .error m) :
    m = .padMissing cur.length n := by
  unfold stripPad at h
  split at h
  · simp at h
  · split at h
    · simp at h
    · exact (Except.error.inj h).symm

theorem dataValue_aboutData {env : PyEnv} {fs : FieldSpec} {n : Int} {D : Bytes} {m : DecMsg} {v : Str}
    (h : dataValue env fs n D = .error (m, v)) : m.aboutData = true := by
  unfold dataValue at h
  split at h
  · split at h
    · cases hs : stripPad fs n (upperAscii (bytesHex D)) with
      | ok v => rw [hs] at h; simp at h
      | error m' =>
        rw [hs] at h
        simp only [Except.error.injEq, Prod.mk.injEq] at h
        rw [← h.1, stripPad_error hs]; rfl
    · simp at h
  · cases hb : bytesDecode env fs.dataEnc D with
    | ok t => rw [hb] at h; simp at h
    | error e => cases e <;> simp only [hb, Except.error.injEq, Prod.mk.injEq] at h <;> rw [← h.1] <;> rfl

/-- A field that fails: the entry holds bytes that really are in the input at `idx`, and the
position is where the prefix or the data starts. -/
theorem fieldOut_error {env : PyEnv} {s : Bytes} {idx pos : Nat} {fs : FieldSpec} {v : Str} {e : EncEntry}
    {m : DecMsg} (hidx : idx ≤ s.length)
    (h : fieldOut env s idx fs = (.error (m, pos), v, e)) :
    e.len ++ e.data <+: s.drop idx ∧ pos ≤ s.length ∧ m ≠ .extraData ∧
      (if m.aboutData then pos = idx + e.len.length else pos = idx ∧ e.data = []) := by
  unfold fieldOut at h
  simp only at h
  split at h
  · simp only [Prod.mk.injEq, Except.error.injEq] at h
    obtain ⟨⟨h1, h2⟩, h3, h4⟩ := h
    subst h1 h2 h3 h4
    exact ⟨by simpa using slice_prefix _ _ _, hidx, by simp, by simp [DecMsg.aboutData]⟩
  · next hw =>
    have hw := Decidable.not_not.1 hw
    have hle : idx + fs.lenType ≤ s.length := by
      rw [slice_nat] at hw
      simp at hw; omega
    cases hu : unitsOf env fs (slice s idx (↑idx + ↑fs.lenType)) with
    | error m =>
      simp only [hu, Prod.mk.injEq, Except.error.injEq] at h
      obtain ⟨⟨h1, h2⟩, h3, h4⟩ := h
      subst h1 h2 h3 h4
      obtain ⟨h1, h2⟩ := DecMsg.not_aboutData (unitsOf_aboutLen hu)
      exact ⟨by simpa using slice_prefix _ _ _, hidx, h2, by simp [h1]⟩
    | ok n =>
      simp only [hu] at h
      have pre : ∀ j, slice s idx (↑idx + ↑fs.lenType) ++ slice s (idx + fs.lenType) j <+: s.drop idx := by
        intro j
        obtain ⟨k, hk⟩ := slice_eq_take s (idx + fs.lenType) j
        rw [hk, slice_nat, ← List.drop_drop, ← List.take_add]
        exact List.take_prefix _ _
      split at h
      · simp at h
      · split at h
        · simp only [Prod.mk.injEq, Except.error.injEq] at h
          obtain ⟨⟨h1, h2⟩, h3, h4⟩ := h
          subst h1 h2 h3 h4
          exact ⟨pre _, hle, by simp, by simp [DecMsg.aboutData, hw]⟩
        · split at h
          · next hv =>
            simp only [Prod.mk.injEq, Except.error.injEq] at h
            obtain ⟨⟨h1, h2⟩, h3, h4⟩ := h
            subst h1 h2 h3 h4
            have := dataValue_aboutData hv
            refine ⟨pre _, hle, ?_, by simp [this, hw]⟩
            rintro rfl
            simp [DecMsg.aboutData] at this
          · simp at h

end Iso8583
