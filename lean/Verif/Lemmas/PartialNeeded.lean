import Verif.Lemmas.Partial
import Verif.Props.DecodeTotal
/-!
# A missing property is reported only where completions part ways
-/

namespace Iso8583
open PyM

variable {α β : Type}

/-! ## One field -/

/-- Two completions of a field are told apart: run from `st`, the first one fails with a message
that cannot be true of the same entry under both. -/
def Apart (C : FieldSpec → Prop) (Fault : FieldSpec → Bytes → Nat → EncEntry → Str → DecMsg → Prop) (key : Str)
    (M : FieldSpec → DecM α) (st : DecState) : Prop :=
  ∃ g1 g2 m i, C g1 ∧ C g2 ∧ (M g1 st).1 = .error (.err m i key) ∧ m ≠ .extraData ∧
    ∀ s idx e v, Fault g1 s idx e v m → ¬ Fault g2 s idx e v m

/-- Either all completions do the same as `F`, or two of them are told apart. -/
def FPin (C : FieldSpec → Prop) (Fault : FieldSpec → Bytes → Nat → EncEntry → Str → DecMsg → Prop) (key : Str)
    (F : DecM α) (M : FieldSpec → DecM α) : Prop :=
  ∀ st, (∀ g, C g → M g st = F st) ∨ Apart C Fault key M st

namespace FPin
variable {C : FieldSpec → Prop} {Fault : FieldSpec → Bytes → Nat → EncEntry → Str → DecMsg → Prop} {key : Str}

theorem refl (m : DecM α) : FPin C Fault key m (fun _ => m) := fun _ => .inl fun _ _ => rfl

theorem bind {F : DecM α} {M : FieldSpec → DecM α} {f : α → DecM β} {f' : FieldSpec → α → DecM β}
    (h : FPin C Fault key F M) (hf : ∀ a, FPin C Fault key (f a) (fun g => f' g a)) :
    FPin C Fault key (F >>= f) (fun g => M g >>= f' g) := by
  intro st
  rcases h st with h | ⟨g1, g2, m, i, h1, h2, he, hm, hd⟩
  · rcases hF : F st with ⟨r, st1⟩
    cases r with
    | error e => exact .inl fun g hg => by simp only [run_bind]; rw [h g hg, hF]
    | ok a =>
      rcases hf a st1 with hf | ⟨g1, g2, m, i, h1, h2, he, hm, hd⟩
      · exact .inl fun g hg => by simp only [run_bind]; rw [h g hg, hF]; exact hf g hg
      · refine .inr ⟨g1, g2, m, i, h1, h2, ?_, hm, hd⟩
        simp only [run_bind]
        rw [h g1 h1, hF]
        exact he
  · refine .inr ⟨g1, g2, m, i, h1, h2, ?_, hm, hd⟩
    simp only [run_bind]
    rcases hM : M g1 st with ⟨r, st1⟩
    rw [hM] at he
    cases he
    rfl

theorem pure_bind {a : α} {f : α → DecM β} {f' : FieldSpec → α → DecM β} (h : FPin C Fault key (f a) (fun g => f' g a)) :
    FPin C Fault key (pure a >>= f) (fun g => pure a >>= f' g) := h

theorem ite {c : Prop} [Decidable c] {a b : DecM α} {a' b' : FieldSpec → DecM α} (ha : c → FPin C Fault key a a')
    (hb : ¬ c → FPin C Fault key b b') : FPin C Fault key (if c then a else b) (fun g => if c then a' g else b' g) := by
  by_cases h : c
  · simp only [if_pos h]; exact ha h
  · simp only [if_neg h]; exact hb h

theorem apart {F : DecM α} {M : FieldSpec → DecM α} (h : ∀ st, Apart C Fault key M st) : FPin C Fault key F M := fun st => .inr (h st)

theorem congr {F : DecM α} {M M' : FieldSpec → DecM α} (h : ∀ g, C g → M g = M' g) (hp : FPin C Fault key F M') : FPin C Fault key F M := by
  intro st
  rcases hp st with hp | ⟨g1, g2, m, i, h1, h2, he, hm, hd⟩
  · exact .inl fun g hg => by rw [h g hg]; exact hp g hg
  · exact .inr ⟨g1, g2, m, i, h1, h2, by rw [h g1 h1]; exact he, hm, hd⟩

end FPin

/-- The end of `decodeField`, once the length is known. -/
def fieldTail (env : PyEnv) (s : Bytes) (idx : Nat) (key : Str) (lenBytes : Bytes) (h : FieldSpec) (de : DecM Str) (encLen : Int) : DecM Nat := do
  if encLen = 0 then
    return idx
  let byteLen := byteFieldLen h encLen
  let data := slice s idx (idx + byteLen)
  setEnc key ⟨lenBytes, data⟩
  if (data.length : Int) ≠ byteLen then
    decFail (.dataShort (if h.count = py"nibbles" then data.length * 2 else data.length) h.count encLen) idx key
  let dataEnc ← de
  if dataEnc = py"b" then
    setDec key (upperAscii (bytesHex data))
    if h.count = py"nibbles" ∧ encLen % 2 = 1 then
      setDec key (← removePadField idx key h encLen)
  else
    setDec key (← decodeTextData env data idx key { h with dataEnc := dataEnc })
  return (idx + byteLen).toNat

/-- `decodeField` with the four properties as programs. -/
def fieldWith (env : PyEnv) (s : Bytes) (idx : Nat) (key : Str) (h : FieldSpec) (lt : DecM Nat) (le : DecM Str) (mx : DecM Int)
    (de : DecM Str) : DecM Nat := do
  let lenType ← lt
  setDec key []
  let lenBytes := slice s idx (idx + lenType)
  setEnc key ⟨lenBytes, []⟩
  if lenBytes.length ≠ lenType then
    decFail (.lenWidth lenBytes.length lenType) idx key
  let encLen : Int ←
    if lenType = 0 then mx
    else do
      let e ← le
      let n ← decodeLength env lenBytes idx key { h with lenEnc := e }
      let m ← mx
      if n > m then
        decFail (.tooLong n h.count m) idx key
      pure n
  fieldTail env s (idx + lenType) key lenBytes h de encLen

theorem decodeField_with (env : PyEnv) (s : Bytes) (idx : Nat) (key : Str) {h g : FieldSpec}
    (hc : g.lenCount = h.lenCount) (hl : g.leftPad = h.leftPad) (hr : g.rightPad = h.rightPad) :
    decodeField env s idx key g = fieldWith env s idx key h (pure g.lenType) (pure g.lenEnc) (pure g.maxLen) (pure g.dataEnc) := by
  unfold decodeField fieldWith fieldTail
  have hcount : g.count = h.count := by unfold FieldSpec.count; rw [hc]
  have hbl : ∀ n, byteFieldLen g n = byteFieldLen h n := fun n => byteFieldLen_congr hc
  have hpad : ∀ i n, removePadField i key g n = removePadField i key h n := fun i n => removePadField_congr hl hr
  have hlen : ∀ b i, decodeLength env b i key g = decodeLength env b i key { h with lenEnc := g.lenEnc } :=
    fun b i => decodeLength_congr rfl
  have htext : ∀ b i, decodeTextData env b i key g = decodeTextData env b i key { h with dataEnc := g.dataEnc } :=
    fun b i => decodeTextData_sameEnc rfl
  simp only [hcount, hbl, hpad, hlen, htext]
  rfl

theorem decodeFieldP_with (env : PyEnv) (s : Bytes) (idx : Nat) (key : Str) (f : PartialField) :
    decodeFieldP env s idx key f = fieldWith env s idx key f.seen (need .keyError py"len_type" f.lenType)
      (need .keyError py"len_enc" f.lenEnc) (need .keyError py"max_len" f.maxLen) (need .keyError py"data_enc" f.dataEnc) := by
  unfold decodeFieldP fieldWith fieldTail
  have hcount : f.seen.count = f.lenCount.getD py"bytes" := rfl
  rw [hcount]
  rcases f with ⟨de, le, lt, mx, c, l, r, d⟩
  cases de <;> cases le <;> rfl

/-- Some name is the name of no codec. -/
def SomeUnknown (env : PyEnv) : Prop := ∃ u, u ≠ py"b" ∧ u ≠ py"bcd" ∧ env.codec u = none

theorem filled_seen (f : PartialField) : f.FilledBy f.seen := by
  unfold PartialField.FilledBy PartialField.seen
  refine ⟨?_, ?_, ?_, ?_, rfl, rfl, rfl, rfl⟩ <;> (intro v h; simp [h])

theorem filled_dataEnc {f : PartialField} {g : FieldSpec} (h : f.FilledBy g) (hn : f.dataEnc = none) (u : Str) : f.FilledBy { g with dataEnc := u } :=
  ⟨by simp [hn], h.2⟩
theorem filled_lenEnc {f : PartialField} {g : FieldSpec} (h : f.FilledBy g) (hn : f.lenEnc = none) (u : Str) : f.FilledBy { g with lenEnc := u } :=
  ⟨h.1, by simp [hn], h.2.2⟩
theorem filled_lenType {f : PartialField} {g : FieldSpec} (h : f.FilledBy g) (hn : f.lenType = none) (u : Nat) : f.FilledBy { g with lenType := u } :=
  ⟨h.1, h.2.1, by simp [hn], h.2.2.2⟩
theorem filled_maxLen {f : PartialField} {g : FieldSpec} (h : f.FilledBy g) (hn : f.maxLen = none) (u : Int) : f.FilledBy { g with maxLen := u } :=
  ⟨h.1, h.2.1, h.2.2.1, by simp [hn], h.2.2.2.2⟩

theorem slice_le (s : Bytes) (i : Nat) (j : Int) : (slice s i j).length ≤ s.length := by
  unfold slice; simp only [List.length_take, List.length_drop]; omega

theorem fieldTail_pin {env : PyEnv} (hu : SomeUnknown env) {s : Bytes} {idx : Nat} {key : Str} {L : Bytes} {f : PartialField} {n : Int} :
    FPin f.FilledBy (DecFieldFault env) key (fieldTail env s idx key L f.seen (need .keyError py"data_enc" f.dataEnc) n)
      (fun g => fieldTail env s idx key L f.seen (pure g.dataEnc) n) := by
  unfold fieldTail
  simp only [decFail_bind]
  refine FPin.ite (fun _ => FPin.refl _) fun hn => ?_
  refine FPin.bind (FPin.refl _) fun _ => ?_
  refine FPin.ite (fun _ => FPin.refl _) fun hl => ?_
  cases hd : f.dataEnc with
  | some w =>
    refine FPin.congr (M' := fun g => _) (fun g hg => ?_) (FPin.refl _)
    rw [hg.1 w hd]
    rfl
  | none =>
    obtain ⟨u, ub, _, hu⟩ := hu
    refine FPin.apart fun st => ?_
    by_cases he : slice s idx (idx + byteFieldLen f.seen n) = []
    · refine ⟨{ f.seen with dataEnc := py"b" }, { f.seen with dataEnc := u }, .padMissing 0 n, idx,
        filled_dataEnc (filled_seen f) hd _, filled_dataEnc (filled_seen f) hd _, ?_, by simp, ?_⟩
      rotate_left
      · intro s idx e v h1 h2
        exact ub h2.2.1
      · rw [he] at hl ⊢
        have h0 : byteFieldLen f.seen n = 0 := by simp only [List.length_nil, ne_eq, Decidable.not_not] at hl; omega
        have hc : f.seen.count = py"nibbles" ∧ n % 2 = 1 := by
          unfold byteFieldLen at h0
          by_cases hc : f.seen.count = py"nibbles"
          · rw [if_pos hc] at h0
            refine ⟨hc, ?_⟩
            split at h0 <;> omega
          · rw [if_neg hc] at h0
            exact absurd h0 hn
        have hp : ∀ st : DecState, st.dec.get? key = some [] → (removePadField idx key f.seen n st).1 = .error (.err (.padMissing 0 n) idx key) := by
          intro st h
          have hne : ∀ p : Str, ¬ (p.length > 0 ∧ ([] : Str) = p) := by rintro p ⟨h, rfl⟩; simp at h
          simp only [removePadField, getDec, run_bind, run_get, h, run_pure, List.take_nil, List.drop_nil, if_neg (hne _)]
          rfl
        have hp := hp { st with dec := st.dec.set key [] } (by simp)
        show ((do
          setDec key []
          if f.seen.count = py"nibbles" ∧ n % 2 = 1 then
            setDec key (← removePadField idx key f.seen n)
          return (idx + byteFieldLen f.seen n).toNat : DecM Nat) st).1 = _
        simp only [if_pos hc]
        show ((do
          setDec key (← removePadField idx key f.seen n)
          return (idx + byteFieldLen f.seen n).toNat : DecM Nat) { st with dec := st.dec.set key [] }).1 = _
        simp only [run_bind]
        rcases hr : removePadField idx key f.seen n { st with dec := st.dec.set key [] } with ⟨r, st1⟩
        rw [hr] at hp
        cases hp
        rfl
    · refine ⟨{ f.seen with dataEnc := u }, { f.seen with dataEnc := py"b" }, .unknownEncoding, idx,
        filled_dataEnc (filled_seen f) hd _, filled_dataEnc (filled_seen f) hd _, ?_, by simp, ?_⟩
      rotate_left
      · intro s idx e v h1 h2
        obtain ⟨_, _, h, _⟩ := h2
        exact h rfl
      · simp only [run_bind, run_pure, if_neg ub, decodeTextData, bytesDecode, if_neg he, hu]
        rfl

theorem fieldWith_pin {env : PyEnv} (hu : SomeUnknown env) {s : Bytes} {idx : Nat} {key : Str} {f : PartialField} :
    FPin f.FilledBy (DecFieldFault env) key (fieldWith env s idx key f.seen (need .keyError py"len_type" f.lenType)
      (need .keyError py"len_enc" f.lenEnc) (need .keyError py"max_len" f.maxLen) (need .keyError py"data_enc" f.dataEnc))
      (fun g => fieldWith env s idx key f.seen (pure g.lenType) (pure g.lenEnc) (pure g.maxLen) (pure g.dataEnc)) := by
  cases ht : f.lenType with
  | none =>
    refine FPin.apart fun st => ?_
    refine ⟨{ f.seen with lenType := s.length + 1 }, { f.seen with lenType := 0 },
      .lenWidth (slice s idx (idx + (s.length + 1 : Nat))).length (s.length + 1), idx,
      filled_lenType (filled_seen f) ht _, filled_lenType (filled_seen f) ht _, ?_, by simp, ?_⟩
    · have hl : (slice s idx (idx + (s.length + 1 : Nat))).length ≠ s.length + 1 := by
        have := slice_le s idx (idx + (s.length + 1 : Nat)); omega
      unfold fieldWith
      show ((if (slice s idx (idx + (s.length + 1 : Nat))).length ≠ s.length + 1 then _ else _ : DecM Nat) _).1 = _
      rw [if_pos hl]
      rfl
    · intro s' idx' e v h1 h2
      obtain ⟨_, _, _, _, h⟩ := h2
      simp at h
  | some lt =>
    refine FPin.congr (M' := fun g => fieldWith env s idx key f.seen (pure lt) (pure g.lenEnc) (pure g.maxLen) (pure g.dataEnc))
      (fun g hg => by rw [hg.2.2.1 lt ht]) ?_
    show FPin _ _ _ (fieldWith env s idx key f.seen (pure lt) _ _ _) _
    have hseen : f.seen.lenType = lt := seen_lenType ht
    unfold fieldWith
    simp only [decFail_bind]
    refine FPin.pure_bind ?_
    refine FPin.bind (FPin.refl _) fun _ => ?_
    refine FPin.bind (FPin.refl _) fun _ => ?_
    refine FPin.ite (fun _ => FPin.refl _) fun hl => ?_
    refine FPin.ite (fun h0 => ?_) fun h0 => ?_
    · subst h0
      cases hm : f.maxLen with
      | some mx =>
        refine FPin.congr (M' := fun g => pure mx >>= fun n => fieldTail env s (idx + 0) key (slice s idx (idx + (0 : Nat))) f.seen (pure g.dataEnc) n)
          (fun g hg => by rw [hg.2.2.2.1 mx hm]) ?_
        exact FPin.pure_bind (fieldTail_pin hu)
      | none =>
        refine FPin.apart fun st => ?_
        have hbl : ((slice s (idx + 0) ((idx + 0 : Nat) + byteFieldLen f.seen (2 * s.length + 2))).length : Int) ≠ byteFieldLen f.seen (2 * s.length + 2) := by
          have h1 := slice_le s (idx + 0) ((idx + 0 : Nat) + byteFieldLen f.seen (2 * s.length + 2))
          have h2 : byteFieldLen f.seen (2 * s.length + 2) > s.length := by
            unfold byteFieldLen; split
            · split <;> omega
            · omega
          omega
        have hrun : ∃ a u, ((fieldTail env s (idx + 0) key (slice s idx (idx + (0 : Nat))) f.seen (pure f.seen.dataEnc) (2 * s.length + 2)) st).1 =
            .error (.err (.dataShort a u (2 * s.length + 2)) (idx + 0) key) := by
          refine ⟨if f.seen.count = py"nibbles" then (slice s (idx + 0) ((idx + 0 : Nat) + byteFieldLen f.seen (2 * s.length + 2))).length * 2
            else (slice s (idx + 0) ((idx + 0 : Nat) + byteFieldLen f.seen (2 * s.length + 2))).length, f.seen.count, ?_⟩
          unfold fieldTail
          rw [if_neg (by omega)]
          show ((if _ ≠ _ then _ else _ : DecM Nat) _).1 = _
          rw [if_pos hbl]
          rfl
        obtain ⟨a, u, hrun⟩ := hrun
        refine ⟨{ f.seen with maxLen := 2 * s.length + 2 }, { f.seen with maxLen := 0 },
          .dataShort a u (2 * s.length + 2), idx + 0, filled_maxLen (filled_seen f) hm _, filled_maxLen (filled_seen f) hm _, hrun, by simp, ?_⟩
        intro s' idx' e v h1 h2
        obtain ⟨_, ⟨⟨_, hU⟩, _⟩, hn, _⟩ := h2
        rw [if_pos hseen] at hU
        exact hn hU
    · cases he : f.lenEnc with
      | none =>
        refine FPin.apart fun st => ?_
        obtain ⟨u, ub, ubcd, hu⟩ := hu
        refine ⟨{ f.seen with lenEnc := u }, { f.seen with lenEnc := py"b" }, .lenUnknownEncoding, idx,
          filled_lenEnc (filled_seen f) he _, filled_lenEnc (filled_seen f) he _, ?_, by simp, ?_⟩
        · have hne : slice s idx (idx + lt) ≠ [] := by
            intro h
            apply hl
            intro hc
            rw [h] at hc
            exact h0 hc.symm
          simp only [run_bind, run_pure, decodeLength, bytesDecode, if_neg ub, if_neg ubcd, if_neg hne, hu]
          rfl
        · intro s' idx' e v h1 h2
          exact h2.2.1.1 rfl
      | some le =>
        refine FPin.congr (M' := fun g => do
            let e ← pure le
            let n ← decodeLength env (slice s idx (idx + lt)) idx key { f.seen with lenEnc := e }
            let m ← pure g.maxLen
            if n > m then
              decFail (.tooLong n f.seen.count m) idx key
            let n ← pure n
            fieldTail env s (idx + lt) key (slice s idx (idx + lt)) f.seen (pure g.dataEnc) n)
          (fun g hg => by rw [hg.2.1 le he]; rfl) ?_
        refine FPin.pure_bind ?_
        refine FPin.bind (FPin.refl _) fun n => ?_
        simp only [decFail_bind]
        cases hm : f.maxLen with
        | some mx =>
          refine FPin.congr (M' := fun g => do
              let m ← pure mx
              if n > m then
                decFail (.tooLong n f.seen.count m) idx key
              else do
                let n ← pure n
                fieldTail env s (idx + lt) key (slice s idx (idx + lt)) f.seen (pure g.dataEnc) n)
            (fun g hg => by rw [hg.2.2.2.1 mx hm]) ?_
          refine FPin.pure_bind ?_
          exact FPin.ite (fun _ => FPin.refl _) fun _ => FPin.pure_bind (fieldTail_pin hu)
        | none =>
          refine FPin.apart fun st => ?_
          refine ⟨{ f.seen with maxLen := n - 1 }, { f.seen with maxLen := n },
            .tooLong n f.seen.count (n - 1), idx, filled_maxLen (filled_seen f) hm _, filled_maxLen (filled_seen f) hm _, ?_, by simp, ?_⟩
          · show ((if n > n - 1 then _ else _ : DecM Nat) _).1 = _
            rw [if_pos (by omega)]
            rfl
          · intro s' idx' e v h1 h2
            obtain ⟨_, _, _, _, _, h⟩ := h2
            simp only at h
            omega

theorem decodeFieldP_pin {env : PyEnv} (hu : SomeUnknown env) {s : Bytes} {idx : Nat} {key : Str} {f : PartialField} :
    FPin f.FilledBy (DecFieldFault env) key (decodeFieldP env s idx key f) (decodeField env s idx key) := by
  rw [decodeFieldP_with]
  refine FPin.congr (fun g hg => ?_) (fieldWith_pin hu)
  obtain ⟨_, _, _, _, hc, hl, hr, _⟩ := hg
  exact decodeField_with env s idx key hc hl hr

/-- The part of `decodeTypeP` behind the lookup. -/
def typeP (env : PyEnv) (s : Bytes) (idx : Nat) (f : PartialField) : DecM Nat := do
  let dataEnc ← need .keyError py"data_enc" f.dataEnc
  let expected : Nat := if dataEnc = py"b" then 2 else 4
  let data := slice s idx (idx + expected)
  setDec py"t" []
  setEnc py"t" ⟨[], data⟩
  if data.length ≠ expected then
    decFail (.fieldDataBytes data.length expected) idx py"t"
  if dataEnc = py"b" then
    setDec py"t" (upperAscii (bytesHex data))
  else
    setDec py"t" (← decodeTextData env data idx py"t" f.seen)
  return idx + expected

/-- The part of `decodeType` behind the lookup. -/
def typeG (env : PyEnv) (s : Bytes) (idx : Nat) (fs : FieldSpec) : DecM Nat := do
  let expected : Nat := if fs.dataEnc = py"b" then 2 else 4
  let data := slice s idx (idx + expected)
  setDec py"t" []
  setEnc py"t" ⟨[], data⟩
  if data.length ≠ expected then
    decFail (.fieldDataBytes data.length expected) idx py"t"
  if fs.dataEnc = py"b" then
    setDec py"t" (upperAscii (bytesHex data))
  else
    setDec py"t" (← decodeTextData env data idx py"t" fs)
  return idx + expected

theorem typeP_pin {env : PyEnv} (hu : SomeUnknown env) {s : Bytes} {idx : Nat} {f : PartialField} :
    FPin f.FilledBy (DecTypeFault env) py"t" (typeP env s idx f) (typeG env s idx) := by
  cases hd : f.dataEnc with
  | some w =>
    intro st
    left
    intro g hg
    unfold typeP typeG
    rw [hd, hg.1 w hd, decodeTextData_sameEnc (f := g) (g := f.seen) (by rw [hg.1 w hd, seen_dataEnc hd])]
    rfl
  | none =>
    obtain ⟨u, ub, _, hu⟩ := hu
    have h1 := filled_dataEnc (filled_seen f) hd u
    have h2 := filled_dataEnc (filled_seen f) hd py"b"
    have n1 : typeBytes { f.seen with dataEnc := u } = 4 := by simp [typeBytes, FieldSpec.isBinary, ub]
    have n2 : typeBytes { f.seen with dataEnc := py"b" } = 2 := by simp [typeBytes, FieldSpec.isBinary]
    refine FPin.apart fun st => ?_
    unfold typeG
    by_cases hl : (slice s idx (idx + (4 : Nat))).length ≠ 4
    · refine ⟨_, _, .fieldDataBytes (slice s idx (idx + (4 : Nat))).length 4, idx, h1, h2, ?_, by simp, ?_⟩
      · simp only [if_neg ub]
        show ((if (slice s idx (idx + (4 : Nat))).length ≠ 4 then _ else _ : DecM Nat) _).1 = _
        rw [if_pos hl]
        rfl
      · intro s' idx' e v _ h
        obtain ⟨_, _, _, _, h⟩ := h
        rw [n2] at h
        omega
    · refine ⟨_, _, .unknownEncoding, idx, h1, h2, ?_, by simp, ?_⟩
      · simp only [if_neg ub]
        show ((if (slice s idx (idx + (4 : Nat))).length ≠ 4 then _ else _ : DecM Nat) _).1 = _
        rw [if_neg hl]
        have he : slice s idx (idx + (4 : Nat)) ≠ [] := by intro h; rw [h] at hl; simp at hl
        simp only [run_bind, decodeTextData, bytesDecode, if_neg he, hu]
        rfl
      · intro s' idx' e v _ h
        exact h.2.2.2.1 rfl

/-- What message `m` says about the entry of a bitmap. -/
def BitmapEntryFault (env : PyEnv) (fs : FieldSpec) (s : Bytes) (idx : Nat) (e : EncEntry) (v : Str) (m : DecMsg) : Prop :=
  e.len = [] ∧
  (DecBitmapFault env fs s idx 0 1 e.data v m ∨
   ∃ v1 v2, v = v1 ++ v2 ∧ idx + bitmapBytes fs ≤ s.length ∧
     e.data.take (bitmapBytes fs) = (s.drop idx).take (bitmapBytes fs) ∧
     ReadableBitmap env fs (e.data.take (bitmapBytes fs)) ∧ PlainSays env fs (e.data.take (bitmapBytes fs)) v1 ∧
     DecBitmapFault env fs s (idx + bitmapBytes fs) (bitmapBytes fs) 2 (e.data.drop (bitmapBytes fs)) v2 m)

theorem decodeBitmapP_pin {env : PyEnv} (hu : SomeUnknown env) {s : Bytes} {idx : Nat} {key : Str} {off : Nat} {F : List Nat} {f : PartialField} :
    FPin f.FilledBy (BitmapEntryFault env) key (decodeBitmapP env s idx key f off false F) (fun g => decodeBitmap env s idx key g off false F) := by
  cases hd : f.dataEnc with
  | some w =>
    intro st
    left
    intro g hg
    unfold decodeBitmapP
    dsimp only
    rw [hd, decodeBitmap_sameEnc (f := g) (g := f.seen) (by rw [hg.1 w hd, seen_dataEnc hd])]
    rfl
  | none =>
    obtain ⟨u, ub, _, hu⟩ := hu
    have h1 := filled_dataEnc (filled_seen f) hd u
    have h2 := filled_dataEnc (filled_seen f) hd py"b"
    have n1 : bitmapBytes { f.seen with dataEnc := u } = 16 := by simp [bitmapBytes, FieldSpec.isBinary, ub]
    have n2 : bitmapBytes { f.seen with dataEnc := py"b" } = 8 := by simp [bitmapBytes, FieldSpec.isBinary]
    have hb2 : FieldSpec.isBinary { f.seen with dataEnc := py"b" } := rfl
    refine FPin.apart fun st => ?_
    unfold decodeBitmap
    by_cases hl : (slice s idx (idx + (16 : Nat))).length ≠ 16
    · refine ⟨_, _, .fieldDataBytes (slice s idx (idx + (16 : Nat))).length 16, idx, h1, h2, ?_, by simp, ?_⟩
      · simp only [if_neg ub]
        show ((if (slice s idx (idx + (16 : Nat))).length ≠ 16 then _ else _ : DecM (Nat × List Nat)) _).1 = _
        rw [if_pos hl]
        simp only [getEnc, run_bind, run_get, Dict.get?_set_same]
        rfl
      · rintro s' idx' e v ⟨_, ha⟩ ⟨_, hb⟩
        have hv : v = [] := by
          rcases ha with h | ⟨_, _, _, _, _, _, _, h⟩
          · exact h.2.2.1
          · have := h.2.2.2.2; rw [n1] at this; omega
        rcases hb with h | ⟨v1, v2, hvv, hle, ht, _, hp, h⟩
        · have := h.2.2.2.2; rw [n2] at this; omega
        · rw [hv] at hvv
          have hv1 : v1 = [] := (List.append_eq_nil_iff.1 hvv.symm).1
          unfold PlainSays at hp
          rw [if_pos hb2, ht, n2] at hp
          rw [n2] at hle
          have := congrArg List.length hp
          rw [hv1, hexText_length] at this
          simp at this
          omega
    · refine ⟨_, _, .unknownEncoding, idx, h1, h2, ?_, by simp, ?_⟩
      · simp only [if_neg ub]
        show ((if (slice s idx (idx + (16 : Nat))).length ≠ 16 then _ else _ : DecM (Nat × List Nat)) _).1 = _
        rw [if_neg hl]
        have he : slice s idx (idx + (16 : Nat)) ≠ [] := by intro h; rw [h] at hl; simp at hl
        simp only [run_bind, decodeTextData, bytesDecode, if_neg he, hu]
        rfl
      · rintro s' idx' e v _ ⟨_, h⟩
        rcases h with h | ⟨_, _, _, _, _, _, _, h⟩ <;> exact h.2.2.2.1 rfl

/-! ## The message -/

/-- Two completions of a specification are told apart, as `Apart`. -/
def SpecsApart (env : PyEnv) (raw : PartialSpec) (M : Spec → DecM α) (st : DecState) : Prop :=
  ∃ spec1 spec2 m i k, raw.FilledBy spec1 ∧ raw.FilledBy spec2 ∧ (M spec1 st).1 = .error (.err m i k) ∧ m ≠ .extraData ∧
    ∀ s idx e v, DecEntryFault env spec1 s idx k e v m → ¬ DecEntryFault env spec2 s idx k e v m

/-- Either all completions do the same as `m`, or two of them are told apart. -/
def Pin (env : PyEnv) (raw : PartialSpec) (m : DecM α) (M : Spec → DecM α) : Prop :=
  ∀ st, (∀ spec, raw.FilledBy spec → M spec st = m st) ∨ SpecsApart env raw M st

/-- The completion that fills field `k` with `g`. -/
def fillWith (raw : PartialSpec) (k : Str) (g : FieldSpec) : Spec := raw.map fun kf => (kf.1, if kf.1 = k then g else kf.2.seen)

theorem fillWith_get (k : Str) (g : FieldSpec) (k' : Str) : ∀ raw : PartialSpec,
    (fillWith raw k g).get? k' = (raw.get? k').map fun f => if k' = k then g else f.seen
  | [] => rfl
  | (a, f) :: t => by
    have ih := fillWith_get k g k' t
    simp only [fillWith, List.map_cons, Dict.get?] at ih ⊢
    by_cases h : a = k'
    · subst h; simp
    · rw [if_neg h, if_neg h]; exact ih

theorem fillWith_filled {raw : PartialSpec} {k : Str} {f : PartialField} {g : FieldSpec} (hf : raw.get? k = some f) (hg : f.FilledBy g) :
    raw.FilledBy (fillWith raw k g) := by
  intro k'
  rw [fillWith_get]
  cases h : raw.get? k' with
  | none => exact .inl ⟨rfl, rfl⟩
  | some f' =>
    right
    by_cases hk : k' = k
    · subst hk
      rw [hf] at h
      cases h
      exact ⟨f, g, rfl, by simp, hg⟩
    · exact ⟨f', f'.seen, rfl, by simp [hk], filled_seen f'⟩

theorem fillWith_self {raw : PartialSpec} {k : Str} {f : PartialField} {g : FieldSpec} (hf : raw.get? k = some f) :
    (fillWith raw k g).get? k = some g := by rw [fillWith_get, hf]; simp

/-- There is a completion. -/
theorem filled_exists (raw : PartialSpec) : ∃ spec, raw.FilledBy spec := by
  refine ⟨raw.map fun kf => (kf.1, kf.2.seen), fun k => ?_⟩
  have h : ∀ raw : PartialSpec, Dict.get? (raw.map fun kf => (kf.1, kf.2.seen)) k = (raw.get? k).map PartialField.seen := by
    intro raw
    induction raw with
    | nil => rfl
    | cons a t ih =>
      simp only [List.map_cons, Dict.get?]
      by_cases h : a.1 = k
      · rw [if_pos h, if_pos h]; rfl
      · rw [if_neg h, if_neg h]; exact ih
  rw [h]
  cases raw.get? k with
  | none => exact .inl ⟨rfl, rfl⟩
  | some f => exact .inr ⟨f, f.seen, rfl, rfl, filled_seen f⟩

namespace Pin
variable {env : PyEnv} {raw : PartialSpec}

theorem refl (m : DecM α) : Pin env raw m (fun _ => m) := fun _ => .inl fun _ _ => rfl

theorem bind {m : DecM α} {M : Spec → DecM α} {f : α → DecM β} {f' : Spec → α → DecM β} {Q : α → Prop} (h : Pin env raw m M)
    (hq : Post Q m) (hf : ∀ a, Q a → Pin env raw (f a) (fun spec => f' spec a)) : Pin env raw (m >>= f) (fun spec => M spec >>= f' spec) := by
  intro st
  rcases h st with h | ⟨s1, s2, msg, i, k, h1, h2, he, hm, hd⟩
  · rcases hF : m st with ⟨r, st1⟩
    cases r with
    | error e => exact .inl fun g hg => by simp only [run_bind]; rw [h g hg, hF]
    | ok a =>
      rcases hf a (hq st a st1 hF) st1 with hf | ⟨s1, s2, msg, i, k, h1, h2, he, hm, hd⟩
      · exact .inl fun g hg => by simp only [run_bind]; rw [h g hg, hF]; exact hf g hg
      · refine .inr ⟨s1, s2, msg, i, k, h1, h2, ?_, hm, hd⟩
        simp only [run_bind]
        rw [h s1 h1, hF]
        exact he
  · refine .inr ⟨s1, s2, msg, i, k, h1, h2, ?_, hm, hd⟩
    simp only [run_bind]
    rcases hM : M s1 st with ⟨r, st1⟩
    rw [hM] at he
    cases he
    rfl

theorem ite {c : Prop} [Decidable c] {a b : DecM α} {a' b' : Spec → DecM α} (ha : c → Pin env raw a a')
    (hb : ¬ c → Pin env raw b b') : Pin env raw (if c then a else b) (fun g => if c then a' g else b' g) := by
  by_cases h : c
  · simp only [if_pos h]; exact ha h
  · simp only [if_neg h]; exact hb h

/-- From one field to the message. -/
theorem field {k : Str} {F : PartialField → DecM α} {G : FieldSpec → DecM α}
    {Fault : FieldSpec → Bytes → Nat → EncEntry → Str → DecMsg → Prop}
    (hF : ∀ f, raw.get? k = some f → FPin f.FilledBy Fault k (F f) G)
    (hfault : ∀ spec g s idx e v m, spec.get? k = some g → DecEntryFault env spec s idx k e v m → Fault g s idx e v m) :
    Pin env raw (partialSpec .keyError raw k >>= F) (fun spec => decSpec spec k >>= G) := by
  intro st
  cases hf : raw.get? k with
  | none =>
    left
    intro spec hs
    unfold partialSpec decSpec
    dsimp only
    rcases hs k with ⟨h1, h2⟩ | ⟨f, g, h1, _⟩
    · rw [h1, h2]; rfl
    · rw [hf] at h1; cases h1
  | some f =>
    rcases hF f hf st with h | ⟨g1, g2, m, i, h1, h2, he, hm, hd⟩
    · left
      intro spec hs
      unfold partialSpec decSpec
      dsimp only
      rcases hs k with ⟨h1, h2⟩ | ⟨f', g, h1, h2, hg⟩
      · rw [hf] at h1; cases h1
      · rw [h1, h2]
        rw [hf] at h1
        cases h1
        exact h g hg
    · right
      refine ⟨fillWith raw k g1, fillWith raw k g2, m, i, k, fillWith_filled hf h1, fillWith_filled hf h2, ?_, hm, ?_⟩
      · unfold decSpec
        dsimp only
        rw [fillWith_self hf]
        exact he
      · intro s idx e v ha hb
        exact hd s idx e v (hfault _ _ _ _ _ _ _ (fillWith_self hf) ha) (hfault _ _ _ _ _ _ _ (fillWith_self hf) hb)

end Pin

theorem PyM.assoc {ε σ α β γ : Type} (m : PyM ε σ α) (f : α → PyM ε σ β) (g : β → PyM ε σ γ) :
    (m >>= f) >>= g = m >>= fun a => f a >>= g := by
  funext st
  simp only [run_bind]
  rcases m st with ⟨r, st1⟩
  cases r <;> rfl

theorem Pin.field_bind {env : PyEnv} {raw : PartialSpec} {k : Str} {F : PartialField → DecM α} {G : FieldSpec → DecM α}
    {r : α → DecM β} {r' : Spec → α → DecM β} {Q : α → Prop}
    {Fault : FieldSpec → Bytes → Nat → EncEntry → Str → DecMsg → Prop}
    (hF : ∀ f, raw.get? k = some f → FPin f.FilledBy Fault k (F f) G)
    (hfault : ∀ spec g s idx e v m, spec.get? k = some g → DecEntryFault env spec s idx k e v m → Fault g s idx e v m)
    (hq : ∀ f, raw.get? k = some f → Post Q (F f)) (hr : ∀ a, Q a → Pin env raw (r a) (fun spec => r' spec a)) :
    Pin env raw (partialSpec .keyError raw k >>= fun f => F f >>= r) (fun spec => decSpec spec k >>= fun g => G g >>= r' spec) := by
  have h := Pin.bind (Pin.field hF hfault) (Q := Q) (f := r) (f' := r') ?_ hr
  · simpa only [PyM.assoc] using h
  · intro st a st' ha
    unfold partialSpec at ha
    cases hf : raw.get? k with
    | none => rw [hf] at ha; cases ha
    | some f => rw [hf] at ha; exact hq f hf st a st' ha

theorem fault_field {env : PyEnv} {k : Str} (h1 : k ≠ py"t") (h2 : k ≠ py"p") (h3 : k ≠ py"1") : ∀ spec g s idx e v m,
    spec.get? k = some g → DecEntryFault env spec s idx k e v m → DecFieldFault env g s idx e v m := by
  rintro spec g s idx e v m hg ⟨g', hg', h⟩
  rw [hg] at hg'
  cases hg'
  rwa [if_neg h1, if_neg (by simp [h2, h3])] at h

theorem fault_type {env : PyEnv} : ∀ spec g s idx e v m,
    spec.get? py"t" = some g → DecEntryFault env spec s idx py"t" e v m → DecTypeFault env g s idx e v m := by
  rintro spec g s idx e v m hg ⟨g', hg', h⟩
  rw [hg] at hg'
  cases hg'
  rwa [if_pos rfl] at h

theorem fault_bitmap {env : PyEnv} {k : Str} (h : k = py"p" ∨ k = py"1") : ∀ spec g s idx e v m,
    spec.get? k = some g → DecEntryFault env spec s idx k e v m → BitmapEntryFault env g s idx e v m := by
  rintro spec g s idx e v m hg ⟨g', hg', h'⟩
  rw [hg] at hg'
  cases hg'
  rwa [if_neg (by rcases h with rfl | rfl <;> simp), if_pos h] at h'

theorem decodeFieldsP_pin {env : PyEnv} (hu : SomeUnknown env) {raw : PartialSpec} {s : Bytes} : ∀ {l : List Nat} {idx : Nat} {last : Str}, 1 ∉ l →
    Pin env raw (decodeFieldsP env raw s idx last l) (fun spec => decodeFields env spec s idx last l)
  | [], _, _, _ => Pin.refl _
  | i :: l, _, _, h1 => by
    unfold decodeFieldsP decodeFields
    have hi : i ≠ 1 := fun e => h1 (by simp [e])
    exact Pin.field_bind (Q := fun _ => True) (fun f _ => decodeFieldP_pin hu)
      (fault_field (natStr_ne_letter (by decide)) (natStr_ne_letter (by decide)) (natStr_ne_one hi)) (fun _ _ _ _ _ _ => trivial)
      fun _ _ => decodeFieldsP_pin hu fun e => h1 (by simp [e])

theorem decodeTypeP_pin {env : PyEnv} (hu : SomeUnknown env) {raw : PartialSpec} {s : Bytes} {idx : Nat} :
    Pin env raw (decodeTypeP env raw s idx) (fun spec => decodeType env spec s idx) :=
  Pin.field (F := typeP env s idx) (G := typeG env s idx) (fun _ _ => typeP_pin hu) fault_type

theorem decodeTail_pin {env : PyEnv} (hu : SomeUnknown env) {raw : PartialSpec} {s : Bytes} {idx : Nat} {field : Str} {l : List Nat} (h1 : 1 ∉ l) :
    Pin env raw
      (do
        let (idx, field) ← decodeFieldsP env raw s idx field l
        if idx ≠ s.length then decFail .extraData idx field)
      (fun spec => do
        let (idx, field) ← decodeFields env spec s idx field l
        if idx ≠ s.length then decFail .extraData idx field) :=
  Pin.bind (Q := fun _ => True) (decodeFieldsP_pin hu h1) (fun _ _ _ _ => trivial) fun _ _ => Pin.refl _

/-- When the way the data is encoded is known, nothing can be missing. -/
theorem decodeBitmapP_pinX {env : PyEnv} {raw : PartialSpec} {s : Bytes} {idx : Nat} {key : Str} {off : Nat} {e : Bool} {F : List Nat}
    (hd : HasData raw key) : ∀ f, raw.get? key = some f → FPin f.FilledBy (BitmapEntryFault env) key (decodeBitmapP env s idx key f off e F)
      (fun g => decodeBitmap env s idx key g off e F) := by
  intro f hf st
  left
  intro g hg
  obtain ⟨f', w, hf', hw⟩ := hd
  rw [hf] at hf'
  cases hf'
  unfold decodeBitmapP
  dsimp only
  rw [hw, decodeBitmap_sameEnc (f := g) (g := f.seen) (by rw [hg.1 w hw, seen_dataEnc hw])]
  rfl

theorem decodeTail2_pin {env : PyEnv} (hu : SomeUnknown env) {raw : PartialSpec} {s : Bytes} {idx : Nat} {field : Str}
    {F : List Nat} (h1 : 1 ∉ F) (hk : field = py"p" ∨ field = py"1") (hd : HasData raw field) : Pin env raw
      (do
        let (idx, fields) ←
          if 65 ∈ F then do
            let (idx, fields) ← decodeBitmapP env s idx field (← partialSpec .keyError raw field) 128 true F
            pure (idx, setRemove fields 65)
          else pure (idx, F)
        let (idx, field) ← decodeFieldsP env raw s idx field (sortedNat fields)
        if idx ≠ s.length then decFail .extraData idx field)
      (fun spec => do
        let (idx, fields) ←
          if 65 ∈ F then do
            let (idx, fields) ← decodeBitmap env s idx field (← decSpec spec field) 128 true F
            pure (idx, setRemove fields 65)
          else pure (idx, F)
        let (idx, field) ← decodeFields env spec s idx field (sortedNat fields)
        if idx ≠ s.length then decFail .extraData idx field) := by
  dsimp only
  refine Pin.ite (fun _ => ?_) (fun _ => ?_)
  · refine Pin.field_bind (Q := fun r : Nat × List Nat => HasData raw field ∧ ∀ x ∈ r.2, x ∈ F ∨ 128 < x) (decodeBitmapP_pinX hd) (fault_bitmap hk)
      (fun f hf => decodeBitmapP_post hf) ?_
    rintro ⟨idx, F'⟩ ⟨_, hF⟩
    refine Pin.bind (Q := fun r : Nat × List Nat => 1 ∉ r.2) (Pin.refl _) (Post.pure ?_) ?_
    · intro hc
      rcases hF 1 (mem_setRemove.1 hc).1 with h | h
      · exact h1 h
      · omega
    · rintro ⟨idx, F''⟩ hF''
      exact decodeTail_pin hu (by simpa using hF'')
  · refine Pin.bind (Q := fun r : Nat × List Nat => 1 ∉ r.2) (Pin.refl _) (Post.pure h1) ?_
    rintro ⟨idx, F''⟩ hF''
    exact decodeTail_pin hu (by simpa using hF'')

theorem decodeHeaderP_pin {env : PyEnv} (hu : SomeUnknown env) {raw : PartialSpec} {s : Bytes} {idx : Nat}
    (hm : ∀ f, raw.get? py"h" = some f → f.maxLen ≠ none) :
    Pin env raw (decodeHeaderP env raw s idx) (fun spec => decodeHeader env spec s idx) := by
  unfold decodeHeaderP decodeHeader
  refine Pin.field (fun f hf => ?_) (fault_field (by decide) (by decide) (by decide))
  cases hmx : f.maxLen with
  | none => exact absurd hmx (hm f hf)
  | some mx =>
    refine FPin.congr (M' := fun g => if mx ≤ 0 then pure idx else decodeField env s idx py"h" g) (fun g hg => by rw [hg.2.2.2.1 mx hmx]) ?_
    exact FPin.ite (fun _ => FPin.refl _) fun _ => decodeFieldP_pin hu

theorem decodeBodyP_pin {env : PyEnv} (hu : SomeUnknown env) {raw : PartialSpec} {s : Bytes}
    (hm : ∀ f, raw.get? py"h" = some f → f.maxLen ≠ none) :
    Pin env raw (decodeBodyP env raw s) (fun spec => decodeBody env spec s) := by
  unfold decodeBodyP decodeBody
  refine Pin.bind (Q := fun _ => True) (decodeHeaderP_pin hu hm) (fun _ _ _ _ => trivial) fun idx _ => ?_
  refine Pin.bind (Q := fun _ => True) (decodeTypeP_pin hu) (fun _ _ _ _ => trivial) fun idx _ => ?_
  refine Pin.field_bind (fun _ _ => decodeBitmapP_pin hu) (fault_bitmap (.inl rfl)) (fun f hf => decodeBitmapP_post hf) ?_
  rintro ⟨idx, F⟩ ⟨hd, hF⟩
  dsimp only
  refine Pin.ite (fun _ => ?_) (fun h1 => ?_)
  · refine Pin.field_bind (fun _ _ => decodeBitmapP_pin hu) (fault_bitmap (.inr rfl)) (fun f hf => decodeBitmapP_post hf) ?_
    rintro ⟨idx, F'⟩ ⟨hd, hF⟩
    refine Pin.bind (Q := fun r : Str × Nat × List Nat => r.1 = py"1" ∧ 1 ∉ r.2.2) (Pin.refl _) (Post.pure ⟨rfl, by simp⟩) ?_
    rintro ⟨field, idx, F''⟩ ⟨rfl, h1⟩
    exact decodeTail2_pin hu h1 (.inr rfl) hd
  · refine Pin.bind (Q := fun r : Str × Nat × List Nat => r.1 = py"p" ∧ 1 ∉ r.2.2) (Pin.refl _) (Post.pure ⟨rfl, h1⟩) ?_
    rintro ⟨field, idx, F''⟩ ⟨rfl, h1⟩
    exact decodeTail2_pin hu h1 (.inl rfl) hd

/-- Whether the first entry of a failed decode is a header. -/
theorem decode_error_header {env : PyEnv} {spec : Spec} {s : Bytes} {e : DecodeError} (h : decode env spec s = .error (.decodeError e)) :
    (hasHeader spec → e.docEnc.keys.head? = some py"h") ∧ (¬ hasHeader spec → e.docEnc.keys.head? = some py"t") := by
  have key : ∀ {hd : List Part} {te : EncEntry} {rest : List (Str × EncEntry)}, HeaderPart env spec hd →
      (hasHeader spec → (Dict.keys (partsEnc hd ++ (py"t", te) :: rest)).head? = some py"h") ∧
      (¬ hasHeader spec → (Dict.keys (partsEnc hd ++ (py"t", te) :: rest)).head? = some py"t") := by
    rintro hd te rest ⟨fs, hs, ⟨hm, rfl⟩ | ⟨hm, e, v, rfl, _⟩⟩
    · refine ⟨?_, fun _ => by simp [partsEnc, Dict.keys]⟩
      rintro ⟨fs', hs', hm'⟩
      rw [hs] at hs'; cases hs'; omega
    · refine ⟨fun _ => by simp [partsEnc, Dict.keys], fun hn => absurd ⟨fs, hs, hm⟩ hn⟩
  have split : ∀ (a b : List Part), partsEnc (a ++ b) = partsEnc a ++ partsEnc b := fun a b => List.map_append
  have cons : ∀ (t : Part) (b : List Part), partsEnc (t :: b) = (t.key, t.entry) :: partsEnc b := fun _ _ => rfl
  obtain ⟨_, hx | hx | hx⟩ := decode_error_iff.1 h
  · obtain ⟨ps, ⟨hd, t, b, f, P, F, rfl, hh, ht, _⟩, _, _, _, _, he, _⟩ := hx
    have ht := ht.key
    rw [he]
    simp only [split, cons, ht, List.cons_append, List.append_assoc]
    exact key hh
  · obtain ⟨ps, fs, ent, v, off, hE, _, hs, _, _, he, _⟩ := hx
    rw [he]
    generalize e.field = k at hE hs ⊢
    cases hE with
    | header hm => exact ⟨fun _ => rfl, fun hn => absurd ⟨fs, hs, hm fs hs⟩ hn⟩
    | type hh => exact key hh
    | primary hh ht =>
      have ht := ht.key
      simp only [split, cons, ht, List.cons_append, List.append_assoc]
      exact key hh
    | secondary hh ht =>
      have ht := ht.key
      simp only [split, cons, ht, List.cons_append, List.append_assoc]
      exact key hh
    | field hh ht =>
      have ht := ht.key
      simp only [split, cons, ht, List.cons_append, List.append_assoc]
      exact key hh
  · obtain ⟨ps, q, fs, D, v, hE, _, hs, _, _, _, he, _⟩ := hx
    rw [he]
    cases hE with
    | three hh ht =>
      have ht := ht.key
      simp only [split, cons, ht, List.cons_append, List.append_assoc]
      exact key hh
    | wide hh ht =>
      have ht := ht.key
      simp only [split, cons, ht, List.cons_append, List.append_assoc]
      exact key hh

end Iso8583
