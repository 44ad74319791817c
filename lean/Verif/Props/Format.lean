import Verif.Model.Format
import Verif.Spec.Format
import Verif.Props.Python
import Verif.Props.LengthPrefix
import Verif.Props.DecodeFailure
import Verif.Props.DecodeFraming
import Verif.Props.DecodeContent
import Verif.Props.EncodeTotal
import Verif.Props.Shipped
/-!
# Error messages can be printed (C79)
-/

namespace Iso8583

variable {env : PyEnv}

theorem formats_iff {n : Int} : formats env n = true ↔ Short env n.natAbs := by
  unfold formats Short
  by_cases h : env.maxStrDigits = 0
  · simp [h]
  · simp [h, natStr_length_le (n := n.natAbs) (Nat.pos_of_ne_zero h)]

theorem Short.mono {m n : Nat} (h : Short env n) (hm : m ≤ n) : Short env m := h.imp id fun h => Nat.lt_of_le_of_lt hm h

theorem digitPart_lt (hs : SaneDigits env) {t : Str} {ds : List Nat} (h : DigitPart env t ds) : digitsValue ds < 10 ^ ds.length := by
  have one : ∀ {c d}, DigitOf env c d → d < 10 := by
    rintro c d (⟨_, _, rfl⟩ | ⟨_, _, h⟩)
    · omega
    · exact hs _ _ h
  have step : ∀ {d : Nat} {ds : List Nat}, d < 10 → digitsValue ds < 10 ^ ds.length → digitsValue (d :: ds) < 10 ^ (d :: ds).length := by
    intro d ds hd h
    simp only [digitsValue, List.length_cons, Nat.pow_succ]
    have : d * 10 ^ ds.length ≤ 9 * 10 ^ ds.length := Nat.mul_le_mul_right _ (by omega)
    omega
  induction h with
  | last hd => exact step (one hd) (by simp [digitsValue])
  | next hd _ ih => exact step (one hd) ih
  | under hd _ ih => exact step (one hd) ih

theorem pyInt_short (hs : SaneDigits env) {t : Str} {n : Int} (h : pyInt env t = some n) : Short env n.natAbs := by
  obtain ⟨_, _, _, _, ds, _, _, _, hd, hl, hn⟩ := (pyInt_iff hs).1 h
  refine hl.imp id fun hl => ?_
  have h1 := digitPart_lt hs hd
  have h2 : 10 ^ ds.length ≤ 10 ^ env.maxStrDigits := Nat.pow_le_pow_right (by omega) hl
  rcases hn with ⟨_, rfl⟩ | ⟨_, rfl⟩ <;> omega

/-- What a prefix declares is short, unless the prefix is binary. -/
theorem declared_short (hs : SaneDigits env) {fs : FieldSpec} {L : Bytes} {n : Int} (hb : fs.lenEnc ≠ py"b") (hl : L.length = fs.lenType)
    (hd : fs.lenEnc = py"bcd" → ¬ tooManyDigits env (2 * fs.lenType)) (h : declared env fs L = some n) : Short env n.natAbs := by
  unfold declared at h
  rw [if_neg hb] at h
  by_cases hc : fs.lenEnc = py"bcd"
  · rw [if_pos hc, Option.map_eq_some_iff] at h
    obtain ⟨m, hm, rfl⟩ := h
    have h1 := bcdValue_lt hm
    have h2 := hd hc
    unfold tooManyDigits at h2
    by_cases h0 : env.maxStrDigits = 0
    · exact .inl h0
    · refine .inr ?_
      have h3 : 10 ^ (2 * fs.lenType) ≤ 10 ^ env.maxStrDigits := Nat.pow_le_pow_right (by omega) (by omega)
      rw [Nat.pow_mul] at h3
      rw [hl] at h1
      simp at h3 ⊢
      omega
  · rw [if_neg hc] at h
    cases hx : env.codec fs.lenEnc with
    | none => rw [hx] at h; cases h
    | some c =>
      rw [hx] at h
      obtain ⟨t, _, ht⟩ := Option.bind_eq_some_iff.1 h
      exact pyInt_short hs ht

theorem declared_binary {fs : FieldSpec} {L : Bytes} {n : Int} (hb : fs.lenEnc = py"b") (h : declared env fs L = some n) :
    n = beValue L := by
  unfold declared at h
  rw [if_pos hb] at h
  exact (Option.some.inj h).symm

theorem units_short (hs : SaneDigits env) {fs : FieldSpec} {L : Bytes} {n : Int} (hm : Short env fs.maxLen.natAbs)
    (h : UnitsRead env fs L n) : Short env n.natAbs := by
  obtain ⟨⟨hl, h⟩, hd⟩ := h
  by_cases h0 : fs.lenType = 0
  · rw [if_pos h0] at h; rw [h]; exact hm
  · rw [if_neg h0] at h
    by_cases hb : fs.lenEnc = py"b"
    · have := declared_binary hb h.1
      exact hm.mono (by omega)
    · exact declared_short hs hb hl (hd h0) h.1

/-- A number that is too long in a message about a field: the binary length prefix holds it. -/
theorem fieldFault_short (hs : SaneDigits env) {fs : FieldSpec} {s : Bytes} {idx : Nat} {e : EncEntry} {v : Str} {m : DecMsg}
    (hi : idx ≤ s.length) (hw : e.data.length ≤ s.length) (hm : Short env fs.maxLen.natAbs) (ht : Short env fs.lenType) (hn : Short env (2 * s.length + 32))
    (h : DecFieldFault env fs s idx e v m) :
    (∀ n ∈ m.numbers, Short env n.natAbs) ∨ (fs.lenEnc = py"b" ∧ e.len.length = fs.lenType ∧ ¬ Short env (beValue e.len)) := by
  cases m with
  | lenWidth a x =>
    obtain ⟨_, _, _, rfl, rfl⟩ := h
    left
    simp only [DecMsg.numbers, List.mem_cons, List.not_mem_nil, or_false]
    rintro n (rfl | rfl)
    · exact hn.mono (by omega)
    · simpa using ht
  | tooLong n u x =>
    obtain ⟨⟨_, hp, _⟩, hd, hb, _, _, rfl⟩ := h
    have hl : e.len.length = fs.lenType := by rw [hp.2, List.length_take, List.length_drop]; have := hp.1; omega
    by_cases hbin : fs.lenEnc = py"b"
    · by_cases hsn : Short env (beValue e.len)
      · left
        simp only [DecMsg.numbers, List.mem_cons, List.not_mem_nil, or_false]
        rintro n (rfl | rfl)
        · rw [declared_binary hbin hd]; simpa using hsn
        · exact hm
      · exact .inr ⟨hbin, hl, hsn⟩
    · left
      simp only [DecMsg.numbers, List.mem_cons, List.not_mem_nil, or_false]
      rintro n (rfl | rfl)
      · exact declared_short hs hbin hl hb hd
      · exact hm
  | dataShort a u n =>
    obtain ⟨_, hu, _, _, _, _, ha, _⟩ := h
    left
    simp only [DecMsg.numbers, List.mem_cons, List.not_mem_nil, or_false]
    rintro x (rfl | rfl)
    · refine hn.mono ?_
      split at ha <;> omega
    · exact units_short hs hm hu
  | padMissing a n =>
    obtain ⟨hh, _, _, _, _, _, _, rfl⟩ := h
    left
    simp only [DecMsg.numbers, List.mem_cons, List.not_mem_nil, or_false]
    rintro x (rfl | rfl)
    · exact hn.mono (by omega)
    · exact units_short hs hm hh.2.1
  | fieldDataBytes a x => exact absurd h (by simp [DecFieldFault])
  | _ => exact .inl (by simp [DecMsg.numbers])

theorem bitmapFault_short {fs : FieldSpec} {s D : Bytes} {idx old mult : Nat} {v : Str} {m : DecMsg} (ho : old ≤ 16) (hm : mult ≤ 2)
    (hn : Short env (2 * s.length + 32)) (h : DecBitmapFault env fs s idx old mult D v m) : ∀ n ∈ m.numbers, Short env n.natAbs := by
  have hb : bitmapBytes fs ≤ 16 := by unfold bitmapBytes; split <;> omega
  cases m with
  | fieldDataBytes a x =>
    obtain ⟨_, _, _, rfl, rfl⟩ := h
    have : bitmapBytes fs * mult ≤ 16 * 2 := Nat.mul_le_mul hb hm
    simp only [DecMsg.numbers, List.mem_cons, List.not_mem_nil, or_false]
    rintro n (rfl | rfl)
    · exact hn.mono (by omega)
    · exact hn.mono (by omega)
  | lenWidth a x => exact absurd h (by simp [DecBitmapFault])
  | tooLong a x => exact absurd h (by simp [DecBitmapFault])
  | dataShort a x => exact absurd h (by simp [DecBitmapFault])
  | padMissing a x => exact absurd h (by simp [DecBitmapFault])
  | _ => simp [DecMsg.numbers]

/-- A number that is too long in a `DecodeError`: a binary length prefix holds it. -/
theorem decode_error_short (hs : SaneDigits env) {spec : Spec} {s : Bytes} {e : DecodeError} (hm : ShortSpec env spec)
    (hn : Short env (2 * s.length + 32)) (h : decode env spec s = .error (.decodeError e)) :
    (∀ n ∈ e.msg.numbers ++ [(e.pos : Int)], Short env n.natAbs) ∨
    ∃ pre ent fs, e.docEnc = pre ++ [(e.field, ent)] ∧ spec.get? e.field = some fs ∧ fs.lenEnc = py"b" ∧
      ent.len.length = fs.lenType ∧ ¬ Short env (beValue ent.len) := by
  have hpos : Short env ((e.pos : Int)).natAbs := hn.mono (by have := (decode_error_pos h).1; omega)
  have fin : (∀ n ∈ e.msg.numbers, Short env n.natAbs) → ∀ n ∈ e.msg.numbers ++ [(e.pos : Int)], Short env n.natAbs := by
    intro h n hn
    rcases List.mem_append.1 hn with hn | hn
    · exact h n hn
    · rw [List.mem_singleton.1 hn]; exact hpos
  have hw := (decode_error_result h).2.1
  rcases decode_error_truthful h with ⟨hx, _, _⟩ | ⟨_, pre, ent, _, v, he, _, fs, hf, hr⟩
  · exact .inl (fin (by rw [hx]; simp [DecMsg.numbers]))
  · have hlen : (wire pre).length + (ent.len.length + ent.data.length) ≤ s.length := by
      have := hw.length_le
      rw [he] at this
      simpa [wire] using this
    obtain ⟨hm1, hm2⟩ := hm _ _ hf
    split at hr
    · refine .inl (fin ?_)
      revert hr
      have hb : typeBytes fs ≤ 4 := by unfold typeBytes; split <;> omega
      cases hmm : e.msg with
      | fieldDataBytes a x =>
        rintro ⟨_, _, _, rfl, rfl⟩
        simp only [DecMsg.numbers, List.mem_cons, List.not_mem_nil, or_false]
        rintro n (rfl | rfl)
        · exact hn.mono (by omega)
        · exact hn.mono (by omega)
      | lenWidth a x => simp [DecTypeFault]
      | tooLong a x => simp [DecTypeFault]
      | dataShort a x => simp [DecTypeFault]
      | padMissing a x => simp [DecTypeFault]
      | _ => simp [DecMsg.numbers]
    split at hr
    · have hb : bitmapBytes fs ≤ 16 := by unfold bitmapBytes; split <;> omega
      refine .inl (fin ?_)
      rcases hr.2 with hr | ⟨_, _, _, _, _, _, _, hr⟩
      · exact bitmapFault_short (by omega) (by omega) hn hr
      · exact bitmapFault_short hb (by omega) hn hr
    · rcases fieldFault_short hs (by omega) (by omega) hm1 hm2 hn hr with hr | ⟨h1, h2, h3⟩
      · exact .inl (fin hr)
      · exact .inr ⟨pre, ent, fs, he, hf, h1, h2, h3⟩

/-- **C79** (decode): `decode` raises `ValueError` in place of a `DecodeError` exactly when it stops at a
field whose binary length prefix holds a number with more digits than the interpreter prints. -/
theorem decode_valueError_iff (hs : SaneDigits env) {spec : Spec} {s : Bytes} (hm : ShortSpec env spec) (hn : Short env (2 * s.length + 32)) :
    decodeLim env spec s = .error .valueError ↔
    ∃ e pre ent fs, decode env spec s = .error (.decodeError e) ∧ e.docEnc = pre ++ [(e.field, ent)] ∧ spec.get? e.field = some fs ∧
      fs.lenEnc = py"b" ∧ ent.len.length = fs.lenType ∧ ¬ Short env (beValue ent.len) := by
  have zero : Short env 0 := hn.mono (Nat.zero_le _)
  constructor
  · intro h
    unfold decodeLim at h
    cases hd : decode env spec s with
    | ok r => rw [hd] at h; cases h
    | error x =>
      rw [hd] at h
      cases x with
      | decodeError e =>
        by_cases ha : (e.msg.numbers ++ [(e.pos : Int)]).all (formats env) = true
        · simp only [ha] at h; cases h
        · rcases decode_error_short hs hm hn hd with hall | ⟨pre, ent, fs, hr⟩
          · exact absurd (List.all_eq_true.2 fun n hn => formats_iff.2 (hall n hn)) ha
          · exact ⟨e, pre, ent, fs, rfl, hr⟩
      | keyError k => cases h
      | typeError c => cases h
  · rintro ⟨e, pre, ent, fs, hd, he, hf, hb, hl, hbig⟩
    have hl0 : fs.lenType ≠ 0 := by
      intro h0
      rw [h0, List.length_eq_zero_iff] at hl
      rw [hl] at hbig
      exact hbig zero
    obtain ⟨hm1, hm2⟩ := hm _ _ hf
    have units : ∀ n, UnitsAre env fs ent.len n → False := by
      rintro n ⟨_, h⟩
      rw [if_neg hl0] at h
      have := declared_binary hb h.1
      exact hbig (hm1.mono (by omega))
    have hmsg : ∃ u x, e.msg = .tooLong (beValue ent.len) u x := by
      rcases decode_error_truthful hd with ⟨_, _, hx⟩ | ⟨_, pre', ent', _, v, he', _, fs', hf', hr⟩
      · exfalso
        obtain ⟨_, hnd, hent⟩ := decode_entries hx
        have hk := (decode_entries hx).1
        rw [hk] at hnd
        have hg : e.docEnc.get? e.field = some ent := Dict.get?_of_mem hnd (by rw [he]; simp)
        obtain ⟨v, _, fs', hf', hr⟩ := hent _ _ hg
        cases hf.symm.trans hf'
        split at hr
        · rw [hr.1] at hbig; exact hbig zero
        split at hr
        · rw [hr.1] at hbig; exact hbig zero
        · obtain ⟨n, h, _⟩ := hr
          exact units n h
      · cases hf.symm.trans hf'
        rw [he] at he'
        obtain ⟨_, he'⟩ := List.append_inj' he' rfl
        cases he'
        split at hr
        · revert hr
          cases hmm : e.msg with
          | fieldDataBytes a x => rintro ⟨_, h, _⟩; rw [h] at hbig; exact absurd zero hbig
          | unknownEncoding => rintro ⟨_, h, _⟩; rw [h] at hbig; exact absurd zero hbig
          | invalidData => rintro ⟨_, h, _⟩; rw [h] at hbig; exact absurd zero hbig
          | _ => simp [DecTypeFault]
        split at hr
        · rw [hr.1] at hbig; exact absurd zero hbig
        · revert hr
          have hbcd : fs.lenEnc ≠ py"bcd" := by rw [hb]; decide
          cases hmm : e.msg with
          | lenWidth a x =>
            rintro ⟨h1, h2, _⟩
            rw [h2, List.length_drop] at hl
            omega
          | lenInvalidBcd => rintro ⟨_, h, _⟩; exact absurd h hbcd
          | lenUnknownEncoding => rintro ⟨_, h, _⟩; exact absurd hb h.1
          | lenInvalidData => rintro ⟨_, h, _⟩; exact absurd hb h.1
          | lenNonNumeric => rintro ⟨_, h, _⟩; exact absurd hb h.1
          | tooLong n u x =>
            rintro ⟨_, h, _⟩
            rw [declared_binary hb h]
            exact ⟨u, x, rfl⟩
          | dataShort a u n => rintro ⟨_, h, _⟩; exact (units n h.1).elim
          | padMissing a n => rintro ⟨h, _⟩; exact (units n h.2.1.1).elim
          | unknownEncoding => rintro ⟨n, h, _⟩; exact (units n h.2.1.1).elim
          | invalidData => rintro ⟨n, h, _⟩; exact (units n h.2.1.1).elim
          | _ => simp [DecFieldFault]
    obtain ⟨u, x, hmsg⟩ := hmsg
    unfold decodeLim
    rw [hd]
    have : (e.msg.numbers ++ [(e.pos : Int)]).all (formats env) = false := by
      rw [List.all_eq_false]
      refine ⟨beValue ent.len, by rw [hmsg]; simp [DecMsg.numbers], fun hc => hbig ?_⟩
      simpa using formats_iff.1 hc
    simp only [this]
    rfl

/-- **C79** (decode): the limit plays no part with length prefixes of ordinary width. -/
theorem decode_printable (hs : SaneDigits env) {spec : Spec} {s : Bytes} (hm : ShortSpec env spec) (hp : ShortPrefixes env spec)
    (hn : Short env (2 * s.length + 32)) : decodeLim env spec s = (decode env spec s).mapError .exc := by
  have hno : decodeLim env spec s ≠ .error .valueError := by
    intro h
    obtain ⟨e, pre, ent, fs, _, _, hf, hb, hl, hbig⟩ := (decode_valueError_iff hs hm hn).1 h
    refine hbig ((hp _ _ hf hb).mono ?_)
    have := beValue_lt ent.len
    rw [hl] at this
    omega
  unfold decodeLim at hno ⊢
  cases hd : decode env spec s with
  | ok r => rfl
  | error x =>
    rw [hd] at hno
    cases x with
    | decodeError e =>
      by_cases ha : (e.msg.numbers ++ [(e.pos : Int)]).all (formats env) = true
      · simp only [ha]; rfl
      · simp only [ha] at hno; exact absurd rfl hno
    | keyError k => rfl
    | typeError c => rfl

theorem dataWrites_le {fs : FieldSpec} {v : Val} {n : Nat} {D : Bytes} (h : DataWrites env fs v n D) : n ≤ 2 * D.length := by
  have hx : ∀ {t : Str}, hexText D = upperCase t → t.length = 2 * D.length := by
    intro t h
    have := congrArg List.length h
    simpa [hexText, upperCase, Nat.mul_comm] using this.symm
  unfold DataWrites at h
  split at h
  · split at h
    · obtain ⟨rfl, h⟩ := h
      split at h
      · split at h
        · have := hx h; simp at this; omega
        · have := hx h; simp at this; omega
        · cases h
      · have := hx h; omega
    · omega
  · obtain ⟨_, _, _, _, _, rfl⟩ := h
    split <;> omega

theorem encFieldFault_short {fs : FieldSpec} {t : Str} {e : EncEntry} {m : EncMsg} (hm : Short env fs.maxLen.natAbs)
    (hn : Short env (2 * e.data.length + 4)) (h : FieldFault env fs t e m) : ∀ n ∈ m.numbers, Short env n.natAbs := by
  cases m with
  | fixedLen n u x =>
    obtain ⟨h1, _, _, _, _, rfl⟩ := h
    have := dataWrites_le h1
    simp only [EncMsg.numbers, List.mem_cons, List.not_mem_nil, or_false]
    rintro y (rfl | rfl)
    · exact hn.mono (by omega)
    · exact hm
  | tooLong n u x =>
    obtain ⟨h1, _, _, _, _, rfl⟩ := h
    have := dataWrites_le h1
    simp only [EncMsg.numbers, List.mem_cons, List.not_mem_nil, or_false]
    rintro y (rfl | rfl)
    · exact hn.mono (by omega)
    · exact hm
  | outOfRange l => exact absurd h (by simp [FieldFault])
  | typeLen a x => exact absurd h (by simp [FieldFault])
  | _ => simp [EncMsg.numbers]

theorem notText_short {fs : FieldSpec} {k k' : Str} {v : Val} {m : EncMsg} (h : NotText fs k v (.err m k')) : m.numbers = [] := by
  cases h <;> rfl

theorem fieldStops_short {fs : FieldSpec} {k k' : Str} {v : Val} {e : EncEntry} {m : EncMsg} (hm : Short env fs.maxLen.natAbs)
    (hn : Short env (2 * e.data.length + 4)) (h : FieldStops env fs k v e (.err m k')) : ∀ n ∈ m.numbers, Short env n.natAbs := by
  rcases h with ⟨_, m', hr, h⟩ | ⟨h, _⟩
  · cases hr; exact encFieldFault_short hm hn h
  · rw [notText_short h]; simp

theorem bitmapsStop_short {spec : Spec} {A : Nat → Prop} {b : List Part} {k : Str} {m : EncMsg} (h : BitmapsStop env spec A b (.err m k)) :
    m.numbers = [] := by
  have : ∀ {fs t m}, BitmapFault env fs t m → m.numbers = [] := by
    intro fs t m h
    cases m <;> first | rfl | exact absurd h (by simp [BitmapFault])
  cases h <;> exact this ‹_›

/-- **C79** (encode): the limit plays no part in the messages of `encode`. -/
theorem encode_printable (hs : SaneDigits env) {spec : Spec} {doc : Doc} (nd : doc.NoDup) (hm : ShortSpec env spec)
    (hn : ∀ e d, encode env spec doc = (.error (.encodeError e), d) → ∀ p ∈ e.docEnc, Short env (2 * p.2.data.length + 4)) :
    encodeLim env spec doc = ((encode env spec doc).1.mapError .exc, (encode env spec doc).2) := by
  unfold encodeLim
  rcases hd : encode env spec doc with ⟨x | r, d⟩
  · cases x with
    | encodeError e =>
      have hall : e.msg.numbers.all (formats env) = true := by
        rw [List.all_eq_true]
        intro n hmem
        rw [formats_iff]
        revert n
        have hdata := hn e d hd
        obtain ⟨ps, b, f, tail, r, hst, _, hx⟩ := (encode_fails_iff nd).1 hd
        cases r with
        | err m k =>
          simp only [EncRaise.leaves, EncodeExc.encodeError.injEq] at hx
          subst hx
          simp only at hdata ⊢
          cases hst with
          | noHeader => simp [EncMsg.numbers]
          | header h1 _ _ h2 => exact fieldStops_short (hm _ _ h1).1 (hdata (py"h", _) (by simp)) h2
          | noType => simp [EncMsg.numbers]
          | type _ h1 _ h2 =>
            have hD := hdata _ (List.mem_append_right _ (List.mem_singleton.2 rfl))
            rcases h2 with ⟨_, m', hr, h⟩ | ⟨h, _⟩
            · cases hr
              revert h
              cases m with
              | typeLen a x =>
                rintro ⟨h, _, rfl⟩
                have h1 := dataWrites_le h
                have hb : ∀ fs, typeBytes fs ≤ 4 := by intro fs; unfold typeBytes; split <;> omega
                have h2 := hb
                simp only [EncMsg.numbers, List.mem_cons, List.not_mem_nil, or_false]
                rintro y (rfl | rfl)
                · exact hD.mono (by simp; omega)
                · exact hD.mono (by simp; have := hb ‹FieldSpec›; omega)
              | fixedLen a x => simp [TypeFault]
              | tooLong a x => simp [TypeFault]
              | outOfRange a => simp [TypeFault]
              | _ => simp [EncMsg.numbers]
            · rw [notText_short h]; simp
          | keys _ _ h => cases h with | notString => simp [EncMsg.numbers]
          | range _ _ _ _ _ h =>
            intro n hmem
            obtain ⟨_, _, _, _, _, hp⟩ := ((h n).1 hmem).1
            exact pyInt_short hs hp
          | bitmaps _ _ _ _ h => rw [bitmapsStop_short h]; simp
          | lackField _ _ _ _ _ _ _ _ _ _ h => cases h
          | field _ _ _ _ _ _ _ _ _ h1 _ h2 => exact fieldStops_short (hm _ _ h1).1 (hdata _ (List.mem_append_right _ (List.mem_singleton.2 rfl))) h2
        | _ => cases hx
      simp only [hall]
      rfl
    | _ => rfl
  · rfl

/-! ## The shipped specifications -/

/-- Numbers and binary prefixes of the specification are below ten thousand. -/
def smallNumbers (spec : Spec) : Bool := spec.all fun p => decide (p.2.maxLen.natAbs < 10000 ∧ p.2.lenType < 10000 ∧ (p.2.lenEnc = py"b" → 256 ^ p.2.lenType - 1 < 10000))

theorem short_of_small {spec : Spec} (h : smallNumbers spec = true) (hl : env.maxStrDigits = 0 ∨ 4 ≤ env.maxStrDigits) :
    ShortSpec env spec ∧ ShortPrefixes env spec := by
  have short : ∀ {n}, n < 10000 → Short env n := fun hn => hl.imp id fun hl =>
    Nat.lt_of_lt_of_le hn (Nat.pow_le_pow_right (n := 10) (i := 4) (by omega) hl)
  have hh : ∀ k fs, spec.get? k = some fs → _ := fun k fs hg => of_decide_eq_true (List.all_eq_true.1 h _ (Dict.mem_of_get? hg))
  exact ⟨fun k fs hg => ⟨short (hh k fs hg).1, short (hh k fs hg).2.1⟩, fun k fs hg hb => short ((hh k fs hg).2.2 hb)⟩

/-- **C79** (shipped): with a shipped specification no message hits the limit. -/
theorem shipped_printable {spec : Spec} (h : spec = defaultSpec ∨ spec = defaultAsciiSpec) (hs : SaneDigits env)
    (hl : env.maxStrDigits = 0 ∨ 4 ≤ env.maxStrDigits) {s : Bytes} (hn : Short env (2 * s.length + 32)) :
    decodeLim env spec s = (decode env spec s).mapError .exc := by
  have : smallNumbers spec = true := by rcases h with rfl | rfl <;> decide +kernel
  obtain ⟨h1, h2⟩ := short_of_small this hl
  exact decode_printable hs h1 h2 hn

/-! ## The hypotheses are met -/

/-- The smallest limit an interpreter can be given. -/
def strictPython : PyEnv := { cpython with maxStrDigits := 640 }

/-- The header has a binary length prefix of 300 bytes. -/
def widePrefixSpec : Spec := defaultSpec.set py"h" { dataEnc := py"ascii", lenEnc := py"b", lenType := 300, maxLen := 5 }

theorem widePrefix_limit : decodeLim strictPython widePrefixSpec (List.replicate 300 255) = .error .valueError := by decide +kernel

set_option maxRecDepth 4000 in
/-- A prefix that says too much for a message about it. -/
example : ∃ e pre ent fs, decode strictPython widePrefixSpec (List.replicate 300 255) = .error (.decodeError e) ∧ e.docEnc = pre ++ [(e.field, ent)] ∧
    widePrefixSpec.get? e.field = some fs ∧ fs.lenEnc = py"b" ∧ ent.len.length = fs.lenType ∧ ¬ Short strictPython (beValue ent.len) :=
  (decode_valueError_iff (env := strictPython) cpython_saneDigits (by
    have : (widePrefixSpec.all fun p => decide (p.2.maxLen.natAbs < 10000 ∧ p.2.lenType < 10000)) = true := by decide +kernel
    intro k fs hg
    have := of_decide_eq_true (List.all_eq_true.1 this _ (Dict.mem_of_get? hg))
    have p : (10000 : Nat) ≤ 10 ^ strictPython.maxStrDigits := Nat.pow_le_pow_right (n := 10) (i := 4) (by omega) (show 4 ≤ 640 by omega)
    exact ⟨.inr (Nat.lt_of_lt_of_le this.1 p), .inr (Nat.lt_of_lt_of_le this.2 p)⟩)
    (.inr (by decide +kernel))).1 widePrefix_limit

/-- The same prefix with a small number in it is reported as usual. -/
example : decodeLim strictPython widePrefixSpec (List.replicate 299 0 ++ [255]) =
    .error (.exc (.decodeError ⟨.tooLong 255 py"bytes" 5, List.replicate 299 0 ++ [255], [(py"h", [])], [(py"h", ⟨List.replicate 299 0 ++ [255], []⟩)], 0, py"h"⟩)) := by
  decide +kernel

example : decodeLim cpython defaultSpec (List.replicate 7 48) = (decode cpython defaultSpec (List.replicate 7 48)).mapError .exc :=
  shipped_printable (.inl rfl) cpython_saneDigits (by decide) (.inr (by decide +kernel))

example : encodeLim cpython demoSpec longDoc = ((encode cpython demoSpec longDoc).1.mapError .exc, (encode cpython demoSpec longDoc).2) :=
  encode_printable cpython_saneDigits (by unfold Dict.NoDup; decide) (short_of_small (by decide +kernel) (by decide)).1 (by
    intro e d h p hp
    rw [long_encode] at h
    cases h
    have : ∀ p ∈ longError.docEnc, 2 * p.2.data.length + 4 < 10000 := by decide +kernel
    exact .inr (Nat.lt_of_lt_of_le (this p hp) (Nat.pow_le_pow_right (n := 10) (i := 4) (by omega) (show 4 ≤ 4300 by omega))))

end Iso8583
