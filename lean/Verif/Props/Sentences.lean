import Verif.Spec.Sentences
import Verif.Props.DecodeFailure
import Verif.Props.ErrorText
/-!
# What exceptions say, in words (C47, C48, C72)
-/

namespace Iso8583

theorem unitName_getD (fs : FieldSpec) : fs.lenCount.getD py"bytes" = unitName fs := by
  unfold unitName; cases fs.lenCount <;> rfl

theorem fieldSentence_of_fault {env : PyEnv} {fs : FieldSpec} {s : Bytes} {idx : Nat} {e : EncEntry} {v : Str} {m : DecMsg}
    (hi : idx ≤ s.length) (h : DecFieldFault env fs s idx e v m) : FieldSentence env fs s idx e m.text := by
  cases m with
  | fieldDataBytes => exact h.elim
  | nonHexBitmap => exact h.elim
  | extraData => exact h.elim
  | lenWidth a x =>
    obtain ⟨h1, _, _, rfl, rfl⟩ := h
    exact .prefixShort hi h1
  | lenInvalidBcd => obtain ⟨⟨h0, h1, _⟩, h2, h3⟩ := h; exact .notBcd h1 h0 h2 h3
  | lenUnknownEncoding => obtain ⟨⟨h0, h1, _⟩, h2, h3⟩ := h; exact .prefixCodec h1 h0 h2 h3
  | lenInvalidData => obtain ⟨⟨h0, h1, _⟩, h2, c, h3, h4⟩ := h; exact .prefixText h1 h0 h2 h3 h4
  | lenNonNumeric => obtain ⟨⟨h0, h1, _⟩, h2, c, t, h3, h4, h5⟩ := h; exact .prefixNumber h1 h0 h2 h3 h4 h5
  | tooLong n u x =>
    obtain ⟨⟨h0, h1, _⟩, h2, _, h3, rfl, rfl⟩ := h
    rw [unitName_getD]
    exact .tooLong h1 h0 h2 h3
  | dataShort a u n =>
    have hh := h
    obtain ⟨h1, ⟨h2, _⟩, h3, _, _, _, rfl, rfl⟩ := h
    rw [unitName_getD] at hh ⊢
    by_cases hn : n < 0
    · exact .dataNegative h1 h2 hn
    · obtain ⟨h5, h6⟩ := dataShort_is_rest hh (by omega)
      exact .dataShort h1 h2 (by omega) h5 h6
  | padMissing a n =>
    obtain ⟨h1, h2, h3, h4, h5, h6, _, rfl⟩ := h
    exact .noPad h1 h2 h3 h4 h5 h6
  | unknownEncoding => obtain ⟨n, h1, h2, _, h3, _⟩ := h; exact .dataCodec h1 h2 h3
  | invalidData => obtain ⟨n, h1, h2, _, ⟨c, h3, h4⟩, _⟩ := h; exact .dataText h1 h2 h3 h4

theorem typeSentence_of_fault {env : PyEnv} {fs : FieldSpec} {s : Bytes} {idx : Nat} {e : EncEntry} {v : Str} {m : DecMsg}
    (hi : idx ≤ s.length) (h : DecTypeFault env fs s idx e v m) : FixedSentence env fs s idx 0 (typeBytes fs) False m.text := by
  cases m <;> try exact h.elim
  case fieldDataBytes a x =>
    obtain ⟨h1, _, _, rfl, rfl⟩ := h
    have := FixedSentence.short (env := env) (fs := fs) (s := s) (idx := idx) (old := 0) (w := typeBytes fs)
      (bitmap := False) hi h1
    rw [Nat.zero_add, Nat.zero_add] at this
    exact this
  case unknownEncoding => obtain ⟨h1, _, _, h2, h3⟩ := h; exact .codec h1 h2 h3
  case invalidData => obtain ⟨h1, rfl, _, h2, c, h3, h4⟩ := h; exact .text h1 h2 h3 h4

theorem bitmapSentence_of_fault {env : PyEnv} {fs : FieldSpec} {s : Bytes} {idx old mult : Nat} {D : Bytes} {v : Str} {m : DecMsg}
    (hm : bitmapBytes fs * mult = old + bitmapBytes fs)
    (hi : idx ≤ s.length) (h : DecBitmapFault env fs s idx old mult D v m) : FixedSentence env fs s idx old (bitmapBytes fs) True m.text := by
  cases m <;> try exact h.elim
  case fieldDataBytes a x =>
    obtain ⟨h1, _, _, rfl, rfl⟩ := h
    rw [hm]
    exact .short hi h1
  case nonHexBitmap => obtain ⟨h1, rfl, h2, ⟨c, h3, h4⟩, h5⟩ := h; exact .notHex trivial h1 h2 h3 h4 h5
  case unknownEncoding => obtain ⟨h1, _, _, h2, h3⟩ := h; exact .codec h1 h2 h3
  case invalidData => obtain ⟨h1, rfl, _, h2, c, h3, h4⟩ := h; exact .text h1 h2 h3 h4

/-- **C47**: the text of a `DecodeError`.  It is a sentence that is true of the entry of the field it
names, with the numbers filled in (or it says that data follows a complete message), then the field,
then the offset. -/
theorem decode_sentence {env : PyEnv} {spec : Spec} {s : Bytes} {e : DecodeError} {a : DecodeArg}
    (h : decode env spec s = .error (.decodeError e)) :
    ∃ text, (e.obj a).msg = text ∧
      (e.obj a).args0 = text ++ py": field " ++ e.field ++ py" pos " ++ natStr e.pos ∧
      ((text = py"Extra data after last field" ∧ e.pos < s.length ∧ decode env spec (s.take e.pos) = .ok (e.docDec, e.docEnc)) ∨
       ∃ pre ent fs, e.docEnc = pre ++ [(e.field, ent)] ∧ spec.get? e.field = some fs ∧
        DecodeSentence env fs s (wire pre).length e.field ent text) := by
  refine ⟨e.msg.text, rfl, rfl, ?_⟩
  rcases decode_error_truthful h with ⟨hm, h1, h2⟩ | ⟨_, pre, ent, preDec, v, h1, _, fs, h2, h3⟩
  · exact .inl ⟨by rw [hm]; rfl, h1, h2⟩
  · refine .inr ⟨pre, ent, fs, h1, h2, ?_⟩
    have hi : (wire pre).length ≤ s.length := by
      have := (decode_error_result h).2.1.length_le
      rw [h1] at this
      simp [wire] at this ⊢
      omega
    unfold DecodeSentence
    by_cases ht : e.field = py"t"
    · rw [if_pos ht] at h3 ⊢
      exact typeSentence_of_fault hi h3
    rw [if_neg ht] at h3 ⊢
    by_cases hp : e.field = py"p" ∨ e.field = py"1"
    · rw [if_pos hp] at h3 ⊢
      obtain ⟨_, h3 | ⟨v1, v2, _, hi', _, _, _, h3⟩⟩ := h3
      · exact .inl (bitmapSentence_of_fault (by omega) hi h3)
      · exact .inr (bitmapSentence_of_fault (by omega) hi' h3)
    rw [if_neg hp] at h3 ⊢
    exact fieldSentence_of_fault hi h3

theorem listed_commaJoin : ∀ {l : List Str}, l ≠ [] → Listed l (commaJoin l)
  | [], h => (h rfl).elim
  | [_], _ => .one
  | _ :: y :: l, _ => .more (listed_commaJoin (by simp))

theorem valueSentence_of_fault {env : PyEnv} {fs : FieldSpec} {t : Str} {e : EncEntry} {m : EncMsg}
    (h : FieldFault env fs t e m) : ValueSentence env fs t m.text := by
  cases m <;> try exact h.elim
  case unknownEncoding => obtain ⟨h1, h2, _⟩ := h; exact .codec h1 h2
  case invalidData => obtain ⟨h1, ⟨c, h2, h3⟩, _⟩ := h; exact .text h1 h2 h3
  case oddNibbles => obtain ⟨h1, h2, h3, h4, h5, _⟩ := h; exact .oddNibbles h1 h2 h3 h4 h5
  case oddHex => obtain ⟨h1, h2, h3, _⟩ := h; exact .oddHex h1 h2 h3
  case nonHex => obtain ⟨h1, _, ⟨c, h2, h3⟩, _⟩ := h; exact .notHex h1 h2 h3
  case fixedLen n u x => obtain ⟨h1, _, h2, h3, rfl, rfl⟩ := h; exact .fixed h1 h2 h3
  case tooLong n u x => obtain ⟨h1, _, h2, h3, rfl, rfl⟩ := h; exact .tooLong h1 h2 h3
  case lenDoesNotFit =>
    obtain ⟨n, h1, h2, h3, h4⟩ := h
    refine .doesNotFit h1 h2 h3 (fun hb => ?_) (fun hb => ?_)
    · rw [if_pos hb] at h4; exact h4.1
    · rw [if_neg hb] at h4
      obtain ⟨c, h5, h6, h7⟩ := h4
      exact ⟨c, _, h5, h6, h7⟩
  case lenUnknownEncoding => obtain ⟨n, _, h2, _, h4, h5, h6, _⟩ := h; exact .prefixCodec h2 ⟨h4, h5⟩ h6
  case lenInvalid => obtain ⟨n, h1, h2, _, h4, h5, ⟨c, h6, h7⟩, _⟩ := h; exact .prefixText h1 h2 ⟨h4, h5⟩ h6 h7

theorem typeTextSentence_of_fault {env : PyEnv} {fs : FieldSpec} {t : Str} {D : Bytes} {m : EncMsg}
    (h : TypeFault env fs t D m) : TypeSentence env fs t m.text := by
  cases m <;> try exact h.elim
  case typeLen n w => obtain ⟨h1, h2, rfl⟩ := h; exact .length h1 h2
  case unknownEncoding => obtain ⟨h1, h2, _⟩ := h; exact .codec h1 h2
  case invalidData => obtain ⟨h1, ⟨c, h2, h3⟩, _⟩ := h; exact .text h1 h2 h3
  case oddHex => obtain ⟨h1, h2, h3, _⟩ := h; exact .oddHex h1 h3
  case nonHex =>
    obtain ⟨h1, _, ⟨c, h2, h3⟩, _⟩ := h
    refine .notHex h1 ?_ h3
    unfold paddedDigits at h2
    rw [if_neg (by simp [FieldSpec.inNibbles, asType])] at h2
    exact h2

/-- **C48**: the text of an `EncodeError`: a sentence that is true of the field it names, then the
field. -/
theorem encode_sentence {env : PyEnv} {spec : Spec} {doc doc' : Doc} {e : EncodeError} (nd : doc.NoDup)
    (h : encode env spec doc = (.error (.encodeError e), doc')) :
    ∃ text, e.obj.msg = text ∧ e.obj.args0 = text ++ py": field " ++ e.field ∧
      EncodeSentence env spec doc doc' e.field text := by
  refine ⟨e.msg.text, rfl, rfl, ?_⟩
  obtain ⟨_, ent, _, hm⟩ := encode_error_truthful nd h
  generalize e.field = f at hm ⊢
  generalize e.msg = m at hm ⊢
  rcases hm with ⟨rfl, rfl, h1, h2⟩ | ⟨rfl, rfl, h1⟩ | ⟨l, rfl, rfl, h1, h2, h3⟩ | ⟨l, rfl, rfl, h1, rfl⟩ |
    ⟨fs, v, rfl, h1, h2, _, h3⟩ | ⟨fs, t, h1, h2, h3, h4, h5⟩ | ⟨fs, v, h1, h2, h3, h4, h5, h6⟩
  · exact .noHeader h1 h2
  · exact .noType h1
  · exact .range h2 h3 (listed_commaJoin (by simpa using h1))
  · exact .keys (listed_commaJoin h1)
  · exact .type h1 h2 fun t ht => typeTextSentence_of_fault (h3 t ht)
  · refine .bitmap h1 h2 h3 h4 ?_
    cases m <;> try exact h5.elim
    case unknownEncoding => exact .codec h5.1 h5.2
    case invalidData => obtain ⟨h6, c, h7, h8⟩ := h5; exact .text h6 h7 h8
  · exact .field h1 h2 h3 h4 h5 fun t ht => valueSentence_of_fault (h6 t ht)

/-! ## Reading the numbers back -/

theorem firstWord_unique {c : Nat} {a a' r r' : Str} (ha : c ∉ a) (ha' : c ∉ a') (h : a ++ c :: r = a' ++ c :: r') :
    a = a' ∧ r = r' := by
  induction a generalizing a' with
  | nil =>
    cases a' with
    | nil => injection h with _ h; exact ⟨rfl, h⟩
    | cons x t =>
      injection h with h _
      exact absurd (by rw [h]; simp) ha'
  | cons x t ih =>
    cases a' with
    | nil =>
      injection h with h _
      exact absurd (by rw [h]; simp) ha
    | cons y u =>
      injection h with h1 h2
      obtain ⟨h3, h4⟩ := ih (fun hm => ha (List.mem_cons_of_mem _ hm)) (fun hm => ha' (List.mem_cons_of_mem _ hm)) h2
      exact ⟨by rw [h1, h3], h4⟩

theorem intStr_noSpace (n : Int) : 32 ∉ intStr n := by
  cases n with
  | ofNat n => exact fun hm => absurd (natStr_digits n 32 hm) (by decide)
  | negSucc n =>
    intro hm
    rcases List.mem_cons.1 hm with h | h
    · cases h
    · exact absurd (natStr_digits _ 32 h) (by decide)

theorem intStr_inj {m n : Int} (h : intStr m = intStr n) : m = n := by
  have minus : ∀ k : Nat, (45 : Nat) ∉ natStr k := fun k hm => absurd (natStr_digits k 45 hm) (by decide)
  cases m with
  | ofNat m =>
    cases n with
    | ofNat n => rw [natStr_inj.1 h]
    | negSucc n => exact absurd (by rw [show natStr m = 45 :: natStr (n + 1) from h]; simp) (minus m)
  | negSucc m =>
    cases n with
    | ofNat n => exact absurd (by rw [← show 45 :: natStr (m + 1) = natStr n from h]; simp) (minus n)
    | negSucc n =>
      injection h with _ h
      have := natStr_inj.1 h
      congr 1
      omega

/-- "Field data is `n` `u`, `r`". -/
def dataText (n u r : Str) : Str := py"Field data is " ++ (n ++ 32 :: (u ++ 44 :: r))

theorem dataText_inj {n n' u u' r r' : Str} (hn : 32 ∉ n) (hn' : 32 ∉ n') (hu : 44 ∉ u) (hu' : 44 ∉ u')
    (h : dataText n u r = dataText n' u' r') : n = n' ∧ u = u' ∧ r = r' := by
  obtain ⟨h1, h2⟩ := firstWord_unique hn hn' (List.append_cancel_left h)
  exact ⟨h1, firstWord_unique hu hu' h2⟩

/-- The message, up to sentences that read the same: too little data is reported in the same words for
types and bitmaps as for fields, and so is a missing pad. -/
def DecMsg.plain : DecMsg → DecMsg
  | .fieldDataBytes a x => .dataShort a py"bytes" x
  | .padMissing a x => .dataShort a py"nibbles" x
  | m => m

/-- The unit in a message, if there is one. -/
def DecMsg.unit : DecMsg → Str
  | .tooLong _ u _ => u
  | .dataShort _ u _ => u
  | _ => []

theorem natStr_noSpace (n : Nat) : 32 ∉ natStr n := intStr_noSpace n

theorem DecMsg.text_data (m : DecMsg) :
    (∃ n u x, m.plain = .tooLong n u x ∧ u = m.unit ∧ m.text = dataText (intStr n) u (py" larger than maximum " ++ intStr x)) ∨
    (∃ (n : Nat) (u : Str) (x : Int), m.plain = .dataShort n u x ∧ (u = m.unit ∨ u = py"bytes" ∨ u = py"nibbles") ∧
      m.text = dataText (natStr n) u (py" expecting " ++ intStr x)) ∨
    (∃ n x, m = .lenWidth n x) ∨
    m ∈ [DecMsg.nonHexBitmap, .lenInvalidBcd, .lenUnknownEncoding, .lenInvalidData, .lenNonNumeric, .unknownEncoding, .invalidData, .extraData] := by
  cases m with
  | tooLong n u x => exact .inl ⟨n, u, x, rfl, rfl, by simp [DecMsg.text, dataText]⟩
  | dataShort n u x => exact .inr (.inl ⟨n, u, x, rfl, .inl rfl, by simp [DecMsg.text, dataText]⟩)
  | fieldDataBytes n x =>
    exact .inr (.inl ⟨n, _, x, rfl, .inr (.inl rfl), by simp [DecMsg.text, dataText, show intStr (x : Int) = natStr x from rfl]⟩)
  | padMissing n x => exact .inr (.inl ⟨n, _, x, rfl, .inr (.inr rfl), by simp [DecMsg.text, dataText]⟩)
  | lenWidth n x => exact .inr (.inr (.inl ⟨n, x, rfl⟩))
  | _ => exact .inr (.inr (.inr (by decide)))

theorem DecMsg.text_unique {m m' : DecMsg} (hu : 44 ∉ m.unit) (hu' : 44 ∉ m'.unit) (h : m.text = m'.text) :
    m.plain = m'.plain := by
  have com : ∀ {m : DecMsg} {u : Str}, 44 ∉ m.unit → (u = m.unit ∨ u = py"bytes" ∨ u = py"nibbles") → 44 ∉ u := by
    rintro m u hm (rfl | rfl | rfl)
    · exact hm
    · decide
    · decide
  have other : ∀ {m m' : DecMsg} {a b c : Str}, m'.text = dataText a b c → m.text = m'.text → (∃ n x, m = .lenWidth n x) → False := by
    rintro m m' a b c e h ⟨n, x, rfl⟩
    rw [e] at h
    simp [DecMsg.text, dataText] at h
  have const : ∀ {m m' : DecMsg} {a b c : Str}, m'.text = dataText a b c → m.text = m'.text →
      m ∈ [DecMsg.nonHexBitmap, .lenInvalidBcd, .lenUnknownEncoding, .lenInvalidData, .lenNonNumeric, .unknownEncoding, .invalidData, .extraData] → False := by
    intro m m' a b c e h hm
    rw [e] at h
    simp only [List.mem_cons, List.not_mem_nil, or_false] at hm
    rcases hm with rfl | rfl | rfl | rfl | rfl | rfl | rfl | rfl <;> simp [DecMsg.text, dataText] at h
  have wide : ∀ {m m' : DecMsg}, m.text = m'.text → (∃ n x, m = .lenWidth n x) →
      m' ∈ [DecMsg.nonHexBitmap, .lenInvalidBcd, .lenUnknownEncoding, .lenInvalidData, .lenNonNumeric, .unknownEncoding, .invalidData, .extraData] → False := by
    rintro m m' h ⟨n, x, rfl⟩ hm
    simp only [List.mem_cons, List.not_mem_nil, or_false] at hm
    rcases hm with rfl | rfl | rfl | rfl | rfl | rfl | rfl | rfl <;> simp [DecMsg.text] at h
  rcases m.text_data with ⟨n, u, x, hp, e1, e2⟩ | ⟨n, u, x, hp, e1, e2⟩ | e1 | e1 <;>
    rcases m'.text_data with ⟨n', u', x', hp', e1', e2'⟩ | ⟨n', u', x', hp', e1', e2'⟩ | e1' | e1'
  · rw [hp, hp']
    obtain ⟨a, b, c⟩ := dataText_inj (intStr_noSpace _) (intStr_noSpace _) (com hu (.inl e1)) (com hu' (.inl e1')) (e2 ▸ e2' ▸ h)
    rw [intStr_inj a, b, intStr_inj (List.append_cancel_left c)]
  · obtain ⟨_, _, c⟩ := dataText_inj (intStr_noSpace _) (natStr_noSpace _) (com hu (.inl e1)) (com hu' e1') (e2 ▸ e2' ▸ h)
    simp at c
  · exact (other e2 h.symm e1').elim
  · exact (const e2 h.symm e1').elim
  · obtain ⟨_, _, c⟩ := dataText_inj (natStr_noSpace _) (intStr_noSpace _) (com hu e1) (com hu' (.inl e1')) (e2 ▸ e2' ▸ h)
    simp at c
  · rw [hp, hp']
    obtain ⟨a, b, c⟩ := dataText_inj (natStr_noSpace _) (natStr_noSpace _) (com hu e1) (com hu' e1') (e2 ▸ e2' ▸ h)
    rw [natStr_inj.1 a, b, intStr_inj (List.append_cancel_left c)]
  · exact (other e2 h.symm e1').elim
  · exact (const e2 h.symm e1').elim
  · exact (other e2' h e1).elim
  · exact (other e2' h e1).elim
  · obtain ⟨n, x, rfl⟩ := e1
    obtain ⟨n', x', rfl⟩ := e1'
    have r : ∀ n x : Str, py"Field length is " ++ n ++ py" bytes wide, expecting " ++ x =
        py"Field length is " ++ (n ++ 32 :: (py"bytes wide, expecting " ++ x)) := by simp
    have h2 := (r _ _).symm.trans (Eq.trans h (r _ _))
    obtain ⟨a, b⟩ := firstWord_unique (natStr_noSpace _) (natStr_noSpace _) (List.append_cancel_left h2)
    rw [natStr_inj.1 a, natStr_inj.1 (List.append_cancel_left b)]
  · exact (wide h e1 e1').elim
  · exact (const e2' h e1).elim
  · exact (const e2' h e1).elim
  · exact (wide h.symm e1' e1).elim
  · simp only [List.mem_cons, List.not_mem_nil, or_false] at e1 e1'
    rcases e1 with rfl | rfl | rfl | rfl | rfl | rfl | rfl | rfl <;>
      rcases e1' with rfl | rfl | rfl | rfl | rfl | rfl | rfl | rfl <;> first | rfl | exact absurd h (by decide)

/-- No unit of the specification has a comma; the documented ones are `bytes` and `nibbles`. -/
def PlainUnits (spec : Spec) : Prop := ∀ k fs, spec.get? k = some fs → 44 ∉ unitName fs

theorem decode_error_unit {env : PyEnv} {spec : Spec} {s : Bytes} {e : DecodeError} (hs : PlainUnits spec)
    (h : decode env spec s = .error (.decodeError e)) : 44 ∉ e.msg.unit := by
  rcases decode_error_truthful h with ⟨hm, _⟩ | ⟨_, pre, ent, preDec, v, _, _, fs, h2, h3⟩
  · rw [hm]; simp [DecMsg.unit]
  · have hu := hs _ _ h2
    by_cases ht : e.field = py"t"
    · rw [if_pos ht] at h3
      generalize e.msg = m at h3
      cases m <;> first | exact h3.elim | exact List.not_mem_nil
    rw [if_neg ht] at h3
    by_cases hp : e.field = py"p" ∨ e.field = py"1"
    · rw [if_pos hp] at h3
      generalize e.msg = m at h3
      obtain ⟨_, h3 | ⟨v1, v2, _, hi', _, _, _, h3⟩⟩ := h3 <;> cases m <;> first | exact h3.elim | exact List.not_mem_nil
    rw [if_neg hp] at h3
    generalize e.msg = m at h3
    cases m <;> first | exact List.not_mem_nil | skip
    case tooLong => obtain ⟨_, _, _, _, rfl, _⟩ := h3; rw [unitName_getD]; exact hu
    case dataShort => obtain ⟨_, _, _, _, _, _, _, rfl⟩ := h3; rw [unitName_getD]; exact hu

/-- **C72**: and the sentence determines the numbers in it.  Two failures with the same text were
reported with the same message, up to sentences that read the same for fields, types and bitmaps. -/
theorem decode_text_numbers {env env' : PyEnv} {spec spec' : Spec} {s s' : Bytes} {e e' : DecodeError} {a a' : DecodeArg}
    (hs : PlainUnits spec) (hs' : PlainUnits spec')
    (h : decode env spec s = .error (.decodeError e)) (h' : decode env' spec' s' = .error (.decodeError e'))
    (ht : (e.obj a).args0 = (e'.obj a').args0) : e.msg.plain = e'.msg.plain ∧ e.field = e'.field ∧ e.pos = e'.pos := by
  obtain ⟨h1, h2, h3⟩ := decode_text_unique h h' ht
  exact ⟨DecMsg.text_unique (decode_error_unit hs h) (decode_error_unit hs' h') h1, h2, Int.ofNat.inj h3⟩

/-- The message, up to sentences that read the same: a wrong length is reported in the same words for
the type as for fields. -/
def EncMsg.plain : EncMsg → EncMsg
  | .typeLen a x => .fixedLen a py"bytes" x
  | m => m

/-- The unit in a message, if there is one. -/
def EncMsg.unit : EncMsg → Str
  | .tooLong _ u _ => u
  | .fixedLen _ u _ => u
  | _ => []

/-- The messages without numbers or names in them. -/
def constEnc : List EncMsg :=
  [.requiredBySpec, .required, .lenDoesNotFit, .lenUnknownEncoding, .lenInvalid, .oddNibbles, .oddHex, .nonHex, .unknownEncoding, .invalidData]

theorem EncMsg.text_data (m : EncMsg) :
    (∃ (n : Nat) (u : Str) (x : Int), m.plain = .tooLong n u x ∧ u = m.unit ∧
      m.text = dataText (natStr n) u (py" larger than maximum " ++ intStr x)) ∨
    (∃ (n : Nat) (u : Str) (x : Int), m.plain = .fixedLen n u x ∧ (u = m.unit ∨ u = py"bytes") ∧
      m.text = dataText (natStr n) u (py" expecting " ++ intStr x)) ∨
    (∃ l, m = .outOfRange l) ∨ (∃ l, m = .invalidFields l) ∨ m ∈ constEnc := by
  cases m with
  | tooLong n u x => exact .inl ⟨n, u, x, rfl, rfl, by simp [EncMsg.text, dataText]⟩
  | fixedLen n u x => exact .inr (.inl ⟨n, u, x, rfl, .inl rfl, by simp [EncMsg.text, dataText]⟩)
  | typeLen n x =>
    exact .inr (.inl ⟨n, _, x, rfl, .inr rfl, by simp [EncMsg.text, dataText, show intStr (x : Int) = natStr x from rfl]⟩)
  | outOfRange l => exact .inr (.inr (.inl ⟨l, rfl⟩))
  | invalidFields l => exact .inr (.inr (.inr (.inl ⟨l, rfl⟩)))
  | _ => exact .inr (.inr (.inr (.inr (by decide))))

theorem intStr_plain (n : Int) : 44 ∉ intStr n ∧ intStr n ≠ [] := by
  cases n with
  | ofNat n => exact ⟨fun hm => absurd (natStr_digits n 44 hm) (by decide), natStr_ne_nil n⟩
  | negSucc n =>
    refine ⟨fun hm => ?_, by simp [intStr]⟩
    rcases List.mem_cons.1 hm with h | h
    · cases h
    · exact absurd (natStr_digits _ 44 h) (by decide)

theorem commaJoin_inj : ∀ {l l' : List Int}, commaJoin (l.map intStr) = commaJoin (l'.map intStr) → l = l'
  | [], [], _ => rfl
  | [], [y], h => absurd h.symm (intStr_plain y).2
  | [], y :: z :: t, h => by simp [commaJoin] at h
  | [x], [], h => absurd h (intStr_plain x).2
  | x :: z :: t, [], h => by simp [commaJoin] at h
  | [x], [y], h => by rw [intStr_inj (show intStr x = intStr y from h)]
  | [x], y :: z :: t, h => absurd (by rw [show intStr x = _ from h]; simp [commaJoin]) (intStr_plain x).1
  | y :: z :: t, [x], h => absurd (by rw [← show _ = intStr x from h]; simp [commaJoin]) (intStr_plain x).1
  | x :: y :: t, x' :: y' :: t', h => by
    have r : ∀ (a : Str) (b : Int) (t : List Int), commaJoin (a :: (b :: t).map intStr) = a ++ 44 :: (32 :: commaJoin ((b :: t).map intStr)) := by
      intro a b t
      simp [commaJoin]
    have h2 := (r _ _ _).symm.trans (Eq.trans h (r _ _ _))
    obtain ⟨h3, h4⟩ := firstWord_unique (intStr_plain x).1 (intStr_plain x').1 h2
    injection h4 with _ h4
    rw [intStr_inj h3, commaJoin_inj h4]

theorem EncMsg.text_unique {m m' : EncMsg} (hu : 44 ∉ m.unit) (hu' : 44 ∉ m'.unit) (hm : ∀ l, m ≠ .invalidFields l)
    (h : m.text = m'.text) : m.plain = m'.plain := by
  have com : ∀ {m : EncMsg} {u : Str}, 44 ∉ m.unit → (u = m.unit ∨ u = py"bytes") → 44 ∉ u := by
    rintro m u hm (rfl | rfl)
    · exact hm
    · decide
  have other : ∀ {m m' : EncMsg} {a b c : Str}, m'.text = dataText a b c → m.text = m'.text →
      (∃ l, m = .outOfRange l) ∨ (∃ l, m = .invalidFields l) ∨ m ∈ constEnc → False := by
    rintro m m' a b c e h hm
    rw [e] at h
    simp only [constEnc, List.mem_cons, List.not_mem_nil, or_false] at hm
    rcases hm with ⟨l, rfl⟩ | ⟨l, rfl⟩ | rfl | rfl | rfl | rfl | rfl | rfl | rfl | rfl | rfl | rfl
    case inr.inr.inl =>
      exact absurd (show 44 ∈ EncMsg.text .requiredBySpec by rw [h]; simp [dataText]) (by decide)
    case inr.inr.inr.inl =>
      exact absurd (show 44 ∈ EncMsg.text .required by rw [h]; simp [dataText]) (by decide)
    all_goals simp [EncMsg.text, dataText] at h
  have list : ∀ {m m' : EncMsg} {l}, m = .outOfRange l → m.text = m'.text → (∃ l, m' = .invalidFields l) ∨ m' ∈ constEnc → False := by
    rintro m m' l rfl h hm
    simp only [constEnc, List.mem_cons, List.not_mem_nil, or_false] at hm
    rcases hm with ⟨l, rfl⟩ | rfl | rfl | rfl | rfl | rfl | rfl | rfl | rfl | rfl | rfl <;> simp [EncMsg.text] at h
  have const : ∀ {m m' : EncMsg}, m ∈ constEnc → m.text = m'.text → (∃ l, m' = .invalidFields l) → False := by
    rintro m m' hm h ⟨l, rfl⟩
    simp only [constEnc, List.mem_cons, List.not_mem_nil, or_false] at hm
    rcases hm with rfl | rfl | rfl | rfl | rfl | rfl | rfl | rfl | rfl | rfl <;> simp [EncMsg.text] at h
  rcases m.text_data with ⟨n, u, x, hp, e1, e2⟩ | ⟨n, u, x, hp, e1, e2⟩ | ⟨l, e1⟩ | ⟨l, e1⟩ | e1
  · rcases m'.text_data with ⟨n', u', x', hp', e1', e2'⟩ | ⟨n', u', x', hp', e1', e2'⟩ | e1'
    · rw [hp, hp']
      obtain ⟨a, b, c⟩ := dataText_inj (natStr_noSpace _) (natStr_noSpace _) (com hu (.inl e1)) (com hu' (.inl e1')) (e2 ▸ e2' ▸ h)
      rw [natStr_inj.1 a, b, intStr_inj (List.append_cancel_left c)]
    · obtain ⟨_, _, c⟩ := dataText_inj (natStr_noSpace _) (natStr_noSpace _) (com hu (.inl e1)) (com hu' e1') (e2 ▸ e2' ▸ h)
      simp at c
    · exact (other e2 h.symm e1').elim
  · rcases m'.text_data with ⟨n', u', x', hp', e1', e2'⟩ | ⟨n', u', x', hp', e1', e2'⟩ | e1'
    · obtain ⟨_, _, c⟩ := dataText_inj (natStr_noSpace _) (natStr_noSpace _) (com hu e1) (com hu' (.inl e1')) (e2 ▸ e2' ▸ h)
      simp at c
    · rw [hp, hp']
      obtain ⟨a, b, c⟩ := dataText_inj (natStr_noSpace _) (natStr_noSpace _) (com hu e1) (com hu' e1') (e2 ▸ e2' ▸ h)
      rw [natStr_inj.1 a, b, intStr_inj (List.append_cancel_left c)]
    · exact (other e2 h.symm e1').elim
  · rcases m'.text_data with ⟨n', u', x', hp', e1', e2'⟩ | ⟨n', u', x', hp', e1', e2'⟩ | ⟨l', e1'⟩ | e1'
    · exact (other e2' h (.inl ⟨l, e1⟩)).elim
    · exact (other e2' h (.inl ⟨l, e1⟩)).elim
    · subst e1 e1'
      rw [commaJoin_inj (List.append_cancel_left (List.append_cancel_right h))]
    · exact (list e1 h e1').elim
  · exact absurd e1 (hm l)
  · rcases m'.text_data with ⟨n', u', x', hp', e1', e2'⟩ | ⟨n', u', x', hp', e1', e2'⟩ | ⟨l', e1'⟩ | e1' | e1'
    · exact (other e2' h (.inr (.inr e1))).elim
    · exact (other e2' h (.inr (.inr e1))).elim
    · exact (list e1' h.symm (.inr e1)).elim
    · exact (const e1 h e1').elim
    · simp only [constEnc, List.mem_cons, List.not_mem_nil, or_false] at e1 e1'
      rcases e1 with rfl | rfl | rfl | rfl | rfl | rfl | rfl | rfl | rfl | rfl <;>
        rcases e1' with rfl | rfl | rfl | rfl | rfl | rfl | rfl | rfl | rfl | rfl <;> first | rfl | exact absurd h (by decide)

theorem encode_error_unit {env : PyEnv} {spec : Spec} {doc d : Doc} {e : EncodeError} (hs : PlainUnits spec) (nd : doc.NoDup)
    (hv : ∀ k v, doc.get? k = some v → ∃ t, v = .str t)
    (h : encode env spec doc = (.error (.encodeError e), d)) : 44 ∉ e.msg.unit := by
  obtain ⟨_, ent, _, hm⟩ := encode_error_truthful nd h
  generalize e.field = f at hm
  generalize e.msg = m at hm ⊢
  rcases hm with ⟨rfl, _⟩ | ⟨rfl, _⟩ | ⟨l, rfl, _⟩ | ⟨l, rfl, _⟩ |
    ⟨fs, v, rfl, h1, h2, _, h3⟩ | ⟨fs, t, h1, h2, h3, h4, h5⟩ | ⟨fs, v, h1, h2, h3, h4, h5, h6⟩
  · exact List.not_mem_nil
  · exact List.not_mem_nil
  · exact List.not_mem_nil
  · exact List.not_mem_nil
  · obtain ⟨t, ht⟩ := hv _ _ h2
    have := h3 t ht
    cases m <;> first | exact List.not_mem_nil | exact this.elim
  · cases m <;> first | exact List.not_mem_nil | exact h5.elim
  · obtain ⟨t, ht⟩ := hv _ _ h5
    have := h6 t ht
    have hu := hs _ _ h4
    cases m <;> first | exact List.not_mem_nil | skip
    case fixedLen => obtain ⟨_, _, _, _, rfl, _⟩ := this; exact hu
    case tooLong => obtain ⟨_, _, _, _, rfl, _⟩ := this; exact hu

/-- **C72**: the same for `encode`, for dicts of texts.  The names of keys that are not strings are
left out, because such a name may be any text. -/
theorem encode_text_numbers {env env' : PyEnv} {spec spec' : Spec} {doc doc' d d' : Doc} {e e' : EncodeError}
    (hs : PlainUnits spec) (hs' : PlainUnits spec') (nd : doc.NoDup) (nd' : doc'.NoDup)
    (hv : ∀ k v, doc.get? k = some v → ∃ t, v = .str t) (hv' : ∀ k v, doc'.get? k = some v → ∃ t, v = .str t)
    (h : encode env spec doc = (.error (.encodeError e), d)) (h' : encode env' spec' doc' = (.error (.encodeError e'), d'))
    (ht : e.obj.args0 = e'.obj.args0) : ((∀ l, e.msg ≠ .invalidFields l) → e.msg.plain = e'.msg.plain) ∧ e.field = e'.field := by
  obtain ⟨h1, h2⟩ := encode_text_unique nd nd' h h' ht
  exact ⟨fun hm => EncMsg.text_unique (encode_error_unit hs nd hv h) (encode_error_unit hs' nd' hv' h') hm h1, h2⟩

/-! ## Examples -/

/-- The message cut off inside field 70, in words. -/
example : ∃ pre ent fs, demoSpec.get? py"70" = some fs ∧
    DecodeSentence cpython fs (demoMsg.take 57) (wire pre).length py"70" ent py"Field data is 1 bytes, expecting 3" := by
  obtain ⟨text, ht, _, h | ⟨pre, ent, fs, _, h1, h2⟩⟩ := decode_sentence (a := .bytes (demoMsg.take 57)) demo_decode_cut
  · rw [h.1] at ht
    exact absurd ht (by decide)
  · have : text = py"Field data is 1 bytes, expecting 3" := ht.symm.trans (by decide)
    exact ⟨pre, ent, fs, h1, this ▸ h2⟩

/-- Field 70 too long, in words. -/
example : EncodeSentence cpython demoSpec longDoc longError.docDec py"70" py"Field data is 11 bytes, larger than maximum 10" := by
  obtain ⟨text, ht, _, h⟩ := encode_sentence (by unfold Dict.NoDup; decide) long_encode
  have : text = py"Field data is 11 bytes, larger than maximum 10" := ht.symm.trans (by decide)
  exact this ▸ h

theorem demo_plainUnits : PlainUnits demoSpec := by
  have : ∀ p ∈ demoSpec, 44 ∉ unitName p.2 := by decide
  exact fun k fs h => this _ (Dict.mem_of_get? h)

/-- From the line in the log to the numbers: whoever reads it knows that one byte was left of three. -/
example {env : PyEnv} {spec : Spec} {s : Bytes} {e : DecodeError} (hs : PlainUnits spec)
    (h : decode env spec s = .error (.decodeError e))
    (ht : (e.obj (.bytes s)).args0 = py"Field data is 1 bytes, expecting 3: field 70 pos 56") :
    e.msg.plain = .dataShort 1 py"bytes" 3 :=
  (decode_text_numbers (a := .bytes s) (a' := .bytes (demoMsg.take 57)) hs demo_plainUnits h demo_decode_cut
    (by rw [ht]; decide)).1

/-- The dict with a field 70 too long, all its values texts. -/
def longTextDoc : Doc := longDoc.filter fun p => p.1 != .str py"note"

theorem longText_encode : encode cpython demoSpec longTextDoc =
    (.error (.encodeError { longError with docDec := (encode cpython demoSpec longTextDoc).2 }), (encode cpython demoSpec longTextDoc).2) := by decide +kernel

/-- The same for `encode`, when every value is a text. -/
example {env : PyEnv} {spec : Spec} {doc d : Doc} {e : EncodeError} (hs : PlainUnits spec) (nd : doc.NoDup)
    (hv : ∀ k v, doc.get? k = some v → ∃ t, v = .str t) (h : encode env spec doc = (.error (.encodeError e), d))
    (ht : e.obj.args0 = py"Field data is 11 bytes, larger than maximum 10: field 70") (hi : ∀ l, e.msg ≠ .invalidFields l) :
    e.msg.plain = .tooLong 11 py"bytes" 10 :=
  (encode_text_numbers hs demo_plainUnits nd (by unfold Dict.NoDup; decide) hv
    (fun k v hk => by
      have : ∀ p ∈ longTextDoc, (match p.2 with
          | .str _ => true
          | _ => false) = true := by decide
      have := this _ (Dict.mem_of_get? hk)
      cases v with
      | str t => exact ⟨t, rfl⟩
      | _ => cases this) h longText_encode (by rw [ht]; decide)).1 hi

end Iso8583
