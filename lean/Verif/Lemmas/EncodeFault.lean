import Verif.Lemmas.EncodeErr
import Verif.Lemmas.EncodeCongr
/-!
# Why a field cannot be encoded
-/

namespace Iso8583

theorem unitName_eq (fs : FieldSpec) : unitName fs = fs.count := by
  unfold unitName FieldSpec.count
  cases fs.lenCount <;> rfl

theorem hexVal?_none_iff {c : Nat} : hexVal? c = none ↔ isHexDigit c = false := by
  unfold hexVal? isHexDigit
  by_cases h1 : 48 ≤ c ∧ c ≤ 57
  · simp [h1]
  · by_cases h2 : 65 ≤ c ∧ c ≤ 70
    · rw [if_neg h1, if_pos h2]; simp [h2]
    · by_cases h3 : 97 ≤ c ∧ c ≤ 102
      · rw [if_neg h1, if_neg h2, if_pos h3]; simp [h3]
      · rw [if_neg h1, if_neg h2, if_neg h3]; simp; omega

theorem a2bHex_none_iff : ∀ {t : Str}, a2bHex t = none ↔ t.length % 2 = 1 ∨ ∃ c ∈ t, isHexDigit c = false
  | [] => by simp [a2bHex]
  | [c] => by simp [a2bHex]
  | a :: b :: t => by
    have ih := a2bHex_none_iff (t := t)
    have ha := hexVal?_none_iff (c := a)
    have hb := hexVal?_none_iff (c := b)
    simp only [a2bHex, List.length_cons, List.mem_cons]
    cases h1 : hexVal? a with
    | none => simp [ha.1 h1]
    | some x =>
      cases h2 : hexVal? b with
      | none => simp [hb.1 h2]
      | some y =>
        have ha' : isHexDigit a = true := by
          cases h : isHexDigit a
          · rw [ha.2 h] at h1; cases h1
          · rfl
        have hb' : isHexDigit b = true := by
          cases h : isHexDigit b
          · rw [hb.2 h] at h2; cases h2
          · rfl
        cases h3 : a2bHex t with
        | none =>
          simp only [true_iff]
          rcases ih.1 h3 with h | ⟨c, hc, h⟩
          · left; omega
          · exact .inr ⟨c, .inr (.inr hc), h⟩
        | some r =>
          simp only [reduceCtorEq, false_iff]
          rw [h3] at ih
          rintro (h | ⟨c, rfl | rfl | hc, h⟩)
          · have := ih.2 (.inl (by omega)); cases this
          · rw [ha'] at h; cases h
          · rw [hb'] at h; cases h
          · have := ih.2 (.inr ⟨c, hc, h⟩); cases this

theorem addPadField_str (fs : FieldSpec) (t : Str) :
    addPadField (.str t) fs = some (.str (match firstPad fs.leftPad, firstPad fs.rightPad with
      | some c, _ => c :: t
      | none, some c => t ++ [c]
      | none, none => t)) := by
  unfold addPadField
  simp only [padChar_length]
  cases hL : firstPad fs.leftPad with
  | some c =>
    have hpl : padChar fs.leftPad = [c] := by rw [padChar_eq, hL]; rfl
    simp [hpl]
  | none =>
    cases hR : firstPad fs.rightPad with
    | some c =>
      have hpl : padChar fs.rightPad = [c] := by rw [padChar_eq, hR]; rfl
      simp [hpl]
    | none => simp

theorem binary_str (key : Str) (fs : FieldSpec) (t : Str) :
    encodeBinaryField (.str t) key fs fs.count =
      match a2bHex (paddedDigits fs t) with
      | none => .error (if fs.inNibbles ∧ (paddedDigits fs t).length % 2 = 1 then .err .oddNibbles key
          else if (paddedDigits fs t).length % 2 = 1 then .err .oddHex key else .err .nonHex key)
      | some b => .ok (b, if fs.inNibbles then t.length else b.length) := by
  unfold encodeBinaryField
  by_cases hn : fs.inNibbles
  · have hc := (count_nibbles fs).2 hn
    simp only [if_pos hc, Val.len?, if_pos hn]
    have hd : (if t.length % 2 = 1 then addPadField (.str t) fs else some (.str t)) = some (.str (paddedDigits fs t)) := by
      unfold paddedDigits
      by_cases ho : t.length % 2 = 1
      · rw [if_pos ho, addPadField_str, if_pos ⟨hn, ho⟩]; rfl
      · rw [if_neg ho, if_neg (fun h => ho h.2)]
    rw [hd]
    simp only [Option.bind_some, Val.a2bHex]
    cases a2bHex (paddedDigits fs t) with
    | none => simp [binaryHandler, Val.len?, hc, hn]
    | some b => rfl
  · have hc : ¬ fs.count = py"nibbles" := fun h => hn ((count_nibbles fs).1 h)
    have hp : paddedDigits fs t = t := by unfold paddedDigits; rw [if_neg (fun h => hn h.1)]
    simp only [if_neg hc, if_neg hn, hp, Option.bind_some, Val.a2bHex]
    cases a2bHex t with
    | none => simp [binaryHandler, Val.len?, hc, hn]
    | some b => rfl

theorem paddedDigits_odd {fs : FieldSpec} {t : Str} (hn : fs.inNibbles) :
    (paddedDigits fs t).length % 2 = 1 ↔ t.length % 2 = 1 ∧ firstPad fs.leftPad = none ∧ firstPad fs.rightPad = none := by
  unfold paddedDigits
  by_cases ho : t.length % 2 = 1
  · rw [if_pos ⟨hn, ho⟩]
    cases hL : firstPad fs.leftPad with
    | some c => simp; omega
    | none =>
      cases hR : firstPad fs.rightPad with
      | some c => simp; omega
      | none => simp [ho]
  · rw [if_neg (fun h => ho h.2)]; simp [ho]

theorem encData_str_error_iff {env : PyEnv} {key : Str} {fs : FieldSpec} {t : Str} {r : EncRaise} :
    encData env key fs (.str t) = .error r ↔ ∃ m, r = .err m key ∧
      (m = .unknownEncoding ∨ m = .invalidData ∨ m = .oddNibbles ∨ m = .oddHex ∨ m = .nonHex) ∧ FieldFault env fs t ⟨[], []⟩ m := by
  unfold encData
  by_cases hb : fs.isBinary
  · rw [if_pos (show fs.dataEnc = py"b" from hb), binary_str]
    cases ha : a2bHex (paddedDigits fs t) with
    | some b =>
      simp only [reduceCtorEq, false_iff]
      have hno : ¬ ((paddedDigits fs t).length % 2 = 1 ∨ ∃ c ∈ paddedDigits fs t, isHexDigit c = false) := by
        intro h; rw [a2bHex_none_iff.2 h] at ha; cases ha
      rintro ⟨m, rfl, h | h | h | h | h, hf⟩ <;> subst h
      · exact hf.1 hb
      · exact hf.1 hb
      · exact hno (.inl ((paddedDigits_odd hf.2.1).2 ⟨hf.2.2.1, hf.2.2.2.1, hf.2.2.2.2.1⟩))
      · apply hno
        left
        unfold paddedDigits; rw [if_neg (fun h => hf.2.1 h.1)]; exact hf.2.2.1
      · exact hno (.inr hf.2.2.1)
    | none =>
      simp only [Except.error.injEq]
      by_cases hn : fs.inNibbles
      · by_cases ho : (paddedDigits fs t).length % 2 = 1
        · rw [if_pos ⟨hn, ho⟩]
          obtain ⟨h1, h2, h3⟩ := (paddedDigits_odd hn).1 ho
          constructor
          · rintro rfl
            exact ⟨_, rfl, by simp, hb, hn, h1, h2, h3, rfl⟩
          · rintro ⟨m, rfl, h | h | h | h | h, hf⟩ <;> subst h
            · exact absurd hb hf.1
            · exact absurd hb hf.1
            · rfl
            · exact absurd hn hf.2.1
            · have := hf.2.1; omega
        · rw [if_neg (fun h => ho h.2), if_neg ho]
          constructor
          · rintro rfl
            refine ⟨_, rfl, by simp, hb, by omega, ?_, rfl⟩
            rcases a2bHex_none_iff.1 ha with h | h
            · exact absurd h ho
            · exact h
          · rintro ⟨m, rfl, h | h | h | h | h, hf⟩ <;> subst h
            · exact absurd hb hf.1
            · exact absurd hb hf.1
            · exact absurd ((paddedDigits_odd hn).2 ⟨hf.2.2.1, hf.2.2.2.1, hf.2.2.2.2.1⟩) ho
            · exact absurd hn hf.2.1
            · rfl
      · have hp : paddedDigits fs t = t := by unfold paddedDigits; rw [if_neg (fun h => hn h.1)]
        rw [if_neg (fun h => hn h.1)]
        rw [hp] at ha ⊢
        by_cases ho : t.length % 2 = 1
        · rw [if_pos ho]
          constructor
          · rintro rfl
            exact ⟨_, rfl, by simp, hb, hn, ho, rfl⟩
          · rintro ⟨m, rfl, h | h | h | h | h, hf⟩ <;> subst h
            · exact absurd hb hf.1
            · exact absurd hb hf.1
            · exact absurd hf.2.1 hn
            · rfl
            · have := hf.2.1; rw [hp] at this; omega
        · rw [if_neg ho]
          constructor
          · rintro rfl
            refine ⟨_, rfl, by simp, hb, by rw [hp]; omega, ?_, rfl⟩
            rcases a2bHex_none_iff.1 ha with h | h
            · exact absurd h ho
            · rw [hp]; exact h
          · rintro ⟨m, rfl, h | h | h | h | h, hf⟩ <;> subst h
            · exact absurd hb hf.1
            · exact absurd hb hf.1
            · exact absurd hf.2.1 hn
            · exact absurd hf.2.2.1 ho
            · rfl
  · rw [if_neg (show ¬ fs.dataEnc = py"b" from hb)]
    unfold encodeTextField strEncode
    cases hc : env.codec fs.dataEnc with
    | none =>
      simp only [Except.error.injEq]
      constructor
      · rintro rfl; exact ⟨_, rfl, by simp, hb, hc, rfl⟩
      · rintro ⟨m, rfl, h | h | h | h | h, hf⟩ <;> subst h
        · rfl
        · obtain ⟨_, ⟨c, h, _⟩, _⟩ := hf; rw [hc] at h; cases h
        · exact absurd hf.1 hb
        · exact absurd hf.1 hb
        · exact absurd hf.1 hb
    | some c =>
      dsimp only
      cases he : c.encode t with
      | none =>
        simp only [Except.error.injEq]
        constructor
        · rintro rfl; exact ⟨_, rfl, by simp, hb, ⟨c, hc, he⟩, rfl⟩
        · rintro ⟨m, rfl, h | h | h | h | h, hf⟩ <;> subst h
          · obtain ⟨_, h, _⟩ := hf; rw [hc] at h; cases h
          · rfl
          · exact absurd hf.1 hb
          · exact absurd hf.1 hb
          · exact absurd hf.1 hb
      | some b =>
        simp only [reduceCtorEq, false_iff]
        rintro ⟨m, rfl, h | h | h | h | h, hf⟩ <;> subst h
        · obtain ⟨_, h, _⟩ := hf; rw [hc] at h; cases h
        · obtain ⟨_, ⟨c', h, h'⟩, _⟩ := hf; rw [hc] at h; cases h; rw [he] at h'; cases h'
        · exact absurd hf.1 hb
        · exact absurd hf.1 hb
        · exact absurd hf.1 hb

/-- Why a length prefix cannot be written. -/
theorem lenOut_error_iff {env : PyEnv} {key : Str} {fs : FieldSpec} {n : Nat} {r : EncRaise} {L : Bytes} (h0 : fs.lenType ≠ 0) :
    lenOut env key fs n = (.error r, L) ↔
      (r = .err .lenDoesNotFit key ∧
        if fs.lenEnc = py"b" ∨ fs.lenEnc = py"bcd" then capacity fs ≤ n ∧ L = []
        else ∃ c, env.codec fs.lenEnc = some c ∧ c.encode (zeroPad fs.lenType n) = some L ∧ fs.lenType < L.length) ∨
      (r = .err .lenUnknownEncoding key ∧ fs.lenEnc ≠ py"b" ∧ fs.lenEnc ≠ py"bcd" ∧ env.codec fs.lenEnc = none ∧ L = []) ∨
      (r = .err .lenInvalid key ∧ fs.lenEnc ≠ py"b" ∧ fs.lenEnc ≠ py"bcd" ∧
        (∃ c, env.codec fs.lenEnc = some c ∧ c.encode (zeroPad fs.lenType n) = none) ∧ L = []) := by
  unfold lenOut capacity
  by_cases hb : fs.lenEnc = py"b"
  · rw [if_pos hb, if_pos (show fs.lenEnc = py"b" ∨ fs.lenEnc = py"bcd" from .inl hb), if_pos hb]
    simp only [hb, ne_eq, not_true_eq_false, false_and, and_false, or_false]
    unfold toBytesBE
    by_cases hlt : n < 256 ^ fs.lenType
    · rw [if_pos hlt]; simp; omega
    · rw [if_neg hlt]
      simp only [Prod.mk.injEq, Except.error.injEq]
      constructor
      · rintro ⟨rfl, rfl⟩; exact ⟨rfl, by omega, rfl⟩
      · rintro ⟨rfl, _, rfl⟩; exact ⟨rfl, rfl⟩
  · rw [if_neg hb]
    by_cases hc : fs.lenEnc = py"bcd"
    · rw [if_pos hc, if_pos (show fs.lenEnc = py"b" ∨ fs.lenEnc = py"bcd" from .inr hc), if_neg hb, if_pos hc]
      simp only [hc, ne_eq, not_true_eq_false, false_and, and_false, or_false]
      have hp : (100 : Nat) ^ fs.lenType = 10 ^ (fs.lenType * 2) := by rw [Nat.mul_comm, Nat.pow_mul]
      by_cases hl : (zeroPad (fs.lenType * 2) n).length > fs.lenType * 2
      · simp only [if_pos hl, Prod.mk.injEq, Except.error.injEq]
        have : ¬ n < 100 ^ fs.lenType := by
          intro h; rw [hp] at h; rw [zeroPad_length_of_lt (by omega) h] at hl; omega
        constructor
        · rintro ⟨rfl, rfl⟩; exact ⟨rfl, by omega, rfl⟩
        · rintro ⟨rfl, _, rfl⟩; exact ⟨rfl, rfl⟩
      · simp only [if_neg hl]
        have hlen : (zeroPad (fs.lenType * 2) n).length = fs.lenType * 2 := by
          have := zeroPad_length (fs.lenType * 2) n
          omega
        obtain ⟨l, hb⟩ := a2bHex_isSome_of_digits (by omega) (zeroPad_digits (fs.lenType * 2) n)
        simp only [hb, Prod.mk.injEq, reduceCtorEq, false_and, false_iff]
        rintro ⟨_, h, _⟩
        rw [hp] at h
        have := (natStr_length_le (w := fs.lenType * 2) (n := n) (by omega)).1 (by
          have := zeroPad_length (fs.lenType * 2) n
          omega)
        omega
    · rw [if_neg hc, if_neg (by simp [hb, hc])]
      unfold strEncode
      cases hcc : env.codec fs.lenEnc with
      | none =>
        simp only [Prod.mk.injEq, Except.error.injEq]
        constructor
        · rintro ⟨rfl, rfl⟩; exact .inr (.inl ⟨rfl, hb, hc, by simp, rfl⟩)
        · rintro (⟨_, c, h, _⟩ | ⟨rfl, _, _, _, rfl⟩ | ⟨_, _, _, ⟨c, h, _⟩, _⟩)
          · cases h
          · exact ⟨rfl, rfl⟩
          · cases h
      | some c =>
        dsimp only
        cases he : c.encode (zeroPad fs.lenType n) with
        | none =>
          simp only [Prod.mk.injEq, Except.error.injEq]
          constructor
          · rintro ⟨rfl, rfl⟩; exact .inr (.inr ⟨rfl, hb, hc, ⟨c, rfl, he⟩, rfl⟩)
          · rintro (⟨_, c', h, h', _⟩ | ⟨_, _, _, h, _⟩ | ⟨rfl, _, _, _, rfl⟩)
            · cases h; rw [he] at h'; cases h'
            · cases h
            · exact ⟨rfl, rfl⟩
        | some l =>
          simp only
          split
          · next hgt =>
            simp only [Prod.mk.injEq, Except.error.injEq]
            constructor
            · rintro ⟨rfl, rfl⟩; exact .inl ⟨rfl, c, rfl, he, by omega⟩
            · rintro (⟨rfl, c', h, h', _⟩ | ⟨_, _, _, h, _⟩ | ⟨_, _, _, ⟨c', h, h'⟩, _⟩)
              · cases h; rw [he] at h'; cases h'; exact ⟨rfl, rfl⟩
              · cases h
              · cases h; rw [he] at h'; cases h'
          · next hle =>
            simp only [Prod.mk.injEq, reduceCtorEq, false_and, false_iff]
            rintro (⟨_, c', h, h', h2⟩ | ⟨_, _, _, h, _⟩ | ⟨_, _, _, ⟨c', h, h'⟩, _⟩)
            · cases h; rw [he] at h'; cases h'; omega
            · cases h; rw [h'] at he; cases he

theorem DataWrites.units {env : PyEnv} {fs : FieldSpec} {t : Str} {n n' : Nat} {D D' : Bytes}
    (h : DataWrites env fs (.str t) n D) (h' : DataWrites env fs (.str t) n' D') : n = n' ∧ D = D' := by
  have a := (encData_ok (key := [])).2 ⟨h, fun _ => .inl ⟨t, rfl⟩⟩
  have b := (encData_ok (key := [])).2 ⟨h', fun _ => .inl ⟨t, rfl⟩⟩
  rw [a] at b
  cases b
  exact ⟨rfl, rfl⟩

/-- Why a text value cannot be encoded, exactly. -/
theorem encOut_str_error_iff {env : PyEnv} {key : Str} {fs : FieldSpec} {t : Str} {r : EncRaise} {e : EncEntry} :
    encOut env key fs (.str t) = (.error r, e) ↔ ∃ m, r = .err m key ∧ FieldFault env fs t e m := by
  unfold encOut
  cases hd : encData env key fs (.str t) with
  | error r' =>
    obtain ⟨m, rfl, hm, hf⟩ := encData_str_error_iff.1 hd
    have hno : ∀ n D, ¬ DataWrites env fs (.str t) n D := by
      intro n D h
      rw [encData_ok.2 ⟨h, fun _ => .inl ⟨t, rfl⟩⟩] at hd; cases hd
    simp only [Prod.mk.injEq, Except.error.injEq]
    constructor
    · rintro ⟨rfl, rfl⟩; exact ⟨m, rfl, hf⟩
    · rintro ⟨m', rfl, hf'⟩
      have : (m' = .unknownEncoding ∨ m' = .invalidData ∨ m' = .oddNibbles ∨ m' = .oddHex ∨ m' = .nonHex) ∧ e = ⟨[], []⟩ := by
        cases m' with
        | unknownEncoding => exact ⟨by simp, hf'.2.2⟩
        | invalidData => exact ⟨by simp, hf'.2.2⟩
        | oddNibbles => exact ⟨by simp, hf'.2.2.2.2.2⟩
        | oddHex => exact ⟨by simp, hf'.2.2.2⟩
        | nonHex => exact ⟨by simp, hf'.2.2.2⟩
        | fixedLen n u x => exact absurd hf'.1 (hno _ _)
        | tooLong n u x => exact absurd hf'.1 (hno _ _)
        | lenDoesNotFit => obtain ⟨n, h, _⟩ := hf'; exact absurd h (hno _ _)
        | lenUnknownEncoding => obtain ⟨n, h, _⟩ := hf'; exact absurd h (hno _ _)
        | lenInvalid => obtain ⟨n, h, _⟩ := hf'; exact absurd h (hno _ _)
        | invalidFields l => exact hf'.elim
        | outOfRange l => exact hf'.elim
        | requiredBySpec => exact hf'.elim
        | required => exact hf'.elim
        | typeLen a b => exact hf'.elim
      obtain ⟨h1, rfl⟩ := this
      have h2 := (encData_str_error_iff (env := env) (key := key) (fs := fs) (t := t)).2 ⟨m', rfl, h1, hf'⟩
      rw [hd] at h2
      cases h2
      exact ⟨rfl, rfl⟩
  | ok dn =>
    obtain ⟨D, n⟩ := dn
    obtain ⟨hw, _⟩ := encData_ok.1 hd
    have hno : ∀ m, (m = .unknownEncoding ∨ m = .invalidData ∨ m = .oddNibbles ∨ m = .oddHex ∨ m = .nonHex) →
        e = ⟨[], []⟩ → ¬ FieldFault env fs t e m := by
      rintro m hm rfl hf
      rw [(encData_str_error_iff (env := env) (key := key) (fs := fs) (t := t)).2 ⟨m, rfl, hm, hf⟩] at hd
      cases hd
    simp only
    by_cases h0 : fs.lenType = 0
    · rw [if_pos h0]
      constructor
      · intro h
        split at h
        · next hne =>
          simp only [Prod.mk.injEq, Except.error.injEq] at h
          obtain ⟨rfl, rfl⟩ := h
          exact ⟨_, rfl, hw, rfl, h0, hne, (unitName_eq fs).symm, rfl⟩
        · cases h
      · rintro ⟨m, rfl, hf⟩
        cases m with
        | unknownEncoding => exact absurd hf (hno _ (by simp) hf.2.2)
        | invalidData => exact absurd hf (hno _ (by simp) hf.2.2)
        | oddNibbles => exact absurd hf (hno _ (by simp) hf.2.2.2.2.2)
        | oddHex => exact absurd hf (hno _ (by simp) hf.2.2.2)
        | nonHex => exact absurd hf (hno _ (by simp) hf.2.2.2)
        | fixedLen n' u x =>
          obtain ⟨h1, h2, _, h3, rfl, rfl⟩ := hf
          obtain ⟨rfl, hD⟩ := hw.units h1
          rw [if_pos h3, unitName_eq]
          cases e; simp_all
        | tooLong n' u x => exact absurd h0 hf.2.2.1
        | lenDoesNotFit => obtain ⟨_, _, h, _⟩ := hf; exact absurd h0 h
        | lenUnknownEncoding => obtain ⟨_, _, h, _⟩ := hf; exact absurd h0 h
        | lenInvalid => obtain ⟨_, _, h, _⟩ := hf; exact absurd h0 h
        | invalidFields l => exact hf.elim
        | outOfRange l => exact hf.elim
        | requiredBySpec => exact hf.elim
        | required => exact hf.elim
        | typeLen a b => exact hf.elim
    · rw [if_neg h0]
      by_cases hm : (n : Int) > fs.maxLen
      · rw [if_pos hm]
        simp only [Prod.mk.injEq, Except.error.injEq]
        constructor
        · rintro ⟨rfl, rfl⟩
          exact ⟨_, rfl, hw, rfl, h0, hm, (unitName_eq fs).symm, rfl⟩
        · rintro ⟨m, rfl, hf⟩
          cases m with
          | unknownEncoding => exact absurd hf (hno _ (by simp) hf.2.2)
          | invalidData => exact absurd hf (hno _ (by simp) hf.2.2)
          | oddNibbles => exact absurd hf (hno _ (by simp) hf.2.2.2.2.2)
          | oddHex => exact absurd hf (hno _ (by simp) hf.2.2.2)
          | nonHex => exact absurd hf (hno _ (by simp) hf.2.2.2)
          | fixedLen n' u x => exact absurd hf.2.2.1 h0
          | tooLong n' u x =>
            obtain ⟨h1, h2, _, h3, rfl, rfl⟩ := hf
            obtain ⟨rfl, hD⟩ := hw.units h1
            rw [unitName_eq]
            cases e; simp_all
          | lenDoesNotFit => obtain ⟨n', h, _, h', _⟩ := hf; obtain ⟨rfl, _⟩ := hw.units h; omega
          | lenUnknownEncoding => obtain ⟨n', h, _, h', _⟩ := hf; obtain ⟨rfl, _⟩ := hw.units h; omega
          | lenInvalid => obtain ⟨n', h, _, h', _⟩ := hf; obtain ⟨rfl, _⟩ := hw.units h; omega
          | invalidFields l => exact hf.elim
          | outOfRange l => exact hf.elim
          | requiredBySpec => exact hf.elim
          | required => exact hf.elim
          | typeLen a b => exact hf.elim
      · rw [if_neg hm]
        have hle : (n : Int) ≤ fs.maxLen := by omega
        constructor
        · intro h
          simp only [Prod.mk.injEq] at h
          obtain ⟨h1, rfl⟩ := h
          rcases (lenOut_error_iff h0).1 (Prod.ext h1 rfl) with ⟨rfl, h⟩ | ⟨rfl, h2, h3, h4, h5⟩ | ⟨rfl, h2, h3, h4, h5⟩
          · exact ⟨_, rfl, n, hw, h0, hle, h⟩
          · exact ⟨_, rfl, n, hw, h0, hle, h2, h3, h4, h5⟩
          · exact ⟨_, rfl, n, hw, h0, hle, h2, h3, h4, h5⟩
        · rintro ⟨m, rfl, hf⟩
          have fin : ∀ {m : EncMsg} {D' : Bytes}, lenOut env key fs n = (.error (.err m key), e.len) → D = e.data →
              ((lenOut env key fs n).1, (⟨(lenOut env key fs n).2, D⟩ : EncEntry)) = (.error (.err m key), e) := by
            rintro m D' h rfl; rw [h]
          cases m with
          | unknownEncoding => exact absurd hf (hno _ (by simp) hf.2.2)
          | invalidData => exact absurd hf (hno _ (by simp) hf.2.2)
          | oddNibbles => exact absurd hf (hno _ (by simp) hf.2.2.2.2.2)
          | oddHex => exact absurd hf (hno _ (by simp) hf.2.2.2)
          | nonHex => exact absurd hf (hno _ (by simp) hf.2.2.2)
          | fixedLen n' u x => exact absurd hf.2.2.1 h0
          | tooLong n' u x =>
            obtain ⟨h1, h2, _, h3, rfl, rfl⟩ := hf
            obtain ⟨rfl, hD⟩ := hw.units h1
            omega
          | lenDoesNotFit =>
            obtain ⟨n', h, _, _, h2⟩ := hf
            obtain ⟨rfl, hD⟩ := hw.units h
            exact fin (D' := D) ((lenOut_error_iff h0).2 (.inl ⟨rfl, h2⟩)) hD
          | lenUnknownEncoding =>
            obtain ⟨n', h, _, _, h2⟩ := hf
            obtain ⟨rfl, hD⟩ := hw.units h
            exact fin (D' := D) ((lenOut_error_iff h0).2 (.inr (.inl ⟨rfl, h2⟩))) hD
          | lenInvalid =>
            obtain ⟨n', h, _, _, h2⟩ := hf
            obtain ⟨rfl, hD⟩ := hw.units h
            exact fin (D' := D) ((lenOut_error_iff h0).2 (.inr (.inr ⟨rfl, h2⟩))) hD
          | invalidFields l => exact hf.elim
          | outOfRange l => exact hf.elim
          | requiredBySpec => exact hf.elim
          | required => exact hf.elim
          | typeLen a b => exact hf.elim

/-! ## The other steps -/

theorem typeEnc_eq (env : PyEnv) (fs : FieldSpec) (v : Val) : typeEnc env fs v =
    match encData env py"t" (asType fs) v with
    | .error r => (.error r, [])
    | .ok (D, n) => if n ≠ typeWidth fs then (.error (.err (.typeLen n (typeWidth fs)) py"t"), D) else (.ok D, D) := by
  have hbin : encodeBinaryField v py"t" fs py"bytes" = encodeBinaryField v py"t" (asType fs) py"bytes" := by
    unfold encodeBinaryField
    simp
  have key : (if fs.dataEnc = py"b" then encodeBinaryField v py"t" fs py"bytes"
      else encodeTextField env v py"t" fs py"bytes") = encData env py"t" (asType fs) v := by
    unfold encData
    rw [hbin]
    rfl
  unfold typeEnc
  rw [key]
  rfl

/-- Why a text cannot be the message type. -/
theorem typeEnc_str_error_iff {env : PyEnv} {fs : FieldSpec} {t : Str} {r : EncRaise} {D : Bytes} :
    typeEnc env fs (.str t) = (.error r, D) ↔ ∃ m, r = .err m py"t" ∧ TypeFault env fs t D m := by
  rw [typeEnc_eq]
  cases hd : encData env py"t" (asType fs) (.str t) with
  | error r' =>
    obtain ⟨m, rfl, hm, hf⟩ := encData_str_error_iff.1 hd
    simp only [Prod.mk.injEq, Except.error.injEq]
    constructor
    · rintro ⟨rfl, rfl⟩
      refine ⟨m, rfl, ?_⟩
      rcases hm with rfl | rfl | rfl | rfl | rfl
      · exact hf
      · exact hf
      · exact absurd hf.2.1 (by simp [FieldSpec.inNibbles, asType])
      · exact hf
      · exact hf
    · rintro ⟨m', rfl, hf'⟩
      have key : ∀ m'', (m'' = .unknownEncoding ∨ m'' = .invalidData ∨ m'' = .oddNibbles ∨ m'' = .oddHex ∨ m'' = .nonHex) →
          FieldFault env (asType fs) t ⟨[], []⟩ m'' → m = m'' := by
        intro m'' h1 h2
        have := (encData_str_error_iff (env := env) (key := py"t") (fs := asType fs) (t := t)).2 ⟨m'', rfl, h1, h2⟩
        rw [hd] at this; cases this; rfl
      cases m' with
      | typeLen n w =>
        obtain ⟨h1, _⟩ := hf'
        rw [encData_ok.2 ⟨h1, fun _ => .inl ⟨t, rfl⟩⟩] at hd; cases hd
      | unknownEncoding =>
        have hD : D = [] := by have := hf'.2.2; simpa using this
        subst hD; exact ⟨by rw [key .unknownEncoding (by simp) hf'], rfl⟩
      | invalidData =>
        have hD : D = [] := by have := hf'.2.2; simpa using this
        subst hD; exact ⟨by rw [key .invalidData (by simp) hf'], rfl⟩
      | oddHex =>
        have hD : D = [] := by have := hf'.2.2.2; simpa using this
        subst hD; exact ⟨by rw [key .oddHex (by simp) hf'], rfl⟩
      | nonHex =>
        have hD : D = [] := by have := hf'.2.2.2; simpa using this
        subst hD; exact ⟨by rw [key .nonHex (by simp) hf'], rfl⟩
      | _ => exact hf'.elim
  | ok dn =>
    obtain ⟨D', n⟩ := dn
    obtain ⟨hw, _⟩ := encData_ok.1 hd
    have hno : ∀ m, (m = .unknownEncoding ∨ m = .invalidData ∨ m = .oddNibbles ∨ m = .oddHex ∨ m = .nonHex) →
        D = [] → ¬ FieldFault env (asType fs) t ⟨[], D⟩ m := by
      rintro m hm rfl hf
      rw [(encData_str_error_iff (env := env) (key := py"t") (fs := asType fs) (t := t)).2 ⟨m, rfl, hm, hf⟩] at hd
      cases hd
    simp only
    constructor
    · intro h
      split at h
      · next hn =>
        simp only [Prod.mk.injEq, Except.error.injEq] at h
        obtain ⟨rfl, rfl⟩ := h
        exact ⟨_, rfl, hw, hn, rfl⟩
      · cases h
    · rintro ⟨m, rfl, hf⟩
      cases m with
      | typeLen n' w =>
        obtain ⟨h1, h2, rfl⟩ := hf
        obtain ⟨rfl, rfl⟩ := hw.units h1
        exact if_pos h2
      | unknownEncoding => exact absurd hf (hno .unknownEncoding (by simp) (by have := hf.2.2; simpa using this))
      | invalidData => exact absurd hf (hno .invalidData (by simp) (by have := hf.2.2; simpa using this))
      | oddHex => exact absurd hf (hno .oddHex (by simp) (by have := hf.2.2.2; simpa using this))
      | nonHex => exact absurd hf (hno .nonHex (by simp) (by have := hf.2.2.2; simpa using this))
      | _ => exact hf.elim

theorem bmData_error_iff {env : PyEnv} {key : Str} {fs : FieldSpec} {bm : Bytes} {r : EncRaise} :
    bmData env key fs bm = .error r ↔ ∃ m, r = .err m key ∧ BitmapFault env fs (hexText bm) m := by
  unfold bmData
  by_cases hb : fs.isBinary
  · rw [if_pos (show fs.dataEnc = py"b" from hb)]
    simp only [reduceCtorEq, false_iff]
    rintro ⟨m, _, hf⟩
    cases m <;> first | exact hf.1 hb | exact hf.elim
  · rw [if_neg (show ¬ fs.dataEnc = py"b" from hb)]
    simp only [encodeTextField, strEncode, hexUp_eq_hexText]
    cases hc : env.codec fs.dataEnc with
    | none =>
      simp only [Except.error.injEq]
      constructor
      · rintro rfl; exact ⟨_, rfl, hb, hc⟩
      · rintro ⟨m, rfl, hf⟩
        cases m with
        | unknownEncoding => rfl
        | invalidData => obtain ⟨_, c, h, _⟩ := hf; rw [hc] at h; cases h
        | _ => exact hf.elim
    | some c =>
      dsimp only
      cases he : c.encode (hexText bm) with
      | none =>
        simp only [Except.error.injEq]
        constructor
        · rintro rfl; exact ⟨_, rfl, hb, c, hc, he⟩
        · rintro ⟨m, rfl, hf⟩
          cases m with
          | unknownEncoding => obtain ⟨_, h⟩ := hf; rw [hc] at h; cases h
          | invalidData => rfl
          | _ => exact hf.elim
      | some b =>
        simp only [reduceCtorEq, false_iff]
        rintro ⟨m, rfl, hf⟩
        cases m with
        | unknownEncoding => obtain ⟨_, h⟩ := hf; rw [hc] at h; cases h
        | invalidData => obtain ⟨_, c', h, h'⟩ := hf; rw [hc] at h; cases h; rw [he] at h'; cases h'
        | _ => exact hf.elim

/-- The field named by an error is the field being encoded. -/
theorem encOut_error_field {env : PyEnv} {key f : Str} {fs : FieldSpec} {v : Val} {m : EncMsg} {e : EncEntry}
    (h : encOut env key fs v = (.error (.err m f), e)) : f = key := by
  have hb : ∀ {c : Str} {m f}, encodeBinaryField v key fs c = .error (.err m f) → f = key := by
    intro c m f h
    unfold encodeBinaryField binaryHandler at h
    dsimp only at h
    split at h
    · split at h
      · simp at h
      · split at h
        · simp at h
        · split at h
          · simp only [Except.error.injEq, EncRaise.err.injEq] at h; exact h.2.symm
          · split at h
            · simp only [Except.error.injEq, EncRaise.err.injEq] at h; exact h.2.symm
            · simp only [Except.error.injEq, EncRaise.err.injEq] at h; exact h.2.symm
    · split at h
      · split at h <;> simp at h
      · simp at h
  have ht : ∀ {c : Str} {m f}, encodeTextField env v key fs c = .error (.err m f) → f = key := by
    intro c m f h
    unfold encodeTextField at h
    split at h
    · split at h
      · simp only [Except.error.injEq, EncRaise.err.injEq] at h; exact h.2.symm
      · simp only [Except.error.injEq, EncRaise.err.injEq] at h; exact h.2.symm
      · simp at h
    · simp only [Except.error.injEq, EncRaise.err.injEq] at h; exact h.2.symm
  unfold encOut at h
  cases hd : encData env key fs v with
  | error r' =>
    simp only [hd, Prod.mk.injEq, Except.error.injEq] at h
    obtain ⟨rfl, _⟩ := h
    unfold encData at hd
    split at hd
    · exact hb hd
    · exact ht hd
  | ok dn =>
    obtain ⟨D, n⟩ := dn
    simp only [hd] at h
    by_cases h0 : fs.lenType = 0
    · rw [if_pos h0] at h
      split at h
      · simp only [Prod.mk.injEq, Except.error.injEq, EncRaise.err.injEq] at h; exact h.1.2.symm
      · cases h
    · rw [if_neg h0] at h
      split at h
      · simp only [Prod.mk.injEq, Except.error.injEq, EncRaise.err.injEq] at h; exact h.1.2.symm
      · simp only [Prod.mk.injEq] at h
        rcases (lenOut_error_iff h0).1 (Prod.ext h.1 rfl) with ⟨h, _⟩ | ⟨h, _⟩ | ⟨h, _⟩ <;> cases h <;> rfl

theorem typeEnc_error_field {env : PyEnv} {f : Str} {fs : FieldSpec} {v : Val} {m : EncMsg} {D : Bytes}
    (h : typeEnc env fs v = (.error (.err m f), D)) : f = py"t" := by
  rw [typeEnc_eq] at h
  cases hd : encData env py"t" (asType fs) v with
  | error r =>
    simp only [hd, Prod.mk.injEq, Except.error.injEq] at h
    obtain ⟨rfl, _⟩ := h
    refine encOut_error_field (env := env) (fs := asType fs) (v := v) (m := m) (e := ⟨[], []⟩) ?_
    unfold encOut
    rw [hd]
  | ok dn =>
    obtain ⟨D', n⟩ := dn
    simp only [hd] at h
    split at h
    · simp only [Prod.mk.injEq, Except.error.injEq, EncRaise.err.injEq] at h; exact h.1.2.symm
    · cases h

/-! ## Keys -/

theorem keys_pop_congr {a b : Doc} (h : a.keys = b.keys) (k : Key) : (a.pop k).keys = (b.pop k).keys := by
  induction a generalizing b with
  | nil =>
    cases b with
    | nil => rfl
    | cons y t => simp at h
  | cons x t ih =>
    cases b with
    | nil => simp at h
    | cons y t' =>
      obtain ⟨x1, x2⟩ := x
      obtain ⟨y1, y2⟩ := y
      simp only [Dict.keys_cons, List.cons.injEq] at h
      obtain ⟨rfl, ht⟩ := h
      unfold Dict.pop
      split
      · exact ht
      · simp [ih ht]

theorem numsOf_congr {env : PyEnv} {a b : Doc} (h : a.keys = b.keys) : numsOf env a = numsOf env b := by
  have : (cleaned a).keys = (cleaned b).keys := keys_pop_congr (keys_pop_congr h _) _
  unfold numsOf
  rw [this]

theorem keys_set_of_mem {doc : Doc} {k : Key} {v : Val} (h : k ∈ doc.keys) : (doc.set k v).keys = doc.keys := by
  rw [Dict.keys_set, if_pos h]

/-! ## One field at fault -/

theorem FieldsWrite.split {env : PyEnv} {spec : Spec} {g : Str → Option Val} {is js : List Nat} :
    ∀ {items : List Item}, FieldsWrite env spec g (is ++ js) items →
      ∃ a b, items = a ++ b ∧ FieldsWrite env spec g is a ∧ FieldsWrite env spec g js b := by
  induction is with
  | nil => intro items h; exact ⟨[], items, rfl, .nil, h⟩
  | cons i is ih =>
    intro items h
    cases h with
    | cons hs hg hk hw hv hr =>
      obtain ⟨a, b, rfl, ha, hb⟩ := ih hr
      exact ⟨_ :: a, b, rfl, .cons hs hg hk hw hv ha, hb⟩

theorem FieldsWrite.congr {env : PyEnv} {spec : Spec} {g g' : Str → Option Val} {is : List Nat} {items : List Item}
    (h : FieldsWrite env spec g is items) (hg : ∀ i ∈ is, g (natStr i) = g' (natStr i)) :
    FieldsWrite env spec g' is items := by
  induction h with
  | nil => exact .nil
  | cons hs hg' hk hw hv _ ih =>
    exact .cons hs (by rw [← hg _ (by simp)]; exact hg') hk hw hv (ih fun i hi => hg i (by simp [hi]))

theorem HeaderWrites.congr {env : PyEnv} {spec : Spec} {g g' : Str → Option Val} {hdr : List Item}
    (h : HeaderWrites env spec g hdr) (hg : g py"h" = g' py"h") : HeaderWrites env spec g' hdr := by
  unfold HeaderWrites at h ⊢
  rw [← hg]; exact h

theorem TypeWrites.congr {env : PyEnv} {spec : Spec} {g g' : Str → Option Val} {ty : Item}
    (h : TypeWrites env spec g ty) (hg : g py"t" = g' py"t") : TypeWrites env spec g' ty := by
  unfold TypeWrites at h ⊢
  rw [← hg]; exact h

/-- When everything but one field is in order, that field's failure is what is raised. -/
theorem single_fault {env : PyEnv} {spec : Spec} {doc d : Doc} {k : Str} {v v' : Val} {s : Bytes} {enc : EncDoc}
    {fs : FieldSpec} {r : EncRaise} {e : EncEntry}
    (h : encode env spec (doc.set (.str k) v') = (.ok (s, enc), d)) (hk : k ∈ enc.keys)
    (ht : k ≠ py"t") (hp : k ≠ py"p") (h1 : k ≠ py"1") (hv : doc.get? (.str k) = some v) (hs : spec.get? k = some fs)
    (he : encOut env k fs v = (.error r, e)) :
    ∃ items texts, Faults env spec (lookup doc) (numsOf env doc) items [(k, e)] texts r := by
  obtain ⟨ns, hns, hr, items, bms, hw, _, rfl, _⟩ := encode_ok_iff.1 h
  rw [numsOf_congr (keys_set_of_mem (Dict.mem_keys_iff.2 ⟨v, hv⟩))] at hns
  obtain ⟨hdr, ty, flds, rfl, hh, hty, hb, hf⟩ := hw.parts
  have hg : ∀ {k' : Str}, k' ≠ k → lookup (doc.set (.str k) v') k' = lookup doc k' := by
    intro k' hne
    exact Dict.get?_set_ne _ _ (by simpa using hne)
  have hkeys : k ∈ keysOf (hdr ++ ty :: bms ++ flds) := by
    have : (encOf (hdr ++ ty :: bms ++ flds)).keys = keysOf (hdr ++ ty :: bms ++ flds) := by simp
    rw [this] at hk; exact hk
  have htk : ty.key = py"t" := by obtain ⟨_, _, _, _, h, _⟩ := hty; exact h
  have hbk : ∀ x ∈ keysOf bms, x = py"p" ∨ x = py"1" := by
    intro x hx
    rcases hb.keys with ⟨_, h⟩ | ⟨_, h⟩ <;> rw [h] at hx <;> simp at hx <;> simp [hx]
  simp only [keysOf_append, keysOf_cons, htk, hf.keys, List.mem_append, List.mem_cons] at hkeys
  rcases hkeys with (hx | rfl | hx) | hx
  · obtain ⟨fs', hs', hh'⟩ := hh
    split at hh'
    · subst hh'; simp at hx
    · next hm =>
      obtain ⟨_, _, it, rfl, hki, _⟩ := hh'
      simp [hki] at hx
      subst hx
      rw [hs] at hs'; cases hs'
      exact ⟨_, _, .header hs (by omega) hv he⟩
  · exact absurd rfl ht
  · exact absurd (hbk _ hx) (by simp [hp, h1])
  · obtain ⟨i, hi, rfl⟩ := List.mem_map.1 hx
    obtain ⟨is, js, hsplit⟩ := List.append_of_mem hi
    have hnd := sortedNat_nodup (restOf_nodup (inRange_mem hr).1)
    rw [hsplit] at hf hnd
    obtain ⟨a, b, rfl, hfa, _⟩ := hf.split
    have hne : ∀ j ∈ is, natStr j ≠ natStr i := by
      intro j hj e
      have := natStr_inj.1 e
      subst this
      rw [List.nodup_append] at hnd
      exact hnd.2.2 j hj j (by simp) rfl
    exact ⟨_, _, .field (hh.congr (hg (fun e => natStr_ne_letter (by decide) e.symm)))
      (hty.congr (hg (fun e => natStr_ne_letter (by decide) e.symm))) hns hr hb hsplit (hfa.congr fun j hj => hg (hne j hj))
      (.inr (.inr ⟨fs, v, e, hs, hv, he, rfl⟩))⟩

theorem raises_of_faults {env : PyEnv} {spec : Spec} {doc : Doc} {items : List Item} {tail : EncDoc} {texts : List (Str × Str)}
    {m : EncMsg} {f : Str} (h : Faults env spec (lookup doc) (numsOf env doc) items tail texts (.err m f)) :
    ∃ e, (encode env spec doc).1 = .error (.encodeError e) ∧ e.msg = m ∧ e.field = f ∧ e.docEnc = encOf items ++ tail := by
  have := encode_error_iff.2 ⟨items, tail, texts, _, h, rfl, rfl⟩
  exact ⟨_, by rw [this]; rfl, rfl, rfl, rfl⟩

theorem headerReady_iff {env : PyEnv} {spec : Spec} {doc : Doc} :
    HeaderReady env spec doc ↔ ∃ hdr, HeaderWrites env spec (lookup doc) hdr := by
  constructor
  · rintro ⟨fs, hs, h⟩
    by_cases hm : fs.maxLen ≤ 0
    · exact ⟨[], fs, hs, by rw [if_pos hm]⟩
    · rcases h with h | ⟨v, n, L, D, hv, hw⟩
      · exact absurd h hm
      · exact ⟨[⟨py"h", L, D, readBack fs v⟩], fs, hs, by rw [if_neg hm]; exact ⟨v, n, _, rfl, rfl, hv, hw, rfl⟩⟩
  · rintro ⟨hdr, fs, hs, h⟩
    refine ⟨fs, hs, ?_⟩
    split at h
    · next hm => exact .inl hm
    · obtain ⟨v, n, it, _, _, hv, hw, _⟩ := h; exact .inr ⟨v, n, _, _, hv, hw⟩

theorem typeReady_iff {env : PyEnv} {spec : Spec} {doc : Doc} :
    TypeReady env spec doc ↔ ∃ ty, TypeWrites env spec (lookup doc) ty := by
  constructor
  · rintro ⟨fs, v, D, hs, hv, hw, hx⟩
    exact ⟨⟨py"t", [], D, readBack fs v⟩, fs, v, hs, hv, rfl, rfl, hw, hx, rfl⟩
  · rintro ⟨ty, fs, v, hs, hv, _, _, hw, hx, _⟩
    exact ⟨fs, v, _, hs, hv, hw, hx⟩

end Iso8583
