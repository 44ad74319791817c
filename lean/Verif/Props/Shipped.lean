import Verif.Model.Specs
import Verif.Props.EncodeAttribution
/-!
# The shipped specifications (C40, C41)
-/

namespace Iso8583

/-- A specification with binary or ASCII fields only, as the library ships two of: headers off,
complete from 1 to 128, and every length fits its prefix. -/
structure WellFormed (spec : Spec) : Prop where
  keys : ∀ k, k ∈ spec.keys ↔ k = py"h" ∨ k = py"t" ∨ k = py"p" ∨ ∃ i, 1 ≤ i ∧ i ≤ 128 ∧ k = natStr i
  encodings : ∀ k fs, spec.get? k = some fs → (fs.dataEnc = py"b" ∨ fs.dataEnc = py"ascii") ∧ fs.lenEnc = py"ascii"
  lengths : ∀ k fs, spec.get? k = some fs → fs.lenType ≠ 0 → 0 < fs.maxLen ∧ fs.maxLen < capacity fs
  widths : ∀ k fs, spec.get? k = some fs → fs.lenType ≤ 4
  fixed : ∀ k fs, spec.get? k = some fs → fs.lenType = 0 → k ≠ py"h" → 0 < fs.maxLen
  header : ∀ fs, spec.get? py"h" = some fs → fs.maxLen = 0
  type : ∀ fs, spec.get? py"t" = some fs → fs.maxLen = 4 ∧ typeBytes fs = 4 ∧ fs.lenType = 0
  bitmaps : ∀ k fs, k = py"p" ∨ k = py"1" → spec.get? k = some fs → fs.maxLen = bitmapBytes fs ∧ fs.lenType = 0
  plain : ∀ k fs, spec.get? k = some fs → fs.lenCount = none ∧ fs.leftPad = none ∧ fs.rightPad = none

/-- What has to be checked, entry by entry. -/
def entryCheck (p : Str × FieldSpec) : Bool :=
  let (k, fs) := p
  (fs.dataEnc == py"b" || fs.dataEnc == py"ascii") && fs.lenEnc == py"ascii" &&
  (fs.lenType == 0 || (decide (0 < fs.maxLen) && decide (fs.maxLen < capacity fs))) && decide (fs.lenType ≤ 4) &&
  (fs.lenType != 0 || k == py"h" || decide (0 < fs.maxLen)) &&
  (k != py"h" || fs.maxLen == 0) && (k != py"t" || (fs.maxLen == 4 && typeBytes fs == 4 && fs.lenType == 0)) &&
  ((k != py"p" && k != py"1") || (fs.maxLen == bitmapBytes fs && fs.lenType == 0)) &&
  (fs.lenCount == none && fs.leftPad == none && fs.rightPad == none)

theorem wellFormed_of {spec : Spec} (hk : spec.keys = [py"h", py"t", py"p"] ++ (List.range' 1 128).map natStr)
    (hc : ∀ p ∈ spec, entryCheck p = true) : WellFormed spec := by
  have key : ∀ {k fs}, spec.get? k = some fs → entryCheck (k, fs) = true := fun h => hc _ (Dict.mem_of_get? h)
  simp only [entryCheck, Bool.and_eq_true, Bool.or_eq_true, decide_eq_true_eq, beq_iff_eq, bne_iff_ne, ne_eq] at key
  constructor
  · intro k
    rw [hk]
    simp only [List.cons_append, List.nil_append, List.mem_cons, List.mem_map, List.mem_range'_1]
    constructor
    · rintro (h | h | h | ⟨i, h, rfl⟩)
      · exact .inl h
      · exact .inr (.inl h)
      · exact .inr (.inr (.inl h))
      · exact .inr (.inr (.inr ⟨i, by omega, by omega, rfl⟩))
    · rintro (h | h | h | ⟨i, h1, h2, rfl⟩)
      · exact .inl h
      · exact .inr (.inl h)
      · exact .inr (.inr (.inl h))
      · exact .inr (.inr (.inr ⟨i, by omega, rfl⟩))
  · intro k fs h; have := key h; exact ⟨this.1.1.1.1.1.1.1.1, this.1.1.1.1.1.1.1.2⟩
  · intro k fs h h0; have := (key h).1.1.1.1.1.1.2; omega
  · intro k fs h; exact (key h).1.1.1.1.1.2
  · intro k fs h h0 hh
    rcases (key h).1.1.1.1.2 with (h' | h') | h'
    · exact absurd h0 h'
    · exact absurd h' hh
    · exact h'
  · intro fs h
    rcases (key h).1.1.1.2 with h' | h'
    · exact absurd rfl h'
    · exact h'
  · intro fs h
    rcases (key h).1.1.2 with h' | h'
    · exact absurd rfl h'
    · exact ⟨h'.1.1, h'.1.2, h'.2⟩
  · intro k fs hk h
    rcases (key h).1.2 with h' | h'
    · rcases hk with hk | hk
      · exact absurd hk h'.1
      · exact absurd hk h'.2
    · exact h'
  · intro k fs h; have := (key h).2; exact ⟨this.1.1, this.1.2, this.2⟩

/-- **C40** (`iso8583.specs.default`). -/
theorem default_wellFormed : WellFormed defaultSpec := wellFormed_of (by decide +kernel) (by decide +kernel)

/-- **C40** (`iso8583.specs.default_ascii`). -/
theorem defaultAscii_wellFormed : WellFormed defaultAsciiSpec := wellFormed_of (by decide +kernel) (by decide +kernel)

/-- **C40**: no other keys; in particular fields 129 to 192 are not defined. -/
theorem wellFormed_undefined {spec : Spec} (h : WellFormed spec) {i : Nat} (hi : i = 0 ∨ 128 < i) :
    spec.get? (natStr i) = none := by
  refine Dict.get?_eq_none.2 ?_
  rw [h.keys]
  rintro (h | h | h | ⟨j, h1, h2, h⟩)
  · exact natStr_ne_letter (by decide) h
  · exact natStr_ne_letter (by decide) h
  · exact natStr_ne_letter (by decide) h
  · rw [natStr_inj] at h; omega

example : defaultSpec.get? (natStr 129) = none := wellFormed_undefined default_wellFormed (by omega)

/-- The two tables differ in the bitmaps only by the encoding: binary against hex digits. -/
example : (defaultSpec.get? py"p").map FieldSpec.maxLen = some 8 ∧ (defaultAsciiSpec.get? py"p").map FieldSpec.maxLen = some 16 := by
  decide +kernel

/-! ## Length prefixes always fit -/

/-- Messages about a length prefix. -/
def EncMsg.aboutPrefix : EncMsg → Bool
  | .lenDoesNotFit | .lenUnknownEncoding | .lenInvalid => true
  | _ => false

theorem encData_not_prefix {env : PyEnv} {key f : Str} {fs : FieldSpec} {v : Val} {m : EncMsg}
    (h : encData env key fs v = .error (.err m f)) : m.aboutPrefix = false := by
  unfold encData at h
  split at h
  · unfold encodeBinaryField binaryHandler at h
    dsimp only at h
    split at h
    · split at h
      · simp at h
      · split at h
        · simp at h
        · split at h
          · simp only [Except.error.injEq, EncRaise.err.injEq] at h; rw [← h.1]; rfl
          · split at h
            · simp only [Except.error.injEq, EncRaise.err.injEq] at h; rw [← h.1]; rfl
            · simp only [Except.error.injEq, EncRaise.err.injEq] at h; rw [← h.1]; rfl
    · split at h
      · split at h <;> simp at h
      · simp at h
  · unfold encodeTextField at h
    split at h
    · split at h
      · simp only [Except.error.injEq, EncRaise.err.injEq] at h; rw [← h.1]; rfl
      · simp only [Except.error.injEq, EncRaise.err.injEq] at h; rw [← h.1]; rfl
      · simp at h
    · simp only [Except.error.injEq, EncRaise.err.injEq] at h; rw [← h.1]; rfl

/-- The length prefix of a field can be written for every admissible length. -/
def PrefixFits (env : PyEnv) (fs : FieldSpec) : Prop :=
  fs.lenType ≠ 0 → fs.maxLen < capacity fs ∧
    (fs.lenEnc ≠ py"b" → fs.lenEnc ≠ py"bcd" → ∃ c, env.codec fs.lenEnc = some c ∧ c.WritesHexDigits)

theorem encOut_not_prefix {env : PyEnv} {key f : Str} {fs : FieldSpec} {v : Val} {m : EncMsg} {e : EncEntry}
    (hp : PrefixFits env fs) (h : encOut env key fs v = (.error (.err m f), e)) : m.aboutPrefix = false := by
  unfold encOut at h
  cases hd : encData env key fs v with
  | error r' =>
    simp only [hd, Prod.mk.injEq, Except.error.injEq] at h
    obtain ⟨rfl, _⟩ := h
    exact encData_not_prefix hd
  | ok dn =>
    obtain ⟨D, n⟩ := dn
    simp only [hd] at h
    by_cases h0 : fs.lenType = 0
    · rw [if_pos h0] at h
      split at h
      · simp only [Prod.mk.injEq, Except.error.injEq, EncRaise.err.injEq] at h; rw [← h.1.1]; rfl
      · cases h
    · rw [if_neg h0] at h
      split at h
      · simp only [Prod.mk.injEq, Except.error.injEq, EncRaise.err.injEq] at h; rw [← h.1.1]; rfl
      · next hle =>
        exfalso
        simp only [Prod.mk.injEq] at h
        obtain ⟨hcap, hcodec⟩ := hp h0
        have hn : n < capacity fs := by omega
        have hw : ∀ (_ : fs.lenEnc ≠ py"b") (_ : fs.lenEnc ≠ py"bcd"),
            ∃ c L, env.codec fs.lenEnc = some c ∧ c.encode (zeroPad fs.lenType n) = some L ∧ L.length = fs.lenType := by
          intro hb hbc
          obtain ⟨c, hc, hx⟩ := hcodec hb hbc
          obtain ⟨L, hL, hl⟩ := hx (zeroPad fs.lenType n) (fun x hx => by
            have := zeroPad_digits _ _ x hx
            simp only [isAsciiDigit, Bool.and_eq_true, decide_eq_true_eq] at this
            simp [isHexDigit, this])
          refine ⟨c, L, hc, hL, ?_⟩
          rw [hl]
          refine zeroPad_length_of_lt (by omega) ?_
          unfold capacity at hn
          rw [if_neg hb, if_neg hbc] at hn
          exact hn
        rcases (lenOut_error_iff h0).1 (Prod.ext h.1 rfl) with ⟨_, hx⟩ | ⟨_, hb, hbc, hx, _⟩ | ⟨_, hb, hbc, ⟨c, hc, hx⟩, _⟩
        · by_cases hbb : fs.lenEnc = py"b" ∨ fs.lenEnc = py"bcd"
          · rw [if_pos hbb] at hx; omega
          · rw [if_neg hbb] at hx
            obtain ⟨c, hc, he, hl⟩ := hx
            obtain ⟨c', L, hc', hL, hl'⟩ := hw (fun h => hbb (.inl h)) (fun h => hbb (.inr h))
            rw [hc] at hc'; cases hc'
            rw [he] at hL; cases hL
            omega
        · obtain ⟨c', L, hc', _⟩ := hw hb hbc
          rw [hx] at hc'; cases hc'
        · obtain ⟨c', L, hc', hL, _⟩ := hw hb hbc
          rw [hc] at hc'; cases hc'
          rw [hx] at hL; cases hL

theorem numericKeys_not_prefix {env : PyEnv} {all : List Key} {m : EncMsg} {f : Str} : ∀ {ks : List Key},
    numericKeys env all ks = .error (.err m f) → m.aboutPrefix = false
  | [], h => by simp [numericKeys] at h
  | .obj _ :: _, h => by
    simp only [numericKeys, Except.error.injEq, EncRaise.err.injEq] at h
    rw [← h.1]; rfl
  | .str k :: ks, h => by
    rw [numericKeys] at h
    by_cases hn : isNumeric env k = true
    · rw [if_pos hn] at h
      cases hp : pyInt env k with
      | none => simp [hp] at h
      | some n =>
        rw [hp] at h
        dsimp only at h
        cases hr : numericKeys env all ks with
        | error e =>
          simp only [hr, Except.error.injEq] at h
          subst h
          exact numericKeys_not_prefix hr
        | ok ns' => simp [hr] at h
    · rw [if_neg hn] at h
      exact numericKeys_not_prefix h

/-- **C41** (any specification): when every `max_len` fits its length prefix and the prefix codecs
write digits, no dict makes `encode` fail because of a length prefix. -/
theorem encode_prefix_fits {env : PyEnv} {spec : Spec} (hp : ∀ k fs, spec.get? k = some fs → PrefixFits env fs)
    {doc doc' : Doc} {e : EncodeError} (h : encode env spec doc = (.error (.encodeError e), doc')) :
    e.msg ≠ .lenDoesNotFit ∧ e.msg ≠ .lenUnknownEncoding ∧ e.msg ≠ .lenInvalid := by
  obtain ⟨items, tail, texts, r, hf, _, hx⟩ := encode_error_iff.1 h
  obtain ⟨m, f, rfl, hm⟩ : ∃ m f, r = .err m f ∧ e.msg = m := by
    cases r with
    | err m f => simp only [excOf, EncodeExc.encodeError.injEq] at hx; exact ⟨m, f, rfl, by rw [hx]⟩
    | _ => simp [excOf] at hx
  have : m.aboutPrefix = false := by
    generalize hr : EncRaise.err m f = r at hf
    cases hf with
    | specHeader => cases hr
    | noHeader => cases hr; rfl
    | header hs _ _ he => subst hr; exact encOut_not_prefix (hp _ _ hs) he
    | noType => cases hr; rfl
    | specType => cases hr
    | type _ hs _ he =>
      subst hr
      rw [typeEnc_eq] at he
      split at he
      · next hd =>
        simp only [Prod.mk.injEq, Except.error.injEq] at he
        obtain ⟨rfl, _⟩ := he
        exact encData_not_prefix hd
      · split at he
        · simp only [Prod.mk.injEq, Except.error.injEq, EncRaise.err.injEq] at he; rw [← he.1.1]; rfl
        · cases he
    | keys _ _ hn => subst hr; exact numericKeys_not_prefix hn
    | range => cases hr; rfl
    | bitmaps _ _ _ _ hb =>
      subst hr
      rcases bmsPure_error hb with ⟨_, fs, _, _, _, hb⟩ | ⟨_, _, _, fs, _, _, _, _, _, _, _, _, _, _, _, _, hb⟩ <;>
      · cases m <;> first | rfl | exact hb.elim
    | field _ _ _ _ _ _ _ hd =>
      rcases hd with ⟨_, _, h⟩ | ⟨_, _, _, _, h⟩ | ⟨fs, v, e', hs, _, he, _⟩
      · rw [h] at hr; cases hr
      · rw [h] at hr; cases hr
      · subst hr; exact encOut_not_prefix (hp _ _ hs) he
  rw [hm]
  refine ⟨?_, ?_, ?_⟩ <;> rintro rfl <;> cases this

/-- The shipped specifications fulfil the assumptions when `ascii` is the ASCII codec. -/
theorem wellFormed_prefixFits {env : PyEnv} {spec : Spec} (h : WellFormed spec) (ha : env.codec py"ascii" = some asciiCodec)
    (k : Str) (fs : FieldSpec) (hs : spec.get? k = some fs) : PrefixFits env fs := by
  intro h0
  refine ⟨(h.lengths k fs hs h0).2, fun _ _ => ⟨asciiCodec, ?_, ascii_lawful.writesHex⟩⟩
  rw [(h.encodings k fs hs).2, ha]

theorem wellFormed_laws {env : PyEnv} {spec : Spec} (h : WellFormed spec) (ha : env.codec py"ascii" = some asciiCodec)
    (hd : env.maxStrDigits = 0 ∨ 8 ≤ env.maxStrDigits) : SpecLaws env spec := by
  have data : ∀ {k fs}, spec.get? k = some fs → ¬ fs.isBinary → ∀ c, env.codec fs.dataEnc = some c → c = asciiCodec := by
    intro k fs hs hb c hc
    rcases (h.encodings k fs hs).1 with h' | h'
    · exact absurd h' hb
    · rw [h', ha] at hc; cases hc; rfl
  constructor
  · intro k fs hs _ _ _
    constructor
    · intro hb c hc; rw [data hs hb c hc]; exact ascii_lawful.roundTrips
    · intro _ _ _ c hc
      rw [(h.encodings k fs hs).2, ha] at hc
      cases hc
      exact ⟨ascii_lawful.roundTrips, ascii_lawful.writesHex⟩
    · intro _ _
      have := h.widths k fs hs
      omega
    · intro c hc
      obtain ⟨_, hl, hr⟩ := h.plain k fs hs
      rw [hl, hr] at hc
      rcases hc with h | h <;> simp [firstPad] at h
  · intro fs hs hb c hc; rw [data hs hb c hc]; exact ascii_lawful.roundTrips
  · intro k fs _ hs hb c hc
    rw [data hs hb c hc]
    exact ⟨ascii_lawful.roundTrips, ascii_lawful.writesHex⟩

/-- **C41**: with a shipped specification a length always fits its prefix, whatever the dict. -/
theorem shipped_prefix_fits {env : PyEnv} {spec : Spec} (hs : spec = defaultSpec ∨ spec = defaultAsciiSpec)
    (ha : env.codec py"ascii" = some asciiCodec) {doc doc' : Doc} {e : EncodeError}
    (h : encode env spec doc = (.error (.encodeError e), doc')) :
    e.msg ≠ .lenDoesNotFit ∧ e.msg ≠ .lenUnknownEncoding ∧ e.msg ≠ .lenInvalid := by
  rcases hs with rfl | rfl
  · exact encode_prefix_fits (wellFormed_prefixFits default_wellFormed ha) h
  · exact encode_prefix_fits (wellFormed_prefixFits defaultAscii_wellFormed ha) h

/-- A dict for the shipped specifications: a 16 digit account number, a processing code, an account
in the second half and a key that is not a field. -/
def shippedDoc : Doc := [
  (.str py"2", .str py"1234567890123456"), (.str py"3", .str py"000000"), (.str py"102", .str py"acct"),
  (.str py"note", .unsized), (.str py"t", .str py"0200")]

/-- A dict whose account number is one character too long. -/
def shippedLong : Doc := [(.str py"t", .str py"0200"), (.str py"2", .str py"12345678901234567890")]

theorem shippedLong_fails : ∃ e doc', encode cpython defaultAsciiSpec shippedLong = (.error (.encodeError e), doc') ∧
    e.msg = .tooLong 20 py"bytes" 19 := by
  have h : (match encode cpython defaultAsciiSpec shippedLong with
      | (.error (.encodeError e), _) => e.msg == .tooLong 20 py"bytes" 19
      | _ => false) = true := by decide +kernel
  split at h
  · next e doc' he => exact ⟨e, doc', he, by simpa using h⟩
  · cases h

/-- It is refused because of `max_len`, not because of its prefix. -/
example : ∃ e doc', encode cpython defaultAsciiSpec shippedLong = (.error (.encodeError e), doc') ∧ e.msg ≠ .lenDoesNotFit := by
  obtain ⟨e, doc', h, _⟩ := shippedLong_fails
  exact ⟨e, doc', h, (shipped_prefix_fits (.inr rfl) rfl h).1⟩

/-- The assumption on `max_len` is needed: 10 bytes do not fit a one digit prefix. -/
def crampedSpec : Spec := [
  (py"h", { dataEnc := py"b", lenEnc := py"ascii", lenType := 0, maxLen := 0 }),
  (py"t", { dataEnc := py"ascii", lenEnc := py"ascii", lenType := 0, maxLen := 4 }),
  (py"p", { dataEnc := py"b", lenEnc := py"ascii", lenType := 0, maxLen := 8 }),
  (py"2", { dataEnc := py"ascii", lenEnc := py"ascii", lenType := 1, maxLen := 10 })]

example : (match encode cpython crampedSpec [(.str py"t", .str py"0200"), (.str py"2", .str py"1234567890")] with
    | (.error (.encodeError e), _) => e.msg == .lenDoesNotFit
    | _ => false) = true := by decide +kernel

/-- **C41**: with a shipped specification every message `encode` emits is read back by `decode`. -/
theorem shipped_round_trip {env : PyEnv} {spec : Spec} (hs : spec = defaultSpec ∨ spec = defaultAsciiSpec)
    (ha : env.codec py"ascii" = some asciiCodec) (hd : env.maxStrDigits = 0 ∨ 8 ≤ env.maxStrDigits)
    {doc doc' : Doc} {s : Bytes} {enc : EncDoc} (h : encode env spec doc = (.ok (s, enc), doc')) :
    ∃ dec, decode env spec s = .ok (dec, enc) ∧ dec.keys = enc.keys ∧
      ∀ k ∈ enc.keys, ∃ fs v, spec.get? k = some fs ∧ doc'.get? (.str k) = some v ∧ dec.get? k = some (readBack fs v) := by
  rcases hs with rfl | rfl
  · exact encode_decode (wellFormed_laws default_wellFormed ha hd) h
  · exact encode_decode (wellFormed_laws defaultAscii_wellFormed ha hd) h

/-- The round trip is not vacuous: both specifications encode `shippedDoc`. -/
example : (∃ r doc', encode cpython defaultSpec shippedDoc = (.ok r, doc') ∧ r.1.length = 50) ∧
    ∃ r doc', encode cpython defaultAsciiSpec shippedDoc = (.ok r, doc') ∧ r.1.length = 66 := by
  have h : ∀ spec n, (match encode cpython spec shippedDoc with
      | (.ok r, _) => r.1.length == n
      | _ => false) = true → ∃ r doc', encode cpython spec shippedDoc = (.ok r, doc') ∧ r.1.length = n := by
    intro spec n h
    split at h
    · next r doc' he => exact ⟨r, doc', he, by simpa using h⟩
    · cases h
  exact ⟨h _ _ (by decide +kernel), h _ _ (by decide +kernel)⟩

/-- An instance of `encode_prefix_fits`. -/
example (doc doc' : Doc) (e : EncodeError) (h : encode cpython defaultSpec doc = (.error (.encodeError e), doc')) : e.msg ≠ .lenDoesNotFit :=
  (encode_prefix_fits (wellFormed_prefixFits default_wellFormed rfl) h).1

/-- An instance of `shipped_round_trip`. -/
example : ∃ r doc' dec, encode cpython defaultSpec shippedDoc = (.ok r, doc') ∧ decode cpython defaultSpec r.1 = .ok (dec, r.2) := by
  obtain ⟨⟨s, enc⟩, doc', h⟩ : ∃ r doc', encode cpython defaultSpec shippedDoc = (.ok r, doc') := by
    have h : (match encode cpython defaultSpec shippedDoc with
      | (.ok _, _) => true
      | _ => false) = true := by decide +kernel
    split at h
    · next r doc' he => exact ⟨r, doc', he⟩
    · cases h
  obtain ⟨dec, h', _⟩ := shipped_round_trip (.inl rfl) rfl (by decide) h
  exact ⟨_, _, dec, h, h'⟩

end Iso8583
