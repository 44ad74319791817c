import Verif.Lemmas.EncodeItems
import Verif.Props.DecodeContent
/-!
# A successful encode (C01, C03, C10, C11, C16-C19, C21, C26, C30)
-/

namespace Iso8583

/-- **C03**: the bytes are the concatenation of the entries. -/
theorem encode_wire {env : PyEnv} {spec : Spec} {doc doc' : Doc} {s : Bytes} {enc : EncDoc}
    (h : encode env spec doc = (.ok (s, enc), doc')) : s = wire enc := by
  obtain ⟨ns, _, _, items, bms, _, rfl, rfl, _⟩ := encode_ok_iff.1 h
  simp

example : demoMsg = wire demoEnc := encode_wire demo_encode

/-! ## Reading back -/

theorem hexText_upper (b : Bytes) : upperCase (hexText b) = hexText b := by
  rw [← a2bHex_iff.1 (show a2bHex (hexText b) = some b by rw [← hexText_eq]; exact a2bHex_bytesHex_upper b)]

theorem upperCase_idem (t : Str) : upperCase (upperCase t) = upperCase t := by
  unfold upperCase
  rw [List.map_map]
  apply List.map_congr_left
  intro c _
  simp only [Function.comp]
  split
  · rw [if_neg (by omega)]
  · rfl

theorem BitmapsWrite.texts {env : PyEnv} {spec : Spec} {F : List Nat} {bms : List Item} (h : BitmapsWrite env spec F bms) :
    ∀ it ∈ bms, it.len = [] ∧ (it.key = py"p" ∨ it.key = py"1") ∧ (∃ fs, spec.get? it.key = some fs) ∧
      upperCase it.val = it.val := by
  cases h with
  | primary hp => simp [hp, hexText_upper]
  | secondary hp _ _ h1 => simp [hp, h1, hexText_upper]
  | tertiary hp _ _ h1 => simp [hp, h1, hexText_upper, upperCase_append]

/-- The value of every item is what the caller's dict holds, read back. -/
theorem MsgWrites.vals {env : PyEnv} {spec : Spec} {doc : Doc} {F : List Nat} {items bms : List Item}
    (h : MsgWrites env spec (lookup doc) F items bms) :
    ∀ it ∈ items, ∃ fs v, spec.get? it.key = some fs ∧
      (applySets (cleaned doc) (textsOf bms)).get? (.str it.key) = some v ∧ it.val = readBack fs v := by
  have hbk : ∀ kv ∈ textsOf bms, kv.1 = py"p" ∨ kv.1 = py"1" := by
    intro kv hkv
    obtain ⟨it, hit, rfl⟩ := List.mem_map.1 hkv
    obtain ⟨_, _, _, _, _, _, hb, _⟩ := h.parts
    exact (hb.texts it hit).2.1
  intro it hit
  cases h.items it hit with
  | field hs _ hp h1 h65 hg _ hv =>
    refine ⟨_, _, hs, ?_, hv⟩
    rw [applySets_get? (by
      intro kv hkv e
      rcases hbk kv hkv with h | h
      · exact hp (e ▸ h)
      · exact h1 (e ▸ h)), cleaned_get? h1 h65]
    exact hg
  | type ht =>
    obtain ⟨fs, v, hs, hg, hk, _, _, _, hv⟩ := ht
    refine ⟨fs, v, by rw [hk]; exact hs, ?_, hv⟩
    rw [hk, applySets_get? (by
      intro kv hkv e
      rcases hbk kv hkv with h | h <;> rw [h] at e <;> simp at e), cleaned_get? (by decide) (by decide)]
    exact hg
  | bitmap hm =>
    obtain ⟨_, _, _, _, _, _, hb, _⟩ := h.parts
    obtain ⟨_, _, ⟨fs, hs⟩, hup⟩ := hb.texts it hm
    refine ⟨fs, .str it.val, hs, ?_, ?_⟩
    · refine applySets_get?_mem ?_ (List.mem_map.2 ⟨it, hm, rfl⟩) _
      rw [show List.map (fun it : Item => (it.key, it.val)) bms = textsOf bms from rfl, textsOf_keys]
      rcases hb.keys with ⟨_, h⟩ | ⟨_, h⟩ <;> rw [h] <;> decide
    · unfold readBack
      split
      · exact hup.symm
      · rfl

/-- **C01**: what `encode` emits, `decode` reads: the same encoded dict, and a decoded dict with
the same keys in the same order whose values are those the caller's dict now holds. -/
theorem encode_decode {env : PyEnv} {spec : Spec} {doc doc' : Doc} {s : Bytes} {enc : EncDoc} (hl : SpecLaws env spec)
    (h : encode env spec doc = (.ok (s, enc), doc')) :
    ∃ dec, decode env spec s = .ok (dec, enc) ∧ dec.keys = enc.keys ∧
      ∀ k ∈ enc.keys, ∃ fs v, spec.get? k = some fs ∧ doc'.get? (.str k) = some v ∧
        dec.get? k = some (readBack fs v) := by
  obtain ⟨ns, _, hr, items, bms, hw, rfl, rfl, rfl⟩ := encode_ok_iff.1 h
  obtain ⟨hnd, hF⟩ := inRange_mem hr
  refine ⟨decOf items, decode_ok_iff.2 ⟨items, hw.reads hl hnd hF, rfl, rfl, rfl⟩, by simp, ?_⟩
  intro k hk
  rw [keys_encOf] at hk
  obtain ⟨it, hit, rfl⟩ := List.mem_map.1 hk
  obtain ⟨fs, v, hs, hv, he⟩ := hw.vals it hit
  exact ⟨fs, v, hs, hv, by rw [get?_decOf_of_mem (hw.nodup hnd) hit, he]⟩

/-- The assumptions hold for the common codecs, prefixes of reasonable width and pads that are not
lower-case letters. -/
theorem specLaws_of_lawful {env : PyEnv} {spec : Spec} (hc : ∀ name c, env.codec name = some c → c.Lawful)
    (hd : ∀ p ∈ spec, env.maxStrDigits = 0 ∨ 2 * p.2.lenType ≤ env.maxStrDigits)
    (hp : ∀ p ∈ spec, ∀ c ∈ padChar p.2.leftPad ++ padChar p.2.rightPad, ¬ (97 ≤ c ∧ c ≤ 122)) : SpecLaws env spec where
  fields k fs hs _ _ _ :=
    { data := fun _ c h => (hc _ c h).roundTrips
      prefixCodec := fun _ _ _ c h => ⟨(hc _ c h).roundTrips, (hc _ c h).writesHex⟩
      prefixDigits := fun _ _ => hd _ (Dict.mem_of_get? hs)
      pads := fun c h => hp _ (Dict.mem_of_get? hs) c (by
        rw [padChar_eq, padChar_eq]
        rcases h with h | h <;> simp [h]) }
  type fs _ _ c h := (hc _ c h).roundTrips
  bitmaps k fs _ _ _ c h := ⟨(hc _ c h).roundTrips, (hc _ c h).writesHex⟩

theorem demo_laws : SpecLaws cpython demoSpec :=
  specLaws_of_lawful cpython_codecs_lawful (by decide) (by decide)

/-- The worked message is read back; the caller's `aBC` comes back as `ABC`. -/
example : decode cpython demoSpec demoMsg = .ok (demoDec, demoEnc) ∧
    ∃ fs v, demoSpec.get? py"3" = some fs ∧ demoDocAfter.get? (.str py"3") = some v ∧
      demoDec.get? py"3" = some (readBack fs v) := by
  obtain ⟨dec, h1, _, h3⟩ := encode_decode demo_laws demo_encode
  have : dec = demoDec := by rw [demo_decode] at h1; cases h1; rfl
  subst this
  exact ⟨h1, h3 py"3" (by decide)⟩

example : readBack { dataEnc := py"b", lenEnc := py"b", lenType := 1, maxLen := 9 } (.str py"aBC") = py"ABC" := by decide

/-- Why pads must not be lower case: such a message is written but cannot be read. -/
def lowerPadSpec : Spec := [
  (py"h", { dataEnc := py"ascii", lenEnc := py"ascii", lenType := 0, maxLen := 0 }),
  (py"t", { dataEnc := py"ascii", lenEnc := py"ascii", lenType := 0, maxLen := 4 }),
  (py"p", { dataEnc := py"b", lenEnc := py"ascii", lenType := 0, maxLen := 8 }),
  (py"2", { dataEnc := py"b", lenEnc := py"ascii", lenType := 2, maxLen := 9, lenCount := some py"nibbles", leftPad := some py"f" })]

theorem lower_pad_unreadable :
    ∃ s enc doc', encode cpython lowerPadSpec [(.str py"t", .str py"0200"), (.str py"2", .str py"123")] = (.ok (s, enc), doc') ∧
      ∃ e, decode cpython lowerPadSpec s = .error (.decodeError e) ∧ e.field = py"2" := by
  refine ⟨[0x30, 0x32, 0x30, 0x30, 0x40, 0, 0, 0, 0, 0, 0, 0, 0x30, 0x33, 0xF1, 0x23],
    [(py"t", ⟨[], [0x30, 0x32, 0x30, 0x30]⟩), (py"p", ⟨[], [0x40, 0, 0, 0, 0, 0, 0, 0]⟩), (py"2", ⟨[0x30, 0x33], [0xF1, 0x23]⟩)],
    [(.str py"t", .str py"0200"), (.str py"2", .str py"123"), (.str py"p", .str py"4000000000000000")], by decide +kernel, ?_⟩
  refine ⟨⟨.padMissing 4 3, [0x30, 0x32, 0x30, 0x30, 0x40, 0, 0, 0, 0, 0, 0, 0, 0x30, 0x33, 0xF1, 0x23], [(py"t", py"0200"), (py"p", py"4000000000000000"), (py"2", py"F123")],
    [(py"t", ⟨[], [0x30, 0x32, 0x30, 0x30]⟩), (py"p", ⟨[], [0x40, 0, 0, 0, 0, 0, 0, 0]⟩), (py"2", ⟨[0x30, 0x33], [0xF1, 0x23]⟩)],
    14, py"2"⟩, ?_, rfl⟩
  decide +kernel

/-- **C26**: messages with the same bytes have the same encoded dict and the same values up to the
case of hex digits. -/
theorem encode_injective {env : PyEnv} {spec : Spec} {a b a' b' : Doc} {s : Bytes} {ea eb : EncDoc}
    (hl : SpecLaws env spec) (ha : encode env spec a = (.ok (s, ea), a')) (hb : encode env spec b = (.ok (s, eb), b')) :
    ea = eb ∧ ∀ k ∈ ea.keys, ∃ fs v w, spec.get? k = some fs ∧ a'.get? (.str k) = some v ∧ b'.get? (.str k) = some w ∧
      readBack fs v = readBack fs w := by
  obtain ⟨da, h1, _, hva⟩ := encode_decode hl ha
  obtain ⟨db, h2, _, hvb⟩ := encode_decode hl hb
  rw [h1] at h2
  cases h2
  refine ⟨rfl, fun k hk => ?_⟩
  obtain ⟨fs, v, hs, hv, e1⟩ := hva k hk
  obtain ⟨fs', w, hs', hw, e2⟩ := hvb k hk
  rw [hs] at hs'; cases hs'
  rw [e1] at e2
  exact ⟨fs, v, w, hs, hv, hw, Option.some.inj e2⟩

/-- The worked dict and one with another case, another order and no stale bitmap have the same bytes. -/
example : ∃ fs v w, demoSpec.get? py"3" = some fs ∧ demoDocAfter.get? (.str py"3") = some v ∧
    (demoDocAfter.set (.str py"3") (.str py"Abc")).get? (.str py"3") = some w ∧ readBack fs v = readBack fs w := by
  have h2 : encode cpython demoSpec (demoDocAfter.set (.str py"3") (.str py"Abc")) =
      (.ok (demoMsg, demoEnc), demoDocAfter.set (.str py"3") (.str py"Abc")) := by decide +kernel
  exact (encode_injective demo_laws demo_encode h2).2 py"3" (by decide)

/-! ## Entries -/

/-- Every entry that is not the type or a bitmap: its data, its units and its length prefix. -/
theorem encode_entry {env : PyEnv} {spec : Spec} {doc doc' : Doc} {s : Bytes} {enc : EncDoc}
    (h : encode env spec doc = (.ok (s, enc), doc')) {k : Str} {e : EncEntry} (hk : enc.get? k = some e)
    (ht : k ≠ py"t") (hp : k ≠ py"p") (h1 : k ≠ py"1") :
    ∃ fs v n, spec.get? k = some fs ∧ doc.get? (.str k) = some v ∧ FieldWrites env fs v n e.len e.data := by
  obtain ⟨ns, _, hr, items, bms, hw, rfl, rfl, rfl⟩ := encode_ok_iff.1 h
  obtain ⟨it, hit, rfl, rfl⟩ := get?_encOf_mem hk
  cases hw.items it hit with
  | field hs _ _ _ _ hg hw _ => exact ⟨_, _, _, hs, hg, hw⟩
  | type ht' => exact absurd ht'.choose_spec.choose_spec.2.2.1 ht
  | bitmap hm =>
    obtain ⟨_, _, _, _, _, _, hb, _⟩ := hw.parts
    rcases (hb.texts it hm).2.1 with h | h
    · exact absurd h hp
    · exact absurd h h1

/-- **C18**: a fixed field has exactly `max_len` units, a variable one at most. -/
theorem encode_max_len {env : PyEnv} {spec : Spec} {doc doc' : Doc} {s : Bytes} {enc : EncDoc}
    (h : encode env spec doc = (.ok (s, enc), doc')) {k : Str} {e : EncEntry} (hk : enc.get? k = some e)
    (ht : k ≠ py"t") (hp : k ≠ py"p") (h1 : k ≠ py"1") :
    ∃ fs v n, spec.get? k = some fs ∧ doc.get? (.str k) = some v ∧ DataWrites env fs v n e.data ∧
      (fs.lenType = 0 → (n : Int) = fs.maxLen) ∧ (fs.lenType ≠ 0 → (n : Int) ≤ fs.maxLen) := by
  obtain ⟨fs, v, n, hs, hg, hw⟩ := encode_entry h hk ht hp h1
  refine ⟨fs, v, n, hs, hg, hw.data, ?_, ?_⟩
  · intro h0; have := hw.size; rw [if_pos h0] at this; exact this.1
  · intro h0; have := hw.size; rw [if_neg h0] at this; exact this.1

theorem PrefixWrites.width {env : PyEnv} {fs : FieldSpec} {n : Nat} {L : Bytes}
    (h : PrefixWrites env fs n L) : L.length ≤ fs.lenType := by
  unfold PrefixWrites at h
  split at h
  · exact Nat.le_of_eq h.1
  · split at h
    · exact Nat.le_of_eq h.1
    · obtain ⟨c, _, _, hl⟩ := h; exact hl

/-- **C19**: the emitted length prefix is empty for a fixed field; otherwise it is `len_type` bytes
that denote the number of units.  For a text prefix this needs that the codec writes digits as one
byte each and reads them back; see `FieldLaws`. -/
theorem encode_prefix {env : PyEnv} {spec : Spec} {doc doc' : Doc} {s : Bytes} {enc : EncDoc}
    (h : encode env spec doc = (.ok (s, enc), doc')) {k : Str} {e : EncEntry} (hk : enc.get? k = some e)
    (ht : k ≠ py"t") (hp : k ≠ py"p") (h1 : k ≠ py"1") :
    ∃ fs v n, spec.get? k = some fs ∧ doc.get? (.str k) = some v ∧ DataWrites env fs v n e.data ∧
      (fs.lenType = 0 → e.len = []) ∧
      (fs.lenType ≠ 0 → fs.lenEnc = py"b" ∨ fs.lenEnc = py"bcd" ∨ FieldLaws env fs →
        e.len.length = fs.lenType ∧ declared env fs e.len = some (n : Int) ∧ n < capacity fs) := by
  obtain ⟨fs, v, n, hs, hg, hw⟩ := encode_entry h hk ht hp h1
  refine ⟨fs, v, n, hs, hg, hw.data, ?_, ?_⟩
  · intro h0; have := hw.size; rw [if_pos h0] at this; exact this.2
  · intro h0 hl
    have hp := hw.size
    rw [if_neg h0] at hp
    replace hp := hp.2
    by_cases hb : fs.lenEnc = py"b"
    · rw [PrefixWrites, if_pos hb] at hp
      refine ⟨hp.1, by rw [declared, if_pos hb, hp.2], ?_⟩
      rw [capacity, if_pos hb, ← hp.2, ← hp.1, ← beValue_eq]
      exact fromBytesBE_lt e.len
    · by_cases hc : fs.lenEnc = py"bcd"
      · rw [PrefixWrites, if_neg hb, if_pos hc] at hp
        refine ⟨hp.1, by rw [declared, if_neg hb, if_pos hc, hp.2]; rfl, ?_⟩
        rw [capacity, if_neg hb, if_pos hc, ← hp.1]
        exact bcdValue_lt hp.2
      · have hl : FieldLaws env fs := by
          rcases hl with h | h | h
          · exact absurd h hb
          · exact absurd h hc
          · exact h
        obtain ⟨hw1, hw2⟩ := hp.reads h0 hl
        refine ⟨hw1, ?_, ?_⟩
        · exact declared_of_lenValue (by intro e0; rw [e0] at hw1; simp at hw1; omega) hw2
        · rw [PrefixWrites, if_neg hb, if_neg hc] at hp
          obtain ⟨c, hcc, he, hle⟩ := hp
          obtain ⟨b, hb1, hb2⟩ := (hl.prefixCodec h0 hb hc c hcc).2 (zeroPad fs.lenType n) (by
            intro x hx
            have := zeroPad_digits _ _ x hx
            simp [isAsciiDigit] at this
            simp [isHexDigit]; omega)
          rw [he] at hb1; cases hb1
          rw [capacity, if_neg hb, if_neg hc, ← natStr_length_le (by omega)]
          rw [zeroPad_length] at hb2
          omega

/-- **C21** (success): how a binary value counted in nibbles is laid out. -/
theorem encode_nibbles {env : PyEnv} {spec : Spec} {doc doc' : Doc} {s : Bytes} {enc : EncDoc}
    (h : encode env spec doc = (.ok (s, enc), doc')) {k : Str} {e : EncEntry} (hk : enc.get? k = some e)
    (ht : k ≠ py"t") (hp : k ≠ py"p") (h1 : k ≠ py"1") {fs : FieldSpec} (hs : spec.get? k = some fs)
    (hb : fs.isBinary) (hn : fs.inNibbles) :
    ∃ v, doc.get? (.str k) = some v ∧ e.data.length = (v.text.length + 1) / 2 ∧
      (v.text.length % 2 = 0 → hexText e.data = upperCase v.text) ∧
      (v.text.length % 2 = 1 →
        (∃ c, firstPad fs.leftPad = some c ∧ hexText e.data = upperCase (c :: v.text)) ∨
        (firstPad fs.leftPad = none ∧ ∃ c, firstPad fs.rightPad = some c ∧ hexText e.data = upperCase (v.text ++ [c]))) := by
  obtain ⟨fs', v, n, hs', hg, hw⟩ := encode_entry h hk ht hp h1
  rw [hs] at hs'; cases hs'
  have hd := hw.data
  unfold DataWrites at hd
  rw [if_pos hb, if_pos hn] at hd
  obtain ⟨rfl, hd⟩ := hd
  have hlen := hexText_length e.data
  refine ⟨v, hg, ?_, ?_, ?_⟩
  · split at hd
    · next hodd =>
      split at hd
      · rw [hd, upperCase_length, List.length_cons] at hlen; omega
      · rw [hd, upperCase_length, List.length_append] at hlen; simp at hlen; omega
      · exact hd.elim
    · rw [hd, upperCase_length] at hlen; omega
  · intro h0; rw [if_neg (by omega)] at hd; exact hd
  · intro h0
    rw [if_pos h0] at hd
    cases h2 : firstPad fs.leftPad with
    | some c => simp only [h2] at hd; exact .inl ⟨c, rfl, hd⟩
    | none =>
      right
      refine ⟨rfl, ?_⟩
      cases h3 : firstPad fs.rightPad with
      | some c => simp only [h2, h3] at hd; exact ⟨c, rfl, hd⟩
      | none => simp [h2, h3] at hd

/-- Field 2 of the worked message: 5 bytes of at most 19, BCD prefix; field 3: 3 nibbles padded. -/
example : ∃ fs v n, demoSpec.get? py"2" = some fs ∧ demoDoc.get? (.str py"2") = some v ∧
    DataWrites cpython fs v n [0x31, 0x32, 0x33, 0x34, 0x35] ∧ (fs.lenType = 0 → (n : Int) = fs.maxLen) ∧
    (fs.lenType ≠ 0 → (n : Int) ≤ fs.maxLen) :=
  encode_max_len demo_encode (e := ⟨[0x05], [0x31, 0x32, 0x33, 0x34, 0x35]⟩) (by decide) (by decide) (by decide) (by decide)

example : ∃ fs v n, demoSpec.get? py"70" = some fs ∧ demoDoc.get? (.str py"70") = some v ∧
    DataWrites cpython fs v n [0xA7, 0xA8, 0xA9] ∧ (fs.lenType = 0 → [0xF0, 0xF3] = ([] : Bytes)) ∧
    (fs.lenType ≠ 0 → fs.lenEnc = py"b" ∨ fs.lenEnc = py"bcd" ∨ FieldLaws cpython fs →
      ([0xF0, 0xF3] : Bytes).length = fs.lenType ∧ declared cpython fs [0xF0, 0xF3] = some (n : Int) ∧ n < capacity fs) :=
  encode_prefix demo_encode (e := ⟨[0xF0, 0xF3], [0xA7, 0xA8, 0xA9]⟩) (by decide) (by decide) (by decide) (by decide)

example : ∃ v, demoDoc.get? (.str py"3") = some v ∧ ([0x0A, 0xBC] : Bytes).length = (v.text.length + 1) / 2 ∧
    (v.text.length % 2 = 0 → hexText [0x0A, 0xBC] = upperCase v.text) ∧
    (v.text.length % 2 = 1 → (∃ c, some 48 = some c ∧ hexText [0x0A, 0xBC] = upperCase (c :: v.text)) ∨
      (some 48 = (none : Option Nat) ∧ ∃ c, none = some c ∧ hexText [0x0A, 0xBC] = upperCase (v.text ++ [c]))) :=
  encode_nibbles demo_encode (k := py"3") (e := ⟨[0x03], [0x0A, 0xBC]⟩) (by decide) (by decide) (by decide) (by decide)
    (fs := { dataEnc := py"b", lenEnc := py"b", lenType := 1, maxLen := 9, lenCount := some py"nibbles", leftPad := some py"0" })
    (by decide) (by decide) (by decide)

/-! ## Type, header, order -/

/-- **C16** (encode): the emitted type has fixed width and is the encoding of the caller's value. -/
theorem encode_type {env : PyEnv} {spec : Spec} {doc doc' : Doc} {s : Bytes} {enc : EncDoc}
    (h : encode env spec doc = (.ok (s, enc), doc')) :
    ∃ fs D v, spec.get? py"t" = some fs ∧ doc.get? (.str py"t") = some v ∧ enc.get? py"t" = some ⟨[], D⟩ ∧
      D.length = typeBytes fs ∧
      (fs.isBinary → hexText D = upperCase v.text) ∧
      (¬ fs.isBinary → ∃ t c, v = .str t ∧ env.codec fs.dataEnc = some c ∧ c.encode t = some D) := by
  obtain ⟨ns, _, hr, items, bms, hw, rfl, rfl, rfl⟩ := encode_ok_iff.1 h
  obtain ⟨hnd, _⟩ := inRange_mem hr
  have hnd' := hw.nodup hnd
  obtain ⟨hdr, ty, flds, rfl, hh, ht, hb, hf⟩ := hw.parts
  obtain ⟨fs, v, hs, hg, hk, hl, hd, _, hv⟩ := ht
  have hget := get?_encOf_of_mem hnd' (it := ty) (by simp)
  rw [hk] at hget
  have hnn : ¬ (asType fs).inNibbles := by simp [FieldSpec.inNibbles, asType]
  refine ⟨fs, ty.data, v, hs, hg, by rw [hget]; simp [Item.entry, hl], ?_, ?_, ?_⟩
  · unfold DataWrites at hd
    split at hd
    · exact hd.2.symm
    · obtain ⟨t, c, _, _, _, hn⟩ := hd; exact hn.symm
  · intro hbin
    unfold DataWrites at hd
    rw [if_pos (show (asType fs).isBinary from hbin), if_neg hnn] at hd
    exact hd.1
  · intro hbin
    unfold DataWrites at hd
    rw [if_neg (show ¬ (asType fs).isBinary from hbin)] at hd
    obtain ⟨t, c, h1, h2, h3, _⟩ := hd
    exact ⟨t, c, h1, h2, h3⟩

/-- **C30** (encode): the order of the keys. -/
theorem encode_keys {env : PyEnv} {spec : Spec} {doc doc' : Doc} {s : Bytes} {enc : EncDoc}
    (h : encode env spec doc = (.ok (s, enc), doc')) :
    ∃ F : List Nat, F.Pairwise (· < ·) ∧ (∀ i ∈ F, 2 ≤ i ∧ i ≤ 192 ∧ i ≠ 65) ∧
      ∃ H B, ((hasHeader spec ∧ H = [py"h"]) ∨ (¬ hasHeader spec ∧ H = [])) ∧ (B = [py"p"] ∨ B = [py"p", py"1"]) ∧
        enc.keys = H ++ [py"t"] ++ B ++ F.map natStr := by
  obtain ⟨ns, _, hr, items, bms, hw, rfl, rfl, rfl⟩ := encode_ok_iff.1 h
  obtain ⟨hnd, hF⟩ := inRange_mem hr
  obtain ⟨H, B, hH, hB, _, hk⟩ := hw.keys
  refine ⟨_, sortedNat_lt (restOf_nodup hnd), ?_, H, B, hH, ?_, by rw [keys_encOf, hk]⟩
  · intro i hi
    rw [mem_sortedNat, mem_restOf] at hi
    have := hF i hi.1
    omega
  · rcases hB with ⟨_, h⟩ | ⟨_, h⟩ <;> simp [h]

/-- **C17** (encode, success): the header is emitted first exactly when the specification has one. -/
theorem encode_header {env : PyEnv} {spec : Spec} {doc doc' : Doc} {s : Bytes} {enc : EncDoc}
    (h : encode env spec doc = (.ok (s, enc), doc')) :
    (hasHeader spec → enc.keys.head? = some py"h" ∧ Key.str py"h" ∈ doc.keys) ∧
    (¬ hasHeader spec → py"h" ∉ enc.keys ∧ enc.keys.head? = some py"t") := by
  obtain ⟨F, _, _, H, B, hH, hB, he⟩ := encode_keys h
  have hm : ∀ n, natStr n ≠ py"h" := fun n => natStr_ne_letter (by decide)
  constructor
  · intro hh
    rcases hH with ⟨_, rfl⟩ | ⟨hn, _⟩
    · refine ⟨by rw [he]; rfl, ?_⟩
      have hmem : py"h" ∈ enc.keys := by rw [he]; simp
      obtain ⟨e, hget⟩ := Dict.mem_keys_iff.1 hmem
      obtain ⟨_, v, _, _, hv, _⟩ := encode_entry h hget (by decide) (by decide) (by decide)
      exact Dict.mem_keys_iff.2 ⟨v, hv⟩
    · exact absurd hh hn
  · intro hh
    rcases hH with ⟨hn, _⟩ | ⟨_, rfl⟩
    · exact absurd hn hh
    · rw [he]
      refine ⟨?_, rfl⟩
      rcases hB with rfl | rfl <;> simp [hm]

example : ∃ fs D v, demoSpec.get? py"t" = some fs ∧ demoDoc.get? (.str py"t") = some v ∧
    demoEnc.get? py"t" = some ⟨[], D⟩ ∧ D.length = typeBytes fs ∧ (fs.isBinary → hexText D = upperCase v.text) ∧
    (¬ fs.isBinary → ∃ t c, v = .str t ∧ cpython.codec fs.dataEnc = some c ∧ c.encode t = some D) := encode_type demo_encode

example : demoEnc.keys.head? = some py"h" :=
  ((encode_header demo_encode).1 ⟨{ dataEnc := py"ascii", lenEnc := py"ascii", lenType := 0, maxLen := 3 }, by decide, by decide⟩).1

example : demoEnc.keys = [py"h"] ++ [py"t"] ++ [py"p", py"1"] ++ [2, 3, 70, 130].map natStr := by decide

/-! ## Bitmaps -/

theorem pyInt_natStr_eq {env : PyEnv} {n : Nat} {x : Int} (h : pyInt env (natStr n) = some x) : x = n := by
  have hp := pyInt_digits env (natStr_ne_nil n) (natStr_digits n)
  rw [h] at hp
  split at hp
  · cases hp
  · simpa using hp

theorem isNumeric_natStr {env : PyEnv} (hd : DigitsNumeric env) (n : Nat) : isNumeric env (natStr n) = true := by
  simp only [isNumeric, Bool.and_eq_true, decide_eq_true_eq, List.all_eq_true]
  refine ⟨natStr_ne_nil n, fun c hc => ?_⟩
  have := natStr_digits n c hc
  simp only [isAsciiDigit, Bool.and_eq_true, decide_eq_true_eq] at this
  exact hd c this.1 this.2

theorem canonical_mem {env : PyEnv} {doc : Doc} {ns : List Int} (nd : doc.NoDup) (hd : DigitsNumeric env)
    (hc : CanonicalKeys env doc) (hn : numsOf env doc = .ok ns) {i : Nat} :
    i ∈ (setUpdate [] ns).map Int.toNat ↔ hasField doc i ∧ i ≠ 1 ∧ i ≠ 65 := by
  obtain ⟨_, h2, h3⟩ := numericKeys_ok hn
  have hcl : ∀ j : Nat, Key.str (natStr j) ∈ (cleaned doc).keys ↔ hasField doc j ∧ j ≠ 1 ∧ j ≠ 65 := by
    intro j
    rw [mem_keys_cleaned nd]
    have e1 : Key.str (natStr j) ≠ .str py"1" ↔ j ≠ 1 := by
      rw [show py"1" = natStr 1 from rfl]; simp [natStr_inj]
    have e65 : Key.str (natStr j) ≠ .str py"65" ↔ j ≠ 65 := by
      rw [show py"65" = natStr 65 from rfl]; simp [natStr_inj]
    rw [e1, e65]; rfl
  rw [List.mem_map]
  constructor
  · rintro ⟨x, hx, rfl⟩
    rw [mem_setUpdate] at hx
    rcases hx with hx | hx
    · simp at hx
    · obtain ⟨t, ht, hnt, hpt⟩ := h3 x hx
      have htd := (mem_keys_cleaned nd).1 ht
      simp only [isNumeric, Bool.and_eq_true, decide_eq_true_eq, List.all_eq_true] at hnt
      obtain ⟨m, rfl⟩ := hc t htd.1 hnt.1 hnt.2
      have := pyInt_natStr_eq hpt
      subst this
      rw [Int.toNat_natCast]
      exact (hcl m).1 ht
  · intro h
    obtain ⟨x, hx, hp⟩ := h2 _ ((hcl i).2 h) (isNumeric_natStr hd i)
    have := pyInt_natStr_eq hp
    subst this
    exact ⟨i, mem_setUpdate.2 (.inr hx), rfl⟩

theorem hexBit_hexText (b : Bytes) (i : Nat) : hexBit (hexText b) i = bitOn b i :=
  (bitOn_eq_hexBit (by rw [← hexText_eq]; exact a2bHex_bytesHex_upper b)).symm

theorem BitmapWrites.emitted {env : PyEnv} {fs : FieldSpec} {bm D : Bytes} (h : BitmapWrites env fs bm D)
    (h8 : bm.length = 8) : BitmapEmitted env fs (hexText bm) D := by
  refine ⟨by simp [h8], ?_⟩
  unfold BitmapWrites at h
  split at h
  · next hb => rw [if_pos hb, h]
  · next hb => rw [if_neg hb]; exact h

/-- Bitmaps of a message with fields `F`: texts in the caller's dict, and what is emitted. -/
theorem BitmapsWrite.bits {env : PyEnv} {spec : Spec} {F : List Nat} {bms : List Item}
    (h : BitmapsWrite env spec F bms) (hF : ∀ x ∈ F, 1 ≤ x ∧ x ≤ 192) (doc : Doc)
    (h1d : Key.str py"1" ∉ doc.keys) :
    let doc' := applySets doc (textsOf bms)
    let T := docText doc' py"p" ++ docText doc' py"1"
    (∀ i, 1 ≤ i → i ≤ 192 → (hexBit T i = true ↔ i ∈ f2Of F)) ∧
    (∃ fs D, spec.get? py"p" = some fs ∧ (encOf bms).get? py"p" = some ⟨[], D⟩ ∧
      BitmapEmitted env fs (docText doc' py"p") D) ∧
    (1 ∈ f2Of F → ∃ fs D1, spec.get? py"1" = some fs ∧
      ((65 ∉ f2Of F ∧ (encOf bms).get? py"1" = some ⟨[], D1⟩ ∧ BitmapEmitted env fs (docText doc' py"1") D1) ∨
       (65 ∈ f2Of F ∧ ∃ D2, (encOf bms).get? py"1" = some ⟨[], D1 ++ D2⟩ ∧ (docText doc' py"1").length = 32 ∧
        BitmapEmitted env fs ((docText doc' py"1").take 16) D1 ∧ BitmapEmitted env fs ((docText doc' py"1").drop 16) D2))) ∧
    (1 ∉ f2Of F → docText doc' py"1" = [] ∧ Key.str py"1" ∉ doc'.keys) ∧
    (∀ c ∈ T, isUpperHexDigit c = true) := by
  have hF' : ∀ x ∈ F, x ≤ 192 := fun x hx => (hF x hx).2
  have l0 := bitmapOf_length (off := 0) (priOf_range (F := F))
  have l1 := bitmapOf_length (off := 64) (secOf_range (F := F))
  have l2 := bitmapOf_length (off := 128) (terOf_range (F := F))
  have b0 : ∀ i, 1 ≤ i → i ≤ 64 → (hexBit (hexText (bitmapOf 0 (priOf F))) i = true ↔ i ∈ f2Of F) := by
    intro i hi hi'
    rw [hexBit_hexText, bitOn_bitmapOf priOf_range hi]
    simp only [Nat.zero_add, priOf, mem_setInter]
    constructor
    · exact fun h => h.1
    · exact fun h => ⟨h, hi, by omega⟩
  have b1 : ∀ i, 1 ≤ i → i ≤ 64 → (hexBit (hexText (bitmapOf 64 (secOf F))) i = true ↔ 64 + i ∈ f2Of F) := by
    intro i hi hi'
    rw [hexBit_hexText, bitOn_bitmapOf secOf_range hi, mem_secOf hF', mem_f2Of hF']
    constructor
    · rintro ⟨h | h, _⟩
      · exact .inl h
      · exact .inr (.inl h)
    · rintro (h | h | h)
      · exact ⟨.inl h, by omega, by omega⟩
      · exact ⟨.inr h, by omega, by omega⟩
      · omega
  have b2 : ∀ i, 1 ≤ i → i ≤ 64 → (hexBit (hexText (bitmapOf 128 (terOf F))) i = true ↔ 128 + i ∈ f2Of F) := by
    intro i hi hi'
    rw [hexBit_hexText, bitOn_bitmapOf terOf_range hi, mem_terOf, mem_f2Of hF']
    constructor
    · rintro ⟨h, _⟩
      exact .inl h
    · rintro (h | h | h)
      · exact ⟨h, by omega, by omega⟩
      · omega
      · omega
  have hup : ∀ b : Bytes, ∀ c ∈ hexText b, isUpperHexDigit c = true := by
    intro b
    have hc : ∀ n, n < 16 → isUpperHexDigit (hexChar n) = true := by decide
    induction b with
    | nil => simp [hexText]
    | cons x t ih =>
      intro y hy
      simp only [hexText, List.mem_cons] at hy
      have hx : x.toNat < 256 := x.toNat_lt
      rcases hy with rfl | rfl | hy
      · exact hc _ (by omega)
      · exact hc _ (by omega)
      · exact ih y hy
  have no1 : 1 ∉ f2Of F → ∀ i, 65 ≤ i → i ∉ f2Of F := by
    intro h1 i hi hm
    rcases (mem_f2Of hF').1 hm with h | ⟨_, y, hy, hlt⟩ | h
    · exact h1 ((mem_f2Of hF').2 (.inr (.inr ⟨rfl, i, h, by omega⟩)))
    · exact h1 ((mem_f2Of hF').2 (.inr (.inr ⟨rfl, y, hy, by omega⟩)))
    · omega
  have no65 : 65 ∉ f2Of F → ∀ i, 129 ≤ i → i ∉ f2Of F := by
    intro h1 i hi hm
    rcases (mem_f2Of hF').1 hm with h | ⟨_, y, hy, hlt⟩ | h
    · exact h1 ((mem_f2Of hF').2 (.inr (.inl ⟨rfl, i, h, by omega⟩)))
    · exact h1 ((mem_f2Of hF').2 (.inr (.inl ⟨rfl, y, hy, by omega⟩)))
    · omega
  cases h with
  | primary hp hw h1 =>
    intro doc' T
    have gp : docText doc' py"p" = hexText (bitmapOf 0 (priOf F)) := by
      simp only [docText, doc', textsOf, List.map_cons, List.map_nil, applySets, List.foldl_cons, List.foldl_nil,
        Dict.get?_set_same]
    have g1' : doc'.get? (.str py"1") = none := by
      simp only [doc', textsOf, List.map_cons, List.map_nil, applySets, List.foldl_cons, List.foldl_nil]
      rw [Dict.get?_set_ne _ _ (by decide)]
      exact Dict.get?_eq_none.2 h1d
    have g1 : docText doc' py"1" = [] := by simp only [docText, g1']
    have hT : T = hexText (bitmapOf 0 (priOf F)) := by simp only [T, gp, g1, List.append_nil]
    refine ⟨?_, ⟨_, _, hp, rfl, ?_⟩, fun h => absurd h h1, fun _ => ⟨g1, Dict.get?_eq_none.1 g1'⟩, ?_⟩
    · intro i hi hi'
      rw [hT]
      by_cases h64 : i ≤ 64
      · exact b0 i hi h64
      · constructor
        · intro hb
          have := hexBit_le hi hb
          simp [l0] at this
          omega
        · intro hm; exact absurd hm (no1 h1 i (by omega))
    · rw [gp]; exact hw.emitted l0
    · rw [hT]; exact hup _
  | secondary hp hw h1 hs1 hw1 h65 =>
    intro doc' T
    have gp : docText doc' py"p" = hexText (bitmapOf 0 (priOf F)) := by
      simp only [docText, doc', textsOf, List.map_cons, List.map_nil, applySets, List.foldl_cons, List.foldl_nil]
      rw [Dict.get?_set_ne _ _ (by decide), Dict.get?_set_same]
    have g1 : docText doc' py"1" = hexText (bitmapOf 64 (secOf F)) := by
      simp only [docText, doc', textsOf, List.map_cons, List.map_nil, applySets, List.foldl_cons, List.foldl_nil,
        Dict.get?_set_same]
    have hT : T = hexText (bitmapOf 0 (priOf F)) ++ hexText (bitmapOf 64 (secOf F)) := by simp only [T, gp, g1]
    refine ⟨?_, ⟨_, _, hp, rfl, ?_⟩, fun _ => ⟨_, _, hs1, .inl ⟨h65, rfl, ?_⟩⟩, fun h => absurd h1 h, ?_⟩
    · intro i hi hi'
      rw [hT]
      by_cases h64 : i ≤ 64
      · rw [hexBit_append_left (by simp [l0]; omega) hi]
        exact b0 i hi h64
      · obtain ⟨j, rfl⟩ : ∃ j, i = 64 + j := ⟨i - 64, by omega⟩
        have hj : 1 ≤ j := by omega
        have := hexBit_append_right (a := hexText (bitmapOf 0 (priOf F))) (b := hexText (bitmapOf 64 (secOf F))) hj
        rw [show 64 + j = 4 * (hexText (bitmapOf 0 (priOf F))).length + j by simp [l0]] at *
        rw [this]
        simp only [hexText_length, l0] at *
        by_cases h64' : j ≤ 64
        · exact b1 j hj h64'
        · constructor
          · intro hb
            have := hexBit_le hj hb
            simp [l1] at this
            omega
          · intro hm; exact absurd hm (no65 h65 _ (by omega))
    · rw [gp]; exact hw.emitted l0
    · rw [g1]; exact hw1.emitted l1
    · rw [hT]
      intro c hc
      rcases List.mem_append.1 hc with h | h
      · exact hup _ c h
      · exact hup _ c h
  | tertiary hp hw h1 hs1 hw1 h65 hw2 =>
    intro doc' T
    have gp : docText doc' py"p" = hexText (bitmapOf 0 (priOf F)) := by
      simp only [docText, doc', textsOf, List.map_cons, List.map_nil, applySets, List.foldl_cons, List.foldl_nil]
      rw [Dict.get?_set_ne _ _ (by decide), Dict.get?_set_same]
    have g1 : docText doc' py"1" = hexText (bitmapOf 64 (secOf F)) ++ hexText (bitmapOf 128 (terOf F)) := by
      simp only [docText, doc', textsOf, List.map_cons, List.map_nil, applySets, List.foldl_cons, List.foldl_nil,
        Dict.get?_set_same]
    have hT : T = hexText (bitmapOf 0 (priOf F)) ++ (hexText (bitmapOf 64 (secOf F)) ++ hexText (bitmapOf 128 (terOf F))) := by
      simp only [T, gp, g1]
    have l1' : (hexText (bitmapOf 64 (secOf F))).length = 16 := by simp [l1]
    refine ⟨?_, ⟨_, _, hp, rfl, ?_⟩, fun _ => ⟨_, _, hs1, .inr ⟨h65, _, rfl, ?_, ?_, ?_⟩⟩, fun h => absurd h1 h, ?_⟩
    · intro i hi hi'
      rw [hT]
      by_cases h64 : i ≤ 64
      · rw [hexBit_append_left (by simp [l0]; omega) hi]
        exact b0 i hi h64
      · obtain ⟨j, rfl⟩ : ∃ j, i = 64 + j := ⟨i - 64, by omega⟩
        have hj : 1 ≤ j := by omega
        have key := hexBit_append_right (a := hexText (bitmapOf 0 (priOf F)))
          (b := hexText (bitmapOf 64 (secOf F)) ++ hexText (bitmapOf 128 (terOf F))) hj
        simp only [hexText_length, l0] at key
        rw [show 4 * (2 * 8) + j = 64 + j by omega] at key
        rw [key]
        by_cases h64' : j ≤ 64
        · rw [hexBit_append_left (by simp [l1]; omega) hj]
          exact b1 j hj h64'
        · obtain ⟨m, rfl⟩ : ∃ m, j = 64 + m := ⟨j - 64, by omega⟩
          have hm : 1 ≤ m := by omega
          have key := hexBit_append_right (a := hexText (bitmapOf 64 (secOf F))) (b := hexText (bitmapOf 128 (terOf F))) hm
          simp only [hexText_length, l1] at key
          rw [show 4 * (2 * 8) + m = 64 + m by omega] at key
          rw [key, b2 m hm (by omega)]
          rw [show 64 + (64 + m) = 128 + m by omega]
    · rw [gp]; exact hw.emitted l0
    · rw [g1]; simp [l1, l2]
    · rw [g1, List.take_left' l1']; exact hw1.emitted l1
    · rw [g1, List.drop_left' l1']; exact hw2.emitted l2
    · rw [hT]
      intro c hc
      rcases List.mem_append.1 hc with h | h
      · exact hup _ c h
      · rcases List.mem_append.1 h with h | h
        · exact hup _ c h
        · exact hup _ c h

/-- **C10**: the bits of the bitmaps in the caller's dict are exactly the fields present, the
bitmaps are upper-case hex, and these are the bitmaps emitted. -/
theorem encode_bitmaps {env : PyEnv} {spec : Spec} {doc doc' : Doc} {s : Bytes} {enc : EncDoc}
    (nd : doc.NoDup) (hd : DigitsNumeric env) (hc : CanonicalKeys env doc)
    (h : encode env spec doc = (.ok (s, enc), doc')) :
    (∀ i, 2 ≤ i → i ≤ 192 → i ≠ 65 →
      (hexBit (docText doc' py"p" ++ docText doc' py"1") i = true ↔ hasField doc i)) ∧
    (hexBit (docText doc' py"p" ++ docText doc' py"1") 1 = true ↔ ∃ i, 65 < i ∧ i ≤ 192 ∧ hasField doc i) ∧
    (hexBit (docText doc' py"p" ++ docText doc' py"1") 65 = true ↔ ∃ i, 128 < i ∧ i ≤ 192 ∧ hasField doc i) ∧
    (∀ c ∈ docText doc' py"p" ++ docText doc' py"1", isUpperHexDigit c = true) ∧
    (∃ fs D, spec.get? py"p" = some fs ∧ enc.get? py"p" = some ⟨[], D⟩ ∧ BitmapEmitted env fs (docText doc' py"p") D) ∧
    ((∃ i, 65 < i ∧ i ≤ 192 ∧ hasField doc i) → ∃ fs D1, spec.get? py"1" = some fs ∧
      ((¬ (∃ i, 128 < i ∧ i ≤ 192 ∧ hasField doc i) ∧ enc.get? py"1" = some ⟨[], D1⟩ ∧
          BitmapEmitted env fs (docText doc' py"1") D1) ∨
       ((∃ i, 128 < i ∧ i ≤ 192 ∧ hasField doc i) ∧ ∃ D2, enc.get? py"1" = some ⟨[], D1 ++ D2⟩ ∧
          (docText doc' py"1").length = 32 ∧ BitmapEmitted env fs ((docText doc' py"1").take 16) D1 ∧
          BitmapEmitted env fs ((docText doc' py"1").drop 16) D2))) ∧
    (¬ (∃ i, 65 < i ∧ i ≤ 192 ∧ hasField doc i) → Key.str py"1" ∉ doc'.keys ∧ py"1" ∉ enc.keys) ∧
    Key.str py"65" ∉ doc'.keys ∧ py"65" ∉ enc.keys := by
  obtain ⟨ns, hn, hr, items, bms, hw, rfl, rfl, rfl⟩ := encode_ok_iff.1 h
  obtain ⟨hnd, hF⟩ := inRange_mem hr
  have hF' : ∀ x ∈ (setUpdate [] ns).map Int.toNat, x ≤ 192 := fun x hx => (hF x hx).2
  have hmem := fun i => canonical_mem nd hd hc hn (i := i)
  have hnodup := hw.nodup hnd
  obtain ⟨H, B, hH, hB, hBk, hkeys⟩ := hw.keys
  obtain ⟨hdr, ty, flds, rfl, hh, ht, hb, hf⟩ := hw.parts
  have h1c : Key.str py"1" ∉ (cleaned doc).keys := by rw [mem_keys_cleaned nd]; simp
  have h65c : Key.str py"65" ∉ (cleaned doc).keys := by rw [mem_keys_cleaned nd]; simp
  obtain ⟨r1, r2, r3, r4, r5⟩ := hb.bits hF _ h1c
  have e1 : 1 ∈ f2Of ((setUpdate [] ns).map Int.toNat) ↔ ∃ i, 65 < i ∧ i ≤ 192 ∧ hasField doc i := by
    rw [mem_f2Of hF']
    constructor
    · rintro (h | h | ⟨_, y, hy, hlt⟩)
      · exact absurd rfl ((hmem 1).1 h).2.1
      · omega
      · have := (hmem y).1 hy
        exact ⟨y, by omega, hF' y hy, this.1⟩
    · rintro ⟨i, hi, hi', hfi⟩
      exact .inr (.inr ⟨rfl, i, (hmem i).2 ⟨hfi, by omega, by omega⟩, by omega⟩)
  have e65 : 65 ∈ f2Of ((setUpdate [] ns).map Int.toNat) ↔ ∃ i, 128 < i ∧ i ≤ 192 ∧ hasField doc i := by
    rw [mem_f2Of hF']
    constructor
    · rintro (h | ⟨_, y, hy, hlt⟩ | h)
      · exact absurd rfl ((hmem 65).1 h).2.2
      · have := (hmem y).1 hy
        exact ⟨y, by omega, hF' y hy, this.1⟩
      · omega
    · rintro ⟨i, hi, hi', hfi⟩
      exact .inr (.inl ⟨rfl, i, (hmem i).2 ⟨hfi, by omega, by omega⟩, by omega⟩)
  have getb : ∀ k e, (encOf bms).get? k = some e → (encOf (hdr ++ ty :: bms ++ flds)).get? k = some e := by
    intro k e hk
    obtain ⟨it, hit, rfl, rfl⟩ := get?_encOf_mem hk
    exact get?_encOf_of_mem hnodup (by simp [hit])
  refine ⟨?_, by rw [r1 1 (by omega) (by omega), e1], by rw [r1 65 (by omega) (by omega), e65], r5, ?_, ?_, ?_, ?_, ?_⟩
  · intro i hi hi' h65
    rw [r1 i (by omega) hi', mem_f2Of hF', hmem]
    constructor
    · rintro (h | h | h)
      · exact h.1
      · omega
      · omega
    · intro h; exact .inl ⟨h, by omega, h65⟩
  · obtain ⟨fs, D, h1, h2, h3⟩ := r2
    exact ⟨fs, D, h1, getb _ _ h2, h3⟩
  · intro hi
    obtain ⟨fs, D1, h1, h2⟩ := r3 (e1.2 hi)
    refine ⟨fs, D1, h1, ?_⟩
    rcases h2 with ⟨h2, h3, h4⟩ | ⟨h2, D2, h3, h4⟩
    · exact .inl ⟨fun h => h2 (e65.2 h), getb _ _ h3, h4⟩
    · exact .inr ⟨e65.1 h2, D2, getb _ _ h3, h4⟩
  · intro hi
    have h1 : 1 ∉ f2Of ((setUpdate [] ns).map Int.toNat) := fun h => hi (e1.1 h)
    refine ⟨(r4 h1).2, ?_⟩
    rw [keys_encOf, hkeys]
    have : B = [py"p"] := by
      rcases hB with ⟨_, h⟩ | ⟨h, _⟩
      · exact h
      · exact absurd h h1
    subst this
    have hno : py"1" ∉ (sortedNat (restOf ((setUpdate [] ns).map Int.toNat))).map natStr := by
      intro hm
      obtain ⟨i, hi, he⟩ := List.mem_map.1 hm
      exact natStr_ne_one (by rintro rfl; simp [mem_restOf] at hi) he
    rcases hH with ⟨_, rfl⟩ | ⟨_, rfl⟩ <;> simpa using hno
  · rw [mem_keys_applySets]
    rintro (h | ⟨kv, hkv, e⟩)
    · exact h65c h
    · obtain ⟨it, hit, rfl⟩ := List.mem_map.1 hkv
      rcases (hb.texts it hit).2.1 with h | h
      · rw [h] at e; simp at e
      · rw [h] at e; simp at e
  · rw [keys_encOf, hkeys]
    have hno : py"65" ∉ (sortedNat (restOf ((setUpdate [] ns).map Int.toNat))).map natStr := by
      intro hm
      obtain ⟨i, hi, he⟩ := List.mem_map.1 hm
      have : i = 65 := natStr_inj.1 (he.trans (show py"65" = natStr 65 from rfl))
      subst this
      simp [mem_restOf] at hi
    rcases hH with ⟨_, rfl⟩ | ⟨_, rfl⟩ <;> rcases hB with ⟨_, rfl⟩ | ⟨_, rfl⟩ <;> simpa using hno

/-- **C11**: a secondary bitmap appears, in the caller's dict and on the wire, only when some field
above 64 is present, and holds the tertiary one only when some field above 128 is. -/
theorem encode_bitmaps_minimal {env : PyEnv} {spec : Spec} {doc doc' : Doc} {s : Bytes} {enc : EncDoc}
    (nd : doc.NoDup) (hd : DigitsNumeric env) (hc : CanonicalKeys env doc)
    (h : encode env spec doc = (.ok (s, enc), doc')) :
    (Key.str py"1" ∈ doc'.keys ↔ ∃ i, 65 < i ∧ i ≤ 192 ∧ hasField doc i) ∧
    (py"1" ∈ enc.keys ↔ ∃ i, 65 < i ∧ i ≤ 192 ∧ hasField doc i) ∧
    ((∃ i, 65 < i ∧ i ≤ 192 ∧ hasField doc i) →
      (docText doc' py"1").length = 16 ∨ (docText doc' py"1").length = 32) ∧
    ((docText doc' py"1").length = 32 ↔ ∃ i, 128 < i ∧ i ≤ 192 ∧ hasField doc i) ∧
    (docText doc' py"p").length = 16 ∧
    Key.str py"65" ∉ doc'.keys ∧ py"65" ∉ enc.keys := by
  obtain ⟨_, _, _, _, hp, h1, hno, h65, h65'⟩ := encode_bitmaps nd hd hc h
  obtain ⟨_, _, _, _, hpl, _⟩ := hp
  have docIn : (docText doc' py"1") ≠ [] → Key.str py"1" ∈ doc'.keys := by
    intro hne
    rw [Dict.mem_keys_iff]
    cases hg : doc'.get? (.str py"1") with
    | none => simp [docText, hg] at hne
    | some v => exact ⟨v, rfl⟩
  have notIn : Key.str py"1" ∉ doc'.keys → docText doc' py"1" = [] := by
    intro hk
    simp [docText, Dict.get?_eq_none.2 hk]
  by_cases hi : ∃ i, 65 < i ∧ i ≤ 192 ∧ hasField doc i
  · obtain ⟨fs, D1, _, hor⟩ := h1 hi
    rcases hor with ⟨hn128, hget, hl, _⟩ | ⟨h128, D2, hget, hl, _⟩
    · refine ⟨iff_of_true (docIn (by intro e; simp [e] at hl)) hi,
        iff_of_true (Dict.mem_keys_iff.2 ⟨_, hget⟩) hi, fun _ => .inl hl, ?_, hpl, h65, h65'⟩
      rw [hl]
      exact iff_of_false (by omega) hn128
    · refine ⟨iff_of_true (docIn (by intro e; simp [e] at hl)) hi,
        iff_of_true (Dict.mem_keys_iff.2 ⟨_, hget⟩) hi, fun _ => .inr hl, iff_of_true hl h128, hpl, h65, h65'⟩
  · obtain ⟨ha, hb⟩ := hno hi
    refine ⟨iff_of_false ha hi, iff_of_false hb hi, fun h => absurd h hi, ?_, hpl, h65, h65'⟩
    rw [notIn ha]
    refine iff_of_false (by decide) ?_
    rintro ⟨i, h1, h2⟩
    exact hi ⟨i, by omega, h2⟩

theorem cpython_digits : DigitsNumeric cpython := by
  intro c h1 h2
  simp [cpython, isAsciiDigit, h1, h2]

theorem demo_nodup : demoDoc.NoDup := by
  unfold Dict.NoDup; decide

theorem demo_canonical : CanonicalKeys cpython demoDoc := by
  intro k hk hne hnum
  have : k ∈ [py"70", py"1", py"3", py"t", py"note", py"130", py"2", py"h"] := by
    simpa [demoDoc, Dict.keys] using hk
  simp only [List.mem_cons, List.not_mem_nil, or_false] at this
  rcases this with rfl | rfl | rfl | rfl | rfl | rfl | rfl | rfl
  · exact ⟨70, rfl⟩
  · exact ⟨1, rfl⟩
  · exact ⟨3, rfl⟩
  · exact absurd (hnum 116 (by simp)) (by decide)
  · exact absurd (hnum 110 (by simp)) (by decide)
  · exact ⟨130, rfl⟩
  · exact ⟨2, rfl⟩
  · exact absurd (hnum 104 (by simp)) (by decide)

example : (∀ i, 2 ≤ i → i ≤ 192 → i ≠ 65 →
    (hexBit (docText demoDocAfter py"p" ++ docText demoDocAfter py"1") i = true ↔ hasField demoDoc i)) :=
  (encode_bitmaps demo_nodup cpython_digits demo_canonical demo_encode).1

example : (docText demoDocAfter py"1").length = 32 ↔ ∃ i, 128 < i ∧ i ≤ 192 ∧ hasField demoDoc i :=
  (encode_bitmaps_minimal demo_nodup cpython_digits demo_canonical demo_encode).2.2.2.1

/-- Why keys must be canonical: `'01'` is numeric, is converted to 1, and makes encode emit an empty
secondary bitmap although no field above 64 is present. -/
theorem leading_zero_emits_empty_secondary :
    (encode cpython demoSpec [(.str py"h", .str py"HDR"), (.str py"t", .str py"0200"), (.str py"01", .unsized)]).1 =
      .ok ([0x48, 0x44, 0x52, 0x02, 0x00, 0x80, 0, 0, 0, 0, 0, 0, 0] ++ List.replicate 16 0x30,
        [(py"h", ⟨[], [0x48, 0x44, 0x52]⟩), (py"t", ⟨[], [0x02, 0x00]⟩), (py"p", ⟨[], [0x80, 0, 0, 0, 0, 0, 0, 0]⟩),
         (py"1", ⟨[], List.replicate 16 0x30⟩)]) := by decide +kernel

/-- An instance of `encode_keys`. -/
example : ∃ F : List Nat, F.Pairwise (· < ·) ∧ ∃ H B, demoEnc.keys = H ++ [py"t"] ++ B ++ F.map natStr := by
  obtain ⟨F, h, _, H, B, _, _, hk⟩ := encode_keys demo_encode
  exact ⟨F, h, H, B, hk⟩

end Iso8583
