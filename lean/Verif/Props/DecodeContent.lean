import Verif.Props.DecodeFraming
import Verif.Props.Codecs
/-!
# What `decode` returns (C09, C16, C17, C22, C24, C30, C31, C43)
-/

namespace Iso8583

theorem encOf_get? {items : List Item} {k : Str} {e : EncEntry} (h : (encOf items).get? k = some e) :
    ∃ it ∈ items, it.key = k ∧ it.entry = e ∧ (decOf items).get? k = some it.val := by
  induction items with
  | nil => simp [encOf] at h
  | cons a t ih =>
    simp only [encOf, decOf, List.map_cons, Dict.get?] at h ⊢
    by_cases ha : a.key = k
    · rw [if_pos ha] at h ⊢
      cases h
      exact ⟨a, by simp, ha, rfl, rfl⟩
    · rw [if_neg ha] at h ⊢
      obtain ⟨it, hm, h1, h2, h3⟩ := ih h
      exact ⟨it, by simp [hm], h1, h2, h3⟩

/-- **C31**: the decoded and encoded dicts have the same keys, and every decoded value is what
its own entry stands for. -/
theorem decode_entries {env : PyEnv} {spec : Spec} {s : Bytes} {dec : DecDoc} {enc : EncDoc}
    (h : decode env spec s = .ok (dec, enc)) :
    dec.keys = enc.keys ∧ dec.keys.Nodup ∧
    ∀ k e, enc.get? k = some e → ∃ v, dec.get? k = some v ∧ EntrySays env spec k e v := by
  obtain ⟨items, hr, rfl, rfl, rfl⟩ := decode_ok_iff.1 h
  refine ⟨by simp, ?_, ?_⟩
  · rw [keys_decOf]
    obtain ⟨hdr, ty, bms, flds, F, rfl, hh, ht, hb, hf⟩ := hr
    obtain ⟨hF, h1, _, _⟩ := hb.fields
    have := nodup_msg_keys (F := sortedNat F) hh.keys hb.keys (sortedNat_nodup hF) (by simpa using h1)
    simpa [hf.keys, ht.choose_spec.2.1] using this
  · intro k e he
    obtain ⟨it, hm, rfl, rfl, hd⟩ := encOf_get? he
    exact ⟨it.val, hd, itemOk_says (hr.ok it hm)⟩

example : ∃ v, demoDec.get? py"3" = some v ∧ EntrySays cpython demoSpec py"3" ⟨[0x03], [0x0A, 0xBC]⟩ v :=
  (decode_entries demo_decode).2.2 py"3" _ (by decide)

/-- **C31**: an entry stands for one text only, whatever message it appears in: the text is
determined by the entry and the specification of that one field. -/
theorem EntrySays.unique {env : PyEnv} {spec spec' : Spec} {k : Str} {e : EncEntry} {v v' : Str}
    (hs : spec.get? k = spec'.get? k) (h : EntrySays env spec k e v) (h' : EntrySays env spec' k e v') : v = v' := by
  obtain ⟨fs, hf, h⟩ := h
  obtain ⟨fs', hf', h'⟩ := h'
  rw [← hs, hf] at hf'
  cases hf'
  have plain : ∀ {D : Bytes} {v v' : Str}, PlainSays env fs D v → PlainSays env fs D v' → v = v' := by
    intro D v v' h h'
    unfold PlainSays at h h'
    split at h
    · next hb => rw [if_pos hb] at h'; rw [h, h']
    · next hb =>
      rw [if_neg hb] at h'
      obtain ⟨c, hc, hd⟩ := h
      obtain ⟨c', hc', hd'⟩ := h'
      rw [hc] at hc'; cases hc'
      rw [hd] at hd'; exact Option.some.inj hd'
  have hpos : 0 < bitmapBytes fs := by unfold bitmapBytes; split <;> omega
  by_cases ht : k = py"t"
  · rw [if_pos ht] at h h'
    exact plain h.2.2 h'.2.2
  rw [if_neg ht] at h h'
  by_cases hp : k = py"p" ∨ k = py"1"
  · rw [if_pos hp] at h h'
    rcases h.2 with ⟨hl, h1⟩ | ⟨hl, a, b, rfl, h1, h2⟩ <;> rcases h'.2 with ⟨hl', h1'⟩ | ⟨hl', a', b', rfl, h1', h2'⟩
    · exact plain h1 h1'
    · omega
    · omega
    · rw [plain h1 h1', plain h2 h2']
  rw [if_neg hp] at h h'
  obtain ⟨n, ⟨hw, hu⟩, hd, hv⟩ := h
  obtain ⟨n', ⟨_, hu'⟩, _, hv'⟩ := h'
  have hn : n = n' := by
    split at hu
    · next h0 => rw [if_pos h0] at hu'; rw [hu, hu']
    · next h0 =>
      rw [if_neg h0] at hu'
      have := hu.1.symm.trans hu'.1
      exact Option.some.inj this
  subst hn
  unfold DataSays at hv hv'
  by_cases h0 : e.data = []
  · rw [if_pos h0] at hv hv'; rw [hv, hv']
  rw [if_neg h0] at hv hv'
  by_cases hb : fs.isBinary
  · rw [if_pos hb] at hv hv'
    by_cases hc : fs.inNibbles ∧ n % 2 = 1
    · rw [if_pos hc] at hv hv'
      by_cases hl : firstPad fs.leftPad = (hexText e.data).head?
      · rw [if_pos hl] at hv hv'
        obtain ⟨c, hc⟩ := hv
        obtain ⟨c', hc'⟩ := hv'
        rw [hc] at hc'; simp at hc'; exact hc'.2
      · rw [if_neg hl] at hv hv'
        obtain ⟨c, _, hc⟩ := hv
        obtain ⟨c', _, hc'⟩ := hv'
        rw [hc] at hc'
        exact (List.append_inj' hc' rfl).1
    · rw [if_neg hc] at hv hv'; rw [hv, hv']
  · rw [if_neg hb] at hv hv'
    obtain ⟨c, hc, hd⟩ := hv
    obtain ⟨c', hc', hd'⟩ := hv'
    rw [hc] at hc'; cases hc'
    rw [hd] at hd'; exact Option.some.inj hd'

/-- What `EntrySays` says for the pad nibble of field 3: `0ABC` on the wire, three nibbles, is
`ABC` and nothing else. -/
example (v : Str) (h : EntrySays cpython demoSpec py"3" ⟨[0x03], [0x0A, 0xBC]⟩ v) : v = py"ABC" := by
  obtain ⟨w, hw, hs⟩ := (decode_entries demo_decode).2.2 py"3" ⟨[0x03], [0x0A, 0xBC]⟩ (by decide)
  have : w = py"ABC" := by
    have h3 : demoDec.get? py"3" = some py"ABC" := by decide
    rw [h3] at hw; exact (Option.some.inj hw).symm
  rw [← this]
  exact EntrySays.unique rfl h hs

/-- **C22**: declared lengths are enforced.  For every field other than type and bitmaps the prefix
is exactly `len_type` bytes, the count it declares (`max_len` for fixed fields) is at most
`max_len`, the data is exactly that many units, and binary and BCD counts are not negative. -/
theorem decode_lengths {env : PyEnv} {spec : Spec} {s : Bytes} {dec : DecDoc} {enc : EncDoc}
    (h : decode env spec s = .ok (dec, enc)) {k : Str} {e : EncEntry} (hk : enc.get? k = some e)
    (ht : k ≠ py"t") (hp : k ≠ py"p") (h1 : k ≠ py"1") :
    ∃ fs n, spec.get? k = some fs ∧ e.len.length = fs.lenType ∧ (e.data.length : Int) = bytesFor fs n ∧ n ≤ fs.maxLen ∧
      (fs.lenType = 0 → n = fs.maxLen) ∧ (fs.lenType ≠ 0 → declared env fs e.len = some n) ∧
      (fs.lenType ≠ 0 → fs.lenEnc = py"b" ∨ fs.lenEnc = py"bcd" → 0 ≤ n) := by
  obtain ⟨v, _, fs, hs, hv⟩ := (decode_entries h).2.2 k e hk
  rw [if_neg ht, if_neg (by simp [hp, h1])] at hv
  obtain ⟨n, ⟨hw, hu⟩, hd, _⟩ := hv
  refine ⟨fs, n, hs, hw, hd, ?_⟩
  by_cases h0 : fs.lenType = 0
  · rw [if_pos h0] at hu
    exact ⟨by omega, fun _ => hu, fun h => absurd h0 h, fun h => absurd h0 h⟩
  · rw [if_neg h0] at hu
    exact ⟨hu.2, fun h => absurd h h0, fun _ => hu.1, fun _ he => declared_nonneg he hu.1⟩

example : ∃ fs n, demoSpec.get? py"70" = some fs ∧ [0xF0, 0xF3].length = fs.lenType ∧
    ((([0xA7, 0xA8, 0xA9] : Bytes).length : Nat) : Int) = bytesFor fs n ∧ n ≤ fs.maxLen ∧ (fs.lenType = 0 → n = fs.maxLen) ∧
    (fs.lenType ≠ 0 → declared cpython fs [0xF0, 0xF3] = some n) ∧
    (fs.lenType ≠ 0 → fs.lenEnc = py"b" ∨ fs.lenEnc = py"bcd" → 0 ≤ n) :=
  decode_lengths demo_decode (k := py"70") (e := ⟨[0xF0, 0xF3], [0xA7, 0xA8, 0xA9]⟩) (by decide) (by decide) (by decide) (by decide)

/-- **C16**, decode half: the type is exactly 2 bytes (binary) or 4 bytes (text), without prefix. -/
theorem decode_type {env : PyEnv} {spec : Spec} {s : Bytes} {dec : DecDoc} {enc : EncDoc}
    (h : decode env spec s = .ok (dec, enc)) :
    ∃ fs D v, spec.get? py"t" = some fs ∧ enc.get? py"t" = some ⟨[], D⟩ ∧ D.length = typeBytes fs ∧
      dec.get? py"t" = some v ∧ PlainSays env fs D v := by
  have hk : py"t" ∈ enc.keys := by
    obtain ⟨items, ⟨hdr, ty, bms, flds, F, rfl, _, ht, _, _⟩, rfl, rfl, rfl⟩ := decode_ok_iff.1 h
    rw [keys_encOf]; simp [ht.choose_spec.2.1]
  obtain ⟨⟨L, D⟩, he⟩ := Dict.mem_keys_iff.1 hk
  obtain ⟨v, hv, fs, hs, h1⟩ := (decode_entries h).2.2 _ _ he
  rw [if_pos rfl] at h1
  obtain ⟨rfl, h2, h3⟩ := h1
  exact ⟨fs, D, v, hs, he, h2, hv, h3⟩

example : ∃ fs D v, demoSpec.get? py"t" = some fs ∧ demoEnc.get? py"t" = some ⟨[], D⟩ ∧ D.length = typeBytes fs ∧
    demoDec.get? py"t" = some v ∧ PlainSays cpython fs D v := decode_type demo_decode

/-- **C30**: order of keys in both dicts: header (exactly when the specification has one), type,
primary bitmap, secondary bitmap if there is one, then fields in strictly ascending order. -/
theorem decode_keys {env : PyEnv} {spec : Spec} {s : Bytes} {dec : DecDoc} {enc : EncDoc}
    (h : decode env spec s = .ok (dec, enc)) :
    ∃ F : List Nat, F.Pairwise (· < ·) ∧ (∀ i ∈ F, 2 ≤ i ∧ i ≠ 65) ∧ dec.keys = enc.keys ∧
      ∃ H B, ((hasHeader spec ∧ H = [py"h"]) ∨ (¬ hasHeader spec ∧ H = [])) ∧ (B = [py"p"] ∨ B = [py"p", py"1"]) ∧
        enc.keys = H ++ [py"t"] ++ B ++ F.map natStr := by
  obtain ⟨items, ⟨hdr, ty, bms, flds, F, rfl, hh, ht, hb, hf⟩, rfl, rfl, rfl⟩ := decode_ok_iff.1 h
  obtain ⟨hF, h1, h65, h0⟩ := hb.fields
  refine ⟨sortedNat F, sortedNat_lt hF, ?_, by simp, keysOf hdr, keysOf bms, ?_, hb.keys, ?_⟩
  · intro i hi
    simp only [mem_sortedNat] at hi
    have a0 : i ≠ 0 := by rintro rfl; exact h0 hi
    have a1 : i ≠ 1 := by rintro rfl; exact h1 hi
    have a2 : i ≠ 65 := by rintro rfl; exact h65 hi
    omega
  · obtain ⟨fs, hs, hh⟩ := hh
    split at hh
    · next hm => right; subst hh; exact ⟨by rintro ⟨fs', hs', hp⟩; rw [hs] at hs'; cases hs'; omega, rfl⟩
    · next hm => left; obtain ⟨n, it, rfl, hk, _⟩ := hh; exact ⟨⟨fs, hs, by omega⟩, by simp [hk]⟩
  · rw [keys_encOf]; simp [hf.keys, ht.choose_spec.2.1]

example : ∃ F : List Nat, F.Pairwise (· < ·) ∧ (∀ i ∈ F, 2 ≤ i ∧ i ≠ 65) ∧ demoDec.keys = demoEnc.keys ∧
    ∃ H B, ((hasHeader demoSpec ∧ H = [py"h"]) ∨ (¬ hasHeader demoSpec ∧ H = [])) ∧
      (B = [py"p"] ∨ B = [py"p", py"1"]) ∧ demoEnc.keys = H ++ [py"t"] ++ B ++ F.map natStr :=
  decode_keys demo_decode

/-- **C17**, decode half: a header is read and stored, first, exactly when the specification has
one; without one the message starts with the type. -/
theorem decode_header {env : PyEnv} {spec : Spec} {s : Bytes} {dec : DecDoc} {enc : EncDoc}
    (h : decode env spec s = .ok (dec, enc)) :
    (hasHeader spec → enc.keys.head? = some py"h" ∧ py"h" ∈ dec.keys) ∧
    (¬ hasHeader spec → py"h" ∉ enc.keys ∧ py"h" ∉ dec.keys ∧ enc.keys.head? = some py"t") := by
  obtain ⟨F, _, _, hk, H, B, hH, hB, he⟩ := decode_keys h
  rw [hk, he]
  constructor
  · intro hh
    rcases hH with ⟨_, rfl⟩ | ⟨hn, _⟩
    · simp
    · exact absurd hh hn
  · intro hn
    rcases hH with ⟨hh, _⟩ | ⟨_, rfl⟩
    · exact absurd hh hn
    · have hf : py"h" ∉ F.map natStr := by
        intro hm
        obtain ⟨i, _, hi⟩ := List.mem_map.1 hm
        exact natStr_ne_letter (by decide) hi
      rcases hB with rfl | rfl <;> simp [-List.mem_map, hf]

example : demoEnc.keys.head? = some py"h" ∧ py"h" ∈ demoDec.keys :=
  (decode_header demo_decode).1 ⟨_, rfl, by decide⟩

/-! ## Bitmaps -/

/-- Bitmap specifications whose text codec (if any) reads hex digits from one byte each. -/
def HexBitmaps (env : PyEnv) (spec : Spec) : Prop :=
  ∀ k fs, (k = py"p" ∨ k = py"1") → spec.get? k = some fs → fs.isBinary ∨
    ∀ c, env.codec fs.dataEnc = some c → c.ReadsHexDigits

/-- Bitmap specifications whose text codec (if any) never yields more characters than bytes. -/
def BoundedBitmaps (env : PyEnv) (spec : Spec) : Prop :=
  ∀ k fs, (k = py"p" ∨ k = py"1") → spec.get? k = some fs → fs.isBinary ∨
    ∀ c, env.codec fs.dataEnc = some c → c.Bounded

theorem hexVal?_isHexDigit {c : Nat} (h : (hexVal? c).isSome) : isHexDigit c = true := by
  unfold hexVal? at h
  simp only [isHexDigit]
  split at h
  · simp; omega
  · split at h
    · simp; omega
    · split at h
      · simp; omega
      · simp at h

theorem BitmapReads.plain {env : PyEnv} {fs : FieldSpec} {D bm : Bytes} {t : Str} (h : BitmapReads env fs D t bm) :
    (fs.isBinary ∧ t = hexText D ∧ bm = D ∧ D.length = 8) ∨
    (¬ fs.isBinary ∧ D.length = 16 ∧ fromHex t = some bm ∧ ∃ c, env.codec fs.dataEnc = some c ∧ c.decode D = some t) := by
  have hw := h.width
  have hd := h.data
  have hb := h.bits
  unfold bitmapWidth at hw
  unfold plainValue at hd
  unfold bitmapBits at hb
  by_cases hbin : fs.dataEnc = py"b"
  · rw [if_pos hbin] at hw hd hb
    left
    exact ⟨hbin, by rw [← hexText_eq]; simpa using hd.symm, by simpa using hb.symm, hw⟩
  · rw [if_neg hbin] at hw hd hb
    right
    refine ⟨hbin, hw, hb, ?_⟩
    rw [bytesDecode, if_neg (by rintro rfl; simp at hw)] at hd
    cases he : env.codec fs.dataEnc with
    | none => simp [he] at hd
    | some c =>
      simp only [he] at hd
      cases hc : c.decode D with
      | none => simp [hc] at hd
      | some t' => simp only [hc, Except.ok.injEq] at hd; exact ⟨c, rfl, by rw [hc, hd]⟩

/-- A bitmap without white space: 16 hex digits, 8 bytes, same bits. -/
theorem BitmapReads.hex {env : PyEnv} {fs : FieldSpec} {D bm : Bytes} {t : Str} (h : BitmapReads env fs D t bm)
    (hc : fs.isBinary ∨ ∀ c, env.codec fs.dataEnc = some c → c.ReadsHexDigits)
    (hsp : ∀ c ∈ t, c ∉ [9, 10, 11, 12, 13, 32]) :
    t.length = 16 ∧ bm.length = 8 ∧ ∀ i, bitOn bm i = hexBit t i := by
  rcases h.plain with ⟨_, ht, rfl, hl⟩ | ⟨hb, hl, hf, c, he, hd⟩
  · have : a2bHex t = some bm := by rw [ht, ← hexText_eq]; exact a2bHex_bytesHex_upper bm
    exact ⟨by rw [ht]; simp [hl], hl, fun i => bitOn_eq_hexBit this⟩
  · have hns : ∀ c ∈ t, isAsciiSpace c = false := by
      intro c hcm
      have := hsp c hcm
      simp at this
      simp [isAsciiSpace]; omega
    have ha : a2bHex t = some bm := by rw [← fromHex_eq_a2bHex hns]; exact hf
    have hlen : t.length = D.length := by
      rcases hc with hc | hc
      · exact absurd hc hb
      · exact hc c he D t hd (fun x hx => hexVal?_isHexDigit (a2bHex_hex ha x hx))
    have := a2bHex_length ha
    exact ⟨by omega, by omega, fun i => bitOn_eq_hexBit ha⟩

theorem BitmapReads.bounded {env : PyEnv} {fs : FieldSpec} {D bm : Bytes} {t : Str} (h : BitmapReads env fs D t bm)
    (hc : fs.isBinary ∨ ∀ c, env.codec fs.dataEnc = some c → c.Bounded) : bm.length ≤ 8 := by
  rcases h.plain with ⟨_, _, rfl, hl⟩ | ⟨hb, hl, hf, c, he, hd⟩
  · omega
  · rcases hc with hc | hc
    · exact absurd hc hb
    · have := hc c he D t hd
      have := fromHex_length_le hf
      omega

theorem mem_bitmapFields_bit {off i : Nat} {bm : Bytes} (hi : 1 ≤ i) : off + i ∈ bitmapFields off bm ↔ bitOn bm i = true := by
  rw [mem_bitmapFields]
  constructor
  · rintro ⟨j, hj, he, hb⟩
    have : i = j := by omega
    rw [this]; exact hb
  · intro h; exact ⟨i, hi, rfl, h⟩

/-- Fields announced by bitmaps of at most 8 bytes each. -/
theorem BitmapsRead.le192 {env : PyEnv} {spec : Spec} {bms : List Item} {F : List Nat} (h : BitmapsRead env spec bms F)
    (hb : BoundedBitmaps env spec) : ∀ i ∈ F, i ≤ 192 := by
  have lim : ∀ {off i : Nat} {bm : Bytes}, bm.length ≤ 8 → i ∈ bitmapFields off bm → i ≤ off + 64 := by
    intro off i bm hl hi
    obtain ⟨j, hj, rfl, hb⟩ := mem_bitmapFields.1 hi
    have := bitOn_le hj hb
    omega
  cases h with
  | primary hs hr _ _ =>
    intro i hi
    have := lim (hr.bounded (hb _ _ (Or.inl rfl) hs)) (mem_fields0.1 hi)
    omega
  | secondary hs hr _ hs1 hr1 _ =>
    intro i hi
    rcases (mem_fields1.1 hi).1 with hi | hi
    · have := lim (hr.bounded (hb _ _ (Or.inl rfl) hs)) (mem_fields0.1 hi); omega
    · have := lim (hr1.bounded (hb _ _ (Or.inr rfl) hs1)) hi; omega
  | tertiary hs hr _ hs1 hr1 _ hr2 =>
    intro i hi
    rcases (mem_fields2.1 hi).1 with hi | hi
    · rcases (mem_fields1.1 hi).1 with hi | hi
      · have := lim (hr.bounded (hb _ _ (Or.inl rfl) hs)) (mem_fields0.1 hi); omega
      · have := lim (hr1.bounded (hb _ _ (Or.inr rfl) hs1)) hi; omega
    · have := lim (hr2.bounded (hb _ _ (Or.inr rfl) hs1)) hi; omega
  | oddPrimary hs hr _ _ hr2 =>
    intro i hi
    rcases (mem_fields2.1 hi).1 with hi | hi
    · have := lim (hr.bounded (hb _ _ (Or.inl rfl) hs)) (mem_fields0.1 hi); omega
    · have := lim (hr2.bounded (hb _ _ (Or.inl rfl) hs)) hi; omega

/-- **C24**: if the specification defines `h`, `t`, `p`, `1` and every field 2..192 but 65, decode
raises nothing but `DecodeError`. -/
theorem decode_only_decodeError {env : PyEnv} {spec : Spec} (hb : BoundedBitmaps env spec)
    (hk : ∀ k ∈ [py"h", py"t", py"p", py"1"], ∃ fs, spec.get? k = some fs)
    (hf : ∀ i, 2 ≤ i → i ≤ 192 → i ≠ 65 → ∃ fs, spec.get? (natStr i) = some fs) (s : Bytes) :
    (∃ r, decode env spec s = .ok r) ∨ ∃ e, decode env spec s = .error (.decodeError e) := by
  cases hd : decode env spec s with
  | ok r => exact Or.inl ⟨r, rfl⟩
  | error x =>
    right
    rcases decode_error_cases hd with ⟨_, _, _, _, _, _, hx⟩ | ⟨_, _, _, _, _, _, _, _, _, _, hx⟩ | ⟨k, hkk, hn, hx⟩
    · exact ⟨_, by rw [hx]⟩
    · exact ⟨_, by rw [hx]⟩
    · exfalso
      rcases hkk with hm | ⟨bms, F, i, hbr, hi, rfl⟩
      · obtain ⟨fs, hs⟩ := hk k hm
        rw [hs] at hn; cases hn
      · obtain ⟨_, h1, h65, h0⟩ := hbr.fields
        have := hbr.le192 hb i hi
        have a0 : i ≠ 0 := by rintro rfl; exact h0 hi
        have a1 : i ≠ 1 := by rintro rfl; exact h1 hi
        have a2 : i ≠ 65 := by rintro rfl; exact h65 hi
        obtain ⟨fs, hs⟩ := hf i (by omega) this a2
        rw [hs] at hn; cases hn

/-- **C24**, general form: without any assumption, the only other exception is `KeyError` for a key
the specification lacks. -/
theorem decode_exceptions {env : PyEnv} {spec : Spec} {s : Bytes} {x : DecodeExc} (h : decode env spec s = .error x) :
    (∃ e, x = .decodeError e) ∨
    ∃ k, x = .keyError k ∧ spec.get? k = none ∧ (k ∈ [py"h", py"t", py"p", py"1"] ∨ ∃ i, 2 ≤ i ∧ i ≠ 65 ∧ k = natStr i) := by
  rcases decode_error_cases h with ⟨_, _, _, _, _, _, hx⟩ | ⟨_, _, _, _, _, _, _, _, _, _, hx⟩ | ⟨k, hkk, hn, hx⟩
  · exact Or.inl ⟨_, hx⟩
  · exact Or.inl ⟨_, hx⟩
  · refine Or.inr ⟨k, hx, hn, ?_⟩
    rcases hkk with hm | ⟨bms, F, i, hbr, hi, rfl⟩
    · exact Or.inl hm
    · obtain ⟨_, h1, h65, h0⟩ := hbr.fields
      have a0 : i ≠ 0 := by rintro rfl; exact h0 hi
      have a1 : i ≠ 1 := by rintro rfl; exact h1 hi
      exact Or.inr ⟨i, by omega, by rintro rfl; exact h65 hi, rfl⟩

/-- A specification that lacks a field really does let a bare `KeyError` out: here field 64. -/
example : decode cpython demoSpec ([0x48, 0x44, 0x52, 2, 0, 0, 0, 0, 0, 0, 0, 0, 1] : Bytes) = .error (.keyError py"64") := by
  decide +kernel

/-- A complete specification, for `decode_only_decodeError`: one definition for all keys. -/
def fullSpec : Spec :=
  ([py"h", py"t", py"p", py"1"] ++ (List.range 193).map natStr).map fun k =>
    (k, { dataEnc := py"ascii", lenEnc := py"ascii", lenType := 2, maxLen := 5 })

theorem get?_map_const {κ ν : Type} [DecidableEq κ] {k : κ} {v : ν} : ∀ {ks : List κ}, k ∈ ks →
    Dict.get? (ks.map fun k => (k, v)) k = some v
  | [], h => by simp at h
  | a :: t, h => by
    simp only [List.map_cons, Dict.get?]
    split
    · rfl
    · next ha =>
      rcases List.mem_cons.1 h with rfl | h
      · exact absurd rfl ha
      · exact get?_map_const h

theorem get?_map_const_inv {κ ν : Type} [DecidableEq κ] {k : κ} {v w : ν} {ks : List κ}
    (h : Dict.get? (ks.map fun k => (k, v)) k = some w) : w = v := by
  have := Dict.mem_of_get? h
  obtain ⟨_, _, hx⟩ := List.mem_map.1 this
  cases hx; rfl

theorem fullSpec_get? {k : Str} {fs : FieldSpec} (h : fullSpec.get? k = some fs) : fs.dataEnc = py"ascii" := by
  rw [get?_map_const_inv h]

/-- The conclusion of `decode_only_decodeError` for a complete specification and CPython's codecs. -/
example (s : Bytes) : (∃ r, decode cpython fullSpec s = .ok r) ∨ ∃ e, decode cpython fullSpec s = .error (.decodeError e) := by
  refine decode_only_decodeError ?_ ?_ ?_ s
  · intro k fs _ hs
    right
    rw [fullSpec_get? hs]
    intro c hc
    have : c = asciiCodec := by simpa [cpython] using hc.symm
    rw [this]; exact ascii_lawful.bounded
  · intro k hk
    exact ⟨_, get?_map_const (List.mem_append_left _ hk)⟩
  · intro i _ h192 _
    exact ⟨_, get?_map_const (List.mem_append_right _ (List.mem_map.2 ⟨i, by simp; omega, rfl⟩))⟩

/-- **C09**: when decode succeeds and the received bitmaps hold no white space, the fields present
are exactly the bits set in the received bitmaps. -/
theorem decode_fields_are_bits {env : PyEnv} {spec : Spec} {s : Bytes} {dec : DecDoc} {enc : EncDoc}
    (h : decode env spec s = .ok (dec, enc)) (hb : HexBitmaps env spec)
    (hsp : ∀ c ∈ bitmapText dec, c ∉ [9, 10, 11, 12, 13, 32]) :
    (∀ i, 2 ≤ i → i ≤ 192 → i ≠ 65 → (natStr i ∈ dec.keys ↔ hexBit (bitmapText dec) i = true)) ∧
    (py"1" ∈ dec.keys ↔ hexBit (bitmapText dec) 1 = true) ∧ py"65" ∉ dec.keys ∧
    (bitmapText dec).length =
      (if hexBit (bitmapText dec) 1 then if hexBit (bitmapText dec) 65 then 48 else 32 else 16) ∧
    ∀ k ∈ dec.keys, k ∈ [py"h", py"t", py"p", py"1"] ∨ ∃ i, 2 ≤ i ∧ i ≤ 192 ∧ i ≠ 65 ∧ k = natStr i := by
  obtain ⟨items, ⟨hdr, ty, bms, flds, F, rfl, hh, ht, hbr, hf⟩, rfl, rfl, rfl⟩ := decode_ok_iff.1 h
  obtain ⟨hF, h1F, h65F, h0F⟩ := hbr.fields
  have hnd := nodup_msg_keys (F := sortedNat F) hh.keys hbr.keys (sortedNat_nodup hF) (by simpa using h1F)
  have hty : ty.key = py"t" := ht.choose_spec.2.1
  -- look-ups of bitmaps
  have hget : ∀ k, (k = py"p" ∨ k = py"1") → (decOf (hdr ++ ty :: bms ++ flds)).get? k = (decOf bms).get? k := by
    intro k hk
    have e : decOf (hdr ++ ty :: bms ++ flds) = decOf (hdr ++ [ty]) ++ (decOf bms ++ decOf flds) := by simp [decOf]
    rw [e, Dict.get?_append_right, Dict.get?_append]
    · have : (decOf flds).get? k = none := by
        rw [Dict.get?_eq_none, keys_decOf, hf.keys]
        intro hm
        obtain ⟨i, hi, hik⟩ := List.mem_map.1 hm
        rcases hk with rfl | rfl
        · exact natStr_ne_letter (by decide) hik
        · refine natStr_ne_one ?_ hik
          rintro rfl
          exact h1F (by simpa using hi)
      rw [this]; cases (decOf bms).get? k <;> rfl
    · rw [keys_decOf]
      simp only [keysOf_append, keysOf_cons, hty, keysOf_nil]
      rcases hh.keys with hk' | hk' <;> rw [hk'] <;> rcases hk with rfl | rfl <;> simp
  have hbt : bitmapText (decOf (hdr ++ ty :: bms ++ flds)) = bitmapText (decOf bms) := by
    unfold bitmapText
    rw [hget _ (Or.inl rfl), hget _ (Or.inr rfl)]
  have hkeys : (decOf (hdr ++ ty :: bms ++ flds)).keys = keysOf hdr ++ py"t" :: keysOf bms ++ (sortedNat F).map natStr := by
    rw [keys_decOf]; simp [hty, hf.keys]
  have hmemF : ∀ i, i ≠ 1 → (natStr i ∈ (decOf (hdr ++ ty :: bms ++ flds)).keys ↔ i ∈ F) := by
    intro i hi
    rw [hkeys]
    have a1 : natStr i ∉ keysOf hdr := by
      rcases hh.keys with hk' | hk' <;> rw [hk'] <;> simp
      exact natStr_ne_letter (by decide)
    have a2 : natStr i ≠ py"t" := natStr_ne_letter (by decide)
    have a3 : natStr i ∉ keysOf bms := by
      have : natStr i ≠ py"p" := natStr_ne_letter (by decide)
      have := natStr_ne_one hi
      rcases hbr.keys with hk' | hk' <;> rw [hk'] <;> simp [*]
    simp only [List.append_assoc, List.cons_append, List.mem_append, List.mem_cons, a1, a2, a3, false_or, List.mem_map,
      mem_sortedNat, natStr_inj, exists_eq_right]
  have hmem1 : py"1" ∈ (decOf (hdr ++ ty :: bms ++ flds)).keys ↔ py"1" ∈ keysOf bms := by
    rw [hkeys]
    have a1 : py"1" ∉ keysOf hdr := by rcases hh.keys with hk' | hk' <;> rw [hk'] <;> simp
    have a3 : py"1" ∉ (sortedNat F).map natStr := by
      intro hm
      obtain ⟨i, hi, hik⟩ := List.mem_map.1 hm
      exact natStr_ne_one (by rintro rfl; exact h1F (by simpa using hi)) hik
    simp only [List.append_assoc, List.cons_append, List.mem_append, List.mem_cons, a1, a3, false_or, or_false]
    simp
  have h65 : py"65" ∉ (decOf (hdr ++ ty :: bms ++ flds)).keys := by
    have e : py"65" = natStr 65 := by decide
    rw [e, hmemF 65 (by decide)]
    exact h65F
  rw [hbt] at hsp ⊢
  rw [hmem1]
  -- reduction to membership in `F`
  suffices hs : (∀ i, 2 ≤ i → i ≤ 192 → i ≠ 65 → (i ∈ F ↔ hexBit (bitmapText (decOf bms)) i = true)) ∧
      (py"1" ∈ keysOf bms ↔ hexBit (bitmapText (decOf bms)) 1 = true) ∧
      (bitmapText (decOf bms)).length = (if hexBit (bitmapText (decOf bms)) 1 then
        if hexBit (bitmapText (decOf bms)) 65 then 48 else 32 else 16) ∧ ∀ i ∈ F, i ≤ 192 by
    obtain ⟨s1, s2, s3, s4⟩ := hs
    refine ⟨fun i h2 h3 h4 => by rw [hmemF i (by omega)]; exact s1 i h2 h3 h4, s2, h65, s3, ?_⟩
    intro k hk
    rw [hkeys] at hk
    simp only [List.append_assoc, List.cons_append, List.mem_append, List.mem_cons] at hk
    rcases hk with hk | rfl | hk | hk
    · left; rcases hh.keys with hk' | hk' <;> rw [hk'] at hk <;> simp at hk; simp [hk]
    · left; simp
    · left; rcases hbr.keys with hk' | hk' <;> rw [hk'] at hk <;> simp at hk
      · simp [hk]
      · rcases hk with rfl | rfl <;> simp
    · right
      obtain ⟨i, hi, rfl⟩ := List.mem_map.1 hk
      have hi : i ∈ F := by simpa using hi
      have a0 : i ≠ 0 := by rintro rfl; exact h0F hi
      have a1 : i ≠ 1 := by rintro rfl; exact h1F hi
      exact ⟨i, by omega, s4 i hi, by rintro rfl; exact h65F hi, rfl⟩
  have lim : ∀ {off i : Nat} {bm : Bytes}, bm.length = 8 → i ∈ bitmapFields off bm → off < i ∧ i ≤ off + 64 := by
    intro off i bm hl hi
    obtain ⟨j, hj, rfl, hb⟩ := mem_bitmapFields.1 hi
    have := bitOn_le hj hb
    omega
  have bit : ∀ {off i : Nat} {bm : Bytes} {t : Str}, bm.length = 8 → t.length = 16 → (∀ i, bitOn bm i = hexBit t i) → off < i →
      (i ∈ bitmapFields off bm ↔ hexBit t (i - off) = true) := by
    intro off i bm t hl ht hbits hi
    have := mem_bitmapFields_bit (off := off) (i := i - off) (bm := bm) (by omega)
    rw [show off + (i - off) = i by omega] at this
    rw [this, hbits]
  have bit0 : ∀ {i : Nat} {bm : Bytes} {t : Str}, bm.length = 8 → t.length = 16 → (∀ i, bitOn bm i = hexBit t i) → 0 < i →
      (i ∈ fields0 bm ↔ hexBit t i = true) := by
    intro i bm t hl ht hbits hi
    rw [mem_fields0, bit hl ht hbits hi]; simp
  have spl : ∀ {a b : Str}, (∀ c ∈ a ++ b, c ∉ [9, 10, 11, 12, 13, 32]) → (∀ c ∈ a, c ∉ [9, 10, 11, 12, 13, 32]) ∧
      ∀ c ∈ b, c ∉ [9, 10, 11, 12, 13, 32] := by
    intro a b h
    exact ⟨fun c hc => h c (by simp [hc]), fun c hc => h c (by simp [hc])⟩
  have right : ∀ {a b : Str} {n i : Nat}, a.length = n → 4 * n < i → hexBit (a ++ b) i = hexBit b (i - 4 * n) := by
    intro a b n i ha hi
    have := hexBit_append_right (a := a) (b := b) (i := i - 4 * n) (by omega)
    rw [ha, show 4 * n + (i - 4 * n) = i by omega] at this
    exact this
  cases hbr with
  | @primary fs D t bm hs hr h1 h65' =>
    have e : bitmapText (decOf [⟨py"p", [], D, t⟩]) = t := by simp [bitmapText, decOf, Dict.get?]
    rw [e] at hsp ⊢
    obtain ⟨hl, hl8, hbits⟩ := hr.hex (hb _ _ (Or.inl rfl) hs) hsp
    have b1 : hexBit t 1 = false := by
      rw [← Bool.not_eq_true, ← bit0 hl8 hl hbits (by omega)]; exact h1
    refine ⟨?_, by simp [b1], by simp [b1, hl], ?_⟩
    · intro i hi _ _
      rw [mem_fields0, bit hl8 hl hbits (by omega)]; simp
    · intro i hi
      have := lim hl8 (mem_fields0.1 hi); omega
  | @secondary fs fs1 D D1 t t1 bm bm1 hs hr h1 hs1 hr1 h65' =>
    have e : bitmapText (decOf [⟨py"p", [], D, t⟩, ⟨py"1", [], D1, t1⟩]) = t ++ t1 := by
      simp [bitmapText, decOf, Dict.get?]
    rw [e] at hsp ⊢
    obtain ⟨hl, hl8, hbits⟩ := hr.hex (hb _ _ (Or.inl rfl) hs) (spl hsp).1
    obtain ⟨hl1, hl81, hbits1⟩ := hr1.hex (hb _ _ (Or.inr rfl) hs1) (spl hsp).2
    have key : ∀ i, 2 ≤ i → i ≤ 192 → ((i ∈ fields0 bm ∨ i ∈ bitmapFields 64 bm1) ↔ hexBit (t ++ t1) i = true) := by
      intro i hi _
      by_cases h64 : i ≤ 64
      · rw [hexBit_append_left (by omega) (by omega), mem_fields0, bit hl8 hl hbits (by omega)]
        have : i ∉ bitmapFields 64 bm1 := fun hm => by have := lim hl81 hm; omega
        simp [this]
      · rw [right hl (by omega), ← bit hl81 hl1 hbits1 (off := 64) (by omega)]
        have : i ∉ fields0 bm := fun hm => by have := lim hl8 (mem_fields0.1 hm); omega
        simp [this]
    have b1 : hexBit (t ++ t1) 1 = true := by
      rw [hexBit_append_left (by omega) (by omega), ← bit0 hl8 hl hbits (by omega)]; exact h1
    have b65 : hexBit (t ++ t1) 65 = false := by
      rw [← Bool.not_eq_true, ← key 65 (by omega) (by omega)]
      rintro hm
      exact h65' (mem_fields1.2 ⟨hm, by omega⟩)
    refine ⟨?_, by simp [b1], by simp [b1, b65, hl, hl1], ?_⟩
    · intro i hi h192 _
      rw [mem_fields1, ← key i hi h192]
      constructor
      · exact fun h => h.1
      · exact fun h => ⟨h, by omega⟩
    · intro i hi
      rcases (mem_fields1.1 hi).1 with hm | hm
      · have := lim hl8 (mem_fields0.1 hm); omega
      · have := lim hl81 hm; omega
  | @tertiary fs fs1 D D1 D2 t t1 t2 bm bm1 bm2 hs hr h1 hs1 hr1 h65' hr2 =>
    have e : bitmapText (decOf [⟨py"p", [], D, t⟩, ⟨py"1", [], D1 ++ D2, t1 ++ t2⟩]) = t ++ (t1 ++ t2) := by
      simp [bitmapText, decOf, Dict.get?]
    rw [e] at hsp ⊢
    obtain ⟨hl, hl8, hbits⟩ := hr.hex (hb _ _ (Or.inl rfl) hs) (spl hsp).1
    obtain ⟨hl1, hl81, hbits1⟩ := hr1.hex (hb _ _ (Or.inr rfl) hs1) (spl (spl hsp).2).1
    obtain ⟨hl2, hl82, hbits2⟩ := hr2.hex (hb _ _ (Or.inr rfl) hs1) (spl (spl hsp).2).2
    have key : ∀ i, 2 ≤ i → i ≤ 192 →
        ((i ∈ fields0 bm ∨ i ∈ bitmapFields 64 bm1) ∨ i ∈ bitmapFields 128 bm2 ↔ hexBit (t ++ (t1 ++ t2)) i = true) := by
      intro i hi _
      have n0 : 64 < i → i ∉ fields0 bm := fun h hm => by have := lim hl8 (mem_fields0.1 hm); omega
      have n1 : (i ≤ 64 ∨ 128 < i) → i ∉ bitmapFields 64 bm1 := fun h hm => by have := lim hl81 hm; omega
      have n2 : i ≤ 128 → i ∉ bitmapFields 128 bm2 := fun h hm => by have := lim hl82 hm; omega
      by_cases h64 : i ≤ 64
      · rw [hexBit_append_left (by omega) (by omega), ← bit0 hl8 hl hbits (by omega)]
        simp [n1 (Or.inl h64), n2 (by omega)]
      · rw [right hl (by omega)]
        by_cases h128 : i ≤ 128
        · rw [hexBit_append_left (by omega) (by omega), ← bit hl81 hl1 hbits1 (off := 64) (by omega)]
          simp [n0 (by omega), n2 h128]
        · rw [right hl1 (by omega), show i - 4 * 16 - 4 * 16 = i - 128 by omega, ← bit hl82 hl2 hbits2 (off := 128) (by omega)]
          simp [n0 (by omega), n1 (by omega)]
    have b1 : hexBit (t ++ (t1 ++ t2)) 1 = true := by
      rw [hexBit_append_left (by omega) (by omega), ← bit0 hl8 hl hbits (by omega)]; exact h1
    have b65 : hexBit (t ++ (t1 ++ t2)) 65 = true := by
      rw [← key 65 (by omega) (by omega)]
      exact Or.inl (mem_fields1.1 h65').1
    refine ⟨?_, by simp [b1], by simp [b1, b65, hl, hl1, hl2], ?_⟩
    · intro i hi h192 hne
      rw [mem_fields2, mem_fields1, ← key i hi h192]
      constructor
      · rintro ⟨h | h, _⟩
        · exact Or.inl h.1
        · exact Or.inr h
      · rintro (h | h)
        · exact ⟨Or.inl ⟨h, by omega⟩, hne⟩
        · exact ⟨Or.inr h, hne⟩
    · intro i hi
      rcases (mem_fields2.1 hi).1 with hm | hm
      · rcases (mem_fields1.1 hm).1 with hm | hm
        · have := lim hl8 (mem_fields0.1 hm); omega
        · have := lim hl81 hm; omega
      · have := lim hl82 hm; omega
  | @oddPrimary fs D D2 t t2 bm bm2 hs hr h1 h65' hr2 =>
    exfalso
    have e : bitmapText (decOf [⟨py"p", [], D ++ D2, t ++ t2⟩]) = t ++ t2 := by simp [bitmapText, decOf, Dict.get?]
    rw [e] at hsp
    obtain ⟨hl, hl8, hbits⟩ := hr.hex (hb _ _ (Or.inl rfl) hs) (spl hsp).1
    have := lim hl8 (mem_fields0.1 h65')
    omega

theorem demo_hexBitmaps : HexBitmaps cpython demoSpec := by
  intro k fs hk hs
  rcases hk with rfl | rfl
  · left
    have : fs = { dataEnc := py"b", lenEnc := py"ascii", lenType := 0, maxLen := 8 } := by
      have h : demoSpec.get? py"p" = some { dataEnc := py"b", lenEnc := py"ascii", lenType := 0, maxLen := 8 } := by decide
      rw [h] at hs; exact (Option.some.inj hs).symm
    rw [this]; rfl
  · right
    have : fs.dataEnc = py"ascii" := by
      have h : demoSpec.get? py"1" = some { dataEnc := py"ascii", lenEnc := py"ascii", lenType := 0, maxLen := 16 } := by decide
      rw [h] at hs; cases hs; rfl
    rw [this]
    intro c hc
    have : c = asciiCodec := by simpa [cpython] using hc.symm
    rw [this]; exact ascii_lawful.readsHex

example : (∀ i, 2 ≤ i → i ≤ 192 → i ≠ 65 → (natStr i ∈ demoDec.keys ↔ hexBit (bitmapText demoDec) i = true)) :=
  (decode_fields_are_bits demo_decode demo_hexBitmaps (by decide)).1

/-- Why white space is excluded: Python's `bytes.fromhex` skips it, so a text bitmap of blanks is
accepted as a bitmap with no bits at all. -/
example : decode cpython fullSpec ([0x30, 0x30, 0x30, 0x31, 0x30, 0x30] ++ List.replicate 16 0x20) =
    .ok ([(py"h", []), (py"t", py"0100"), (py"p", List.replicate 16 32)],
      [(py"h", ⟨[0x30, 0x30], []⟩), (py"t", ⟨[], [0x30, 0x31, 0x30, 0x30]⟩), (py"p", ⟨[], List.replicate 16 0x20⟩)]) := by
  decide +kernel

/-- An instance of `decode_exceptions`. -/
example (s : Bytes) (x : DecodeExc) (h : decode cpython demoSpec s = .error x) :
    (∃ e, x = .decodeError e) ∨ ∃ k, x = .keyError k ∧ ∃ i, 2 ≤ i ∧ i ≠ 65 ∧ k = natStr i := by
  rcases decode_exceptions h with h | ⟨k, rfl, hn, hk | hk⟩
  · exact .inl h
  · simp only [List.mem_cons, List.not_mem_nil, or_false] at hk
    rcases hk with rfl | rfl | rfl | rfl <;> exact absurd hn (by decide)
  · exact .inr ⟨k, rfl, hk⟩

end Iso8583
