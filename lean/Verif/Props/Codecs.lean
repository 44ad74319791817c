import Verif.Model.Codecs
import Verif.Spec.Laws
/-! # C45: the common codecs are lawful -/

namespace Iso8583

theorem encodeChars_decode {f : Nat → Option UInt8} {g : UInt8 → Option Nat} (h : ∀ c b, f c = some b → g b = some c) :
    ∀ (s : Str) (b : Bytes), encodeChars f s = some b → decodeBytes g b = some s
  | [], b, e => by simp [encodeChars] at e; subst e; rfl
  | c :: t, b, e => by
    rw [encodeChars] at e
    split at e
    · next x r hx hr =>
      cases e
      simp [decodeBytes, h c x hx, encodeChars_decode h t r hr]
    · cases e

theorem decodeBytes_encode {f : Nat → Option UInt8} {g : UInt8 → Option Nat} (h : ∀ c b, g b = some c → f c = some b) :
    ∀ (b : Bytes) (s : Str), decodeBytes g b = some s → encodeChars f s = some b
  | [], s, e => by simp [decodeBytes] at e; subst e; rfl
  | x :: t, s, e => by
    rw [decodeBytes] at e
    split at e
    · next c r hx hr =>
      cases e
      simp [encodeChars, h c x hx, decodeBytes_encode h t r hr]
    · cases e

theorem encodeChars_length {f : Nat → Option UInt8} : ∀ (s : Str) (b : Bytes), encodeChars f s = some b → b.length = s.length
  | [], b, e => by simp [encodeChars] at e; subst e; rfl
  | c :: t, b, e => by
    rw [encodeChars] at e
    split at e
    · next x r hx hr => cases e; simp [encodeChars_length t r hr]
    · cases e

theorem decodeBytes_length {g : UInt8 → Option Nat} : ∀ (b : Bytes) (s : Str), decodeBytes g b = some s → s.length = b.length
  | [], b, e => by simp [decodeBytes] at e; subst e; rfl
  | c :: t, b, e => by
    rw [decodeBytes] at e
    split at e
    · next x r hx hr => cases e; simp [decodeBytes_length t r hr]
    · cases e

theorem encodeChars_isSome {f : Nat → Option UInt8} : ∀ (s : Str), (∀ c ∈ s, (f c).isSome) → ∃ b, encodeChars f s = some b
  | [], _ => ⟨[], rfl⟩
  | c :: t, h => by
    obtain ⟨r, hr⟩ := encodeChars_isSome t (fun x hx => h x (by simp [hx]))
    obtain ⟨b, hb⟩ := Option.isSome_iff_exists.1 (h c (by simp))
    exact ⟨b :: r, by simp [encodeChars, hb, hr]⟩

/-- What the theorems want of a codec. -/
structure Codec.Lawful (c : Codec) : Prop where
  roundTrips : c.RoundTrips
  writesHex : c.WritesHexDigits
  readsHex : c.ReadsHexDigits
  bounded : c.Bounded
  canonical : c.Canonical

theorem lawful_of_chars {c : Codec} {f : Nat → Option UInt8} {g : UInt8 → Option Nat}
    (hc : c = ⟨encodeChars f, decodeBytes g⟩) (h1 : ∀ c b, f c = some b → g b = some c)
    (h2 : ∀ c b, g b = some c → f c = some b) (h3 : ∀ x, isHexDigit x = true → (f x).isSome) : c.Lawful := by
  subst hc
  refine ⟨⟨encodeChars_decode h1, ?_⟩, ?_, ?_, ?_, decodeBytes_encode h2⟩
  · intro s e
    have := encodeChars_length s [] e
    exact List.length_eq_zero_iff.1 this.symm
  · intro s hs
    obtain ⟨b, hb⟩ := encodeChars_isSome (f := f) s (fun c hc => h3 c (hs c hc))
    exact ⟨b, hb, encodeChars_length s b hb⟩
  · intro b s e _
    exact decodeBytes_length b s e
  · intro b s e
    exact Nat.le_of_eq (decodeBytes_length b s e)

theorem isHexDigit_lt {x : Nat} (h : isHexDigit x = true) : x < 128 := by
  simp [isHexDigit] at h; omega

/-- **C45** (ascii). -/
theorem ascii_lawful : asciiCodec.Lawful := by
  refine lawful_of_chars rfl ?_ ?_ ?_
  · intro c b h
    split at h
    · next hc => cases h; simp; omega
    · cases h
  · intro c b h
    split at h
    · next hc => cases h; simp [hc]
    · cases h
  · intro x hx
    simp [isHexDigit_lt hx]

/-- **C45** (latin-1). -/
theorem latin1_lawful : latin1Codec.Lawful := by
  refine lawful_of_chars rfl ?_ ?_ ?_
  · intro c b h
    split at h
    · next hc => cases h; simp; omega
    · cases h
  · intro c b h
    cases h
    have := b.toNat_lt
    simp; omega
  · intro x hx
    have := isHexDigit_lt hx
    simp; omega

theorem tableIndex_get : ∀ {t : List Nat} {c i : Nat}, tableIndex t c = some i → t[i]? = some c
  | [], c, i, h => by cases h
  | x :: t, c, i, h => by
    rw [tableIndex] at h
    split at h
    · next e => cases h; simp [e]
    · cases hi : tableIndex t c with
      | none => simp [hi] at h
      | some j => simp [hi] at h; subst h; simpa using tableIndex_get hi

theorem tableIndex_of_get : ∀ {t : List Nat} {c i : Nat}, t.Nodup → t[i]? = some c → tableIndex t c = some i
  | [], c, i, _, h => by simp at h
  | x :: t, c, 0, _, h => by simp at h; simp [tableIndex, h]
  | x :: t, c, i + 1, hn, h => by
    simp at h hn
    have hm : c ∈ t := List.mem_of_getElem? h
    have : x ≠ c := by rintro rfl; exact hn.1 hm
    simp [tableIndex, this, tableIndex_of_get hn.2 h]

theorem charmap_lawful {table : List Nat} (hl : table.length ≤ 256) (hn : table.Nodup)
    (hx : ∀ x, isHexDigit x = true → x ∈ table) : (charmapCodec table).Lawful := by
  refine lawful_of_chars rfl ?_ ?_ ?_
  · intro c b h
    cases hi : tableIndex table c with
    | none => simp [hi] at h
    | some i =>
      simp [hi] at h
      subst h
      have hg := tableIndex_get hi
      have : i < table.length := (List.getElem?_eq_some_iff.1 hg).1
      rw [show (UInt8.ofNat i).toNat = i by simp; omega]
      exact hg
  · intro c b h
    rw [tableIndex_of_get hn h]
    simp
  · intro x h
    obtain ⟨i, hi⟩ := List.getElem?_of_mem (hx x h)
    rw [tableIndex_of_get hn hi]
    rfl

theorem hexDigit_mem {table : List Nat}
    (h : ∀ x ∈ [48, 49, 50, 51, 52, 53, 54, 55, 56, 57, 65, 66, 67, 68, 69, 70, 97, 98, 99, 100, 101, 102], x ∈ table) :
    ∀ x, isHexDigit x = true → x ∈ table := by
  intro x hx
  apply h
  simp [isHexDigit] at hx
  simp
  omega

set_option maxRecDepth 20000 in
/-- **C45** (cp500). -/
theorem cp500_lawful : cp500Codec.Lawful :=
  charmap_lawful (by decide) (by decide +kernel) (hexDigit_mem (by decide))

set_option maxRecDepth 20000 in
/-- **C45** (cp037). -/
theorem cp037_lawful : cp037Codec.Lawful :=
  charmap_lawful (by decide) (by decide +kernel) (hexDigit_mem (by decide))

/-! ## UTF-8 -/

theorem u8n {n : Nat} (h : n < 256) : (UInt8.ofNat n).toNat = n := by simp; omega

theorem cont?_ofNat {n : Nat} (h : n < 64) : cont? (UInt8.ofNat (0x80 + n)) = some n := by
  unfold cont?
  rw [u8n (by omega), if_pos (by omega)]
  simp

theorem utf8Decode_char {c : Nat} {b : Bytes} (h : utf8Char c = some b) (t : Bytes) :
    utf8Decode (b ++ t) = (utf8Decode t).map (c :: ·) := by
  unfold utf8Char at h
  split at h
  · cases h
    simp only [List.cons_append, List.nil_append]
    rw [utf8Decode.eq_def]; simp only
    rw [u8n (by omega), if_pos (by omega)]
  · split at h
    · cases h
      simp only [List.cons_append, List.nil_append]
      rw [utf8Decode.eq_def]; simp only
      rw [u8n (by omega), if_neg (by omega), if_neg (by omega), if_pos (by omega),
        cont?_ofNat (by omega)]
      simp only
      rw [show (0xC0 + c / 64 - 0xC0) * 64 + c % 64 = c by omega]
    · split at h
      · cases h
      · split at h
        · cases h
          simp only [List.cons_append, List.nil_append]
          rw [utf8Decode.eq_def]; simp only
          rw [u8n (by omega), if_neg (by omega), if_neg (by omega), if_neg (by omega),
            if_pos (by omega)]
          rw [cont?_ofNat (n := c / 64 % 64) (by omega), cont?_ofNat (n := c % 64) (by omega)]
          simp only
          rw [show (0xE0 + c / 4096 - 0xE0) * 4096 + c / 64 % 64 * 64 + c % 64 = c by omega, if_neg (by omega)]
        · split at h
          · cases h
            simp only [List.cons_append, List.nil_append]
            rw [utf8Decode.eq_def]; simp only
            rw [u8n (by omega), if_neg (by omega), if_neg (by omega), if_neg (by omega),
              if_neg (by omega), if_pos (by omega)]
            rw [cont?_ofNat (n := c / 4096 % 64) (by omega), cont?_ofNat (n := c / 64 % 64) (by omega),
              cont?_ofNat (n := c % 64) (by omega)]
            simp only
            rw [show (0xF0 + c / 262144 - 0xF0) * 262144 + c / 4096 % 64 * 4096 + c / 64 % 64 * 64 + c % 64 = c by omega,
              if_neg (by omega)]
          · cases h

theorem utf8_decode_encode : ∀ (s : Str) (b : Bytes), utf8Encode s = some b → utf8Decode b = some s
  | [], b, e => by simp [utf8Encode] at e; subst e; rfl
  | c :: t, b, e => by
    rw [utf8Encode] at e
    split at e
    · next x r hx hr =>
      cases e
      rw [utf8Decode_char hx, utf8_decode_encode t r hr]
      rfl
    · cases e

theorem utf8Char_ne_nil {c : Nat} {b : Bytes} (h : utf8Char c = some b) : b ≠ [] := by
  unfold utf8Char at h
  rintro rfl
  repeat' split at h
  all_goals simp at h

theorem cont?_inv {b : UInt8} {y : Nat} (h : cont? b = some y) : b = UInt8.ofNat (0x80 + y) ∧ y < 64 := by
  unfold cont? at h
  split at h
  · simp only [Option.some.injEq] at h
    subst h
    refine ⟨?_, by omega⟩
    rw [show 0x80 + (b.toNat - 0x80) = b.toNat by omega]; simp
  · cases h

/-- A successful decode starts with a well-formed character. -/
theorem utf8Decode_inv {b : Bytes} {s : Str} (h : utf8Decode b = some s) (hb : b ≠ []) :
    ∃ c x r s', utf8Char c = some x ∧ b = x ++ r ∧ s = c :: s' ∧ utf8Decode r = some s' := by
  cases b with
  | nil => exact absurd rfl hb
  | cons a t =>
    rw [utf8Decode.eq_def] at h
    simp only at h
    have ha := a.toNat_lt
    split at h
    · next h1 =>
      simp only [Option.map_eq_some_iff] at h
      obtain ⟨s', hs, rfl⟩ := h
      exact ⟨a.toNat, [a], t, s', by simp [utf8Char]; omega, rfl, rfl, hs⟩
    · split at h
      · cases h
      · split at h
        · next h1 =>
          cases t with
          | nil => cases h
          | cons b t =>
            simp only at h
            cases hy : cont? b with
            | none => simp [hy] at h
            | some y =>
              obtain ⟨rfl, hy'⟩ := cont?_inv hy
              simp only [hy, Option.map_eq_some_iff] at h
              obtain ⟨s', hs, rfl⟩ := h
              refine ⟨_, [a, UInt8.ofNat (0x80 + y)], t, s', ?_, rfl, rfl, hs⟩
              unfold utf8Char
              rw [if_neg (by omega), if_pos (by omega),
                show 0xC0 + ((a.toNat - 0xC0) * 64 + y) / 64 = a.toNat by omega,
                show ((a.toNat - 0xC0) * 64 + y) % 64 = y by omega]
              simp
        · split at h
          · next h1 =>
            match t, h with
            | [], h => cases h
            | [_], h => cases h
            | b :: c :: t, h =>
              simp only at h
              cases hy : cont? b with
              | none => simp [hy] at h
              | some y =>
                cases hz : cont? c with
                | none => simp [hy, hz] at h
                | some z =>
                  obtain ⟨rfl, hy'⟩ := cont?_inv hy
                  obtain ⟨rfl, hz'⟩ := cont?_inv hz
                  simp only [hy, hz] at h
                  split at h
                  · cases h
                  · simp only [Option.map_eq_some_iff] at h
                    obtain ⟨s', hs, rfl⟩ := h
                    refine ⟨_, [a, UInt8.ofNat (0x80 + y), UInt8.ofNat (0x80 + z)], t, s', ?_, rfl, rfl, hs⟩
                    unfold utf8Char
                    rw [if_neg (by omega), if_neg (by omega), if_neg (by omega), if_pos (by omega),
                      show 0xE0 + ((a.toNat - 0xE0) * 4096 + y * 64 + z) / 4096 = a.toNat by omega,
                      show ((a.toNat - 0xE0) * 4096 + y * 64 + z) / 64 % 64 = y by omega,
                      show ((a.toNat - 0xE0) * 4096 + y * 64 + z) % 64 = z by omega]
                    simp
          · split at h
            · next h1 =>
              match t, h with
              | [], h => cases h
              | [_], h => cases h
              | [_, _], h => cases h
              | b :: c :: d :: t, h =>
                simp only at h
                cases hy : cont? b with
                | none => simp [hy] at h
                | some y =>
                  cases hz : cont? c with
                  | none => simp [hy, hz] at h
                  | some z =>
                    cases hw : cont? d with
                    | none => simp [hy, hz, hw] at h
                    | some w =>
                      obtain ⟨rfl, hy'⟩ := cont?_inv hy
                      obtain ⟨rfl, hz'⟩ := cont?_inv hz
                      obtain ⟨rfl, hw'⟩ := cont?_inv hw
                      simp only [hy, hz, hw] at h
                      split at h
                      · cases h
                      · simp only [Option.map_eq_some_iff] at h
                        obtain ⟨s', hs, rfl⟩ := h
                        refine ⟨_, [a, UInt8.ofNat (0x80 + y), UInt8.ofNat (0x80 + z), UInt8.ofNat (0x80 + w)], t, s', ?_,
                          rfl, rfl, hs⟩
                        unfold utf8Char
                        rw [if_neg (by omega), if_neg (by omega), if_neg (by omega), if_neg (by omega), if_pos (by omega),
                          show 0xF0 + ((a.toNat - 0xF0) * 262144 + y * 4096 + z * 64 + w) / 262144 = a.toNat by omega,
                          show ((a.toNat - 0xF0) * 262144 + y * 4096 + z * 64 + w) / 4096 % 64 = y by omega,
                          show ((a.toNat - 0xF0) * 262144 + y * 4096 + z * 64 + w) / 64 % 64 = z by omega,
                          show ((a.toNat - 0xF0) * 262144 + y * 4096 + z * 64 + w) % 64 = w by omega]
                        simp
            · cases h

theorem utf8_facts : ∀ (s : Str) (b : Bytes), utf8Decode b = some s →
    utf8Encode s = some b ∧ s.length ≤ b.length ∧ ((∀ x ∈ s, x < 128) → s.length = b.length)
  | [], b, h => by
    by_cases hb : b = []
    · subst hb; simp [utf8Encode]
    · obtain ⟨c, x, r, s', _, _, hs, _⟩ := utf8Decode_inv h hb
      simp at hs
  | c :: t, b, h => by
    by_cases hb : b = []
    · subst hb; simp [utf8Decode] at h
    · obtain ⟨c', x, r, s', hx, rfl, hs, hr⟩ := utf8Decode_inv h hb
      cases hs
      obtain ⟨h1, h2, h3⟩ := utf8_facts t r hr
      have hlen := List.length_pos_iff.2 (utf8Char_ne_nil hx)
      refine ⟨by simp [utf8Encode, hx, h1], by simp; omega, ?_⟩
      intro hx'
      simp at hx'
      have : x.length = 1 := by
        unfold utf8Char at hx
        rw [if_pos (by omega)] at hx
        cases hx; rfl
      have := h3 hx'.2
      simp; omega

theorem utf8_encode_small : ∀ (s : Str), (∀ x ∈ s, x < 128) → ∃ b, utf8Encode s = some b ∧ b.length = s.length
  | [], _ => ⟨[], rfl, rfl⟩
  | c :: t, h => by
    simp at h
    obtain ⟨r, hr, hl⟩ := utf8_encode_small t h.2
    have : utf8Char c = some [UInt8.ofNat c] := by unfold utf8Char; rw [if_pos (by omega)]
    exact ⟨_, by simp [utf8Encode, this, hr]; rfl, by simp [hl]⟩

/-- **C45** (utf-8). -/
theorem utf8_lawful : utf8Codec.Lawful := by
  refine ⟨⟨utf8_decode_encode, ?_⟩, ?_, ?_, ?_, ?_⟩
  · intro s e
    have := utf8_decode_encode s [] e
    simpa [utf8Decode] using this
  · intro s hs
    exact utf8_encode_small s (fun x hx => isHexDigit_lt (hs x hx))
  · intro b s e hs
    exact (utf8_facts s b e).2.2 (fun x hx => isHexDigit_lt (hs x hx))
  · intro b s e
    exact (utf8_facts s b e).2.1
  · intro b s e
    exact (utf8_facts s b e).1

/-- **C45**: every codec of the concrete runtime is lawful. -/
theorem cpython_codecs_lawful (name : Str) (c : Codec) (h : cpython.codec name = some c) : c.Lawful := by
  simp only [cpython] at h
  repeat' split at h
  all_goals first | cases h | skip
  · exact ascii_lawful
  · exact latin1_lawful
  · exact cp500_lawful
  · exact cp037_lawful
  · exact utf8_lawful

/-- Non-vacuity: the five names are known, and the codecs differ on real text ("é€"). -/
example : (cpython.codec py"ascii").isSome ∧ (cpython.codec py"latin-1").isSome ∧ (cpython.codec py"cp500").isSome ∧
    (cpython.codec py"cp037").isSome ∧ (cpython.codec py"utf-8").isSome ∧
    asciiCodec.encode [233] = none ∧ latin1Codec.encode [233] = some [0xE9] ∧ cp500Codec.encode [233] = some [0x51] ∧
    utf8Codec.encode [233, 0x20AC] = some [0xC3, 0xA9, 0xE2, 0x82, 0xAC] ∧
    utf8Codec.decode [0xC3, 0xA9, 0xE2, 0x82, 0xAC] = some [233, 0x20AC] ∧ utf8Codec.decode [0xC0, 0x80] = none := by
  decide

end Iso8583
