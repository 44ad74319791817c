import Verif.Spec.Size
import Verif.Props.Grammar
import Verif.Props.DecodeContent
import Verif.Props.Shipped
/-!
# How long messages can be (C64)
-/

namespace Iso8583

theorem bytesFor_mono {fs : FieldSpec} {a b : Int} (h : a ≤ b) : bytesFor fs a ≤ bytesFor fs b := by
  unfold bytesFor; split <;> omega

theorem FieldRead.limit {env : PyEnv} {fs : FieldSpec} {e : EncEntry} {v : Str} (h : FieldRead env fs e v) :
    e.len.length + e.data.length ≤ fs.lenType + (bytesFor fs fs.maxLen).toNat := by
  obtain ⟨n, ⟨⟨hl, hn⟩, _⟩, hd, _⟩ := h
  have hle : n ≤ fs.maxLen := by
    split at hn
    · omega
    · exact hn.2
  have := bytesFor_mono (fs := fs) hle
  omega

theorem BitmapRead.bounded {env : PyEnv} {fs : FieldSpec} {D bm : Bytes} {t : Str} (h : BitmapRead env fs D t bm)
    (hc : fs.isBinary ∨ ∀ c, env.codec fs.dataEnc = some c → c.Bounded) : bm.length ≤ 8 :=
  BitmapReads.bounded (bitmapReads_iff.2 h) hc

/-- Every part of a message keeps to its limit, and has a specification. -/
theorem Message.limits {env : PyEnv} {spec : Spec} {ps : List Part} (h : Message env spec ps) (hb : BoundedBitmaps env spec) :
    ∀ p ∈ ps, (p.key ∈ spec.keys ∧ p.key ≠ py"65") ∧ p.entry.len.length + p.entry.data.length ≤ entryLimit spec p.key := by
  obtain ⟨h, t, b, f, P, F, rfl, hh, ht, hbm, _, hF, hk, hf⟩ := h
  have wide : ∀ {fs : FieldSpec} {D bm : Bytes} {x : Str} {i off : Nat}, spec.get? py"p" = some fs → BitmapRead env fs D x bm →
      off + 64 < i → ¬ announces bm off i := by
    intro fs D bm x i off hs hr hi ha
    have h8 := hr.bounded (hb _ _ (.inl rfl) hs)
    have := bitOn_le (by have := ha.1; omega) ha.2
    omega
  have one : ∀ {fs : FieldSpec} {D bm : Bytes} {x : Str}, BitmapRead env fs D x bm → D.length = bitmapBytes fs := fun h => h.1
  intro p hp
  simp only [List.mem_append, List.mem_cons] at hp
  rcases hp with (hp | rfl | hp) | hp
  · obtain ⟨fs, hs, ⟨_, rfl⟩ | ⟨_, e, v, rfl, hr⟩⟩ := hh
    · cases hp
    · rw [List.mem_singleton] at hp
      subst hp
      refine ⟨⟨Dict.mem_keys_iff.2 ⟨fs, hs⟩, by simp⟩, ?_⟩
      simp only [entryLimit, hs]
      exact hr.limit
  · obtain ⟨fs, D, v, hs, rfl, hl, _⟩ := ht
    refine ⟨⟨Dict.mem_keys_iff.2 ⟨fs, hs⟩, by simp⟩, ?_⟩
    simp [entryLimit, hs, hl]
  · cases hbm with
    | @one fs D x bm hs hr _ _ =>
      rw [List.mem_singleton] at hp
      subst hp
      exact ⟨⟨Dict.mem_keys_iff.2 ⟨_, hs⟩, by simp⟩, by simp [entryLimit, hs, one hr]⟩
    | @two fs fs1 D D1 x x1 bm bm1 hs hr _ hs1 hr1 _ =>
      simp only [List.mem_cons, List.not_mem_nil, or_false] at hp
      rcases hp with rfl | rfl
      · exact ⟨⟨Dict.mem_keys_iff.2 ⟨_, hs⟩, by simp⟩, by simp [entryLimit, hs, one hr]⟩
      · exact ⟨⟨Dict.mem_keys_iff.2 ⟨_, hs1⟩, by simp⟩, by simp [entryLimit, hs1, one hr1]; omega⟩
    | @three fs fs1 D D1 D2 x x1 x2 bm bm1 bm2 hs hr _ hs1 hr1 _ hr2 =>
      simp only [List.mem_cons, List.not_mem_nil, or_false] at hp
      rcases hp with rfl | rfl
      · exact ⟨⟨Dict.mem_keys_iff.2 ⟨_, hs⟩, by simp⟩, by simp [entryLimit, hs, one hr]⟩
      · exact ⟨⟨Dict.mem_keys_iff.2 ⟨_, hs1⟩, by simp⟩, by simp [entryLimit, hs1, one hr1, one hr2]; omega⟩
    | wide hs hr _ h65 _ => exact absurd h65 (wide hs hr (by omega))
  · obtain ⟨fs, hs, hr⟩ := hf p hp
    refine ⟨⟨Dict.mem_keys_iff.2 ⟨_, hs⟩, ?_⟩, ?_⟩
    · intro h65
      have hm : p.key ∈ f.map Part.key := List.mem_map.2 ⟨p, hp, rfl⟩
      rw [hk] at hm
      obtain ⟨i, hi, he⟩ := List.mem_map.1 hm
      have : natStr i = natStr 65 := by rw [he, h65]; rfl
      exact ((hF i).1 hi).2.2 (natStr_inj.1 this)
    have hm : p.key ∈ f.map Part.key := List.mem_map.2 ⟨p, hp, rfl⟩
    rw [hk] at hm
    obtain ⟨i, hi, he⟩ := List.mem_map.1 hm
    have h1 : p.key ≠ py"1" := by
      intro h1
      have : natStr i = natStr 1 := by rw [he, h1]; rfl
      exact ((hF i).1 hi).2.1 (natStr_inj.1 this)
    have ht : p.key ≠ py"t" := by rw [← he]; exact natStr_ne_letter (by decide)
    have hp : p.key ≠ py"p" := by rw [← he]; exact natStr_ne_letter (by decide)
    simp only [entryLimit, hs, if_neg h1, if_neg ht, if_neg hp]
    exact hr.limit

theorem sum_le_of_subset {α : Type} [DecidableEq α] (f : α → Nat) : ∀ {a b : List α}, a.Nodup → (∀ x ∈ a, x ∈ b) →
    (a.map f).sum ≤ (b.map f).sum
  | [], _, _, _ => by simp
  | x :: a, b, hn, hs => by
    have hx := hs x (by simp)
    have hp := (List.perm_cons_erase hx).map f
    have ih := sum_le_of_subset f (a := a) (b := b.erase x) (List.nodup_cons.1 hn).2 (fun y hy =>
      (List.mem_erase_of_ne (by rintro rfl; exact (List.nodup_cons.1 hn).1 hy)).2 (hs y (by simp [hy])))
    rw [hp.sum_nat, List.map_cons, List.map_cons, List.sum_cons, List.sum_cons]
    omega

theorem wire_parts_length (ps : List Part) :
    (wire (partsEnc ps)).length = (ps.map fun p => p.entry.len.length + p.entry.data.length).sum := by
  simp [wire, partsEnc, List.length_flatMap, Function.comp_def]

/-- **C64**: every entry of an accepted message keeps to the limit its own specification sets. -/
theorem entry_size {env : PyEnv} {spec : Spec} (hb : BoundedBitmaps env spec) {s : Bytes} {dec : DecDoc} {enc : EncDoc}
    (h : decode env spec s = .ok (dec, enc)) {k : Str} {e : EncEntry} (hk : enc.get? k = some e) :
    e.len.length + e.data.length ≤ entryLimit spec k := by
  obtain ⟨ps, hm, _, rfl, _⟩ := decode_iff.1 h
  obtain ⟨p, hp, he⟩ := List.mem_map.1 (Dict.mem_of_get? hk)
  cases he
  exact (hm.limits hb p hp).2

/-- Parts with different keys that keep to their limits. -/
theorem parts_size {spec : Spec} {ps : List Part} (hnd : (ps.map Part.key).Nodup)
    (hl : ∀ p ∈ ps, (p.key ∈ spec.keys ∧ p.key ≠ py"65") ∧ p.entry.len.length + p.entry.data.length ≤ entryLimit spec p.key) :
    (wire (partsEnc ps)).length ≤ ((ps.map Part.key).map (entryLimit spec)).sum ∧
      ((ps.map Part.key).map (entryLimit spec)).sum ≤ messageLimit spec := by
  refine ⟨?_, sum_le_of_subset _ hnd fun x hx => ?_⟩
  · rw [wire_parts_length]
    clear hnd
    induction ps with
    | nil => simp
    | cons p ps ih =>
      have := ih fun q hq => hl q (by simp [hq])
      have h1 := (hl p (by simp)).2
      simp only [List.map_cons, List.sum_cons]
      omega
  · obtain ⟨p, hp, rfl⟩ := List.mem_map.1 hx
    exact List.mem_filter.2 ⟨(hl p hp).1.1, by simpa using (hl p hp).1.2⟩

/-- **C64**: no accepted message is longer than the limits of its own entries add up to, and none
is longer than the limits of the specification add up to. -/
theorem message_size {env : PyEnv} {spec : Spec} (hb : BoundedBitmaps env spec) {s : Bytes} {dec : DecDoc} {enc : EncDoc}
    (h : decode env spec s = .ok (dec, enc)) :
    s.length ≤ (dec.keys.map (entryLimit spec)).sum ∧ (dec.keys.map (entryLimit spec)).sum ≤ messageLimit spec := by
  have hnd := (decode_entries h).2.1
  obtain ⟨ps, hm, rfl, rfl, rfl⟩ := decode_iff.1 h
  have hk : (partsDec ps).keys = ps.map Part.key := by simp [partsDec, Dict.keys, Function.comp_def]
  rw [hk] at hnd ⊢
  exact parts_size hnd (hm.limits hb)

/-! ## encode -/

theorem dataWrites_bytes {env : PyEnv} {fs : FieldSpec} {v : Val} {n : Nat} {D : Bytes} (h : DataWrites env fs v n D) :
    (D.length : Int) = bytesFor fs n := by
  have hx : ∀ {t : Str}, hexText D = upperCase t → t.length = 2 * D.length := by
    intro t h
    have := congrArg List.length h
    simpa [hexText, upperCase, Nat.mul_comm] using this.symm
  unfold DataWrites at h
  unfold bytesFor
  split at h
  · split at h
    · next hn =>
      rw [if_pos hn]
      obtain ⟨rfl, h⟩ := h
      split at h
      · split at h
        · have := hx h; simp at this; omega
        · have := hx h; simp at this; omega
        · cases h
      · have := hx h; omega
    · next hn => rw [if_neg hn, h.2]
  · obtain ⟨_, _, _, _, _, rfl⟩ := h
    split <;> omega

theorem FieldWrites.limit {env : PyEnv} {fs : FieldSpec} {v : Val} {n : Nat} {L D : Bytes} (h : FieldWrites env fs v n L D) :
    L.length + D.length ≤ fs.lenType + (bytesFor fs fs.maxLen).toNat := by
  have hd := dataWrites_bytes h.data
  have hs := h.size
  have key : (n : Int) ≤ fs.maxLen ∧ L.length ≤ fs.lenType := by
    split at hs
    · next h0 => exact ⟨by omega, by simp [hs.2]⟩
    · refine ⟨hs.1, ?_⟩
      have hp := hs.2
      unfold PrefixWrites at hp
      split at hp
      · omega
      · split at hp
        · omega
        · obtain ⟨_, _, _, hp⟩ := hp
          exact hp
  have := bytesFor_mono (fs := fs) key.1
  omega

/-- Bitmaps in text are written with one byte per hex digit. -/
def WritesBitmaps (env : PyEnv) (spec : Spec) : Prop :=
  ∀ k fs, k = py"p" ∨ k = py"1" → spec.get? k = some fs → fs.isBinary ∨ ∀ c, env.codec fs.dataEnc = some c → c.WritesHexDigits

theorem BitmapWritten.width {env : PyEnv} {fs : FieldSpec} {A : Nat → Prop} {off : Nat} {D : Bytes} {t : Str}
    (h : BitmapWritten env fs A off D t) (hc : fs.isBinary ∨ ∀ c, env.codec fs.dataEnc = some c → c.WritesHexDigits) :
    D.length = bitmapBytes fs := by
  obtain ⟨bm, h8, _, rfl, h⟩ := h
  unfold bitmapBytes
  split at h
  · next hb => rw [if_pos hb, h, h8]
  · next hb =>
    rw [if_neg hb]
    obtain ⟨c, hc', he⟩ := h
    obtain ⟨b, h1, h2⟩ := (hc.resolve_left hb) c hc' (hexText bm) (isHexDigit_hexText bm)
    rw [he] at h1
    cases h1
    rw [h2, hexText_length, h8]

/-- Every part written keeps to its limit, and has a specification. -/
theorem Written.limits {env : PyEnv} {spec : Spec} {doc : Doc} {ps b : List Part} (h : Written env spec doc ps b) (hb : WritesBitmaps env spec) :
    ∀ p ∈ ps, (p.key ∈ spec.keys ∧ p.key ≠ py"65") ∧ p.entry.len.length + p.entry.data.length ≤ entryLimit spec p.key := by
  obtain ⟨_, _, h, t, f, F, rfl, hh, ht, hbm, _, hF, hk, hf⟩ := h
  intro p hp
  simp only [List.mem_append, List.mem_cons] at hp
  rcases hp with (hp | rfl | hp) | hp
  · obtain ⟨fs, hs, ⟨_, rfl⟩ | ⟨_, q, rfl, hq, fs', v, n, hs', hv, hw, _⟩⟩ := hh
    · cases hp
    · rw [List.mem_singleton] at hp
      subst hp
      rw [hq] at hs' ⊢
      rw [hs] at hs'
      cases hs'
      refine ⟨⟨Dict.mem_keys_iff.2 ⟨fs, hs⟩, by simp⟩, ?_⟩
      simp only [entryLimit, hs]
      exact hw.limit
  · obtain ⟨fs, v, D, hs, _, rfl, hw, _⟩ := ht
    refine ⟨⟨Dict.mem_keys_iff.2 ⟨fs, hs⟩, by simp⟩, ?_⟩
    have := dataWrites_bytes hw
    have hn : ¬ (asType fs).inNibbles := by simp [FieldSpec.inNibbles, asType]
    rw [bytesFor, if_neg hn] at this
    simp [entryLimit, hs]
    omega
  · cases hbm with
    | @one fs D x _ hs hw =>
      rw [List.mem_singleton] at hp
      subst hp
      exact ⟨⟨Dict.mem_keys_iff.2 ⟨_, hs⟩, by simp⟩, by simp [entryLimit, hs, hw.width (hb _ _ (.inl rfl) hs)]⟩
    | @two fs fs1 D D1 x x1 _ _ hs hw hs1 hw1 =>
      simp only [List.mem_cons, List.not_mem_nil, or_false] at hp
      rcases hp with rfl | rfl
      · exact ⟨⟨Dict.mem_keys_iff.2 ⟨_, hs⟩, by simp⟩, by simp [entryLimit, hs, hw.width (hb _ _ (.inl rfl) hs)]⟩
      · exact ⟨⟨Dict.mem_keys_iff.2 ⟨_, hs1⟩, by simp⟩, by simp [entryLimit, hs1, hw1.width (hb _ _ (.inr rfl) hs1)]; omega⟩
    | @three fs fs1 D D1 D2 x x1 x2 _ _ hs hw hs1 hw1 hw2 =>
      simp only [List.mem_cons, List.not_mem_nil, or_false] at hp
      rcases hp with rfl | rfl
      · exact ⟨⟨Dict.mem_keys_iff.2 ⟨_, hs⟩, by simp⟩, by simp [entryLimit, hs, hw.width (hb _ _ (.inl rfl) hs)]⟩
      · exact ⟨⟨Dict.mem_keys_iff.2 ⟨_, hs1⟩, by simp⟩,
          by simp [entryLimit, hs1, hw1.width (hb _ _ (.inr rfl) hs1), hw2.width (hb _ _ (.inr rfl) hs1)]; omega⟩
  · obtain ⟨fs, v, n, hs, _, hw, _⟩ := hf p hp
    have hm : p.key ∈ f.map Part.key := List.mem_map.2 ⟨p, hp, rfl⟩
    rw [hk] at hm
    obtain ⟨i, hi, he⟩ := List.mem_map.1 hm
    have h1 : p.key ≠ py"1" := by
      intro h1
      have : natStr i = natStr 1 := by rw [he, h1]; rfl
      exact ((hF i).1 hi).2.1 (natStr_inj.1 this)
    have h65 : p.key ≠ py"65" := by
      intro h65
      have : natStr i = natStr 65 := by rw [he, h65]; rfl
      exact ((hF i).1 hi).2.2 (natStr_inj.1 this)
    have ht : p.key ≠ py"t" := by rw [← he]; exact natStr_ne_letter (by decide)
    have hp : p.key ≠ py"p" := by rw [← he]; exact natStr_ne_letter (by decide)
    refine ⟨⟨Dict.mem_keys_iff.2 ⟨_, hs⟩, h65⟩, ?_⟩
    simp only [entryLimit, hs, if_neg h1, if_neg ht, if_neg hp]
    exact hw.limit

/-- **C64** (encode): every entry `encode` writes keeps to the limit its own specification sets. -/
theorem encode_entry_size {env : PyEnv} {spec : Spec} (hb : WritesBitmaps env spec) {s : Bytes} {doc doc' : Doc} {enc : EncDoc} (nd : doc.NoDup)
    (h : encode env spec doc = (.ok (s, enc), doc')) {k : Str} {e : EncEntry} (hk : enc.get? k = some e) :
    e.len.length + e.data.length ≤ entryLimit spec k := by
  obtain ⟨ps, b, hw, rfl, _⟩ := (encode_iff nd).1 h
  obtain ⟨p, hp, he⟩ := List.mem_map.1 (Dict.mem_of_get? hk)
  cases he
  exact (hw.limits hb p hp).2

/-- **C64** (encode): no message `encode` writes is longer than the limits of its own entries add up to,
and none is longer than the limits of the specification add up to. -/
theorem encode_message_size {env : PyEnv} {spec : Spec} (hb : WritesBitmaps env spec) {s : Bytes} {doc doc' : Doc} {enc : EncDoc} (nd : doc.NoDup)
    (h : encode env spec doc = (.ok (s, enc), doc')) :
    s.length ≤ (enc.keys.map (entryLimit spec)).sum ∧ (enc.keys.map (entryLimit spec)).sum ≤ messageLimit spec := by
  have hnd : enc.keys.Nodup := by
    obtain ⟨ns, _, hr, items, bms, hw, rfl, rfl, rfl⟩ := encode_ok_iff.1 h
    rw [keys_encOf]
    exact hw.nodup (inRange_mem hr).1
  obtain ⟨ps, b, hw, rfl, rfl, _⟩ := (encode_iff nd).1 h
  have hk : (partsEnc ps).keys = ps.map Part.key := by simp [partsEnc, Dict.keys, Function.comp_def]
  rw [hk] at hnd ⊢
  exact parts_size hnd (hw.limits hb)

example : demoMsg.length ≤ (demoEnc.keys.map (entryLimit demoSpec)).sum ∧
    (demoEnc.keys.map (entryLimit demoSpec)).sum ≤ messageLimit demoSpec :=
  encode_message_size (by
    intro k fs hk hs
    rcases hk with rfl | rfl
    · exact .inl (by cases hs; decide)
    · refine .inr fun c hc => ?_
      cases hs
      cases hc
      exact ascii_lawful.writesHex) demo_nodup demo_encode

example : demoMsg.length ≤ (demoDec.keys.map (entryLimit demoSpec)).sum ∧
    (demoDec.keys.map (entryLimit demoSpec)).sum ≤ messageLimit demoSpec :=
  message_size (by
    intro k fs hk hs
    rcases hk with rfl | rfl
    · exact .inl (by cases hs; decide)
    · refine .inr fun c hc => ?_
      cases hs
      cases hc
      exact ascii_lawful.bounded) demo_decode

theorem wellFormed_bounded {env : PyEnv} {spec : Spec} (h : WellFormed spec) (ha : env.codec py"ascii" = some asciiCodec) :
    BoundedBitmaps env spec := by
  intro k fs _ hs
  rcases (h.encodings k fs hs).1 with h' | h'
  · exact .inl h'
  · refine .inr fun c hc => ?_
    rw [h', ha] at hc
    cases hc
    exact ascii_lawful.bounded

/-- **C64**: under the shipped specifications no accepted message is longer than this. -/
theorem shipped_message_size {env : PyEnv} (ha : env.codec py"ascii" = some asciiCodec) {s : Bytes} {r : DecDoc × EncDoc} :
    (decode env defaultSpec s = .ok r → s.length ≤ 35806) ∧ (decode env defaultAsciiSpec s = .ok r → s.length ≤ 36117) := by
  constructor <;> intro h
  · exact Nat.le_trans (Nat.le_trans (message_size (wellFormed_bounded default_wellFormed ha) h).1
      (message_size (wellFormed_bounded default_wellFormed ha) h).2) (by decide +kernel)
  · exact Nat.le_trans (Nat.le_trans (message_size (wellFormed_bounded defaultAscii_wellFormed ha) h).1
      (message_size (wellFormed_bounded defaultAscii_wellFormed ha) h).2) (by decide +kernel)

/-- **C64**: nor does `encode` write a longer one. -/
theorem shipped_encode_size {env : PyEnv} (ha : env.codec py"ascii" = some asciiCodec)
    (hd : env.maxStrDigits = 0 ∨ 8 ≤ env.maxStrDigits) {doc doc' : Doc} {s : Bytes} {enc : EncDoc} :
    (encode env defaultSpec doc = (.ok (s, enc), doc') → s.length ≤ 35806) ∧
    (encode env defaultAsciiSpec doc = (.ok (s, enc), doc') → s.length ≤ 36117) := by
  constructor <;> intro h
  · obtain ⟨dec, h', _⟩ := shipped_round_trip (.inl rfl) ha hd h
    exact (shipped_message_size ha).1 h'
  · obtain ⟨dec, h', _⟩ := shipped_round_trip (.inr rfl) ha hd h
    exact (shipped_message_size ha).2 h'

/-- It applies to a message of the shipped specification. -/
example : ∃ r doc', encode cpython defaultSpec shippedDoc = (.ok r, doc') ∧ r.1.length ≤ 35806 := by
  obtain ⟨⟨s, enc⟩, doc', h⟩ : ∃ r doc', encode cpython defaultSpec shippedDoc = (.ok r, doc') := by
    have h : (match encode cpython defaultSpec shippedDoc with
      | (.ok _, _) => true
      | _ => false) = true := by decide +kernel
    split at h
    · next r doc' he => exact ⟨r, doc', he⟩
    · cases h
  exact ⟨_, _, h, (shipped_encode_size rfl (.inr (by decide))).1 h⟩

/-- An instance of `entry_size`. -/
example : (2 : Nat) + 3 ≤ entryLimit demoSpec py"70" :=
  entry_size (by
    intro k fs hk hs
    rcases hk with rfl | rfl
    · exact .inl (by cases hs; decide)
    · refine .inr fun c hc => ?_
      cases hs
      cases hc
      exact ascii_lawful.bounded) demo_decode (k := py"70") (e := ⟨[0xF0, 0xF3], [0xA7, 0xA8, 0xA9]⟩) (by decide)

/-- An instance of `encode_entry_size`. -/
example : (2 : Nat) + 3 ≤ entryLimit demoSpec py"70" :=
  encode_entry_size (by
    intro k fs hk hs
    rcases hk with rfl | rfl
    · exact .inl (by cases hs; decide)
    · refine .inr fun c hc => ?_
      cases hs
      cases hc
      exact ascii_lawful.writesHex) demo_nodup demo_encode (k := py"70") (e := ⟨[0xF0, 0xF3], [0xA7, 0xA8, 0xA9]⟩) (by decide)

/-- An instance of `shipped_message_size`. -/
example (s : Bytes) (r : DecDoc × EncDoc) (h : decode cpython defaultSpec s = .ok r) : s.length ≤ 35806 := (shipped_message_size rfl).1 h

end Iso8583
