import Verif.Spec.Json
import Verif.Lemmas.Literal
import Verif.Props.DecodeContent
import Verif.Props.Codecs
import Verif.Props.Normalise
import Verif.Props.PrettyPrintRead
import Verif.Props.Demo
/-!
# Decoded dicts survive JSON (C78)
-/

namespace Iso8583

theorem hexRun_hex4 {n : Nat} (h : n < 0x10000) (t : Str) : hexRun 4 (hex4 n ++ t) = some (n, t) := by
  unfold hex4
  exact hexRun_hexPad (by simpa using h) t

theorem jsonEscape_u {n : Nat} (h : n < 0x10000) (t : Str) : jsonEscape (117 :: (hex4 n ++ t)) =
    if IsHigh n ∧ t.take 2 = py"\\u" then
      (hexRun 4 (t.drop 2)).bind fun q =>
        if IsLow q.1 then some (0x10000 + (n - 0xd800) * 0x400 + (q.1 - 0xdc00), q.2) else some (n, t)
    else some (n, t) := by
  rw [jsonEscape]
  simp only [hexRun_hex4 h, Option.bind_some]
  simp

/-- What the text of a character begins with, for the look-ahead behind a high surrogate. -/
def NotLowNext (t : Str) : Prop := t.take 2 = py"\\u" → ∃ q, hexRun 4 (t.drop 2) = some q ∧ ¬ IsLow q.1

theorem jsonEscape_plain {n : Nat} (h : n < 0x10000) {t : Str} (ht : IsHigh n → NotLowNext t) :
    jsonEscape (117 :: (hex4 n ++ t)) = some (n, t) := by
  rw [jsonEscape_u h]
  by_cases hh : IsHigh n ∧ t.take 2 = py"\\u"
  · rw [if_pos hh]
    obtain ⟨q, hq, hl⟩ := ht hh.1 hh.2
    rw [hq, Option.bind_some, if_neg hl]
  · rw [if_neg hh]

theorem jsonEscape_pair {n m : Nat} (h : IsHigh n) (hm : IsLow m) (t : Str) :
    jsonEscape (117 :: (hex4 n ++ (py"\\u" ++ (hex4 m ++ t)))) = some (0x10000 + (n - 0xd800) * 0x400 + (m - 0xdc00), t) := by
  have hn : n < 0x10000 := by have := h.2; omega
  have hm' : m < 0x10000 := by have := hm.2; omega
  rw [jsonEscape_u hn, if_pos ⟨h, rfl⟩]
  have : (py"\\u" ++ (hex4 m ++ t)).drop 2 = hex4 m ++ t := rfl
  rw [this, hexRun_hex4 hm', Option.bind_some, if_pos hm]

theorem jsonChar_cases {c : Nat} (hc : c < 0x110000) :
    (∃ x, jsonChar c = [92, x] ∧ x ≠ 117 ∧ ∀ r, jsonEscape (x :: r) = some (c, r)) ∨
    (jsonChar c = [c] ∧ c ≠ 34 ∧ c ≠ 92 ∧ 32 ≤ c) ∨
    (c < 0x10000 ∧ jsonChar c = py"\\u" ++ hex4 c) ∨
    ∃ a b, IsHigh a ∧ IsLow b ∧ jsonChar c = py"\\u" ++ hex4 a ++ py"\\u" ++ hex4 b ∧ c = 0x10000 + (a - 0xd800) * 0x400 + (b - 0xdc00) := by
  unfold jsonChar
  by_cases h1 : c = 34 ∨ c = 92
  · rw [if_pos h1]
    refine .inl ⟨c, rfl, by omega, fun r => ?_⟩
    rw [jsonEscape, if_pos (by omega)]
  rw [if_neg h1]
  by_cases h2 : c = 10
  · rw [if_pos h2]; subst h2; exact .inl ⟨110, rfl, by decide, fun r => rfl⟩
  rw [if_neg h2]
  by_cases h3 : c = 13
  · rw [if_pos h3]; subst h3; exact .inl ⟨114, rfl, by decide, fun r => rfl⟩
  rw [if_neg h3]
  by_cases h4 : c = 9
  · rw [if_pos h4]; subst h4; exact .inl ⟨116, rfl, by decide, fun r => rfl⟩
  rw [if_neg h4]
  by_cases h5 : c = 12
  · rw [if_pos h5]; subst h5; exact .inl ⟨102, rfl, by decide, fun r => rfl⟩
  rw [if_neg h5]
  by_cases h6 : c = 8
  · rw [if_pos h6]; subst h6; exact .inl ⟨98, rfl, by decide, fun r => rfl⟩
  rw [if_neg h6]
  by_cases h7 : 32 ≤ c ∧ c ≤ 126
  · rw [if_pos h7]; exact .inr (.inl ⟨rfl, by omega, by omega, h7.1⟩)
  rw [if_neg h7]
  by_cases h8 : c < 0x10000
  · rw [if_pos h8]; exact .inr (.inr (.inl ⟨h8, rfl⟩))
  rw [if_neg h8]
  refine .inr (.inr (.inr ⟨_, _, ?_, ?_, rfl, ?_⟩))
  · unfold IsHigh; omega
  · unfold IsLow; omega
  · omega

theorem jsonBody_char {c : Nat} {t : Str} {n : Nat} (hc : c < 0x110000) (ht : IsHigh c → NotLowNext t) :
    jsonBody (n + 1) (jsonChar c ++ t) = (jsonBody n t).map fun q => (c :: q.1, q.2) := by
  have esc : ∀ {r r' : Str}, jsonEscape r = some (c, r') → jsonBody (n + 1) (92 :: r) = (jsonBody n r').map fun q => (c :: q.1, q.2) := by
    intro r r' h
    rw [jsonBody]
    simp only [h, Option.bind_some]
    simp
  rcases jsonChar_cases hc with ⟨x, e, _, h⟩ | ⟨e, h1, h2, h3⟩ | ⟨h, e⟩ | ⟨a, b, h1, h2, e, h3⟩
  · rw [e]; exact esc (h t)
  · rw [e]
    change jsonBody (n + 1) (c :: t) = _
    rw [jsonBody]
    rw [if_neg h1, if_neg h2, if_neg (by omega)]
  · rw [e]
    exact esc (jsonEscape_plain h ht)
  · rw [e]
    refine esc (r := 117 :: (hex4 a ++ (py"\\u" ++ (hex4 b ++ t)))) ?_
    rw [jsonEscape_pair h1 h2, ← h3]

theorem notLowNext_char {x : Nat} (hx : x < 0x110000) (hl : ¬ IsLow x) (t : Str) : NotLowNext (jsonChar x ++ t) := by
  intro hu
  rcases jsonChar_cases hx with ⟨y, e, h, _⟩ | ⟨e, h1, h2, h3⟩ | ⟨h, e⟩ | ⟨a, b, h1, h2, e, h3⟩
  · rw [e] at hu
    simp only [List.cons_append, List.nil_append, List.take_succ_cons, List.take_zero, List.cons.injEq, and_true, true_and] at hu
    exact absurd hu h
  · rw [e] at hu
    simp only [List.cons_append, List.nil_append, List.take_succ_cons, List.cons.injEq] at hu
    exact absurd hu.1 h2
  · rw [e]
    exact ⟨_, hexRun_hex4 h t, hl⟩
  · rw [e]
    have ha := h1
    unfold IsHigh at ha
    refine ⟨_, hexRun_hex4 (by omega) (py"\\u" ++ (hex4 b ++ t)), ?_⟩
    unfold IsLow
    simp only
    omega

theorem jsonBody_str : ∀ {s : Str} {n : Nat} (r : Str), IsText s → Unpaired s → s.length < n →
    jsonBody n (s.flatMap jsonChar ++ 34 :: r) = some (s, r)
  | [], n + 1, r, _, _, _ => by simp [jsonBody]
  | [c], n + 1 + 1, r, ht, _, _ => by
    rw [List.flatMap_cons, List.append_assoc, jsonBody_char (ht c (by simp))]
    · simp [jsonBody]
    · intro _ hu
      simp only [List.flatMap_nil, List.nil_append, List.take_succ_cons, List.cons.injEq] at hu
      exact absurd hu.1 (by decide)
  | c :: x :: s, n + 1, r, ht, hu, hl => by
    rw [List.flatMap_cons, List.append_assoc, jsonBody_char (ht c (by simp)),
      jsonBody_str (s := x :: s) r (fun d hd => ht d (by simp only [List.mem_cons] at hd ⊢; exact .inr hd)) hu.2 (by simp at hl ⊢; omega)]
    · rfl
    · intro hh
      rw [List.flatMap_cons, List.append_assoc]
      exact notLowNext_char (ht x (by simp)) (fun h => hu.1 ⟨hh, h⟩) _

/-- A text that JSON gives back. -/
def JsonSafe (s : Str) : Prop := IsText s ∧ Unpaired s

theorem flatMap_jsonChar_length (s : Str) : s.length ≤ (s.flatMap jsonChar).length := by
  induction s with
  | nil => simp
  | cons c s ih =>
    have : 0 < (jsonChar c).length := by
      unfold jsonChar
      repeat' split
      all_goals simp
    simp only [List.flatMap_cons, List.length_append, List.length_cons]
    omega

theorem readJsonStr_jsonStr {s : Str} (h : JsonSafe s) (r : Str) : readJsonStr (jsonStr s ++ r) = some (s, r) := by
  have e : jsonStr s ++ r = 34 :: (s.flatMap jsonChar ++ 34 :: r) := by simp [jsonStr]
  rw [e, readJsonStr]
  refine jsonBody_str r h.1 h.2 ?_
  have := flatMap_jsonChar_length s
  simp only [List.length_append]
  omega

theorem jsonSkip_quote (s r : Str) : jsonSkip (jsonStr s ++ r) = jsonStr s ++ r := rfl

theorem readMember_read {k v : Str} (hk : JsonSafe k) (hv : JsonSafe v) (w : Str) (hw : w = [] ∨ w = py" ") (r : Str) :
    readMember (w ++ (jsonStr k ++ py": " ++ jsonStr v ++ r)) = some ((k, v), r) := by
  have e : jsonSkip (w ++ (jsonStr k ++ py": " ++ jsonStr v ++ r)) = jsonStr k ++ (58 :: 32 :: (jsonStr v ++ r)) := by
    rcases hw with rfl | rfl
    · simp [jsonSkip, jsonStr]
    · simp [jsonSkip, jsonStr]
  unfold readMember
  rw [e, readJsonStr_jsonStr hk, Option.bind_some]
  have e2 : jsonExpect 58 (58 :: 32 :: (jsonStr v ++ r)) = some (32 :: (jsonStr v ++ r)) := rfl
  have e3 : jsonSkip (32 :: (jsonStr v ++ r)) = jsonStr v ++ r := rfl
  rw [e2, Option.bind_some, e3, readJsonStr_jsonStr hv]
  rfl

theorem set_new {d : Dict Str Str} {k v : Str} (h : k ∉ d.keys) : d.set k v = d ++ [(k, v)] := by
  induction d with
  | nil => rfl
  | cons p t ih =>
    have hk : Dict.keys (p :: t) = p.1 :: Dict.keys t := rfl
    rw [hk] at h
    simp only [List.mem_cons, not_or] at h
    obtain ⟨a, b⟩ := p
    rw [Dict.set, if_neg (Ne.symm h.1), ih h.2]
    rfl

theorem readMembers_read : ∀ {t d : Dict Str Str} {n : Nat} (w : Str), (w = [] ∨ w = py" ") → t ≠ [] → (d ++ t).NoDup →
    (∀ p ∈ t, JsonSafe p.1 ∧ JsonSafe p.2) → t.length ≤ n →
    ∀ r, readMembers n d (w ++ (jsonMembers t ++ 125 :: r)) = some (d ++ t, r)
  | [], _, _, _, _, h, _, _, _ => absurd rfl h
  | [(k, v)], d, n + 1, w, hw, _, hn, hs, _ => by
    intro r
    have hp := hs (k, v) (by simp)
    have e : w ++ (jsonMembers [(k, v)] ++ 125 :: r) = w ++ (jsonStr k ++ py": " ++ jsonStr v ++ 125 :: r) := rfl
    rw [readMembers, e, readMember_read hp.1 hp.2 w hw, Option.bind_some]
    have e2 : jsonSkip (125 :: r) = 125 :: r := rfl
    simp only [e2]
    have hk : k ∉ d.keys := by
      unfold Dict.NoDup Dict.keys at hn
      rw [List.map_append, List.nodup_append] at hn
      intro hk
      exact hn.2.2 k hk k (by simp) rfl
    rw [if_neg (by decide), if_pos trivial, set_new hk]
  | (k, v) :: q :: t, d, n + 1, w, hw, _, hn, hs, hl => by
    intro r
    have hp := hs (k, v) (by simp)
    have e : w ++ (jsonMembers ((k, v) :: q :: t) ++ 125 :: r) =
        w ++ (jsonStr k ++ py": " ++ jsonStr v ++ (44 :: (py" " ++ (jsonMembers (q :: t) ++ 125 :: r)))) := by
      rw [jsonMembers]
      · simp only [List.append_assoc]; rfl
      · simp
    rw [readMembers, e, readMember_read hp.1 hp.2 w hw, Option.bind_some]
    have e2 : ∀ x : Str, jsonSkip (44 :: x) = 44 :: x := fun _ => rfl
    simp only [e2]
    have hk : k ∉ d.keys := by
      unfold Dict.NoDup Dict.keys at hn
      rw [List.map_append, List.nodup_append] at hn
      intro hk
      exact hn.2.2 k hk k (by simp) rfl
    rw [if_pos trivial, set_new hk]
    have := readMembers_read (t := q :: t) (d := d ++ [(k, v)]) (n := n) py" " (.inr rfl) (by simp)
      (by rw [List.append_assoc]; exact hn) (fun p hp => hs p (by simp only [List.mem_cons] at hp ⊢; exact .inr hp)) (by simp at hl ⊢; omega) r
    rw [this, List.append_assoc]
    rfl

/-- **C78** (JSON): a dict of texts comes back from JSON unchanged, order included, unless a text has
a high surrogate directly before a low one. -/
theorem json_roundtrip {d : Dict Str Str} (hn : d.NoDup) (hs : ∀ p ∈ d, JsonSafe p.1 ∧ JsonSafe p.2) :
    jsonLoads (jsonDumps d) = some d := by
  have e1 : ∀ t : Str, jsonExpect 123 (123 :: t) = some t := fun _ => rfl
  unfold jsonLoads jsonDumps
  rw [e1, Option.bind_some]
  cases d with
  | nil => rfl
  | cons p t =>
    have e2 : jsonExpect 125 (jsonMembers (p :: t) ++ [125]) = none := by
      obtain ⟨k, v⟩ := p
      cases t <;> rfl
    have hlen : ∀ d : Dict Str Str, d.length ≤ (jsonMembers d).length + 1 := by
      intro d
      induction d with
      | nil => simp
      | cons p t ih =>
        obtain ⟨k, v⟩ := p
        cases t with
        | nil => simp [jsonMembers]
        | cons q t =>
          rw [jsonMembers]
          · simp only [List.length_append, List.length_cons] at ih ⊢; omega
          · simp
    have := readMembers_read (t := p :: t) (d := []) (n := (jsonMembers (p :: t) ++ [125]).length + 1) [] (.inl rfl) (by simp)
      (by simpa using hn) hs (by have := hlen (p :: t); simp only [List.length_append, List.length_cons, List.length_nil] at this ⊢; omega) []
    rw [List.nil_append, List.nil_append] at this
    simp only [e2, this, Option.bind_some]
    rfl

/-! ## What `decode` returns -/

/-- Unicode characters without surrogates. -/
def ScalarText (s : Str) : Prop := ∀ x ∈ s, x < 0x110000 ∧ ¬ (0xd800 ≤ x ∧ x ≤ 0xdfff)

theorem ScalarText.safe : ∀ {s : Str}, ScalarText s → JsonSafe s := by
  intro s h
  refine ⟨fun c hc => (h c hc).1, ?_⟩
  induction s with
  | nil => trivial
  | cons x t ih =>
    cases t with
    | nil => trivial
    | cons y t =>
      refine ⟨?_, ih fun c hc => h c (by simp only [List.mem_cons] at hc ⊢; exact .inr hc)⟩
      rintro ⟨h1, _⟩
      have := h x (by simp)
      unfold IsHigh at h1
      omega

theorem ascii_scalar {s : Str} (h : ∀ c ∈ s, c < 128) : ScalarText s := fun c hc => by
  have := h c hc
  omega

theorem hexText_scalar (b : Bytes) : ScalarText (hexText b) := by
  refine ascii_scalar ?_
  induction b with
  | nil => simp [hexText]
  | cons x t ih =>
    have hx := x.toNat_lt
    intro c hc
    simp only [hexText, List.mem_cons] at hc
    rcases hc with rfl | rfl | hc
    · unfold hexChar; split <;> omega
    · unfold hexChar; split <;> omega
    · exact ih c hc

/-- The text encodings the specification uses yield Unicode characters. -/
def ScalarSpec (env : PyEnv) (spec : Spec) : Prop := ∀ k fs c, spec.get? k = some fs → env.codec fs.dataEnc = some c → c.Scalar

theorem plainSays_scalar {env : PyEnv} {fs : FieldSpec} {D : Bytes} {v : Str} (hs : ∀ c, env.codec fs.dataEnc = some c → c.Scalar)
    (h : PlainSays env fs D v) : ScalarText v := by
  unfold PlainSays at h
  split at h
  · rw [h]; exact hexText_scalar D
  · obtain ⟨c, hc, hd⟩ := h
    exact hs c hc _ _ hd

theorem entrySays_scalar {env : PyEnv} {spec : Spec} (hs : ScalarSpec env spec) {k : Str} {e : EncEntry} {v : Str}
    (h : EntrySays env spec k e v) : ScalarText v := by
  obtain ⟨fs, hf, h⟩ := h
  have hc := fun c => hs k fs c hf
  split at h
  · exact plainSays_scalar hc h.2.2
  split at h
  · rcases h.2 with ⟨_, h⟩ | ⟨_, v1, v2, rfl, h1, h2⟩
    · exact plainSays_scalar hc h
    · intro x hx
      rcases List.mem_append.1 hx with hx | hx
      · exact plainSays_scalar hc h1 x hx
      · exact plainSays_scalar hc h2 x hx
  · obtain ⟨n, _, _, h⟩ := h
    unfold DataSays at h
    split at h
    · rw [h]; intro x hx; cases hx
    split at h
    · split at h
      · split at h
        · obtain ⟨c, eq⟩ := h
          intro x hx
          exact hexText_scalar e.data x (by rw [eq]; simp [hx])
        · obtain ⟨c, _, eq⟩ := h
          intro x hx
          exact hexText_scalar e.data x (by rw [eq]; simp [hx])
      · rw [h]; exact hexText_scalar _
    · obtain ⟨c, hc', hd⟩ := h
      exact hc c hc' _ _ hd

theorem decode_keys_ascii {env : PyEnv} {spec : Spec} {s : Bytes} {dec : DecDoc} {enc : EncDoc} (h : decode env spec s = .ok (dec, enc)) :
    ∀ k ∈ dec.keys, ScalarText k := by
  obtain ⟨F, _, _, e, H, B, hH, hB, hk⟩ := decode_keys h
  have nat : ∀ n, ScalarText (natStr n) := fun n => ascii_scalar fun c hc => by
    have := natStr_digits n c hc
    simp only [isAsciiDigit, Bool.and_eq_true, decide_eq_true_eq] at this
    omega
  have letter : ∀ {k : Str}, k = py"h" ∨ k = py"t" ∨ k = py"p" ∨ k = py"1" → ScalarText k := by
    rintro k (rfl | rfl | rfl | rfl) <;> exact ascii_scalar (by decide)
  rw [e, hk]
  intro k hm
  rcases List.mem_append.1 hm with hm | hm
  · refine letter ?_
    rcases List.mem_append.1 hm with hm | hm
    · rcases List.mem_append.1 hm with hm | hm
      · rcases hH with ⟨_, rfl⟩ | ⟨_, rfl⟩
        · exact .inl (by simpa using hm)
        · cases hm
      · exact .inr (.inl (by simpa using hm))
    · rcases hB with rfl | rfl
      · exact .inr (.inr (.inl (by simpa using hm)))
      · exact .inr (.inr (by simpa using hm))
  · obtain ⟨n, _, rfl⟩ := List.mem_map.1 hm
    exact nat n

/-- The texts `decode` returns are Unicode texts if the codecs yield such texts. -/
theorem decode_scalar {env : PyEnv} {spec : Spec} {s : Bytes} {dec : DecDoc} {enc : EncDoc} (hs : ScalarSpec env spec)
    (h : decode env spec s = .ok (dec, enc)) : ∀ k v, dec.get? k = some v → ScalarText v := by
  obtain ⟨hk, _, hent⟩ := decode_entries h
  intro k v hv
  have hm : k ∈ enc.keys := by rw [← hk]; exact Dict.mem_keys_iff.2 ⟨v, hv⟩
  obtain ⟨e, he⟩ := Dict.mem_keys_iff.1 hm
  obtain ⟨v', hv', hsay⟩ := hent k e he
  rw [hv] at hv'
  cases hv'
  exact entrySays_scalar hs hsay

/-- **C78** (decode): what `decode` returned comes back from JSON unchanged. -/
theorem decode_json {env : PyEnv} {spec : Spec} {s : Bytes} {dec : DecDoc} {enc : EncDoc} (hs : ScalarSpec env spec)
    (h : decode env spec s = .ok (dec, enc)) : jsonLoads (jsonDumps dec) = some dec := by
  have hn : dec.NoDup := (decode_entries h).2.1
  refine json_roundtrip hn fun p hp => ⟨?_, ?_⟩
  · exact (decode_keys_ascii h p.1 (List.mem_map_of_mem hp)).safe
  · exact (decode_scalar hs h p.1 p.2 (Dict.get?_of_mem hn hp)).safe

theorem decodeBytes_all {g : UInt8 → Option Nat} {P : Nat → Prop} (hg : ∀ b c, g b = some c → P c) :
    ∀ (b : Bytes) (s : Str), decodeBytes g b = some s → ∀ x ∈ s, P x
  | [], s, h => by cases h; simp
  | b :: t, s, h => by
    rw [decodeBytes] at h
    cases hb : g b with
    | none => rw [hb] at h; cases h
    | some c =>
      cases ht : decodeBytes g t with
      | none => rw [hb, ht] at h; cases h
      | some r =>
        rw [hb, ht] at h
        cases h
        intro x hx
        rcases List.mem_cons.1 hx with rfl | hx
        · exact hg _ _ hb
        · exact decodeBytes_all hg t r ht x hx

theorem charmap_scalar {table : List Nat} (h : ∀ c ∈ table, c < 256) : (charmapCodec table).Scalar := by
  intro b s hd
  refine decodeBytes_all (P := fun x => x < 0x110000 ∧ ¬ (0xd800 ≤ x ∧ x ≤ 0xdfff)) ?_ b s hd
  intro b c hc
  have := h c (List.mem_of_getElem? hc)
  omega

theorem utf8_scalar : utf8Codec.Scalar := by
  have char : ∀ {c : Nat} {b : Bytes}, utf8Char c = some b → c < 0x110000 ∧ ¬ (0xd800 ≤ c ∧ c ≤ 0xdfff) := by
    intro c b h
    unfold utf8Char at h
    by_cases h1 : c < 0x80
    · omega
    rw [if_neg h1] at h
    by_cases h2 : c < 0x800
    · omega
    rw [if_neg h2] at h
    by_cases h3 : 0xD800 ≤ c ∧ c < 0xE000
    · rw [if_pos h3] at h; cases h
    rw [if_neg h3] at h
    by_cases h4 : c < 0x10000
    · omega
    rw [if_neg h4] at h
    by_cases h5 : c < 0x110000
    · omega
    rw [if_neg h5] at h; cases h
  intro b s h
  change utf8Decode b = some s at h
  induction s generalizing b with
  | nil => simp
  | cons c t ih =>
    by_cases hb : b = []
    · subst hb; simp [utf8Decode] at h
    · obtain ⟨c', x, r, s', hx, rfl, hs, hr⟩ := utf8Decode_inv h hb
      cases hs
      intro y hy
      rcases List.mem_cons.1 hy with rfl | hy
      · exact char hx
      · exact ih r hr y hy

/-- The five codecs of the concrete runtime yield Unicode texts. -/
theorem cpython_scalar (name : Str) (c : Codec) (h : cpython.codec name = some c) : c.Scalar := by
  simp only [cpython] at h
  repeat' split at h
  all_goals first | cases h | skip
  · intro b s hd
    refine decodeBytes_all (P := fun x => x < 0x110000 ∧ ¬ (0xd800 ≤ x ∧ x ≤ 0xdfff)) ?_ b s hd
    intro b c hc
    have := b.toNat_lt
    by_cases hb : b.toNat < 128
    · rw [if_pos hb] at hc; cases hc; omega
    · rw [if_neg hb] at hc; cases hc
  · intro b s hd
    refine decodeBytes_all (P := fun x => x < 0x110000 ∧ ¬ (0xd800 ≤ x ∧ x ≤ 0xdfff)) ?_ b s hd
    intro b c hc
    have := b.toNat_lt
    cases hc
    omega
  · exact charmap_scalar (by decide +kernel)
  · exact charmap_scalar (by decide +kernel)
  · exact utf8_scalar

/-- **C78** (use): a decoded message may be stored as JSON and sent on later: the text loaded encodes
to a message that is read as the stored one, bitmaps apart. -/
theorem shipped_json {spec : Spec} (hs : spec = defaultSpec ∨ spec = defaultAsciiSpec) {s : Bytes} {dec : DecDoc} {enc : EncDoc}
    (h : decode cpython spec s = .ok (dec, enc)) :
    ∃ d s' enc' doc' dec', jsonLoads (jsonDumps dec) = some d ∧ encode cpython spec (asDoc d) = (.ok (s', enc'), doc') ∧
      decode cpython spec s' = .ok (dec', enc') ∧ ∀ k, k ≠ py"p" → k ≠ py"1" → dec'.get? k = dec.get? k := by
  obtain ⟨s', enc', doc', dec', _, h1, h2, h3, _⟩ := shipped_reencode hs cpython_ascii rfl (by decide) h
  exact ⟨dec, s', enc', doc', dec', decode_json (fun _ _ c _ hc => cpython_scalar _ c hc) h, h1, h2, h3⟩

/-! ## The hypotheses are met -/

example : jsonLoads (jsonDumps demoDec) = some demoDec :=
  decode_json (fun _ _ c _ hc => cpython_scalar _ c hc) demo_decode

/-- The example of the documentation. -/
example : jsonDumps [(py"t", py"0200"), (py"2", py"cardholder PAN")] = py"{\"t\": \"0200\", \"2\": \"cardholder PAN\"}" := by decide

example : jsonDumps [(py"2", [0x22, 0x7f, 0xe9, 0x1f600])] = py"{\"2\": \"\\\"\\u007f\\u00e9\\ud83d\\ude00\"}" ∧
    jsonLoads py" {\"a\" : \"\\/\\ud83d\\u0041\",\n\"a\":\"b\"} " = some [(py"a", py"b")] ∧
    jsonLoads py"{\"a\": \"b\",}" = none ∧ jsonLoads py"{\"a\": \"\n\"}" = none := by decide +kernel

/-- A text that JSON changes: two surrogates become one character. -/
example : jsonLoads (jsonDumps [(py"2", [0xd83d, 0xde00])]) = some [(py"2", [0x1f600])] := by decide +kernel

example : jsonLoads (jsonDumps [(py"2", [0xd83d, 0x41, 0xde00, 0xd83d, 0x1f600])]) = some [(py"2", [0xd83d, 0x41, 0xde00, 0xd83d, 0x1f600])] :=
  json_roundtrip (by unfold Dict.NoDup; decide) (by
    intro p hp
    cases List.mem_singleton.1 hp
    exact ⟨(ascii_scalar (by decide)).safe, isText_of_all (by decide), by simp [Unpaired, IsHigh, IsLow]⟩)

end Iso8583
