import Verif.Props.AddRemove
import Verif.Props.ErrorText
/-!
# A dict made from another one (C73)
-/

namespace Iso8583

/-- The specification has a secondary bitmap that can be written. -/
def SecondaryKnown (env : PyEnv) (spec : Spec) : Prop :=
  ∃ fs, spec.get? py"1" = some fs ∧ (¬ fs.isBinary → ∃ c, env.codec fs.dataEnc = some c)

/-- The dict has a field above 64, so that a secondary bitmap is sent. -/
def NeedsSecondary (doc : Doc) : Prop := ∃ j, hasField doc j ∧ 64 < j ∧ j ≠ 65

/-- What has to be checked of `doc` when `base` can be encoded: only what differs. -/
structure PatchReady (env : PyEnv) (spec : Spec) (base doc : Doc) : Prop where
  header : doc.get? (.str py"h") ≠ base.get? (.str py"h") → HeaderReady env spec doc
  type : doc.get? (.str py"t") ≠ base.get? (.str py"t") → TypeReady env spec doc
  numbers : ∀ j, hasField doc j → 1 ≤ j ∧ j ≤ 192
  fields : ∀ j, hasField doc j → j ≠ 1 → j ≠ 65 →
    doc.get? (.str (natStr j)) ≠ base.get? (.str (natStr j)) → FieldReady env spec doc j
  secondary : NeedsSecondary doc → ¬ NeedsSecondary base → SecondaryKnown env spec

section
variable {env : PyEnv} {spec : Spec} {doc base : Doc}

theorem flagged_one (hd : DigitsNumeric env) (hc : CanonicalKeys env doc) (hp : NumbersParse env doc) :
    Flagged env doc 1 ↔ NeedsSecondary doc := by
  constructor
  · rintro (h | ⟨e, _⟩ | ⟨_, j, hj, h⟩)
    · obtain ⟨j, e, _, h1, _⟩ := (numbered_canonical hd hc hp).1 h
      omega
    · omega
    · obtain ⟨j', e, hf, _, h65⟩ := (numbered_canonical hd hc hp).1 h
      have : j = j' := by omega
      subst this
      exact ⟨j, hf, hj, h65⟩
  · rintro ⟨j, hf, hj, h65⟩
    exact .inr (.inr ⟨rfl, j, hj, (numbered_canonical hd hc hp).2 ⟨j, rfl, hf, by omega, h65⟩⟩)

end

/-- **C73**: if `base` can be encoded, another dict can be encoded exactly when what differs can be
written: a different header, a different type, fields with another value or new ones, and the
secondary bitmap if it was not needed before. -/
theorem patch_succeeds_iff {env : PyEnv} {spec : Spec} {base doc : Doc} (nd : base.NoDup) (nd' : doc.NoDup)
    (hd : DigitsNumeric env) (hc : CanonicalKeys env base) (hc' : CanonicalKeys env doc) (hstr : ∀ k ∈ doc.keys, ∃ x, k = .str x)
    (hb : BitmapsWritable env spec) (hlim : env.maxStrDigits = 0 ∨ 3 ≤ env.maxStrDigits)
    (h : ∃ r d, encode env spec base = (.ok r, d)) :
    (∃ r d, encode env spec doc = (.ok r, d)) ↔ PatchReady env spec base doc := by
  obtain ⟨r1, r2, r3, r4, r5, r6⟩ := (encode_succeeds_iff nd).1 h
  rw [encode_succeeds_iff nd']
  constructor
  · rintro ⟨q1, q2, q3, q4, q5, q6⟩
    have hnum : ∀ j, hasField doc j → j ≠ 1 → j ≠ 65 → Numbered env doc j := fun j hj h1 h65 =>
      (numbered_canonical hd hc' q3).2 ⟨j, rfl, hj, h1, h65⟩
    refine ⟨fun _ => q1, fun _ => q2, ?_, fun j hj h1 h65 _ => q6 j (hnum j hj h1 h65) h1 h65, fun hs _ =>
      (bitmapsReady_known q5).2 ((flagged_one hd hc' q3).2 hs)⟩
    intro j hj
    by_cases h1 : j = 1
    · omega
    by_cases h65 : j = 65
    · omega
    have := q4 _ (hnum j hj h1 h65)
    omega
  · intro hr
    have hp : NumbersParse env doc := by
      intro k hk _ _
      obtain ⟨x, rfl⟩ := hstr k hk
      refine ⟨x, rfl, fun hn => ?_⟩
      have hall : x ≠ [] ∧ ∀ c ∈ x, env.isNumericCp c = true := by simpa [isNumeric] using hn
      obtain ⟨j, rfl⟩ := hc' x hk hall.1 hall.2
      have := (hr.numbers j hk).2
      refine ⟨_, pyInt_natStr env j ?_⟩
      have : (natStr j).length ≤ 3 := (natStr_length_le (by omega)).2 (by omega)
      omega
    have hrange : ∀ n, Numbered env doc n → 1 ≤ n ∧ n ≤ 192 := by
      intro n hn
      obtain ⟨j, rfl, hj, _⟩ := (numbered_canonical hd hc' hp).1 hn
      have := hr.numbers j hj
      omega
    have k5 := bitmapsReady_known r5
    refine ⟨?_, ?_, hp, hrange, bitmapsReady_of_known hb nd' hp hrange k5.1 ?_, ?_⟩
    · by_cases e : doc.get? (.str py"h") = base.get? (.str py"h")
      · unfold HeaderReady; rw [e]; exact r1
      · exact hr.header e
    · by_cases e : doc.get? (.str py"t") = base.get? (.str py"t")
      · unfold TypeReady; rw [e]; exact r2
      · exact hr.type e
    · intro ha
      by_cases hn : NeedsSecondary base
      · exact k5.2 ((flagged_one hd hc r3).2 hn)
      · exact hr.secondary ((flagged_one hd hc' hp).1 ha) hn
    · intro j hj h1 h65
      obtain ⟨j', e, hf, _⟩ := (numbered_canonical hd hc' hp).1 hj
      have : j = j' := by omega
      subst this
      by_cases e : doc.get? (.str (natStr j)) = base.get? (.str (natStr j))
      · obtain ⟨v, hv⟩ := Dict.mem_keys_iff.1 hf
        have hbf : hasField base j := Dict.mem_keys_iff.2 ⟨v, by rw [← e]; exact hv⟩
        obtain ⟨fs, w, n, L, D, b1, b2, b3⟩ := r6 j ((numbered_canonical hd hc r3).2 ⟨j, rfl, hbf, h1, h65⟩) h1 h65
        exact ⟨fs, w, n, L, D, b1, by rw [e]; exact b2, b3⟩
      · exact hr.fields j hf h1 h65 e

/-- **C73**: every key, bitmaps aside, that has the same value in both dicts (or is in neither) gets
the same entry in both messages. -/
theorem patch_entries {env : PyEnv} {spec : Spec} {base doc d d' : Doc} {s s' : Bytes} {enc enc' : EncDoc}
    (nd : base.NoDup) (nd' : doc.NoDup) (hd : DigitsNumeric env) (hc : CanonicalKeys env base) (hc' : CanonicalKeys env doc)
    (h : encode env spec base = (.ok (s, enc), d)) (h' : encode env spec doc = (.ok (s', enc'), d')) {x : Str}
    (hp : x ≠ py"p") (h1 : x ≠ py"1") (hx : doc.get? (.str x) = base.get? (.str x)) : enc'.get? x = enc.get? x := by
  have hf : ∀ j, x = natStr j → (hasField doc j ↔ hasField base j) := by
    rintro j rfl
    unfold hasField
    rw [Dict.mem_keys_iff, Dict.mem_keys_iff, hx]
  have hiff : x ∈ enc'.keys ↔ x ∈ enc.keys := by
    rw [mem_encode_keys nd hd hc h hp h1, mem_encode_keys nd' hd hc' h' hp h1]
    refine or_congr Iff.rfl (or_congr Iff.rfl ?_)
    constructor
    · rintro ⟨j, e, hj, rest⟩; exact ⟨j, e, (hf j e).1 hj, rest⟩
    · rintro ⟨j, e, hj, rest⟩; exact ⟨j, e, (hf j e).2 hj, rest⟩
  cases he : enc.get? x with
  | none =>
    rw [Dict.get?_eq_none] at he ⊢
    rwa [hiff]
  | some e =>
    obtain ⟨e', he'⟩ := Dict.mem_keys_iff.1 (hiff.2 (Dict.mem_keys_iff.2 ⟨_, he⟩))
    rw [he', encode_local h' h hp h1 rfl hx he' he]

theorem decode_names {env : PyEnv} {spec : Spec} {s : Bytes} {dec : DecDoc} {enc : EncDoc}
    (h : decode env spec s = .ok (dec, enc)) : ∀ k ∈ dec.keys, FieldName k := by
  obtain ⟨ps, hm, rfl, rfl, rfl⟩ := decode_iff.1 h
  intro k hk
  rw [partsDec_keys] at hk
  obtain ⟨p, hp, rfl⟩ := List.mem_map.1 hk
  exact hm.names hp

/-- A decoded dict has canonical keys. -/
theorem asDoc_canonical {env : PyEnv} {spec : Spec} {s : Bytes} {dec : DecDoc} {enc : EncDoc} (hn : AsciiNumeric env)
    (h : decode env spec s = .ok (dec, enc)) : CanonicalKeys env (asDoc dec) := by
  intro k hk hne hall
  rw [asDoc_keys] at hk
  obtain ⟨x, hx, e⟩ := List.mem_map.1 hk
  cases e
  have letter : ∀ c, c < 128 → ¬ (48 ≤ c ∧ c ≤ 57) → k = [c] → False := by
    intro c h1 h2 e
    subst e
    have := hall c (by simp)
    rw [hn c h1] at this
    simp at this
    omega
  rcases decode_names h k hx with e | e | e | ⟨i, _, _, e⟩
  · exact (letter 104 (by decide) (by decide) e).elim
  · exact (letter 116 (by decide) (by decide) e).elim
  · exact (letter 112 (by decide) (by decide) e).elim
  · exact ⟨i, e⟩

/-- **C73**: a reply made from a decoded message, under a specification that writes back what it
reads.  The reply can be encoded exactly when the parts it changes can be written.  Whoever decodes it
sees, bitmaps aside, exactly the header (if there is one), the type and the fields of the reply: the
texts of the request wherever the reply has kept them, otherwise the values of the reply (upper case
if binary). -/
theorem reply {env : PyEnv} {spec : Spec} {s : Bytes} {dec : DecDoc} {enc : EncDoc} {doc : Doc} (hn : AsciiNumeric env)
    (hdg : env.maxStrDigits = 0 ∨ 3 ≤ env.maxStrDigits) (hs : SpecNormal env spec)
    (h : decode env spec s = .ok (dec, enc)) (nd : doc.NoDup) (hc : CanonicalKeys env doc) (hstr : ∀ k ∈ doc.keys, ∃ x, k = .str x) :
    ((∃ r d, encode env spec doc = (.ok r, d)) ↔ PatchReady env spec (asDoc dec) doc) ∧
    ∀ s' enc' d, encode env spec doc = (.ok (s', enc'), d) → ∃ dec', decode env spec s' = .ok (dec', enc') ∧
      (∀ k, k ≠ py"p" → k ≠ py"1" → doc.get? (.str k) = (dec.get? k).map Val.str → dec'.get? k = dec.get? k) ∧
      (∀ k ∈ dec'.keys, k ≠ py"p" → k ≠ py"1" → ∃ fs v, spec.get? k = some fs ∧ doc.get? (.str k) = some v ∧
        dec'.get? k = some (readBack fs v)) ∧
      ∀ k, k ≠ py"p" → k ≠ py"1" →
        (k ∈ dec'.keys ↔ (hasHeader spec ∧ k = py"h") ∨ k = py"t" ∨ ∃ j, k = natStr j ∧ hasField doc j ∧ j ≠ 1 ∧ j ≠ 65) := by
  obtain ⟨s0, enc0, d0, dec0, _, h0, hr0, hsame, _⟩ := reencode hn hdg hs h
  have nd0 : (asDoc dec).NoDup := asDoc_nodup (decode_entries h).2.1
  have hc0 := asDoc_canonical hn h
  refine ⟨patch_succeeds_iff nd0 nd hn.digits hc0 hc hstr hs.laws.writable hdg ⟨_, _, h0⟩, ?_⟩
  intro s' enc' d h'
  obtain ⟨dec', hr', hk', hv'⟩ := encode_decode hs.laws h'
  have n65 : ∀ k ∈ dec'.keys, k ≠ py"65" := by
    intro k hk e
    subst e
    rcases decode_names hr' _ hk with e | e | e | ⟨i, _, h65, e⟩
    · exact absurd e (by decide)
    · exact absurd e (by decide)
    · exact absurd e (by decide)
    · exact h65 (natStr_inj.1 (e.symm.trans (show py"65" = natStr 65 from rfl)))
  have hval : ∀ k ∈ dec'.keys, k ≠ py"p" → k ≠ py"1" → ∃ fs v, spec.get? k = some fs ∧ doc.get? (.str k) = some v ∧
      dec'.get? k = some (readBack fs v) := by
    intro k hk hp h1
    obtain ⟨fs, v, a1, a2, a3⟩ := hv' k (hk' ▸ hk)
    have keep := encode_keeps_values env spec doc (k := .str k) (by simpa using hp) (by simpa using h1) (by simpa using n65 k hk)
    rw [h'] at keep
    exact ⟨fs, v, a1, by rw [← keep]; exact a2, a3⟩
  refine ⟨dec', hr', ?_, hval, ?_⟩
  · intro k hp h1 hk
    rw [← hsame k hp h1]
    rw [← asDoc_get?] at hk
    exact seen_of_entry hs.laws h0 h' hr0 hr' hp h1 hk (patch_entries nd0 nd hn.digits hc0 hc h0 h' hp h1 hk)
  · intro k hp h1
    rw [hk']
    exact mem_encode_keys nd hn.digits hc h' hp h1

/-! ## Examples -/

/-- A request: type 0200, an empty secondary bitmap and field 2. -/
def requestMsg : Bytes := [0x30, 0x32, 0x30, 0x30, 0xC0, 0, 0, 0, 0, 0, 0, 0, 0, 0, 0, 0, 0, 0, 0, 0, 0x20, 0x33, 0x31, 0x32, 0x33]

def requestDec : DecDoc := [(py"t", py"0200"), (py"p", py"C000000000000000"), (py"1", py"0000000000000000"), (py"2", py"123")]

def requestEnc : EncDoc :=
  [(py"t", ⟨[], [0x30, 0x32, 0x30, 0x30]⟩), (py"p", ⟨[], [0xC0, 0, 0, 0, 0, 0, 0, 0]⟩), (py"1", ⟨[], [0, 0, 0, 0, 0, 0, 0, 0]⟩), (py"2", ⟨[0x20, 0x33], [0x31, 0x32, 0x33]⟩)]

theorem request_decode : decode cpython defaultSpec requestMsg = .ok (requestDec, requestEnc) := by decide +kernel

/-- The reply keeps field 2, has another type and the new fields 39 and 70. -/
def replyDoc : Doc :=
  [(.str py"t", .str py"0210"), (.str py"39", .str py"00"), (.str py"70", .str py"301"), (.str py"2", .str py"123")]

def replyMsg : Bytes :=
  [48, 50, 49, 48, 192, 0, 0, 0, 2, 0, 0, 0, 4, 0, 0, 0, 0, 0, 0, 0, 48, 51, 49, 50, 51, 48, 48, 51, 48, 49]

def replyEnc : EncDoc :=
  [(py"t", ⟨[], [48, 50, 49, 48]⟩), (py"p", ⟨[], [192, 0, 0, 0, 2, 0, 0, 0]⟩), (py"1", ⟨[], [4, 0, 0, 0, 0, 0, 0, 0]⟩), (py"2", ⟨[48, 51], [49, 50, 51]⟩), (py"39", ⟨[], [48, 48]⟩), (py"70", ⟨[], [51, 48, 49]⟩)]

theorem reply_encode : (encode cpython defaultSpec replyDoc).1 = .ok (replyMsg, replyEnc) := by decide +kernel

theorem reply_nodup : replyDoc.NoDup := by unfold Dict.NoDup; decide

theorem reply_canonical : CanonicalKeys cpython replyDoc := by
  intro k hk hne hall
  simp only [replyDoc, Dict.keys, List.map_cons, List.map_nil, List.mem_cons, List.not_mem_nil, Key.str.injEq, or_false] at hk
  rcases hk with rfl | rfl | rfl | rfl
  · exact absurd (hall 116 (by decide)) (by decide +kernel)
  · exact ⟨39, rfl⟩
  · exact ⟨70, rfl⟩
  · exact ⟨2, rfl⟩

theorem reply_strKeys : ∀ k ∈ replyDoc.keys, ∃ x, k = .str x := by
  intro k hk
  simp only [replyDoc, Dict.keys, List.map_cons, List.map_nil, List.mem_cons, List.not_mem_nil, or_false] at hk
  rcases hk with rfl | rfl | rfl | rfl <;> exact ⟨_, rfl⟩

/-- The changed parts of the reply can be written. -/
example : PatchReady cpython defaultSpec (asDoc requestDec) replyDoc :=
  (reply cpython_ascii (by decide) (wellFormed_normal default_wellFormed rfl (by decide)) request_decode reply_nodup
    reply_canonical reply_strKeys).1.1 ⟨_, _, Prod.ext reply_encode rfl⟩

/-- Whoever decodes the reply sees field 2 of the request. -/
example : ∃ dec', decode cpython defaultSpec replyMsg = .ok (dec', replyEnc) ∧ dec'.get? py"2" = some py"123" ∧
    dec'.get? py"39" = some py"00" := by
  obtain ⟨dec', h, hkeep, hval, hkeys⟩ := (reply cpython_ascii (by decide)
    (wellFormed_normal default_wellFormed rfl (by decide)) request_decode reply_nodup reply_canonical reply_strKeys).2 _ _ _
    (Prod.ext reply_encode rfl)
  refine ⟨dec', h, (hkeep py"2" (by decide) (by decide) (by decide)).trans (by decide), ?_⟩
  obtain ⟨fs, v, a, b, c⟩ := hval py"39" ((hkeys py"39" (by decide) (by decide)).2
    (.inr (.inr ⟨39, by decide, by unfold hasField; decide, by decide, by decide⟩))) (by decide) (by decide)
  have hv : v = .str py"00" := Option.some.inj (b.symm.trans (by decide))
  have hf : fs.isBinary = false := by
    have := (show defaultSpec.get? py"39" = some _ from rfl).symm.trans a
    injection this with this
    rw [← this]; decide
  subst hv
  rw [c]
  simp [readBack, hf, Val.text]

/-- A reply with the unknown field 193 cannot be encoded, whatever else it has. -/
example : ¬ PatchReady cpython defaultSpec (asDoc requestDec) (replyDoc ++ [(.str py"193", .str py"1")]) := by
  intro h
  have := (h.numbers 193 (by unfold hasField; decide)).2
  omega

/-- An instance of `patch_succeeds_iff`. -/
example : PatchReady cpython defaultSpec replyDoc replyDoc :=
  (patch_succeeds_iff reply_nodup reply_nodup cpython_digits reply_canonical reply_canonical reply_strKeys
    (wellFormed_laws default_wellFormed rfl (by decide)).writable (by decide) ⟨_, _, Prod.ext reply_encode rfl⟩).1
    ⟨_, _, Prod.ext reply_encode rfl⟩

/-- An instance of `patch_entries`. -/
example (enc' : EncDoc) (s' : Bytes) (d' : Doc) (h : encode cpython defaultSpec (replyDoc.set (.str py"39") (.str py"05")) = (.ok (s', enc'), d')) :
    enc'.get? py"2" = replyEnc.get? py"2" :=
  patch_entries reply_nodup (reply_nodup.set _ _) cpython_digits reply_canonical
    (by
      unfold CanonicalKeys
      rw [show Dict.keys (replyDoc.set (.str py"39") (.str py"05")) = replyDoc.keys by decide]
      exact reply_canonical) (Prod.ext reply_encode rfl) h (by decide) (by decide) (by decide)

end Iso8583
