import Verif.Props.Size
import Verif.Props.ShippedAccept
import Verif.Props.Normalise
/-!
# The longest messages (C64)

The bounds of `Verif.Props.Size` are attained: here is a dict for which `encode` writes exactly that
many bytes, which `decode` then accepts.
-/

namespace Iso8583

/-- The zeros that fill a field. -/
def fullText (fs : FieldSpec) : Str := List.replicate (if fs.isBinary then 2 * fs.maxLen.toNat else fs.maxLen.toNat) 48

/-- The fields of the shipped specifications. -/
def fullFields : List Nat := (List.range 129).filter fun i => 2 ≤ i && i != 65

def fullEntry (spec : Spec) (i : Nat) : Key × Val := (.str (natStr i), .str (((spec.get? (natStr i)).map fullText).getD []))

/-- A dict with every field filled, and the key `'065'`, which makes `encode` add a tertiary bitmap. -/
def fullDoc (spec : Spec) : Doc :=
  (.str py"t", .str py"0000") :: (.str py"065", .str []) :: fullFields.map (fullEntry spec)

theorem mem_fullFields {i : Nat} : i ∈ fullFields ↔ 2 ≤ i ∧ i ≤ 128 ∧ i ≠ 65 := by
  simp [fullFields]; omega

theorem natStr_ne_065 {i : Nat} : natStr i ≠ py"065" := by
  intro h
  by_cases hi : i < 1000
  · have : ∀ j ∈ List.range 1000, natStr j ≠ py"065" := by decide +kernel
    exact this i (List.mem_range.2 hi) h
  · have : (natStr i).length ≤ 3 := by rw [h]; decide
    have := (natStr_length_le (by omega)).1 this
    omega

theorem fullDoc_keys (spec : Spec) : (fullDoc spec).keys = .str py"t" :: .str py"065" :: fullFields.map fun i => .str (natStr i) := by
  simp [fullDoc, Dict.keys, fullEntry, Function.comp_def]

theorem fullDoc_nodup (spec : Spec) : (fullDoc spec).NoDup := by
  unfold Dict.NoDup
  rw [fullDoc_keys]
  decide +kernel

theorem fullDoc_get {spec : Spec} {i : Nat} {fs : FieldSpec} (hi : i ∈ fullFields) (hs : spec.get? (natStr i) = some fs) :
    (fullDoc spec).get? (.str (natStr i)) = some (.str (fullText fs)) := by
  refine Dict.get?_of_mem (fullDoc_nodup spec) ?_
  refine List.mem_cons_of_mem _ (List.mem_cons_of_mem _ (List.mem_map.2 ⟨i, hi, ?_⟩))
  simp [fullEntry, hs]

theorem fullText_plain {fs : FieldSpec} (h : 0 ≤ fs.maxLen) : PlainValue fs (.str (fullText fs)) := by
  refine ⟨fs.maxLen.toNat, ?_, ?_⟩
  · split <;> omega
  · split
    · next hb =>
      refine ⟨.inl ⟨_, rfl⟩, by simp [fullText, hb, Val.text], fun c hc => ?_⟩
      rw [List.eq_of_mem_replicate hc]; decide
    · next hb =>
      refine ⟨_, rfl, by simp [fullText, hb], fun c hc => ?_⟩
      rw [List.eq_of_mem_replicate hc]; decide

/-- Filled, a field takes all the room it has. -/
theorem fullText_size {env : PyEnv} {fs : FieldSpec} {n : Nat} {L D : Bytes} (hc : fs.lenCount = none)
    (he : fs.dataEnc = py"b" ∨ fs.dataEnc = py"ascii") (ha : env.codec py"ascii" = some asciiCodec) (hl : FieldLaws env fs)
    (h : FieldWrites env fs (.str (fullText fs)) n L D) : L.length + D.length = fs.lenType + (bytesFor fs fs.maxLen).toNat := by
  have hL : L.length = fs.lenType := (h.reads hl).lenWidth
  have hn := plain_units hc
  have hD : D.length = fs.maxLen.toNat := by
    have hw := h.1
    unfold DataWrites at hw
    by_cases hb : fs.isBinary
    · rw [if_pos hb, if_neg hn] at hw
      have := congrArg List.length hw.1
      simp [upperCase, Val.text, fullText, hb] at this
      omega
    · rw [if_neg hb, if_neg hn] at hw
      obtain ⟨t, c, ht, hc, hD, _⟩ := hw
      rcases he with he | he
      · exact absurd he hb
      · rw [he, ha] at hc; cases hc
        cases ht
        rw [ascii_encode_length hD]
        simp [fullText, hb]
  rw [hL, hD, bytesFor, if_neg hn]

theorem bitmapWritten_length {env : PyEnv} {fs : FieldSpec} {A : Nat → Prop} {off : Nat} {D : Bytes} {t : Str}
    (he : fs.dataEnc = py"b" ∨ fs.dataEnc = py"ascii") (ha : env.codec py"ascii" = some asciiCodec)
    (h : BitmapWritten env fs A off D t) : D.length = bitmapBytes fs := by
  obtain ⟨bm, hl, _, rfl, hD⟩ := h
  unfold bitmapBytes
  by_cases hb : fs.isBinary
  · rw [if_pos hb] at hD ⊢
    rw [hD, hl]
  · rw [if_neg hb] at hD ⊢
    obtain ⟨c, hc, hD⟩ := hD
    rcases he with he | he
    · exact absurd he hb
    · rw [he, ha] at hc; cases hc
      rw [ascii_encode_length hD, hexText_length, hl]

/-- What the filled dict comes to. -/
def fullSize (spec : Spec) : Nat :=
  entryLimit spec py"t" + entryLimit spec py"p" + entryLimit spec py"1" + (fullFields.map fun i => entryLimit spec (natStr i)).sum

theorem fullDoc_numbered {env : PyEnv} (hn : AsciiNumeric env) (hd : env.maxStrDigits = 0 ∨ 3 ≤ env.maxStrDigits) (spec : Spec) :
    NumbersParse env (fullDoc spec) ∧ ∀ n, Numbered env (fullDoc spec) n ↔ n = 65 ∨ ∃ i ∈ fullFields, n = (i : Int) := by
  have h65 : pyInt env py"065" = some 65 := by
    rw [pyInt_digits env (by decide) (by decide), if_neg (by have : (py"065").length = 3 := rfl; omega)]
    decide
  have hi : ∀ i ∈ fullFields, pyInt env (natStr i) = some (i : Int) := by
    intro i hi
    have := mem_fullFields.1 hi
    refine pyInt_natStr env i ?_
    have : (natStr i).length ≤ 3 := (natStr_length_le (by omega)).2 (by omega)
    omega
  have ht : isNumeric env py"t" = false := hn.letter (c := 116) (t := []) (by omega) (by omega)
  have mem : ∀ k, k ∈ (fullDoc spec).keys ↔ k = .str py"t" ∨ k = .str py"065" ∨ ∃ i ∈ fullFields, k = .str (natStr i) := by
    intro k
    rw [fullDoc_keys, List.mem_cons, List.mem_cons, List.mem_map]
    simp only [eq_comm]
  constructor
  · intro k hk _ _
    rcases (mem k).1 hk with rfl | rfl | ⟨i, h, rfl⟩
    · exact ⟨_, rfl, fun h => by rw [ht] at h; cases h⟩
    · exact ⟨_, rfl, fun _ => ⟨_, h65⟩⟩
    · exact ⟨_, rfl, fun _ => ⟨_, hi i h⟩⟩
  · intro n
    constructor
    · rintro ⟨s, hs, _, _, hnu, hp⟩
      rcases (mem _).1 hs with e | e | ⟨i, h, e⟩ <;> cases e
      · rw [ht] at hnu; cases hnu
      · rw [h65] at hp; exact .inl (Option.some.inj hp).symm
      · rw [hi i h] at hp; exact .inr ⟨i, h, (Option.some.inj hp).symm⟩
    · rintro (rfl | ⟨i, h, rfl⟩)
      · refine ⟨py"065", (mem _).2 (.inr (.inl rfl)), by decide, by decide, ?_, h65⟩
        have h0 := hn 48 (by omega)
        have h6 := hn 54 (by omega)
        have h5 := hn 53 (by omega)
        simp [isNumeric, h0, h6, h5]
      · have hf := mem_fullFields.1 h
        exact ⟨natStr i, (mem _).2 (.inr (.inr ⟨i, h, rfl⟩)), natStr_ne_one (by omega), fun e => hf.2.2 (natStr_inj.1 e),
          isNumeric_natStr hn.digits i, hi i h⟩

theorem shipped_wellFormed {spec : Spec} (hs : spec = defaultSpec ∨ spec = defaultAsciiSpec) : WellFormed spec := by
  rcases hs with rfl | rfl
  · exact default_wellFormed
  · exact defaultAscii_wellFormed

/-- The filled dict can be written, and takes at least all the room its fields have. -/
theorem fullDoc_encodes {env : PyEnv} {spec : Spec} (hs : spec = defaultSpec ∨ spec = defaultAsciiSpec)
    (ha : env.codec py"ascii" = some asciiCodec) (hn : AsciiNumeric env) (hd : env.maxStrDigits = 0 ∨ 8 ≤ env.maxStrDigits) :
    ∃ s enc doc', encode env spec (fullDoc spec) = (.ok (s, enc), doc') ∧ fullSize spec ≤ s.length := by
  have wf := shipped_wellFormed hs
  have hl := wellFormed_laws wf ha hd
  obtain ⟨hnp, hnum⟩ := fullDoc_numbered hn (by omega) spec
  have nd := fullDoc_nodup spec
  have hget : ∀ i ∈ fullFields, ∃ fs, spec.get? (natStr i) = some fs := fun i hi =>
    Dict.mem_keys_iff.1 ((wf.keys _).2 (.inr (.inr (.inr ⟨i, by have := mem_fullFields.1 hi; omega, by have := mem_fullFields.1 hi; omega, rfl⟩))))
  have hok : ∃ r doc', encode env spec (fullDoc spec) = (.ok r, doc') := by
    rw [shipped_encode_iff hs ha nd]
    refine ⟨⟨py"0000", Dict.get?_of_mem nd (by simp [fullDoc]), rfl, by decide⟩, hnp, fun n h => ?_, fun i h h1 h65 => ?_⟩
    · rcases (hnum n).1 h with rfl | ⟨i, hi, rfl⟩
      · omega
      · have := mem_fullFields.1 hi; omega
    · rcases (hnum _).1 h with e | ⟨j, hj, e⟩
      · omega
      · have : i = j := by omega
        subst this
        obtain ⟨fs, hfs⟩ := hget i hj
        refine ⟨fs, _, hfs, fullDoc_get hj hfs, fullText_plain ?_⟩
        by_cases h0 : fs.lenType = 0
        · exact Int.le_of_lt (wf.fixed _ _ hfs h0 (natStr_ne_letter (by decide)))
        · exact Int.le_of_lt (wf.lengths _ _ hfs h0).1
  obtain ⟨⟨s, enc⟩, doc', h⟩ := hok
  refine ⟨s, enc, doc', h, ?_⟩
  obtain ⟨ps, b, ⟨_, _, hh, t, f, F, rfl, hhd, hty, hbm, _, hF, hfk, hff⟩, rfl, rfl, _⟩ := (encode_iff nd).1 h
  rw [wire_parts_length]
  have h65 : Flagged env (fullDoc spec) 65 := .inl ((hnum _).2 (.inl rfl))
  have h1 : Flagged env (fullDoc spec) 1 := .inr (.inr ⟨rfl, 65, by omega, (hnum _).2 (.inl rfl)⟩)
  have htl : t.entry.len.length + t.entry.data.length = entryLimit spec py"t" := by
    obtain ⟨fs, v, D, hfs, _, rfl, hD, _⟩ := hty
    have hnn : ¬ (asType fs).inNibbles := by simp [FieldSpec.inNibbles, asType]
    unfold DataWrites at hD
    simp only [if_neg hnn] at hD
    have : typeBytes fs = D.length := by
      split at hD
      · exact hD.2
      · obtain ⟨_, _, _, _, _, h⟩ := hD; exact h
    simp [entryLimit, hfs, this]
  have hbl : (b.map fun p => p.entry.len.length + p.entry.data.length).sum = entryLimit spec py"p" + entryLimit spec py"1" := by
    cases hbm with
    | one n1 _ _ => exact absurd h1 n1
    | two _ n65 _ _ _ _ => exact absurd h65 n65
    | @three fs fs1 _ _ _ _ _ _ _ _ hfs hw hfs1 hw1 hw2 =>
      have l := bitmapWritten_length (wf.encodings _ _ hfs).1 ha hw
      have l1 := bitmapWritten_length (wf.encodings _ _ hfs1).1 ha hw1
      have l2 := bitmapWritten_length (wf.encodings _ _ hfs1).1 ha hw2
      have e : entryLimit spec py"p" = bitmapBytes fs := by simp [entryLimit, hfs]
      have e1 : entryLimit spec py"1" = 2 * bitmapBytes fs1 := by simp [entryLimit, hfs1]
      simp only [e, e1, List.map_cons, List.map_nil, List.sum_cons, List.sum_nil, List.length_nil, List.length_append]
      omega
  have hfl : (f.map fun p => p.entry.len.length + p.entry.data.length) = F.map fun i => entryLimit spec (natStr i) := by
    have : (f.map fun p => p.entry.len.length + p.entry.data.length) = (f.map Part.key).map (entryLimit spec) := by
      rw [List.map_map]
      refine List.map_congr_left fun p hp => ?_
      obtain ⟨fs, v, n, hfs, hv, hw, _⟩ := hff p hp
      have hk : p.key ∈ F.map natStr := by rw [← hfk]; exact List.mem_map.2 ⟨p, hp, rfl⟩
      obtain ⟨i, hi, e⟩ := List.mem_map.1 hk
      obtain ⟨hi, i1, i65⟩ := (hF i).1 hi
      have hj : i ∈ fullFields := by
        rcases (hnum _).1 hi with e | ⟨j, hj, e⟩
        · omega
        · have : i = j := by omega
          rw [this]; exact hj
      rw [← e] at hfs hv
      rw [fullDoc_get hj hfs] at hv
      cases hv
      have kt : natStr i ≠ py"t" := natStr_ne_letter (by decide)
      have kp : natStr i ≠ py"p" := natStr_ne_letter (by decide)
      have k1 : natStr i ≠ py"1" := natStr_ne_one i1
      rw [fullText_size (wf.plain _ _ hfs).1 (wf.encodings _ _ hfs).1 ha (hl.fields _ _ hfs kt kp k1) hw]
      simp only [Function.comp_def, ← e, entryLimit, hfs, if_neg kt, if_neg kp, if_neg k1]
    rw [this, hfk, List.map_map]; rfl
  have hle : (fullFields.map fun i => entryLimit spec (natStr i)).sum ≤ (F.map fun i => entryLimit spec (natStr i)).sum := by
    refine sum_le_of_subset _ (by decide +kernel) fun i hi => (hF i).2 ⟨(hnum _).2 (.inr ⟨i, hi, rfl⟩), ?_⟩
    have := mem_fullFields.1 hi
    omega
  simp only [List.map_append, List.map_cons, List.sum_append, List.sum_cons]
  rw [hbl, hfl, htl, fullSize]
  omega

/-- **C64**: these bounds are the best possible.  Under either shipped specification there is a dict
for which `encode` writes a message of exactly that many bytes, and `decode` accepts it. -/
theorem shipped_size_attained {env : PyEnv} (ha : env.codec py"ascii" = some asciiCodec) (hn : AsciiNumeric env)
    (hd : env.maxStrDigits = 0 ∨ 8 ≤ env.maxStrDigits) :
    (∃ doc s enc doc' dec, encode env defaultSpec doc = (.ok (s, enc), doc') ∧ decode env defaultSpec s = .ok (dec, enc) ∧
      s.length = 35806) ∧
    (∃ doc s enc doc' dec, encode env defaultAsciiSpec doc = (.ok (s, enc), doc') ∧
      decode env defaultAsciiSpec s = .ok (dec, enc) ∧ s.length = 36117) := by
  constructor
  · obtain ⟨s, enc, doc', h, hle⟩ := fullDoc_encodes (.inl rfl) ha hn hd
    obtain ⟨dec, h', _⟩ := shipped_round_trip (.inl rfl) ha hd h
    exact ⟨_, s, enc, doc', dec, h, h', Nat.le_antisymm ((shipped_message_size ha).1 h') (Nat.le_trans (by decide +kernel) hle)⟩
  · obtain ⟨s, enc, doc', h, hle⟩ := fullDoc_encodes (.inr rfl) ha hn hd
    obtain ⟨dec, h', _⟩ := shipped_round_trip (.inr rfl) ha hd h
    exact ⟨_, s, enc, doc', dec, h, h', Nat.le_antisymm ((shipped_message_size ha).2 h') (Nat.le_trans (by decide +kernel) hle)⟩

example : ∃ doc s enc doc' dec, encode cpython defaultSpec doc = (.ok (s, enc), doc') ∧
    decode cpython defaultSpec s = .ok (dec, enc) ∧ s.length = 35806 :=
  (shipped_size_attained rfl cpython_ascii (.inr (by decide))).1

/-- What a message without a tertiary bitmap can take. -/
def plainLimit (spec : Spec) (k : Str) : Nat := if k = py"1" then ((spec.get? k).map bitmapBytes).getD 0 else entryLimit spec k

/-- **C64**: the largest messages need such a key.  As long as none denotes 65, `encode` adds no
tertiary bitmap, and messages stay that much shorter. -/
theorem shipped_encode_size_plain {env : PyEnv} (ha : env.codec py"ascii" = some asciiCodec)
    (hd : env.maxStrDigits = 0 ∨ 8 ≤ env.maxStrDigits) {doc doc' : Doc} {s : Bytes} {enc : EncDoc} (nd : doc.NoDup)
    (hno : ¬ Numbered env doc 65) :
    (encode env defaultSpec doc = (.ok (s, enc), doc') → s.length ≤ 35798) ∧
    (encode env defaultAsciiSpec doc = (.ok (s, enc), doc') → s.length ≤ 36101) := by
  have main : ∀ spec, spec = defaultSpec ∨ spec = defaultAsciiSpec → encode env spec doc = (.ok (s, enc), doc') →
      s.length ≤ ((spec.keys.filter (· ≠ py"65")).map (plainLimit spec)).sum := by
    intro spec hs h
    have wf := shipped_wellFormed hs
    have hb := wellFormed_bounded wf ha
    obtain ⟨dec, h', _⟩ := shipped_round_trip hs ha hd h
    have hrange := ((shipped_encode_iff hs ha nd).1 ⟨_, _, h⟩).2.2.1
    obtain ⟨ps, b, ⟨_, _, hh, t, f, F, hps, hhd, hty, hbm, _, hF, hfk, hff⟩, he', hs', _⟩ := (encode_iff nd).1 h
    have hnd := (decode_entries h').2.1
    obtain ⟨qs, hm, hdec, he, _⟩ := decode_iff.1 h'
    rw [he'] at he hs'
    rw [hdec] at hnd
    have hn65 : ¬ Flagged env doc 65 := by
      rintro (h | ⟨_, j, hj, h⟩ | ⟨h, _⟩)
      · exact hno h
      · have := hrange _ h; omega
      · omega
    have key : ps.map Part.key = qs.map Part.key := by
      have := congrArg (List.map Prod.fst) he
      simpa [partsEnc, Function.comp_def] using this
    have ent : ∀ p ∈ ps, ∃ q ∈ qs, q.key = p.key ∧ q.entry = p.entry := by
      intro p hp
      have : (p.key, p.entry) ∈ partsEnc qs := by rw [← he]; exact List.mem_map.2 ⟨p, hp, rfl⟩
      obtain ⟨q, hq, e⟩ := List.mem_map.1 this
      exact ⟨q, hq, (Prod.mk.inj e).1, (Prod.mk.inj e).2⟩
    rw [partsDec_keys, ← key] at hnd
    rw [hs', wire_parts_length]
    have hl : ∀ p ∈ ps, (p.key ∈ spec.keys ∧ p.key ≠ py"65") ∧ p.entry.len.length + p.entry.data.length ≤ plainLimit spec p.key := by
      intro p hp
      obtain ⟨q, hq, e1, e2⟩ := ent p hp
      have := hm.limits hb q hq
      rw [e1, e2] at this
      refine ⟨this.1, ?_⟩
      unfold plainLimit
      split
      · next h1 =>
        have hpb : p ∈ b := by
          rw [hps] at hp
          simp only [List.append_assoc, List.cons_append, List.mem_append, List.mem_cons] at hp
          rcases hp with hp | rfl | hp | hp
          · obtain ⟨_, _, ⟨_, rfl⟩ | ⟨_, r, rfl, hr, _⟩⟩ := hhd
            · cases hp
            · rw [List.mem_singleton] at hp; subst hp
              rw [hr] at h1; exact absurd h1 (by decide)
          · obtain ⟨_, _, _, _, _, rfl, _⟩ := hty
            exact absurd h1 (by simp)
          · exact hp
          · have : p.key ∈ F.map natStr := by rw [← hfk]; exact List.mem_map.2 ⟨p, hp, rfl⟩
            obtain ⟨i, hi, e⟩ := List.mem_map.1 this
            exact absurd (e.trans h1) (natStr_ne_one ((hF i).1 hi).2.1)
        cases hbm with
        | one _ _ _ => simp only [List.mem_singleton] at hpb; subst hpb; exact absurd h1 (by simp)
        | @two fs fs1 _ _ _ _ _ _ _ _ hfs1 hw1 =>
          simp only [List.mem_cons, List.not_mem_nil, or_false] at hpb
          rcases hpb with rfl | rfl
          · exact absurd h1 (by simp)
          · simp [hfs1, bitmapWritten_length (wf.encodings _ _ hfs1).1 ha hw1]
        | three _ h65 _ _ _ _ _ => exact absurd h65 hn65
      · exact this.2
    refine Nat.le_trans ?_ (sum_le_of_subset (plainLimit spec) hnd fun x hx => ?_)
    · clear hnd key ent he he' hs' hps h h' hdec
      induction ps with
      | nil => simp
      | cons p ps ih =>
        have := ih fun q hq => hl q (by simp [hq])
        have h1 := (hl p (by simp)).2
        simp only [List.map_cons, List.sum_cons]
        omega
    · obtain ⟨p, hp, rfl⟩ := List.mem_map.1 hx
      exact List.mem_filter.2 ⟨(hl p hp).1.1, by simpa using (hl p hp).1.2⟩
  exact ⟨fun h => Nat.le_trans (main _ (.inl rfl) h) (by decide +kernel), fun h => Nat.le_trans (main _ (.inr rfl) h) (by decide +kernel)⟩

/-- It applies to a message of the shipped specification. -/
example : ∃ r doc', encode cpython defaultSpec shippedDoc = (.ok r, doc') ∧ r.1.length ≤ 35798 := by
  obtain ⟨⟨s, enc⟩, doc', h⟩ : ∃ r doc', encode cpython defaultSpec shippedDoc = (.ok r, doc') := by
    have h : (match encode cpython defaultSpec shippedDoc with
      | (.ok _, _) => true
      | _ => false) = true := by decide +kernel
    split at h
    · next r doc' he => exact ⟨r, doc', he⟩
    · cases h
  refine ⟨_, _, h, (shipped_encode_size_plain rfl (.inr (by decide)) (by unfold Dict.NoDup; decide) ?_).1 h⟩
  rintro ⟨s, hs, _, _, _, hp⟩
  have : ∀ k ∈ shippedDoc.keys, (match k with | .str s => pyInt cpython s | .obj _ => none) ≠ some 65 := by decide +kernel
  exact this _ hs hp

end Iso8583
