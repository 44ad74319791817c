import Verif.Props.PrettyPrint
import Verif.Props.DecodeContent
import Verif.Props.EncodeDict
import Verif.Props.EncodeFailure
import Verif.Props.Shipped
/-!
# `pp` on what `decode` and `encode` return (C53)
-/

namespace Iso8583

/-- The decoded dict, as `pp` sees it. -/
def printDec (dec : DecDoc) : PpDoc := dec.map fun kv => (.str kv.1, .str kv.2)

/-- The encoded dict, as `pp` sees it. -/
def printEnc (enc : EncDoc) : PpDoc := enc.map fun kv => (.str kv.1, .dict (some kv.2.len) (some kv.2.data))

/-- Descriptions are off, or every entry of the specification has one. -/
def Described (spec : Spec) (descWidth : Int) : Prop :=
  descWidth ≤ 0 ∨ ∀ k fs, spec.get? k = some fs → ∃ d, fs.desc = some d

/-- `pp` printed exactly the keys `ks`, in that order, each with its own group of lines. -/
def Prints (env : PyEnv) (spec : Spec) (dw lw : Int) (doc : PpDoc) (ks : List Str) : Prop :=
  ∃ text, (∀ k ∈ ks, ∃ v, doc.get? (.str k) = some v ∧ FieldText env spec dw lw k v (text k)) ∧
    pp env doc spec dw lw = (.ok (), ks.flatMap text)

theorem filterMap_str_all {f : Key → Option Str} : ∀ {l : List Str}, (∀ k ∈ l, f (.str k) = some k) →
    (l.map Key.str).filterMap f = l
  | [], _ => rfl
  | k :: t, h => by
    rw [List.map_cons, List.filterMap_cons_some (h k (by simp)), filterMap_str_all fun x hx => h x (by simp [hx])]

theorem filterMap_str_none {f : Key → Option Str} : ∀ {l : List Str}, (∀ k ∈ l, f (.str k) = none) →
    (l.map Key.str).filterMap f = []
  | [], _ => rfl
  | k :: t, h => by
    rw [List.map_cons, List.filterMap_cons_none (h k (by simp)), filterMap_str_none fun x hx => h x (by simp [hx])]

theorem message_prints {env : PyEnv} {spec : Spec} {dw lw : Int} {doc : PpDoc} {F : List Nat} {H B : List Str}
    (he : AsciiNumeric env) (hdig : env.maxStrDigits = 0 ∨ 3 ≤ env.maxStrDigits) (hdesc : Described spec dw)
    (hs : ∀ k ∈ H ++ [py"t"] ++ B ++ F.map natStr, ∃ fs, spec.get? k = some fs)
    (hh : ∃ fs, spec.get? py"h" = some fs) (hF : F.Pairwise (· < ·)) (hb : ∀ i ∈ F, 2 ≤ i ∧ i ≤ 192)
    (hH : (hasHeader spec ∧ H = [py"h"]) ∨ (¬ hasHeader spec ∧ H = [])) (hB : B = [py"p"] ∨ B = [py"p", py"1"])
    (nd : doc.NoDup) (hk : doc.keys = (H ++ [py"t"] ++ B ++ F.map natStr).map Key.str) :
    Prints env spec dw lw doc (H ++ [py"t"] ++ B ++ F.map natStr) := by
  have mem : ∀ k, .str k ∈ doc.keys ↔ k ∈ H ++ [py"t"] ++ B ++ F.map natStr := by
    intro k
    rw [hk, List.mem_map]
    constructor
    · rintro ⟨x, hx, e⟩; cases e; exact hx
    · intro h; exact ⟨k, h, rfl⟩
  have num : ∀ i, i ≤ 192 → isNumeric env (natStr i) = true ∧ pyInt env (natStr i) = some (i : Int) := by
    intro i hi
    refine ⟨isNumeric_natStr he.digits i, pyInt_natStr env i ?_⟩
    have := (natStr_length_le (w := 3) (n := i) (by omega)).2 (by omega)
    omega
  have lh : isNumeric env py"h" = false := he.letter (by decide) (by decide)
  have lt : isNumeric env py"t" = false := he.letter (by decide) (by decide)
  have lp : isNumeric env py"p" = false := he.letter (by decide) (by decide)
  -- the secondary bitmap is just another number
  obtain ⟨N, hN, hNb, hNp⟩ : ∃ N : List Nat, H ++ [py"t"] ++ B ++ F.map natStr = H ++ [py"t"] ++ [py"p"] ++ N.map natStr ∧
      (∀ i ∈ N, i ≤ 192) ∧ N.Pairwise (· < ·) := by
    rcases hB with rfl | rfl
    · exact ⟨F, rfl, fun i hi => (hb i hi).2, hF⟩
    · refine ⟨1 :: F, by simp [show natStr 1 = py"1" by decide], ?_, ?_⟩
      · intro i hi
        rcases List.mem_cons.1 hi with rfl | hi
        · omega
        · exact (hb i hi).2
      · refine List.pairwise_cons.2 ⟨?_, hF⟩
        intro i hi
        have := (hb i hi).1
        omega
  have hnums : numericStrs env doc = N.map natStr := by
    unfold numericStrs
    rw [hk, hN, List.map_append, List.filterMap_append, filterMap_str_none, filterMap_str_all, List.nil_append]
    · intro k hk'
      obtain ⟨i, hi, rfl⟩ := List.mem_map.1 hk'
      simp [(num i (hNb i hi)).1]
    · intro k hk'
      have : isNumeric env k = false := by
        rcases hH with ⟨_, rfl⟩ | ⟨_, rfl⟩
        · simp only [List.cons_append, List.nil_append, List.mem_cons, List.not_mem_nil, or_false] at hk'
          rcases hk' with rfl | rfl | rfl
          · exact lh
          · exact lt
          · exact lp
        · simp only [List.cons_append, List.nil_append, List.mem_cons, List.not_mem_nil, or_false] at hk'
          rcases hk' with rfl | rfl
          · exact lt
          · exact lp
      simp [this]
  have hpk : PrintedKeys env spec doc (H ++ [py"t"] ++ B ++ F.map natStr) := by
    refine ⟨H ++ [py"t"] ++ [py"p"], N.map natStr, hN, ⟨H, [py"t"], [py"p"], rfl, ?_, .inl ⟨?_, rfl⟩, .inl ⟨?_, rfl⟩⟩, ?_, ?_⟩
    · rcases hH with ⟨h, rfl⟩ | ⟨h, rfl⟩
      · exact .inl ⟨(mem _).2 (by simp), h, rfl⟩
      · exact .inr ⟨fun h' => h h'.2, rfl⟩
    · exact (mem _).2 (by simp)
    · exact (mem _).2 (by rw [hN]; simp)
    · rw [hnums]
    · rw [List.pairwise_map]
      refine hNp.imp_of_mem ?_
      intro i j hi hj hij
      exact ⟨i, j, (num i (hNb i hi)).2, (num j (hNb j hj)).2, .inl (by omega)⟩
  have hgroup : ∀ k ∈ H ++ [py"t"] ++ B ++ F.map natStr, ∃ t v, doc.get? (.str k) = some v ∧ FieldText env spec dw lw k v t := by
    intro k hk'
    obtain ⟨v, hv⟩ := Option.isSome_iff_exists.1 (Dict.get?_isSome.2 ((mem k).2 hk'))
    obtain ⟨fs, hfs⟩ := hs k hk'
    have : ∃ d, DescText spec dw k d := by
      rcases hdesc with h | h
      · exact ⟨[], .inl ⟨h, rfl⟩⟩
      · by_cases h0 : 0 < dw
        · obtain ⟨d, hd⟩ := h k fs hfs
          exact ⟨_, .inr ⟨h0, fs, d, hfs, hd, rfl⟩⟩
        · exact ⟨[], .inl ⟨by omega, rfl⟩⟩
    obtain ⟨d, hd⟩ := this
    exact ⟨_, v, hv, fieldText_iff.2 ⟨d, descText_ok.2 hd, rfl⟩⟩
  have : ∃ text : Str → Str, ∀ k ∈ H ++ [py"t"] ++ B ++ F.map natStr,
      ∃ v, doc.get? (.str k) = some v ∧ FieldText env spec dw lw k v (text k) := by
    refine ⟨fun k => if h : k ∈ H ++ [py"t"] ++ B ++ F.map natStr then (hgroup k h).choose else [], ?_⟩
    intro k hk'
    dsimp only
    rw [dif_pos hk']
    exact (hgroup k hk').choose_spec
  obtain ⟨text, ht⟩ := this
  refine ⟨text, ht, (pp_ok_iff nd).2 ⟨fun _ => hh, ?_, _, text, hpk, ht, rfl⟩⟩
  intro k hkm hkn
  have : k ∈ numericStrs env doc := mem_numericStrs.2 ⟨hkm, hkn⟩
  rw [hnums] at this
  obtain ⟨i, hi, rfl⟩ := List.mem_map.1 this
  exact ⟨_, (num i (hNb i hi)).2⟩

theorem keys_printDec (dec : DecDoc) : (printDec dec).keys = dec.keys.map Key.str := by
  simp [printDec, Dict.keys]

theorem keys_printEnc (enc : EncDoc) : (printEnc enc).keys = enc.keys.map Key.str := by
  simp [printEnc, Dict.keys]

theorem nodup_map_str {l : List Str} (h : l.Nodup) : (l.map Key.str).Nodup := by
  rw [List.Nodup, List.pairwise_map]
  exact h.imp fun hne e => hne (by simpa using e)

/-- **C30** with the upper bound for the usual codecs. -/
theorem decode_keys_bounded {env : PyEnv} {spec : Spec} {s : Bytes} {dec : DecDoc} {enc : EncDoc}
    (h : decode env spec s = .ok (dec, enc)) (hb : BoundedBitmaps env spec) :
    ∃ F : List Nat, F.Pairwise (· < ·) ∧ (∀ i ∈ F, 2 ≤ i ∧ i ≤ 192) ∧
      ∃ H B, ((hasHeader spec ∧ H = [py"h"]) ∨ (¬ hasHeader spec ∧ H = [])) ∧ (B = [py"p"] ∨ B = [py"p", py"1"]) ∧
        enc.keys = H ++ [py"t"] ++ B ++ F.map natStr := by
  obtain ⟨items, ⟨hdr, ty, bms, flds, F, rfl, hh, ht, hbr, hf⟩, rfl, rfl, rfl⟩ := decode_ok_iff.1 h
  obtain ⟨hF, h1, h65, h0⟩ := hbr.fields
  refine ⟨sortedNat F, sortedNat_lt hF, ?_, keysOf hdr, keysOf bms, ?_, hbr.keys, ?_⟩
  · intro i hi
    simp only [mem_sortedNat] at hi
    have a0 : i ≠ 0 := by rintro rfl; exact h0 hi
    have a1 : i ≠ 1 := by rintro rfl; exact h1 hi
    have := hbr.le192 hb i hi
    omega
  · obtain ⟨fs, hs, hh⟩ := hh
    split at hh
    · next hm => right; subst hh; exact ⟨by rintro ⟨fs', hs', hp⟩; rw [hs] at hs'; cases hs'; omega, rfl⟩
    · next hm => left; obtain ⟨n, it, rfl, hk, _⟩ := hh; exact ⟨⟨fs, hs, by omega⟩, by simp [hk]⟩
  · rw [keys_encOf]; simp [hf.keys, ht.choose_spec.2.1]

/-- **C53** (decode): `pp` prints both dicts `decode` returned without raising: every key once, in the
order of the message. -/
theorem pp_decoded {env : PyEnv} {spec : Spec} {s : Bytes} {dec : DecDoc} {enc : EncDoc} {dw lw : Int}
    (h : decode env spec s = .ok (dec, enc)) (he : AsciiNumeric env) (hdig : env.maxStrDigits = 0 ∨ 3 ≤ env.maxStrDigits)
    (hb : BoundedBitmaps env spec) (hdesc : Described spec dw) :
    Prints env spec dw lw (printDec dec) dec.keys ∧ Prints env spec dw lw (printEnc enc) enc.keys := by
  have hent := decode_entries h
  have hhdr : ∃ fs, spec.get? py"h" = some fs := by
    obtain ⟨items, ⟨hdr, ty, bms, flds, F0, _, hh, _, _, _⟩, _⟩ := decode_ok_iff.1 h
    exact ⟨hh.choose, hh.choose_spec.1⟩
  obtain ⟨F, hF, hle, H, B, hH, hB, hk⟩ := decode_keys_bounded h hb
  have hs : ∀ k ∈ H ++ [py"t"] ++ B ++ F.map natStr, ∃ fs, spec.get? k = some fs := by
    intro k hk'
    rw [← hk] at hk'
    obtain ⟨e, hee⟩ := Option.isSome_iff_exists.1 (Dict.get?_isSome.2 hk')
    obtain ⟨v, _, fs, hfs, _⟩ := hent.2.2 k e hee
    exact ⟨fs, hfs⟩
  refine ⟨?_, ?_⟩
  · rw [hent.1, hk]
    refine message_prints he hdig hdesc hs hhdr hF hle hH hB ?_ (by rw [keys_printDec, hent.1, hk])
    unfold Dict.NoDup
    rw [keys_printDec]
    exact nodup_map_str hent.2.1
  · rw [hk]
    refine message_prints he hdig hdesc hs hhdr hF hle hH hB ?_ (by rw [keys_printEnc, hk])
    unfold Dict.NoDup
    rw [keys_printEnc, ← hent.1]
    exact nodup_map_str hent.2.1

/-- **C53** (encode): the same for the dict `encode` returned. -/
theorem pp_encoded {env : PyEnv} {spec : Spec} {doc doc' : Doc} {s : Bytes} {enc : EncDoc} {dw lw : Int}
    (h : encode env spec doc = (.ok (s, enc), doc')) (he : AsciiNumeric env)
    (hdig : env.maxStrDigits = 0 ∨ 3 ≤ env.maxStrDigits) (hdesc : Described spec dw) :
    Prints env spec dw lw (printEnc enc) enc.keys := by
  obtain ⟨F, hF, hFb, H, B, hH, hB, hk⟩ := encode_keys h
  obtain ⟨ns, _, hr, items, bms, hw, rfl, rfl, rfl⟩ := encode_ok_iff.1 h
  obtain ⟨hnd, _⟩ := inRange_mem hr
  have hs : ∀ k ∈ (encOf items).keys, ∃ fs, spec.get? k = some fs := by
    intro k hk'
    rw [keys_encOf] at hk'
    obtain ⟨it, hit, rfl⟩ := List.mem_map.1 hk'
    obtain ⟨fs, v, hs, _⟩ := hw.vals it hit
    exact ⟨fs, hs⟩
  have hhdr : ∃ fs, spec.get? py"h" = some fs := by
    obtain ⟨fs, hs, _⟩ := (encode_needs_type h).1
    exact ⟨fs, hs⟩
  have hn : (encOf items).keys.Nodup := by rw [keys_encOf]; exact hw.nodup hnd
  rw [hk] at hs hn ⊢
  refine message_prints he hdig hdesc hs hhdr hF (fun i hi => ⟨(hFb i hi).1, (hFb i hi).2.1⟩) hH hB ?_ (by rw [keys_printEnc, hk])
  unfold Dict.NoDup
  rw [keys_printEnc, hk]
  exact nodup_map_str hn

/-- Both shipped specifications describe every entry. -/
theorem shipped_described {spec : Spec} (hs : spec = defaultSpec ∨ spec = defaultAsciiSpec) (dw : Int) : Described spec dw := by
  have key : ∀ spec : Spec, (∀ p ∈ spec, p.2.desc.isSome = true) → Described spec dw := by
    intro spec h
    right
    intro k fs hk
    exact Option.isSome_iff_exists.1 (h _ (Dict.mem_of_get? hk))
  rcases hs with rfl | rfl
  · exact key _ (by decide +kernel)
  · exact key _ (by decide +kernel)

/-- With a shipped specification `pp` never fails on what `encode` returned. -/
theorem shipped_pp {env : PyEnv} {spec : Spec} (hs : spec = defaultSpec ∨ spec = defaultAsciiSpec) (he : AsciiNumeric env)
    (hdig : env.maxStrDigits = 0 ∨ 3 ≤ env.maxStrDigits) {doc doc' : Doc} {s : Bytes} {enc : EncDoc} {dw lw : Int}
    (h : encode env spec doc = (.ok (s, enc), doc')) : Prints env spec dw lw (printEnc enc) enc.keys :=
  pp_encoded h he hdig (shipped_described hs dw)

/-- Both dicts of the worked message, without descriptions. -/
example : Prints cpython demoSpec 0 40 (printDec demoDec) demoDec.keys ∧ Prints cpython demoSpec 0 40 (printEnc demoEnc) demoEnc.keys := by
  refine pp_decoded demo_decode cpython_ascii (by decide) ?_ (.inl (by decide))
  intro k fs hk hs
  right
  intro c hc
  exact (cpython_codecs_lawful _ c hc).bounded

example : Prints cpython demoSpec 0 40 (printEnc demoEnc) demoEnc.keys :=
  pp_encoded demo_encode cpython_ascii (by decide) (.inl (by decide))

/-- An instance of `shipped_pp`. -/
example : ∃ r doc', encode cpython defaultSpec shippedDoc = (.ok r, doc') ∧ Prints cpython defaultSpec 30 80 (printEnc r.2) r.2.keys := by
  obtain ⟨⟨s, enc⟩, doc', h⟩ : ∃ r doc', encode cpython defaultSpec shippedDoc = (.ok r, doc') := by
    have h : (match encode cpython defaultSpec shippedDoc with
      | (.ok _, _) => true
      | _ => false) = true := by decide +kernel
    split at h
    · next r doc' he => exact ⟨r, doc', he⟩
    · cases h
  exact ⟨_, _, h, shipped_pp (.inl rfl) cpython_ascii (by decide) h⟩

/-- An instance of `decode_keys_bounded`. -/
example : ∃ F : List Nat, F.Pairwise (· < ·) ∧ (∀ i ∈ F, 2 ≤ i ∧ i ≤ 192) ∧ ∃ H B, demoEnc.keys = H ++ [py"t"] ++ B ++ F.map natStr := by
  obtain ⟨F, h, h', H, B, _, _, hk⟩ := decode_keys_bounded demo_decode (by
    intro k fs hk hs
    rcases hk with rfl | rfl
    · exact .inl (by cases hs; decide)
    · refine .inr fun c hc => ?_
      cases hs
      cases hc
      exact ascii_lawful.bounded)
  exact ⟨F, h, h', H, B, hk⟩

end Iso8583
