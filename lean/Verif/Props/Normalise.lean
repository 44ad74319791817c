import Verif.Spec.Normal
import Verif.Props.DecodeEncode
import Verif.Props.Grammar
import Verif.Props.ShippedAccept
import Verif.Props.PrettyPrintResult
/-!
# Every accepted message can be written again (C61)
-/

namespace Iso8583

theorem upper_of_hex_not_lower {c : Nat} (h : isHexDigit c = true) (h' : ¬ (97 ≤ c ∧ c ≤ 122)) : isUpperHexDigit c = true := by
  simp only [isHexDigit, isUpperHexDigit, Bool.or_eq_true, Bool.and_eq_true, decide_eq_true_eq] at *
  omega

/-- Hex digits of an even number are the text of some bytes. -/
theorem hexBytes {t : Str} (h : t.length % 2 = 0) (hx : ∀ c ∈ t, isHexDigit c = true) :
    ∃ D, hexText D = upperCase t ∧ 2 * D.length = t.length := by
  obtain ⟨D, hD⟩ := hexText_exists.2 ⟨h, hx⟩
  have := congrArg List.length hD
  rw [hexText_length, upperCase_length] at this
  exact ⟨D, hD, this⟩

/-- What a field was read as can be written, in as many bytes. -/
theorem fieldRead_rewrites {env : PyEnv} {fs : FieldSpec} {e : EncEntry} {v : Str} (hN : FieldNormal env fs)
    (h : FieldRead env fs e v) : (∃ n L D, FieldWrites env fs (.str v) n L D) ∧ readBack fs (.str v) = v := by
  obtain ⟨n, ⟨hu, _⟩, hl, hs, hm⟩ := h
  have hn0 : 0 ≤ n := by
    apply Classical.byContradiction
    intro hlt
    unfold bytesFor at hl
    by_cases hb : fs.isBinary
    · by_cases hi : fs.inNibbles
      · rw [if_pos hi] at hl
        have := hm hb hi
        omega
      · rw [if_neg hi] at hl; omega
    · rw [if_neg (hN.units hb)] at hl; omega
  -- the data
  have hdata : (∃ D, DataWrites env fs (.str v) n.toNat D) ∧ (fs.isBinary → upperCase v = v) := by
    by_cases hb : fs.isBinary
    · suffices hk : (∀ c ∈ v, isHexDigit c = true) ∧ upperCase v = v ∧
          (if fs.inNibbles then (v.length : Int) = n ∧ (n % 2 = 1 → ∃ c, firstPad fs.leftPad = some c ∨ firstPad fs.rightPad = some c)
            else (v.length : Int) = 2 * n) by
        obtain ⟨hx, hup, hk⟩ := hk
        refine ⟨?_, fun _ => hup⟩
        simp only [DataWrites, if_pos hb]
        by_cases hi : fs.inNibbles
        · rw [if_pos hi] at hk
          simp only [if_pos hi]
          obtain ⟨hvl, hp⟩ := hk
          by_cases ho : n.toNat % 2 = 1
          · simp only [if_pos ho]
            obtain ⟨c, hc⟩ := hp (by omega)
            cases hlp : firstPad fs.leftPad with
            | some c =>
              obtain ⟨D, hD, _⟩ := hexBytes (t := c :: v) (by simp only [List.length_cons]; omega) (by
                intro x hx'
                rcases List.mem_cons.1 hx' with rfl | hx'
                · exact hN.pads hb hi _ (.inl hlp)
                · exact hx x hx')
              exact ⟨D, by simp only [Val.text]; omega, hD⟩
            | none =>
              rw [hlp] at hc
              rcases hc with hc | hc
              · cases hc
              · simp only [hc]
                obtain ⟨D, hD, _⟩ := hexBytes (t := v ++ [c]) (by simp only [List.length_append, List.length_singleton]; omega) (by
                  intro x hx'
                  rcases List.mem_append.1 hx' with hx' | hx'
                  · exact hx x hx'
                  · rw [List.mem_singleton] at hx'
                    subst hx'
                    exact hN.pads hb hi _ (.inr hc))
                exact ⟨D, by simp only [Val.text]; omega, hD⟩
          · simp only [if_neg ho]
            obtain ⟨D, hD, _⟩ := hexBytes (t := v) (by omega) hx
            exact ⟨D, by simp only [Val.text]; omega, hD⟩
        · rw [if_neg hi] at hk
          simp only [if_neg hi]
          obtain ⟨D, hD, hDl⟩ := hexBytes (t := v) (by omega) hx
          exact ⟨D, hD, by omega⟩
      have hh := hexText_upper e.data
      have hx := isHexDigit_hexText e.data
      have hlen := hexText_length e.data
      unfold DataSays at hs
      unfold bytesFor at hl
      by_cases hD : e.data = []
      · rw [if_pos hD] at hs
        subst hs
        rw [hD] at hl
        simp only [List.length_nil] at hl
        refine ⟨by simp, rfl, ?_⟩
        by_cases hi : fs.inNibbles
        · rw [if_pos hi] at hl ⊢
          have := hm hb hi
          exact ⟨by simp only [List.length_nil]; omega, fun h => by omega⟩
        · rw [if_neg hi] at hl ⊢
          simp only [List.length_nil]; omega
      · rw [if_neg hD, if_pos hb] at hs
        by_cases hi : fs.inNibbles
        · rw [if_pos hi] at hl ⊢
          by_cases ho : n % 2 = 1
          · rw [if_pos ⟨hi, ho⟩] at hs
            by_cases hp : firstPad fs.leftPad = (hexText e.data).head?
            · rw [if_pos hp] at hs
              obtain ⟨c, hc⟩ := hs
              rw [hc] at hh hx hlen hp
              simp only [upperCase, List.map_cons, List.cons.injEq] at hh
              simp only [List.length_cons] at hlen
              exact ⟨fun x hx' => hx x (by simp [hx']), hh.2, by omega, fun _ => ⟨c, .inl (by simpa using hp)⟩⟩
            · rw [if_neg hp] at hs
              obtain ⟨c, hpc, hc⟩ := hs
              rw [hc] at hh hx hlen
              rw [upperCase_append] at hh
              simp only [List.length_append, List.length_singleton] at hlen
              exact ⟨fun x hx' => hx x (by simp [hx']), (List.append_inj' hh rfl).1, by omega, fun _ => ⟨c, .inr hpc⟩⟩
          · rw [if_neg (fun h => ho h.2)] at hs
            subst hs
            exact ⟨hx, hh, by omega, fun h => absurd h ho⟩
        · rw [if_neg hi] at hl ⊢
          rw [if_neg (fun h => hi h.1)] at hs
          subst hs
          exact ⟨hx, hh, by omega⟩
    · refine ⟨?_, fun h => absurd h hb⟩
      have hi := hN.units hb
      unfold bytesFor at hl
      rw [if_neg hi] at hl
      simp only [DataWrites, if_neg hb, if_neg hi]
      unfold DataSays at hs
      by_cases hD : e.data = []
      · rw [if_pos hD] at hs
        subst hs
        obtain ⟨c, hc⟩ := hN.known hb
        rw [hD] at hl
        refine ⟨[], [], c, rfl, hc, (hN.text hb c hc).2, ?_⟩
        simp only [List.length_nil] at hl ⊢
        omega
      · rw [if_neg hD, if_neg hb] at hs
        obtain ⟨c, hc, hd⟩ := hs
        refine ⟨e.data, v, c, rfl, hc, (hN.text hb c hc).1 _ _ hd, ?_⟩
        omega
  obtain ⟨⟨D, hD⟩, hup⟩ := hdata
  refine ⟨?_, ?_⟩
  · -- the length prefix
    suffices hL : ∃ L, if fs.lenType = 0 then (n.toNat : Int) = fs.maxLen ∧ L = [] else (n.toNat : Int) ≤ fs.maxLen ∧ PrefixWrites env fs n.toNat L by
      obtain ⟨L, hL⟩ := hL
      exact ⟨n.toNat, L, D, hD, fun _ => .inl ⟨v, rfl⟩, hL⟩
    obtain ⟨hLl, hu⟩ := hu
    by_cases h0 : fs.lenType = 0
    · rw [if_pos h0] at hu
      exact ⟨[], by rw [if_pos h0]; exact ⟨by omega, rfl⟩⟩
    · rw [if_neg h0] at hu
      obtain ⟨hu, hmax⟩ := hu
      unfold declared at hu
      by_cases h1 : fs.lenEnc = py"b"
      · rw [if_pos h1] at hu
        refine ⟨e.len, ?_⟩
        rw [if_neg h0, PrefixWrites, if_pos h1]
        have := Option.some.inj hu
        exact ⟨by omega, hLl, by omega⟩
      · by_cases h2 : fs.lenEnc = py"bcd"
        · rw [if_neg h1, if_pos h2] at hu
          cases hbv : bcdValue e.len with
          | none => rw [hbv] at hu; cases hu
          | some m =>
            rw [hbv] at hu
            have hu : (m : Int) = n := Option.some.inj hu
            refine ⟨e.len, ?_⟩
            rw [if_neg h0, PrefixWrites, if_neg h1, if_pos h2]
            exact ⟨by omega, hLl, by rw [hbv]; congr 1; omega⟩
        · rw [if_neg h1, if_neg h2] at hu
          cases hcd : env.codec fs.lenEnc with
          | none => rw [hcd] at hu; cases hu
          | some c =>
            obtain ⟨L, hL, hLl'⟩ := (hN.laws.prefixCodec h0 h1 h2 c hcd).2 (zeroPad fs.lenType n.toNat) (fun x hx => by
              have := zeroPad_digits _ _ x hx
              simp only [isAsciiDigit, Bool.and_eq_true, decide_eq_true_eq] at this
              simp [isHexDigit, this])
            refine ⟨L, ?_⟩
            rw [if_neg h0, PrefixWrites, if_neg h1, if_neg h2]
            refine ⟨by omega, c, hcd, hL, ?_⟩
            have hr := hN.room h0 h1 h2
            unfold capacity at hr
            rw [if_neg h1, if_neg h2] at hr
            have hr := Int.lt_of_le_of_lt hmax hr
            rw [hLl', zeroPad_length_of_lt (by omega) (by omega)]
            exact Nat.le_refl _
  · unfold readBack
    split
    · next hb => exact hup hb
    · rfl

/-- The bitmaps of usable keys can be written when the codec writes hex digits. -/
theorem bitmapWritten_exists {env : PyEnv} {fs : FieldSpec} {doc : Doc} (off : Nat) (nd : doc.NoDup) (hp : NumbersParse env doc)
    (hr : ∀ n, Numbered env doc n → 1 ≤ n ∧ n ≤ 192)
    (hd : ¬ fs.isBinary → ∃ c, env.codec fs.dataEnc = some c ∧ c.WritesHexDigits) :
    ∃ D t, BitmapWritten env fs (Flagged env doc) off D t := by
  obtain ⟨D, t, bm, h1, h2, h3, h4⟩ := bitmapWritten_plain (env := { env with codec := fun n => if n = py"ascii" then some asciiCodec else env.codec n })
    (fs := { fs with dataEnc := py"b" }) off nd hp hr (.inl rfl) (by simp)
  by_cases hb : fs.isBinary
  · exact ⟨bm, t, bm, h1, h2, h3, by rw [if_pos hb]⟩
  · obtain ⟨c, hc, hw⟩ := hd hb
    obtain ⟨D, hD, _⟩ := hw t (by rw [h3]; exact isHexDigit_hexText bm)
    exact ⟨D, t, bm, h1, h2, h3, by rw [if_neg hb]; exact ⟨c, hc, hD⟩⟩

/-- Bitmaps read with a bounded codec have at most 64 bits. -/
theorem bitmapRead_bounded {env : PyEnv} {fs : FieldSpec} {D : Bytes} {t : Str} {bm : Bytes} (h : BitmapRead env fs D t bm)
    (hb : ¬ fs.isBinary → ∀ c, env.codec fs.dataEnc = some c → c.Bounded) {off i : Nat} (ha : announces bm off i) :
    off < i ∧ i ≤ off + 64 := by
  obtain ⟨hl, hp, hx⟩ := h
  have : bm.length ≤ 8 := by
    unfold bitmapBytes at hl
    unfold PlainSays at hp
    by_cases hbin : fs.isBinary
    · rw [if_pos hbin] at hl hx
      subst hx; omega
    · rw [if_neg hbin] at hl hx hp
      obtain ⟨c, hc, hd⟩ := hp
      have := fromHex_length_le hx
      have := hb hbin c hc _ _ hd
      omega
  obtain ⟨h1, h2⟩ := ha
  have := bitOn_le (by omega) h2
  omega

theorem bitmapRead_codec {env : PyEnv} {fs : FieldSpec} {D : Bytes} {t : Str} {bm : Bytes} (h : BitmapRead env fs D t bm)
    (hl : BitmapLaws env fs) : ¬ fs.isBinary → ∃ c, env.codec fs.dataEnc = some c ∧ c.WritesHexDigits := by
  intro hb
  obtain ⟨_, hp, _⟩ := h
  rw [PlainSays, if_neg hb] at hp
  obtain ⟨c, hc, _⟩ := hp
  exact ⟨c, hc, (hl hb c hc).2⟩

/-- What received bitmaps say about the specification and the fields. -/
theorem bitmapParts_facts {env : PyEnv} {spec : Spec} {b : List Part} {P : Nat → Prop} (h : BitmapParts env spec b P)
    (hs : SpecNormal env spec) :
    (∀ i, P i → 1 ≤ i ∧ i ≤ 192) ∧ (b.map Part.key = [py"p"] ∨ b.map Part.key = [py"p", py"1"]) ∧
    (∃ fs, spec.get? py"p" = some fs ∧ (¬ fs.isBinary → ∃ c, env.codec fs.dataEnc = some c ∧ c.WritesHexDigits)) ∧
    ∀ i, P i → 64 < i → ∃ fs, spec.get? py"1" = some fs ∧ (¬ fs.isBinary → ∃ c, env.codec fs.dataEnc = some c ∧ c.WritesHexDigits) := by
  have hp := fun fs h => hs.bitmaps py"p" fs (.inl rfl) h
  have h1 := fun fs h => hs.bitmaps py"1" fs (.inr rfl) h
  cases h with
  | one a1 a2 a3 a4 =>
    refine ⟨?_, .inl rfl, ⟨_, a1, bitmapRead_codec a2 (hp _ a1).1⟩, ?_⟩
    · intro i hi; have := bitmapRead_bounded a2 (hp _ a1).2 hi; omega
    · intro i hi h; have := bitmapRead_bounded a2 (hp _ a1).2 hi; omega
  | two a1 a2 a3 a4 a5 a6 =>
    refine ⟨?_, .inr rfl, ⟨_, a1, bitmapRead_codec a2 (hp _ a1).1⟩, fun _ _ _ => ⟨_, a4, bitmapRead_codec a5 (h1 _ a4).1⟩⟩
    rintro i (hi | hi)
    · have := bitmapRead_bounded a2 (hp _ a1).2 hi; omega
    · have := bitmapRead_bounded a5 (h1 _ a4).2 hi; omega
  | three a1 a2 a3 a4 a5 a6 a7 =>
    refine ⟨?_, .inr rfl, ⟨_, a1, bitmapRead_codec a2 (hp _ a1).1⟩, fun _ _ _ => ⟨_, a4, bitmapRead_codec a5 (h1 _ a4).1⟩⟩
    rintro i (hi | hi | hi)
    · have := bitmapRead_bounded a2 (hp _ a1).2 hi; omega
    · have := bitmapRead_bounded a5 (h1 _ a4).2 hi; omega
    · have := bitmapRead_bounded a7 (h1 _ a4).2 hi; omega
  | wide a1 a2 a3 a4 a5 =>
    have := bitmapRead_bounded a2 (hp _ a1).2 a4
    omega

/-- Two dicts that hold the same except under `p`, `1` and `65` are encoded alike. -/
theorem outcome_of_same {env : PyEnv} {spec : Spec} (he : AsciiNumeric env) {a b : Doc} (na : a.NoDup) (nb : b.NoDup)
    (h : ∀ k, isBitmapKey k = false → a.get? k = b.get? k) {r : Bytes × EncDoc} (ha : outcome env spec a = .ok r) :
    outcome env spec b = .ok r := by
  have hm : ∀ k : Key, matters env k = true → isBitmapKey k = false := by
    intro k hk
    rw [← Bool.not_eq_true', not_bitmapKey]
    refine ⟨?_, ?_, ?_⟩
    · rintro rfl
      simp [matters, he.letter (c := 112) (t := []) (by omega) (by omega)] at hk
    · rintro rfl; simp [matters] at hk
    · rintro rfl; simp [matters] at hk
  refine ((outcome_of_matters_perm he.digits na nb ?_).2 r).1 ha
  apply Dict.perm_of_get? (na.filter _) (nb.filter _)
  intro k
  by_cases hk : matters env k = true
  · rw [Dict.get?_filter hk, Dict.get?_filter hk, h k (hm k hk)]
  · rw [Dict.get?_eq_none.2, Dict.get?_eq_none.2]
    · rw [Dict.keys_filter]; simp [hk]
    · rw [Dict.keys_filter]; simp [hk]

theorem partsDec_get? {ps : List Part} (hnd : (ps.map Part.key).Nodup) {p : Part} (h : p ∈ ps) :
    (partsDec ps).get? p.key = some p.text := by
  refine Dict.get?_of_mem ?_ (List.mem_map.2 ⟨p, h, rfl⟩)
  unfold Dict.NoDup Dict.keys partsDec
  rw [List.map_map]
  exact hnd

theorem partsDec_keys (ps : List Part) : (partsDec ps).keys = ps.map Part.key := by
  simp [partsDec, Dict.keys]

/-- Parts as `decode` reads them under a normal specification can be written, be it that announced
fields are still missing: what is written is read as the same values under every key except the
bitmaps, and writing those once more changes nothing. -/
theorem rewrite_parts {env : PyEnv} {spec : Spec} (hn : AsciiNumeric env)
    (hdg : env.maxStrDigits = 0 ∨ 3 ≤ env.maxStrDigits) (hs : SpecNormal env spec)
    {hd b f : List Part} {tp : Part} {F : List Nat} (hhd : HeaderPart env spec hd) (hty : TypePart env spec tp)
    (hbk : b.map Part.key = [] ∨ b.map Part.key = [py"p"] ∨ b.map Part.key = [py"p", py"1"])
    {fp : FieldSpec} (hfp : spec.get? py"p" = some fp)
    (hcp : ¬ fp.isBinary → ∃ c, env.codec fp.dataEnc = some c ∧ c.WritesHexDigits)
    (hsec : ∀ i ∈ F, 64 < i → ∃ fs, spec.get? py"1" = some fs ∧ (¬ fs.isBinary → ∃ c, env.codec fs.dataEnc = some c ∧ c.WritesHexDigits))
    (hF : ∀ i ∈ F, (2 ≤ i ∧ i ≤ 192) ∧ i ≠ 1 ∧ i ≠ 65) (hfk : f.map Part.key = F.map natStr)
    (hff : ∀ p ∈ f, ∃ fs, spec.get? p.key = some fs ∧ FieldRead env fs p.entry p.text)
    (hnd : ((hd ++ tp :: b ++ f).map Part.key).Nodup) :
    ∃ s' enc' doc' dec' doc'', encode env spec (asDoc (partsDec (hd ++ tp :: b ++ f))) = (.ok (s', enc'), doc') ∧
      decode env spec s' = .ok (dec', enc') ∧
      (∀ k, k ≠ py"p" → k ≠ py"1" → dec'.get? k = (partsDec (hd ++ tp :: b ++ f)).get? k) ∧
      encode env spec (asDoc dec') = (.ok (s', enc'), doc'') := by
  obtain ⟨ft, tD, tv, hft, rfl, htl, hts⟩ := hty
  generalize hps : hd ++ ⟨py"t", ⟨[], tD⟩, tv⟩ :: b ++ f = ps at *
  have hhk : ∀ p ∈ hd, p.key = py"h" := by
    obtain ⟨fs, _, ⟨_, rfl⟩ | ⟨_, e, v, rfl, _⟩⟩ := hhd
    · simp
    · simp
  have hkey : ∀ k, k ∈ (partsDec ps).keys → k = py"h" ∨ k = py"t" ∨ k = py"p" ∨ k = py"1" ∨ ∃ i ∈ F, k = natStr i := by
    intro k hk
    rw [partsDec_keys, ← hps] at hk
    simp only [List.map_append, List.map_cons, List.append_assoc, List.cons_append, List.mem_append, List.mem_cons] at hk
    rcases hk with hk | rfl | hk | hk
    · obtain ⟨p, hp, rfl⟩ := List.mem_map.1 hk
      exact .inl (hhk p hp)
    · exact .inr (.inl rfl)
    · rcases hbk with e | e | e <;> rw [e] at hk <;> simp at hk
      · exact .inr (.inr (.inl hk))
      · rcases hk with hk | hk
        · exact .inr (.inr (.inl hk))
        · exact .inr (.inr (.inr (.inl hk)))
    · rw [hfk] at hk
      obtain ⟨i, hi, e⟩ := List.mem_map.1 hk
      exact .inr (.inr (.inr (.inr ⟨i, hi, e.symm⟩)))
  have hF192 : ∀ i ∈ F, 2 ≤ i ∧ i ≤ 192 := by
    intro i hi
    exact (hF i hi).1
  have hfkm : ∀ i ∈ F, natStr i ∈ (partsDec ps).keys := by
    intro i hi
    rw [partsDec_keys, ← hps, List.map_append, hfk]
    exact List.mem_append_right _ (List.mem_map.2 ⟨i, hi, rfl⟩)
  have hdn : DigitsNumeric env := hn.digits
  have hparse : ∀ i ∈ F, pyInt env (natStr i) = some (i : Int) := by
    intro i hi
    refine pyInt_natStr env i ?_
    have : (natStr i).length ≤ 3 := (natStr_length_le (by omega)).2 (by have := hF192 i hi; omega)
    omega
  have hnumk : ∀ k, Key.str k ∈ (asDoc (partsDec ps)).keys → k ≠ py"1" → isNumeric env k = true → ∃ i ∈ F, k = natStr i := by
    intro k hk hk1 hkn
    rw [asDoc_keys] at hk
    obtain ⟨k', hk', e⟩ := List.mem_map.1 hk
    obtain rfl := Key.str.inj e
    rcases hkey _ hk' with rfl | rfl | rfl | rfl | h
    · rw [hn.letter (c := 104) (t := []) (by omega) (by omega)] at hkn; cases hkn
    · rw [hn.letter (c := 116) (t := []) (by omega) (by omega)] at hkn; cases hkn
    · rw [hn.letter (c := 112) (t := []) (by omega) (by omega)] at hkn; cases hkn
    · exact absurd rfl hk1
    · exact h
  have nd : (asDoc (partsDec ps)).NoDup := asDoc_nodup (by rw [partsDec_keys]; exact hnd)
  have hnp : NumbersParse env (asDoc (partsDec ps)) := by
    intro k hk h1 h65
    have hk0 := hk
    rw [asDoc_keys] at hk
    obtain ⟨k', _, rfl⟩ := List.mem_map.1 hk
    refine ⟨k', rfl, fun hkn => ?_⟩
    obtain ⟨i, hi, rfl⟩ := hnumk k' hk0 (fun e => h1 (by rw [e])) hkn
    exact ⟨_, hparse i hi⟩
  have hnum : ∀ n, Numbered env (asDoc (partsDec ps)) n ↔ ∃ i ∈ F, n = (i : Int) := by
    intro n
    constructor
    · rintro ⟨k, hk, h1, _, hkn, hkp⟩
      obtain ⟨i, hi, rfl⟩ := hnumk k hk h1 hkn
      rw [hparse i hi] at hkp
      exact ⟨i, hi, (Option.some.inj hkp).symm⟩
    · rintro ⟨i, hi, rfl⟩
      obtain ⟨_, h1, h65⟩ := hF i hi
      refine ⟨natStr i, ?_, natStr_ne_one h1, ?_, isNumeric_natStr hdn i, hparse i hi⟩
      · rw [asDoc_keys]; exact List.mem_map.2 ⟨_, hfkm i hi, rfl⟩
      · intro e; exact h65 (natStr_inj.1 e)
  have hrange : ∀ n, Numbered env (asDoc (partsDec ps)) n → 1 ≤ n ∧ n ≤ 192 := by
    intro n h
    obtain ⟨i, hi, rfl⟩ := (hnum n).1 h
    have := hF192 i hi
    omega
  have hget : ∀ p ∈ ps, (asDoc (partsDec ps)).get? (.str p.key) = some (.str p.text) := by
    intro p hp
    rw [asDoc_get?, partsDec_get? hnd hp]; rfl
  -- every field of the message can be written, and is read back
  have hfield : ∀ p ∈ ps, p ∈ hd ∨ p ∈ f → ∃ fs, spec.get? p.key = some fs ∧
      (∃ n L D, FieldWrites env fs (.str p.text) n L D) ∧ readBack fs (.str p.text) = p.text := by
    rintro p hp (hm | hm)
    · obtain ⟨fs, hfs, ⟨_, rfl⟩ | ⟨_, e, v, rfl, hr⟩⟩ := hhd
      · cases hm
      · rw [List.mem_singleton] at hm
        subst hm
        exact ⟨fs, hfs, fieldRead_rewrites (hs.fields _ _ hfs (by decide) (by decide) (by decide)) hr⟩
    · obtain ⟨fs, hfs, hr⟩ := hff p hm
      have : p.key ∈ F.map natStr := by rw [← hfk]; exact List.mem_map.2 ⟨p, hm, rfl⟩
      obtain ⟨i, hi, e⟩ := List.mem_map.1 this
      have h1 := (hF i hi).2.1
      exact ⟨fs, hfs, fieldRead_rewrites (hs.fields _ _ hfs (by rw [← e]; exact natStr_ne_letter (by decide))
        (by rw [← e]; exact natStr_ne_letter (by decide)) (by rw [← e]; exact natStr_ne_one h1)) hr⟩
  have mem_hd : ∀ p ∈ hd, p ∈ ps := fun p hp => by rw [← hps]; simp [hp]
  have mem_t : (⟨py"t", ⟨[], tD⟩, tv⟩ : Part) ∈ ps := by rw [← hps]; simp
  have mem_f : ∀ p ∈ f, p ∈ ps := fun p hp => by rw [← hps]; simp [hp]
  have htype : TypeReady env spec (asDoc (partsDec ps)) ∧ readBack ft (.str tv) = tv := by
    have hnn : ¬ (asType ft).inNibbles := by simp [FieldSpec.inNibbles, asType]
    unfold PlainSays at hts
    refine ⟨⟨ft, .str tv, tD, hft, hget _ mem_t, ?_, fun _ => .inl ⟨_, rfl⟩⟩, ?_⟩
    · unfold DataWrites
      by_cases hb : ft.isBinary
      · rw [if_pos hb] at hts
        rw [if_pos (show (asType ft).isBinary from hb), if_neg hnn]
        exact ⟨by rw [Val.text, hts, hexText_upper], htl.symm⟩
      · rw [if_neg hb] at hts
        obtain ⟨c, hc, hdv⟩ := hts
        rw [if_neg (show ¬ (asType ft).isBinary from hb), if_neg hnn]
        exact ⟨tv, c, rfl, hc, (hs.type ft hft hb c hc).1 _ _ hdv, htl.symm⟩
    · unfold readBack
      split
      · next hb => rw [if_pos hb] at hts; rw [Val.text, hts, hexText_upper]
      · rfl
  have hready : ∃ r doc', encode env spec (asDoc (partsDec ps)) = (.ok r, doc') := by
    refine (encode_succeeds_iff nd).2 ⟨?_, htype.1, hnp, hrange, ⟨fp, hfp, bitmapWritten_exists 0 nd hnp hrange hcp, ?_⟩, ?_⟩
    · obtain ⟨fs, hfs, ⟨hm, _⟩ | ⟨_, e, v, he, hr⟩⟩ := hhd
      · exact ⟨fs, hfs, .inl hm⟩
      · have hin : (⟨py"h", e, v⟩ : Part) ∈ ps := mem_hd _ (by rw [he]; simp)
        obtain ⟨n, L, D, hw⟩ := (fieldRead_rewrites (hs.fields _ _ hfs (by decide) (by decide) (by decide)) hr).1
        exact ⟨fs, hfs, .inr ⟨_, n, L, D, hget _ hin, hw⟩⟩
    · intro hA
      have : ∃ i ∈ F, 64 < i := by
        rcases hA with h | ⟨h, _⟩ | ⟨_, j, hj, h⟩
        · obtain ⟨i, hi, e⟩ := (hnum _).1 h
          have := hF192 i hi
          omega
        · cases h
        · obtain ⟨i, hi, e⟩ := (hnum _).1 h
          exact ⟨i, hi, by omega⟩
      obtain ⟨i, hi, h64⟩ := this
      obtain ⟨f1, hf1, hc1⟩ := hsec i hi h64
      exact ⟨f1, hf1, bitmapWritten_exists 64 nd hnp hrange hc1, fun _ => bitmapWritten_exists 128 nd hnp hrange hc1⟩
    · intro i hi _ _
      obtain ⟨j, hj, e⟩ := (hnum _).1 hi
      obtain rfl : i = j := by omega
      have : natStr i ∈ f.map Part.key := by rw [hfk]; exact List.mem_map.2 ⟨i, hj, rfl⟩
      obtain ⟨p, hp, ek⟩ := List.mem_map.1 this
      obtain ⟨fs, hfs, ⟨n, L, D, hw⟩, _⟩ := hfield p (mem_f p hp) (.inr hp)
      have hg := hget p (mem_f p hp)
      rw [ek] at hfs hg
      exact ⟨fs, _, n, L, D, hfs, hg, hw⟩
  obtain ⟨⟨s', enc'⟩, doc', henc⟩ := hready
  obtain ⟨dec', hdec, hdk, hval⟩ := encode_decode hs.laws henc
  -- the keys
  have hk' : ∀ k, k ≠ py"p" → k ≠ py"1" → (k ∈ enc'.keys ↔ k ∈ (partsDec ps).keys) := by
    intro k hkp hk1
    obtain ⟨qs, b', ⟨_, _, h', t', f', F', rfl, hh', ht', hb', _, hF', hfk', _⟩, rfl, _, _⟩ := (encode_iff nd).1 henc
    have ek : (partsEnc (h' ++ t' :: b' ++ f')).keys = h'.map Part.key ++ t'.key :: b'.map Part.key ++ f'.map Part.key := by
      simp [partsEnc, Dict.keys, Function.comp_def]
    have eb : ∀ x ∈ b'.map Part.key, x = py"p" ∨ x = py"1" := by
      cases hb' <;> simp
    have et : t'.key = py"t" := by obtain ⟨_, _, _, _, _, rfl, _⟩ := ht'; rfl
    have hFF : ∀ i, i ∈ F' ↔ i ∈ F := by
      intro i
      rw [hF', hnum]
      constructor
      · rintro ⟨⟨j, hj, e⟩, _⟩
        obtain rfl : i = j := by omega
        exact hj
      · intro hi
        exact ⟨⟨i, hi, rfl⟩, (hF i hi).2⟩
    have ehd : h'.map Part.key = hd.map Part.key := by
      obtain ⟨fs, hfs, a⟩ := hh'
      obtain ⟨fs', hfs', a'⟩ := hhd
      rw [hfs] at hfs'; cases hfs'
      rcases a with ⟨_, rfl⟩ | ⟨_, p, rfl, hpk, _⟩ <;> rcases a' with ⟨_, rfl⟩ | ⟨_, e, v, rfl, _⟩
      · rfl
      · omega
      · omega
      · simp [hpk]
    rw [ek, partsDec_keys, ← hps, et, ehd, hfk']
    simp only [List.map_append, List.map_cons, List.append_assoc, List.cons_append, List.mem_append, List.mem_cons, hfk,
      List.mem_map (f := natStr), hFF]
    have n1 : k ∉ b'.map Part.key := fun h => (eb k h).elim hkp hk1
    have n2 : k ∉ b.map Part.key := by rcases hbk with e | e | e <;> rw [e] <;> simp [hkp, hk1]
    simp only [n1, n2, false_or]
  have h65 : py"65" ∉ (partsDec ps).keys := by
    intro h
    rcases hkey _ h with h | h | h | h | ⟨i, hi, h⟩
    · cases h
    · cases h
    · cases h
    · cases h
    · rw [show py"65" = natStr 65 from rfl, natStr_inj] at h
      subst h
      exact (hF 65 hi).2.2 rfl
  have hsame : ∀ k, k ≠ py"p" → k ≠ py"1" → dec'.get? k = (partsDec ps).get? k := by
    intro k hkp hk1
    by_cases hk : k ∈ enc'.keys
    · obtain ⟨fs, v, hfs, hv, hr⟩ := hval k hk
      have hk0 := (hk' k hkp hk1).1 hk
      have hk65 : k ≠ py"65" := by rintro rfl; exact h65 hk0
      have hkeep := encode_keeps_values env spec (asDoc (partsDec ps)) (k := .str k) (by simpa using hkp) (by simpa using hk1)
        (by simpa using hk65)
      rw [henc] at hkeep
      rw [partsDec_keys] at hk0
      obtain ⟨p, hp, rfl⟩ := List.mem_map.1 hk0
      rw [hv, hget p hp] at hkeep
      obtain rfl := Option.some.inj hkeep
      rw [hr, partsDec_get? hnd hp]
      congr 1
      have hp' := hp
      rw [← hps] at hp'
      simp only [List.append_assoc, List.cons_append, List.mem_append, List.mem_cons] at hp'
      have conv : p ∈ hd ∨ p ∈ f → readBack fs (.str p.text) = p.text := by
        intro hm
        obtain ⟨fs', hfs', _, e⟩ := hfield p hp hm
        rw [hfs] at hfs'; cases hfs'
        exact e
      rcases hp' with hp' | rfl | hp' | hp'
      · exact conv (.inl hp')
      · rw [hft] at hfs; cases hfs
        exact htype.2
      · have : p.key ∈ b.map Part.key := List.mem_map.2 ⟨p, hp', rfl⟩
        rcases hbk with e | e | e <;> rw [e] at this <;> simp [hkp, hk1] at this
      · exact conv (.inr hp')
    · rw [Dict.get?_eq_none.2 (fun h => hk (by rw [← hdk]; exact h)), Dict.get?_eq_none.2 (fun h => hk ((hk' k hkp hk1).2 h))]
  have nd' : (asDoc dec').NoDup := asDoc_nodup (decode_entries hdec).2.1
  have hout : outcome env spec (asDoc dec') = .ok (s', enc') := by
    refine outcome_of_same hn nd nd' ?_ (by rw [outcome, henc])
    intro k hk
    cases k with
    | obj r => rw [asDoc_get?_obj, asDoc_get?_obj]
    | str k =>
      rw [← Bool.not_eq_true', not_bitmapKey] at hk
      rw [asDoc_get?, asDoc_get?, hsame k (fun e => hk.1 (by rw [e])) (fun e => hk.2.1 (by rw [e]))]
  obtain ⟨doc'', h''⟩ : ∃ doc'', encode env spec (asDoc dec') = (.ok (s', enc'), doc'') := by
    unfold outcome at hout
    cases he : encode env spec (asDoc dec') with
    | mk r d =>
      rw [he] at hout
      cases r with
      | ok r => exact ⟨d, by cases hout; rfl⟩
      | error x => cases hout
  exact ⟨s', enc', doc', dec', doc'', henc, hdec, hsame, h''⟩

/-- **C61**: under a normal specification whatever `decode` accepts `encode` writes again, possibly
spelled differently; the new message is read as the same values under every key except the bitmaps,
and writing those once more changes nothing. -/
theorem reencode {env : PyEnv} {spec : Spec} {s : Bytes} {dec : DecDoc} {enc : EncDoc} (hn : AsciiNumeric env)
    (hdg : env.maxStrDigits = 0 ∨ 3 ≤ env.maxStrDigits) (hs : SpecNormal env spec)
    (h : decode env spec s = .ok (dec, enc)) :
    ∃ s' enc' doc' dec' doc'', encode env spec (asDoc dec) = (.ok (s', enc'), doc') ∧
      decode env spec s' = .ok (dec', enc') ∧
      (∀ k, k ≠ py"p" → k ≠ py"1" → dec'.get? k = dec.get? k) ∧
      encode env spec (asDoc dec') = (.ok (s', enc'), doc'') := by
  obtain ⟨hkeys, hnd, _⟩ := decode_entries h
  obtain ⟨ps, ⟨hd, t, b, f, P, F, rfl, hhd, hty, hbm, hFp, hF, hfk, hff⟩, rfl, rfl, rfl⟩ := decode_iff.1 h
  obtain ⟨hP, hbk, ⟨fp, hfp, hcp⟩, hsec⟩ := bitmapParts_facts hbm hs
  rw [partsDec_keys] at hnd
  refine rewrite_parts hn hdg hs hhd hty (.inr hbk) hfp hcp (fun i hi => hsec i ((hF i).1 hi).1) (fun i hi => ?_) hfk hff hnd
  obtain ⟨a, b, c⟩ := (hF i).1 hi
  have := hP i a
  omega

theorem wellFormed_normal {env : PyEnv} {spec : Spec} (h : WellFormed spec) (ha : env.codec py"ascii" = some asciiCodec)
    (hd : env.maxStrDigits = 0 ∨ 8 ≤ env.maxStrDigits) : SpecNormal env spec := by
  have data : ∀ {k fs}, spec.get? k = some fs → ¬ fs.isBinary → env.codec fs.dataEnc = some asciiCodec := by
    intro k fs hs hb
    rcases (h.encodings k fs hs).1 with h' | h'
    · exact absurd h' hb
    · rw [h', ha]
  have hl := wellFormed_laws h ha hd
  refine ⟨?_, ?_, ?_⟩
  · intro k fs hs h1 h2 h3
    refine ⟨hl.fields k fs hs h1 h2 h3, fun _ => plain_units (h.plain k fs hs).1, ?_, fun hb => ⟨_, data hs hb⟩, ?_,
      fun h0 _ _ => (h.lengths k fs hs h0).2⟩
    · intro hb c hc
      rw [data hs hb] at hc; cases hc
      exact ⟨ascii_lawful.canonical, rfl⟩
    · intro _ hi
      exact absurd hi (plain_units (h.plain k fs hs).1)
  · intro fs hs hb c hc
    refine ⟨?_, hl.type fs hs hb c hc⟩
    rw [data hs hb] at hc; cases hc
    exact ascii_lawful.canonical
  · intro k fs hk hs
    refine ⟨hl.bitmaps k fs hk hs, ?_⟩
    intro hb c hc
    rw [data hs hb] at hc; cases hc
    exact ascii_lawful.bounded

/-- **C61** for the shipped specifications. -/
theorem shipped_reencode {env : PyEnv} {spec : Spec} (hs : spec = defaultSpec ∨ spec = defaultAsciiSpec) (hn : AsciiNumeric env)
    (ha : env.codec py"ascii" = some asciiCodec) (hd : env.maxStrDigits = 0 ∨ 8 ≤ env.maxStrDigits)
    {s : Bytes} {dec : DecDoc} {enc : EncDoc} (h : decode env spec s = .ok (dec, enc)) :
    ∃ s' enc' doc' dec' doc'', encode env spec (asDoc dec) = (.ok (s', enc'), doc') ∧
      decode env spec s' = .ok (dec', enc') ∧
      (∀ k, k ≠ py"p" → k ≠ py"1" → dec'.get? k = dec.get? k) ∧
      encode env spec (asDoc dec') = (.ok (s', enc'), doc'') := by
  have hw : WellFormed spec := by
    rcases hs with rfl | rfl
    · exact default_wellFormed
    · exact defaultAscii_wellFormed
  exact reencode hn (by omega) (wellFormed_normal hw ha hd) h

/-- A message with an empty secondary bitmap and the length prefix ` 3` is accepted and written
anew: the bitmap is dropped, the prefix becomes `03`. -/
example : Respelled defaultSpec
    ([0x30, 0x32, 0x30, 0x30, 0xC0, 0, 0, 0, 0, 0, 0, 0, 0, 0, 0, 0, 0, 0, 0, 0, 0x20, 0x33, 0x31, 0x32, 0x33])
    [(py"t", py"0200"), (py"p", py"C000000000000000"), (py"1", py"0000000000000000"), (py"2", py"123")]
    [0x30, 0x32, 0x30, 0x30, 0x40, 0, 0, 0, 0, 0, 0, 0, 0x30, 0x33, 0x31, 0x32, 0x33] :=
  respelled_of (by decide +kernel) (by decide +kernel)

/-- The theorem applies to that message. -/
example {r : DecDoc × EncDoc} (h : decode cpython defaultSpec
      [0x30, 0x32, 0x30, 0x30, 0xC0, 0, 0, 0, 0, 0, 0, 0, 0, 0, 0, 0, 0, 0, 0, 0, 0x20, 0x33, 0x31, 0x32, 0x33] = .ok r) :
    ∃ s' enc' doc', encode cpython defaultSpec (asDoc r.1) = (.ok (s', enc'), doc') := by
  obtain ⟨s', enc', doc', _, _, h, _⟩ := shipped_reencode (.inl rfl) cpython_ascii rfl (by decide) h
  exact ⟨s', enc', doc', h⟩

/-- Text counted in nibbles is the exception: one nibble is read as one character, which counts as
two nibbles when written, more than the field allows. -/
example : (match decode cpython (spellSpec ⟨py"ascii", py"b", 1, 1, some py"nibbles", none, none, none⟩ noField)
      [0x02, 0, 0x40, 0, 0, 0, 0, 0, 0, 0, 1, 0x41] with
    | .ok (dec, _) =>
      (match encode cpython (spellSpec ⟨py"ascii", py"b", 1, 1, some py"nibbles", none, none, none⟩ noField) (asDoc dec) with
      | (.error (.encodeError e), _) => e.msg == .tooLong 2 py"nibbles" 1
      | _ => false)
    | _ => false) = true := by decide +kernel

end Iso8583
