import Verif.Props.Grammar
import Verif.Props.Shipped
/-!
# The dicts the shipped specifications encode (C56)
-/

namespace Iso8583

/-- The value fits the field: hex digits in pairs, or ASCII text, of the right number of bytes. -/
def PlainValue (fs : FieldSpec) (v : Val) : Prop :=
  ∃ n : Nat, (if fs.lenType = 0 then (n : Int) = fs.maxLen else (n : Int) ≤ fs.maxLen) ∧
    if fs.isBinary then ((∃ t, v = .str t) ∨ ∃ b, v = .bytes b) ∧ v.text.length = 2 * n ∧ ∀ c ∈ v.text, isHexDigit c = true
    else ∃ t, v = .str t ∧ t.length = n ∧ ∀ c ∈ t, c < 128

theorem ascii_encode_iff {t : Str} : (∃ D, asciiCodec.encode t = some D) ↔ ∀ c ∈ t, c < 128 := by
  constructor
  · rintro ⟨D, h⟩
    change encodeChars (fun c => if c < 128 then some (UInt8.ofNat c) else none) t = some D at h
    induction t generalizing D with
    | nil => simp
    | cons c t ih =>
      rw [encodeChars] at h
      by_cases hc : c < 128
      · rw [if_pos hc] at h
        cases hr : encodeChars (fun c => if c < 128 then some (UInt8.ofNat c) else none) t with
        | none => rw [hr] at h; cases h
        | some r =>
          intro x hx
          rcases List.mem_cons.1 hx with rfl | hx
          · exact hc
          · exact ih r hr x hx
      · rw [if_neg hc] at h; cases h
  · intro h
    exact encodeChars_isSome t fun c hc => by simp [h c hc]

theorem ascii_encode_length {t : Str} {D : Bytes} (h : asciiCodec.encode t = some D) : D.length = t.length :=
  encodeChars_length t D h

theorem hexText_exists {t : Str} : (∃ D, hexText D = upperCase t) ↔ t.length % 2 = 0 ∧ ∀ c ∈ t, isHexDigit c = true := by
  constructor
  · rintro ⟨D, h⟩
    have h := a2bHex_iff.2 h
    have hn : ¬ (t.length % 2 = 1 ∨ ∃ c ∈ t, isHexDigit c = false) := fun e => by rw [a2bHex_none_iff.2 e] at h; cases h
    refine ⟨by omega, fun c hc => ?_⟩
    cases hx : isHexDigit c with
    | true => rfl
    | false => exact absurd (.inr ⟨c, hc, hx⟩) hn
  · rintro ⟨h1, h2⟩
    cases h : a2bHex t with
    | none =>
      rcases a2bHex_none_iff.1 h with h | ⟨c, hc, h⟩
      · omega
      · rw [h2 c hc] at h; cases h
    | some D => exact ⟨D, a2bHex_iff.1 h⟩

theorem plain_units {fs : FieldSpec} (hc : fs.lenCount = none) : ¬ fs.inNibbles := by simp [FieldSpec.inNibbles, hc]

theorem fieldWrites_plain {env : PyEnv} {fs : FieldSpec} {v : Val} (hc : fs.lenCount = none)
    (hd : fs.dataEnc = py"b" ∨ fs.dataEnc = py"ascii") (ha : env.codec py"ascii" = some asciiCodec)
    (hl : fs.lenEnc = py"ascii") (hf : fs.lenType ≠ 0 → fs.maxLen < capacity fs) :
    (∃ n L D, FieldWrites env fs v n L D) ↔ PlainValue fs v := by
  have hn := plain_units hc
  constructor
  · rintro ⟨n, L, D, hw, hx, hs⟩
    refine ⟨n, ?_, ?_⟩
    · split at hs
      · next h0 => rw [if_pos h0]; exact hs.1
      · next h0 => rw [if_neg h0]; exact hs.1
    · unfold DataWrites at hw
      by_cases hb : fs.isBinary
      · rw [if_pos hb, if_neg hn] at hw
        rw [if_pos hb]
        refine ⟨?_, ?_, (hexText_exists.1 ⟨D, hw.1⟩).2⟩
        · rcases hx hb with h | ⟨b, h, _⟩
          · exact .inl h
          · exact .inr ⟨b, h⟩
        · have := congrArg List.length hw.1
          rw [hexText_length, upperCase_length] at this
          omega
      · rw [if_neg hb, if_neg hn] at hw
        rw [if_neg hb]
        obtain ⟨t, c, hv, he, hD, hn⟩ := hw
        rcases hd with h | h
        · exact absurd h hb
        · rw [h, ha] at he; cases he
          exact ⟨t, hv, by rw [hn, ascii_encode_length hD], ascii_encode_iff.1 ⟨D, hD⟩⟩
  · rintro ⟨n, hs, hv⟩
    obtain ⟨L, hL⟩ : ∃ L, if fs.lenType = 0 then (n : Int) = fs.maxLen ∧ L = [] else (n : Int) ≤ fs.maxLen ∧ PrefixWrites env fs n L := by
      by_cases h0 : fs.lenType = 0
      · rw [if_pos h0] at hs
        exact ⟨[], by rw [if_pos h0]; exact ⟨hs, rfl⟩⟩
      · rw [if_neg h0] at hs
        obtain ⟨L, hL, hl'⟩ := ascii_lawful.writesHex (zeroPad fs.lenType n) (fun x hx => by
          have := zeroPad_digits _ _ x hx
          simp only [isAsciiDigit, Bool.and_eq_true, decide_eq_true_eq] at this
          simp [isHexDigit, this])
        refine ⟨L, ?_⟩
        rw [if_neg h0]
        refine ⟨hs, ?_⟩
        unfold PrefixWrites
        rw [hl, if_neg (by decide), if_neg (by decide)]
        refine ⟨asciiCodec, ha, hL, ?_⟩
        have := hf h0
        rw [hl', zeroPad_length_of_lt (by omega)]
        · exact Nat.le_refl _
        · unfold capacity at this
          rw [hl, if_neg (by decide), if_neg (by decide)] at this
          have := Int.lt_of_le_of_lt hs this
          omega
    by_cases hb : fs.isBinary
    · rw [if_pos hb] at hv
      obtain ⟨h1, h2, h3⟩ := hv
      obtain ⟨D, hD⟩ := hexText_exists.2 ⟨by omega, h3⟩
      refine ⟨n, L, D, ?_, fun _ => ?_, hL⟩
      · unfold DataWrites
        rw [if_pos hb, if_neg hn]
        have := congrArg List.length hD
        rw [hexText_length, upperCase_length] at this
        exact ⟨hD, by omega⟩
      · rcases h1 with h | ⟨b, h⟩
        · exact .inl h
        · exact .inr ⟨b, h, fun h => hn h.1⟩
    · rw [if_neg hb] at hv
      obtain ⟨t, rfl, hl', h3⟩ := hv
      obtain ⟨D, hD⟩ := ascii_encode_iff.2 h3
      refine ⟨n, L, D, ?_, fun h => absurd h hb, hL⟩
      unfold DataWrites
      rw [if_neg hb, if_neg hn]
      rcases hd with h | h
      · exact absurd h hb
      · exact ⟨t, asciiCodec, rfl, by rw [h]; exact ha, hD, by rw [ascii_encode_length hD, hl']⟩

theorem bitmapWritten_plain {env : PyEnv} {fs : FieldSpec} {doc : Doc} (off : Nat) (nd : doc.NoDup) (hp : NumbersParse env doc)
    (hr : ∀ n, Numbered env doc n → 1 ≤ n ∧ n ≤ 192)
    (hd : fs.dataEnc = py"b" ∨ fs.dataEnc = py"ascii") (ha : env.codec py"ascii" = some asciiCodec) :
    ∃ D t, BitmapWritten env fs (Flagged env doc) off D t := by
  obtain ⟨ns, hn⟩ := numsOf_of_parse nd hp
  have hm := (numsOf_ok nd hn).2
  have hF : ∀ x ∈ ns.map Int.toNat, x ≤ 192 := by
    intro x hx
    obtain ⟨y, hy, rfl⟩ := List.mem_map.1 hx
    have := hr y ((hm y).1 hy)
    omega
  have hFm : ∀ i : Nat, i ∈ ns.map Int.toNat ↔ Numbered env doc i := by
    intro i
    rw [← hm]
    constructor
    · intro h
      obtain ⟨x, hx, rfl⟩ := List.mem_map.1 h
      have := hr x ((hm x).1 hx)
      rwa [Int.toNat_of_nonneg (by omega)]
    · intro h; exact List.mem_map.2 ⟨(i : Int), h, by simp⟩
  have hfl : ∀ i : Nat, i ∈ f2Of (ns.map Int.toNat) ↔ Flagged env doc i := by
    intro i
    rw [mem_f2Of hF]
    unfold Flagged
    simp only [hFm, and_comm]
  have hG : ∀ f ∈ setInter (f2Of (ns.map Int.toNat)) (off + 1) (off + 65), off + 1 ≤ f ∧ f ≤ off + 64 := by
    intro f hf
    have := (mem_setInter.1 hf).2
    omega
  have hw := fun D t => bitmapWritten_iff (env := env) (fs := fs) (A := Flagged env doc) (D := D) (t := t) hG
    (fun i h1 h2 => by
      rw [mem_setInter, hfl]
      exact ⟨fun h => h.1, fun h => ⟨h, by omega, by omega⟩⟩)
  have hlen := bitmapOf_length hG
  generalize bitmapOf off (setInter (f2Of (ns.map Int.toNat)) (off + 1) (off + 65)) = bm at hw hlen
  by_cases hb : fs.isBinary
  · exact ⟨bm, hexText bm, (hw _ _).2 ⟨by unfold BitmapWrites; rw [if_pos hb], rfl⟩⟩
  · obtain ⟨D, hD, _⟩ := ascii_lawful.writesHex (hexText bm) (isHexDigit_hexText bm)
    refine ⟨D, hexText bm, (hw _ _).2 ⟨?_, rfl⟩⟩
    unfold BitmapWrites
    rw [if_neg hb]
    rcases hd with h | h
    · exact absurd h hb
    · exact ⟨asciiCodec, by rw [h]; exact ha, hD⟩

/-- **C56**: with a shipped specification `encode` succeeds exactly when the message type is four
ASCII characters, the numeric keys denote fields 1 to 128, and every such field (65 and 1 aside)
is there and fits. -/
theorem shipped_encode_iff {env : PyEnv} {spec : Spec} (hs : spec = defaultSpec ∨ spec = defaultAsciiSpec)
    (ha : env.codec py"ascii" = some asciiCodec) {doc : Doc} (nd : doc.NoDup) :
    (∃ r doc', encode env spec doc = (.ok r, doc')) ↔
      (∃ t, doc.get? (.str py"t") = some (.str t) ∧ t.length = 4 ∧ ∀ c ∈ t, c < 128) ∧
      NumbersParse env doc ∧ (∀ n, Numbered env doc n → 1 ≤ n ∧ n ≤ 128) ∧
      ∀ i : Nat, Numbered env doc i → i ≠ 1 → i ≠ 65 →
        ∃ fs v, spec.get? (natStr i) = some fs ∧ doc.get? (.str (natStr i)) = some v ∧ PlainValue fs v := by
  have wf : WellFormed spec := by 
    rcases hs with rfl | rfl
    · exact default_wellFormed
    · exact defaultAscii_wellFormed
  have has : ∀ k, k ∈ spec.keys → ∃ fs, spec.get? k = some fs := fun k hk => Dict.mem_keys_iff.1 hk
  have field : ∀ {k fs v}, spec.get? k = some fs → ((∃ n L D, FieldWrites env fs v n L D) ↔ PlainValue fs v) := by
    intro k fs v h
    exact fieldWrites_plain (wf.plain k fs h).1 (wf.encodings k fs h).1 ha (wf.encodings k fs h).2
      fun h0 => (wf.lengths k fs h h0).2
  obtain ⟨fh, hh⟩ := has py"h" ((wf.keys _).2 (.inl rfl))
  obtain ⟨ft, ht⟩ := has py"t" ((wf.keys _).2 (.inr (.inl rfl)))
  obtain ⟨fp, hp⟩ := has py"p" ((wf.keys _).2 (.inr (.inr (.inl rfl))))
  obtain ⟨f1, h1⟩ := has py"1" ((wf.keys _).2 (.inr (.inr (.inr ⟨1, by omega, by omega, rfl⟩))))
  have htb : ¬ ft.isBinary := by
    intro h
    have := (wf.type ft ht).2.1
    unfold typeBytes at this
    rw [if_pos h] at this
    cases this
  have htd : ft.dataEnc = py"ascii" := (wf.encodings _ _ ht).1.resolve_left htb
  have type : TypeReady env spec doc ↔ ∃ t, doc.get? (.str py"t") = some (.str t) ∧ t.length = 4 ∧ ∀ c ∈ t, c < 128 := by
    have hn : ¬ (asType ft).inNibbles := plain_units rfl
    constructor
    · rintro ⟨fs, v, D, hs, hv, hw, _⟩
      rw [ht] at hs; cases hs
      unfold DataWrites at hw
      rw [if_neg (show ¬ (asType ft).isBinary from htb), if_neg hn] at hw
      obtain ⟨t, c, rfl, hc, hD, hw⟩ := hw
      rw [show (asType ft).dataEnc = py"ascii" from htd, ha] at hc; cases hc
      exact ⟨t, hv, by rw [← ascii_encode_length hD, ← hw, (wf.type ft ht).2.1], ascii_encode_iff.1 ⟨D, hD⟩⟩
    · rintro ⟨t, hv, hl, hx⟩
      obtain ⟨D, hD⟩ := ascii_encode_iff.2 hx
      refine ⟨ft, .str t, D, ht, hv, ?_, fun h => absurd h htb⟩
      unfold DataWrites
      rw [if_neg (show ¬ (asType ft).isBinary from htb), if_neg hn]
      exact ⟨t, asciiCodec, rfl, by rw [show (asType ft).dataEnc = py"ascii" from htd]; exact ha, hD,
        by rw [ascii_encode_length hD, hl, (wf.type ft ht).2.1]⟩
  rw [encode_succeeds_iff nd, type]
  constructor
  · rintro ⟨_, ht', hnp, hr, _, hf⟩
    refine ⟨ht', hnp, ?_, ?_⟩
    · intro n hn
      obtain ⟨a, b⟩ := hr n hn
      refine ⟨a, ?_⟩
      apply Classical.byContradiction
      intro hlt
      have e : (n.toNat : Int) = n := Int.toNat_of_nonneg (by omega)
      obtain ⟨fs, v, _, _, _, hs, _⟩ := hf n.toNat (by rw [e]; exact hn) (by omega) (by omega)
      rw [wellFormed_undefined wf (.inr (by omega))] at hs
      cases hs
    · intro i hi a b
      obtain ⟨fs, v, n, L, D, hs, hv, hw⟩ := hf i hi a b
      exact ⟨fs, v, hs, hv, (field hs).1 ⟨n, L, D, hw⟩⟩
  · rintro ⟨ht', hnp, hr, hf⟩
    have hr' : ∀ n, Numbered env doc n → 1 ≤ n ∧ n ≤ 192 := fun n hn => by have := hr n hn; omega
    have bm := fun {k fs} (off : Nat) (h : spec.get? k = some fs) =>
      bitmapWritten_plain (fs := fs) off nd hnp hr' (wf.encodings k fs h).1 ha
    refine ⟨⟨fh, hh, .inl (by have := wf.header fh hh; omega)⟩, ht', hnp, hr',
      ⟨fp, hp, bm 0 hp, fun _ => ⟨f1, h1, bm 64 h1, fun _ => bm 128 h1⟩⟩, ?_⟩
    intro i hi a b
    obtain ⟨fs, v, hs, hv, hw⟩ := hf i hi a b
    obtain ⟨n, L, D, hw⟩ := (field hs).2 hw
    exact ⟨fs, v, n, L, D, hs, hv, hw⟩

/-- Conversely the account number of `shippedDoc` fits, because `encode` accepts the dict. -/
example : ∃ fs v, defaultSpec.get? (natStr 2) = some fs ∧ shippedDoc.get? (.str (natStr 2)) = some v ∧ PlainValue fs v := by
  have h : (match encode cpython defaultSpec shippedDoc with
      | (.ok _, _) => true
      | _ => false) = true := by decide +kernel
  have h : ∃ r doc', encode cpython defaultSpec shippedDoc = (.ok r, doc') := by
    split at h
    · next r doc' he => exact ⟨r, doc', he⟩
    · cases h
  exact ((shipped_encode_iff (.inl rfl) rfl (by unfold Dict.NoDup; decide)).1 h).2.2.2 2
    ⟨py"2", by decide, by decide, by decide, by decide, by decide⟩ (by decide) (by decide)

end Iso8583
