import Verif.Lemmas.EncodeCongr
import Verif.Props.Demo
/-!
# Which parts of a specification matter (C28, C29, C50)
-/

namespace Iso8583
open PyM

/-- First character of a pad, if any. -/
def padOf (p : Option Str) : Option Nat := (p.getD []).head?

/-- Entries `a` and `b` of field `k` differ at most in what neither `encode` nor `decode` looks at:
`desc`; `len_enc` of a fixed-length field; all but the first character of a pad; `len_count` absent
or `"bytes"`; and, for the message type and the bitmaps, everything but `data_enc`. -/
structure CodingEq (k : Str) (a b : FieldSpec) : Prop where
  dataEnc : a.dataEnc = b.dataEnc
  rest : k ≠ py"t" → k ≠ py"p" → k ≠ py"1" →
    a.lenType = b.lenType ∧ a.maxLen = b.maxLen ∧ a.lenCount.getD py"bytes" = b.lenCount.getD py"bytes" ∧
    (a.lenType ≠ 0 → a.lenEnc = b.lenEnc) ∧ padOf a.leftPad = padOf b.leftPad ∧ padOf a.rightPad = padOf b.rightPad

/-- Two specifications that define the same keys with entries equal as far as coding goes. -/
def SpecSim (A B : Spec) : Prop := ∀ k,
  (A.get? k = none ∧ B.get? k = none) ∨ ∃ a b, A.get? k = some a ∧ B.get? k = some b ∧ CodingEq k a b

theorem padChar_of_padOf {p q : Option Str} (h : padOf p = padOf q) : padChar p = padChar q := by
  unfold padOf at h
  unfold padChar
  cases hp : p.getD [] <;> cases hq : q.getD [] <;> simp_all

theorem decodeTextData_congr {env : PyEnv} {data : Bytes} {idx : Nat} {k : Str} {a b : FieldSpec} (h : a.dataEnc = b.dataEnc) :
    decodeTextData env data idx k a = decodeTextData env data idx k b := by
  unfold decodeTextData
  rw [h]

theorem decodeField_congr {env : PyEnv} {s : Bytes} {idx : Nat} {k : Str} {a b : FieldSpec} (h : CodingEq k a b)
    (ht : k ≠ py"t") (hp : k ≠ py"p") (h1 : k ≠ py"1") : decodeField env s idx k a = decodeField env s idx k b := by
  obtain ⟨h2, h3, h4, h5, h6, h7⟩ := h.rest ht hp h1
  have hl : ∀ lb, a.lenType ≠ 0 → decodeLength env lb idx k a = decodeLength env lb idx k b := by
    intro lb h0
    unfold decodeLength
    rw [h5 h0]
  have hr : ∀ idx n, removePadField idx k a n = removePadField idx k b n := by
    intro idx n
    unfold removePadField
    rw [padChar_of_padOf h6, padChar_of_padOf h7]
  have hc : a.count = b.count := h4
  have hbf : ∀ n, byteFieldLen a n = byteFieldLen b n := by
    intro n; unfold byteFieldLen; rw [hc]
  unfold decodeField
  dsimp only
  simp only [decodeTextData_congr h.dataEnc, hr, hbf, hc, h.dataEnc, ← h2, ← h3]
  by_cases h0 : a.lenType = 0
  · simp only [if_pos h0]
  · simp only [if_neg h0, hl _ h0]

theorem decodeBitmap_congr {env : PyEnv} {s : Bytes} {idx : Nat} {k : Str} {a b : FieldSpec} {off : Nat} {ext : Bool} {F : List Nat}
    (h : a.dataEnc = b.dataEnc) : decodeBitmap env s idx k a off ext F = decodeBitmap env s idx k b off ext F := by
  unfold decodeBitmap
  simp only [decodeTextData_congr h, h]

/-- `spec[k]` followed by something that does not depend on the difference. -/
theorem decSpec_bind_congr {A B : Spec} (h : SpecSim A B) {k : Str} {α : Type} {f g : FieldSpec → DecM α}
    (hfg : ∀ a b, CodingEq k a b → f a = g b) : (decSpec A k >>= f) = (decSpec B k >>= g) := by
  unfold decSpec
  rcases h k with ⟨h1, h2⟩ | ⟨a, b, h1, h2, hc⟩
  · rw [h1, h2]; rfl
  · rw [h1, h2]
    funext st
    simp only [run_bind, run_pure, hfg a b hc]

theorem decodeFields_congr {env : PyEnv} {s : Bytes} {A B : Spec} (h : SpecSim A B) : ∀ (l : List Nat) (idx : Nat) (last : Str),
    1 ∉ l → decodeFields env A s idx last l = decodeFields env B s idx last l
  | [], _, _, _ => rfl
  | i :: l, idx, last, h1 => by
    simp only [List.mem_cons, not_or] at h1
    unfold decodeFields
    refine decSpec_bind_congr h fun a b hc => ?_
    rw [decodeField_congr hc (natStr_ne_letter (by decide)) (natStr_ne_letter (by decide)) (natStr_ne_one (Ne.symm h1.1))]
    congr 1
    funext idx'
    exact decodeFields_congr h l idx' _ h1.2

theorem decodeHeader_congr {env : PyEnv} {s : Bytes} {A B : Spec} (h : SpecSim A B) (idx : Nat) :
    decodeHeader env A s idx = decodeHeader env B s idx := by
  unfold decodeHeader
  refine decSpec_bind_congr h fun a b hc => ?_
  rw [(hc.rest (by decide) (by decide) (by decide)).2.1, decodeField_congr hc (by decide) (by decide) (by decide)]

theorem decodeType_congr {env : PyEnv} {s : Bytes} {A B : Spec} (h : SpecSim A B) (idx : Nat) :
    decodeType env A s idx = decodeType env B s idx := by
  unfold decodeType
  refine decSpec_bind_congr h fun a b hc => ?_
  simp only [hc.dataEnc, decodeTextData_congr hc.dataEnc]

theorem decodeBitmaps_congr {env : PyEnv} {s : Bytes} {A B : Spec} (h : SpecSim A B) (idx : Nat) :
    decodeBitmaps env A s idx = decodeBitmaps env B s idx := by
  unfold decodeBitmaps
  have hb : ∀ (k : Str) (idx off : Nat) (ext : Bool) (F : List Nat) (β : Type) (f : Nat × List Nat → DecM β),
      (do let x ← decodeBitmap env s idx k (← decSpec A k) off ext F; f x) =
      (do let x ← decodeBitmap env s idx k (← decSpec B k) off ext F; f x) := by
    intro k idx off ext F β f
    exact decSpec_bind_congr h fun a b hc => by rw [decodeBitmap_congr hc.dataEnc]
  simp only [hb]

theorem decodeCore_congr {env : PyEnv} {s : Bytes} {A B : Spec} (h : SpecSim A B) :
    decodeCore env A s (.of []) = decodeCore env B s (.of []) := by
  simp only [decodeCore, run_bind, ← decodeHeader_congr h, ← decodeType_congr h, ← decodeBitmaps_congr h]
  rcases decodeHeader_cases env A s with ⟨hdr, hh, hp, e⟩ | ⟨m, pos, it, _, _, _, _, _, e⟩ | ⟨_, e⟩ <;> rw [e]
  simp only
  have hk := hh.keys
  have hkt : ∀ c, c ≠ 104 → ([c] : Str) ∉ keysOf hdr := by
    intro c hc
    rcases hk with hk | hk <;> rw [hk] <;> simp [hc]
  have hle : (wireOf hdr).length ≤ s.length := hp.length_le
  rcases decodeType_cases env A s (wireOf hdr).length (hkt 116 (by decide)) hle with
    ⟨ty, ht, hp2, e⟩ | ⟨m, pos, it, _, _, _, _, _, e⟩ | ⟨_, e⟩ <;> rw [e]
  simp only
  have hty : ty.key = py"t" := by obtain ⟨_, _, h, _⟩ := ht; exact h
  rcases decodeBitmaps_cases env A s ((wireOf hdr).length + ty.wire.length) (items := hdr ++ [ty])
    (by simp [hty, hkt 112 (by decide)]) (by simp [hty, hkt 49 (by decide)]) (prefix_drop_le hp2 hle) with
    ⟨bms, F, hb, _, e⟩ | ⟨m, pos, its, it, _, _, _, _, _, _, e⟩ | ⟨k, its, _, _, _, e⟩ <;> rw [e]
  simp only
  rw [decodeFields_congr h _ _ _ (by simpa [mem_sortedNat] using hb.fields.2.1)]

/-- **C50** (decode): `decode` gives the same result, or raises the same exception, with two
specifications that agree as far as coding goes. -/
theorem decode_spec_congr {env : PyEnv} {A B : Spec} (h : SpecSim A B) (s : Bytes) : decode env A s = decode env B s := by
  unfold decode
  have : (⟨[], []⟩ : DecState) = .of [] := rfl
  rw [this, decodeBody_eq, decodeBody_eq, decodeCore_congr h]

/-! ## Encode -/

theorem encOut_congr {env : PyEnv} {k : Str} {a b : FieldSpec} (h : CodingEq k a b)
    (ht : k ≠ py"t") (hp : k ≠ py"p") (h1 : k ≠ py"1") (v : Val) : encOut env k a v = encOut env k b v := by
  obtain ⟨h2, h3, h4, h5, h6, h7⟩ := h.rest ht hp h1
  have hc : a.count = b.count := h4
  have hpad : ∀ v, addPadField v a = addPadField v b := by
    intro v; unfold addPadField; rw [padChar_of_padOf h6, padChar_of_padOf h7]
  have hd : encData env k a v = encData env k b v := by
    unfold encData encodeBinaryField encodeTextField
    simp only [hpad, hc, h.dataEnc]
  have hl : a.lenType ≠ 0 → ∀ n, lenOut env k a n = lenOut env k b n := by
    intro h0 n
    unfold lenOut
    simp only [h5 h0, h2]
  unfold encOut
  rw [hd, hc, h3, ← h2]
  cases encData env k b v with
  | error r => rfl
  | ok x =>
    simp only
    by_cases h0 : a.lenType = 0
    · simp only [if_pos h0]
    · simp only [if_neg h0, hl h0]

theorem encPure_spec_congr {env : PyEnv} {A B : Spec} (h : SpecSim A B) (g : Str → Option Val) (nums : Except EncRaise (List Int)) :
    encPure env A g nums = encPure env B g nums := by
  have hH : hdrPure env A g = hdrPure env B g := by
    unfold hdrPure
    rcases h py"h" with ⟨h1, h2⟩ | ⟨a, b, h1, h2, hc⟩ <;> rw [h1, h2]
    simp only [(hc.rest (by decide) (by decide) (by decide)).2.1, encOut_congr hc (by decide) (by decide) (by decide)]
  have hT : typePure env A g = typePure env B g := by
    unfold typePure
    rcases h py"t" with ⟨h1, h2⟩ | ⟨a, b, h1, h2, hc⟩ <;> rw [h1, h2]
    have : ∀ v, typeEnc env a v = typeEnc env b v := by
      intro v
      have hbin : encodeBinaryField v py"t" a py"bytes" = encodeBinaryField v py"t" b py"bytes" := by
        unfold encodeBinaryField
        simp only [show ¬ (py"bytes" = py"nibbles") by decide, if_false]
      have hw : typeWidth a = typeWidth b := by unfold typeWidth; rw [hc.dataEnc]
      unfold typeEnc
      rw [hbin, hw]
      unfold encodeTextField
      rw [hc.dataEnc]
    simp only [this]
  have hB : ∀ p s t x y, bmsPure env A p s t x y = bmsPure env B p s t x y := by
    intro p s t x y
    have hbm : ∀ {k a b}, CodingEq k a b → ∀ bm, bmData env k a bm = bmData env k b bm := by
      intro k a b hc bm
      unfold bmData encodeTextField
      rw [hc.dataEnc]
    unfold bmsPure
    rcases h py"p" with ⟨h1, h2⟩ | ⟨a, b, h1, h2, hc⟩ <;> rw [h1, h2]
    simp only [hbm hc]
    rcases h py"1" with ⟨h1, h2⟩ | ⟨a1, b1, h1, h2, hc1⟩ <;> rw [h1, h2]
    simp only [hbm hc1]
  have hF : ∀ l : List Nat, 1 ∉ l → fieldsPure env A g l = fieldsPure env B g l := by
    intro l
    induction l with
    | nil => intro _; rfl
    | cons i l ih =>
      intro h1
      simp only [List.mem_cons, not_or] at h1
      unfold fieldsPure
      rcases h (natStr i) with ⟨h2, h3⟩ | ⟨a, b, h2, h3, hc⟩ <;> rw [h2, h3]
      simp only [encOut_congr hc (natStr_ne_letter (by decide)) (natStr_ne_letter (by decide)) (natStr_ne_one (Ne.symm h1.1)), ih h1.2]
  have hBody : ∀ F, bodyPure env A g F = bodyPure env B g F := by
    intro F
    unfold bodyPure
    rw [hB, hF _ (by simp [mem_sortedNat, restOf])]
  unfold encPure
  rw [hH, hT]
  simp only [hBody]

/-- **C50** (encode): `encode` gives the same bytes and dict, or raises the same exception with the
same contents, and leaves the caller's dict the same. -/
theorem encode_spec_congr {env : PyEnv} {A B : Spec} (h : SpecSim A B) (doc : Doc) : encode env A doc = encode env B doc := by
  rw [encode_run, encode_run, encPure_spec_congr h]

/-! ## C28, C29 -/

/-- The specification with other descriptions: `f k none` removes the description of `k`. -/
def withDescs (f : Str → Option Str → Option Str) (spec : Spec) : Spec :=
  spec.map fun kv => (kv.1, { kv.2 with desc := f kv.1 kv.2.desc })

/-- The specification with other length encodings of its fixed-length fields. -/
def withFixedLenEnc (f : Str → Str) (spec : Spec) : Spec :=
  spec.map fun kv => (kv.1, if kv.2.lenType = 0 then { kv.2 with lenEnc := f kv.1 } else kv.2)

theorem get?_mapVals (g : Str → FieldSpec → FieldSpec) (k : Str) : ∀ spec : Spec,
    Dict.get? (spec.map fun kv => (kv.1, g kv.1 kv.2)) k = (spec.get? k).map (g k)
  | [] => rfl
  | (k', fs) :: t => by
    simp only [List.map_cons, Dict.get?]
    by_cases hk : k' = k
    · subst hk; simp
    · simp only [hk, if_false]
      exact get?_mapVals g k t

theorem specSim_of {A B : Spec} (g : Str → FieldSpec → FieldSpec) (hg : ∀ k fs, CodingEq k fs (g k fs))
    (h : ∀ k, B.get? k = (A.get? k).map (g k)) : SpecSim A B := by
  intro k
  cases hA : A.get? k with
  | none => exact .inl ⟨rfl, by rw [h, hA]; rfl⟩
  | some fs => exact .inr ⟨fs, g k fs, rfl, by rw [h, hA]; rfl, hg k fs⟩

theorem withDescs_sim (f : Str → Option Str → Option Str) (spec : Spec) : SpecSim spec (withDescs f spec) :=
  specSim_of (fun k fs => { fs with desc := f k fs.desc }) (fun _ _ => ⟨rfl, fun _ _ _ => ⟨rfl, rfl, rfl, fun _ => rfl, rfl, rfl⟩⟩)
    (fun k => get?_mapVals (fun k fs => { fs with desc := f k fs.desc }) k spec)

theorem withFixedLenEnc_sim (f : Str → Str) (spec : Spec) : SpecSim spec (withFixedLenEnc f spec) := by
  refine specSim_of (fun k fs => if fs.lenType = 0 then { fs with lenEnc := f k } else fs) (fun k fs => ?_)
    (fun k => get?_mapVals (fun k fs => if fs.lenType = 0 then { fs with lenEnc := f k } else fs) k spec)
  split
  · next h => exact ⟨rfl, fun _ _ _ => ⟨rfl, rfl, rfl, fun h' => absurd h h', rfl, rfl⟩⟩
  · exact ⟨rfl, fun _ _ _ => ⟨rfl, rfl, rfl, fun _ => rfl, rfl, rfl⟩⟩

/-- **C28**: descriptions play no role, on success or failure. -/
theorem desc_irrelevant (env : PyEnv) (f : Str → Option Str → Option Str) (spec : Spec) :
    (∀ s, decode env (withDescs f spec) s = decode env spec s) ∧
    (∀ doc, encode env (withDescs f spec) doc = encode env spec doc) :=
  ⟨fun s => (decode_spec_congr (withDescs_sim f spec) s).symm, fun d => (encode_spec_congr (withDescs_sim f spec) d).symm⟩

/-- **C29**: `len_enc` of fixed-length fields plays no role, on success or failure. -/
theorem lenEnc_irrelevant (env : PyEnv) (f : Str → Str) (spec : Spec) :
    (∀ s, decode env (withFixedLenEnc f spec) s = decode env spec s) ∧
    (∀ doc, encode env (withFixedLenEnc f spec) doc = encode env spec doc) :=
  ⟨fun s => (decode_spec_congr (withFixedLenEnc_sim f spec) s).symm,
   fun d => (encode_spec_congr (withFixedLenEnc_sim f spec) d).symm⟩

/-- The worked specification with descriptions, a bogus length encoding on fixed-length fields,
longer pads and meaningless properties on the type and the bitmaps. -/
def noisySpec : Spec := [
  (py"h", { dataEnc := py"ascii", lenEnc := py"bogus", lenType := 0, maxLen := 3, desc := some py"Header" }),
  (py"t", { dataEnc := py"b", lenEnc := py"ascii", lenType := 7, maxLen := -4, lenCount := some py"nibbles" }),
  (py"p", { dataEnc := py"b", lenEnc := py"", lenType := 1, maxLen := 0 }),
  (py"1", { dataEnc := py"ascii", lenEnc := py"b", lenType := 3, maxLen := 1 }),
  (py"2", { dataEnc := py"ascii", lenEnc := py"bcd", lenType := 1, maxLen := 19, lenCount := some py"bytes" }),
  (py"3", { dataEnc := py"b", lenEnc := py"b", lenType := 1, maxLen := 9, lenCount := some py"nibbles", leftPad := some py"0F",
            rightPad := some py"" }),
  (py"70", { dataEnc := py"cp500", lenEnc := py"cp500", lenType := 2, maxLen := 10 }),
  (py"130", { dataEnc := py"b", lenEnc := py"latin-1", lenType := 0, maxLen := 2 })]

theorem noisy_sim : SpecSim demoSpec noisySpec := by
  intro k
  by_cases hk : k ∈ demoSpec.keys
  · right
    revert hk
    have : demoSpec.keys = [py"h", py"t", py"p", py"1", py"2", py"3", py"70", py"130"] := by decide
    rw [this]
    simp only [List.mem_cons, List.not_mem_nil, or_false]
    rintro (rfl | rfl | rfl | rfl | rfl | rfl | rfl | rfl) <;>
      exact ⟨_, _, rfl, rfl, by decide, by decide⟩
  · left
    have : noisySpec.keys = demoSpec.keys := by decide
    exact ⟨Dict.get?_eq_none.2 hk, Dict.get?_eq_none.2 (this ▸ hk)⟩

example : decode cpython noisySpec demoMsg = .ok (demoDec, demoEnc) := by
  rw [← decode_spec_congr noisy_sim]; exact demo_decode

example : encode cpython noisySpec demoDoc = (.ok (demoMsg, demoEnc), demoDocAfter) := by
  rw [← encode_spec_congr noisy_sim]; exact demo_encode

/-- The side conditions are needed: `len_enc` of a variable-length field matters. -/
example : encode cpython (demoSpec.set py"2" { dataEnc := py"ascii", lenEnc := py"b", lenType := 2, maxLen := 19 }) demoDoc
    ≠ encode cpython (demoSpec.set py"2" { dataEnc := py"ascii", lenEnc := py"ascii", lenType := 2, maxLen := 19 }) demoDoc := by
  decide +kernel

example : (decode cpython (withDescs (fun _ _ => none) demoSpec) demoMsg).toOption = some (demoDec, demoEnc) := by
  rw [(desc_irrelevant cpython _ demoSpec).1, demo_decode]; rfl

example : (encode cpython (withFixedLenEnc (fun _ => py"bogus") demoSpec) demoDoc).2 = demoDocAfter := by
  rw [(lenEnc_irrelevant cpython _ demoSpec).2, demo_encode]

end Iso8583
