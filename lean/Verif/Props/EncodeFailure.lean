import Verif.Lemmas.EncodeFault
import Verif.Props.EncodeDict
/-!
# What makes `encode` raise (C15, C16, C17, C20, C21, C44)
-/

namespace Iso8583

/-! ## C16: the message type -/

/-- **C16**: without a message type `encode` raises `EncodeError` for `t`. -/
theorem encode_no_type {env : PyEnv} {spec : Spec} {doc : Doc} (hh : HeaderReady env spec doc)
    (ht : doc.get? (.str py"t") = none) : Raises env spec doc .required py"t" := by
  obtain ⟨hdr, hh⟩ := headerReady_iff.1 hh
  obtain ⟨e, h1, h2, h3, _⟩ := raises_of_faults (.noType hh ht)
  exact ⟨e, h1, h2, h3⟩

/-- **C16**: a text that cannot be the message type, in particular one of another width, makes
`encode` raise `EncodeError` for `t` saying so. -/
theorem encode_bad_type {env : PyEnv} {spec : Spec} {doc : Doc} {fs : FieldSpec} {t : Str} {D : Bytes} {m : EncMsg}
    (hh : HeaderReady env spec doc) (hs : spec.get? py"t" = some fs) (ht : doc.get? (.str py"t") = some (.str t))
    (hm : TypeFault env fs t D m) : Raises env spec doc m py"t" := by
  obtain ⟨hdr, hh⟩ := headerReady_iff.1 hh
  obtain ⟨e, h1, h2, h3, _⟩ := raises_of_faults (.type hh hs ht (typeEnc_str_error_iff.2 ⟨m, rfl, hm⟩))
  exact ⟨e, h1, h2, h3⟩

/-- The emitted type is `TypeReady`, so never missing; see `encode_type` for its width. -/
theorem encode_needs_type {env : PyEnv} {spec : Spec} {doc doc' : Doc} {s : Bytes} {enc : EncDoc}
    (h : encode env spec doc = (.ok (s, enc), doc')) : HeaderReady env spec doc ∧ TypeReady env spec doc := by
  obtain ⟨ns, _, _, items, bms, hw, _⟩ := encode_ok_iff.1 h
  obtain ⟨hdr, ty, flds, _, hh, ht, _⟩ := hw.parts
  exact ⟨headerReady_iff.2 ⟨hdr, hh⟩, typeReady_iff.2 ⟨ty, ht⟩⟩

theorem HeaderReady.of_eq {env : PyEnv} {spec : Spec} {doc doc' : Doc} (h : HeaderReady env spec doc)
    (e : doc'.get? (.str py"h") = doc.get? (.str py"h")) : HeaderReady env spec doc' := by
  unfold HeaderReady at h ⊢
  rw [e]; exact h

theorem TypeReady.of_eq {env : PyEnv} {spec : Spec} {doc doc' : Doc} (h : TypeReady env spec doc)
    (e : doc'.get? (.str py"t") = doc.get? (.str py"t")) : TypeReady env spec doc' := by
  unfold TypeReady at h ⊢
  rw [e]; exact h

theorem demo_type : TypeReady cpython demoSpec demoDoc := (encode_needs_type demo_encode).2

theorem demo_header : HeaderReady cpython demoSpec demoDoc := (encode_needs_type demo_encode).1

/-- The worked message without its type. -/
example : Raises cpython demoSpec (demoDoc.pop (.str py"t")) .required py"t" := by
  apply encode_no_type
  · exact demo_header.of_eq (by decide)
  · decide

/-- The worked message with a type of three bytes. -/
example : Raises cpython demoSpec (demoDoc.set (.str py"t") (.str py"020000")) (.typeLen 3 2) py"t" := by
  refine encode_bad_type (t := py"020000") (fs := { dataEnc := py"b", lenEnc := py"ascii", lenType := 0, maxLen := 2 })
    (D := [0x02, 0x00, 0x00]) ?_ rfl (by decide) ?_
  · exact demo_header.of_eq (by decide)
  · exact ⟨by unfold DataWrites; rw [if_pos (by decide), if_neg (by decide)]; decide, by decide, by decide⟩

/-! ## C17: the header -/

/-- **C17**: a required header that is missing. -/
theorem encode_no_header {env : PyEnv} {spec : Spec} {doc : Doc} (hh : hasHeader spec) (hd : doc.get? (.str py"h") = none) :
    Raises env spec doc .requiredBySpec py"h" := by
  obtain ⟨fs, hs, hm⟩ := hh
  obtain ⟨e, h1, h2, h3, _⟩ := raises_of_faults (.noHeader (env := env) (g := lookup doc) (nums := numsOf env doc) hs hm hd)
  exact ⟨e, h1, h2, h3⟩

example : Raises cpython demoSpec (demoDoc.pop (.str py"h")) .requiredBySpec py"h" :=
  encode_no_header ⟨_, rfl, by decide⟩ (by decide)

/-- **C17**: without a header in the specification a supplied `h` is ignored, whatever it is. -/
theorem encode_header_ignored {env : PyEnv} {spec : Spec} {a b : Doc} (he : AsciiNumeric env) (na : a.NoDup) (nb : b.NoDup)
    {fs : FieldSpec} (hs : spec.get? py"h" = some fs) (hm : fs.maxLen ≤ 0)
    (h : (a.filter fun kv => kv.1 ≠ .str py"h") = b.filter fun kv => kv.1 ≠ .str py"h") :
    outcome env spec a = outcome env spec b := by
  rw [outcome_eq, outcome_eq]
  have hnum : isNumeric env py"h" = false := he.letter (by decide) (by decide)
  have hrel : ∀ kv : Key × Val, relevant env kv.1 = true → decide (kv.1 ≠ .str py"h") = true := by
    rintro ⟨k, v⟩ hk
    simp only [decide_eq_true_eq]
    rintro rfl
    simp [relevant, hnum] at hk
  have hget : ∀ k : Str, k ≠ py"h" → lookup a k = lookup b k := by
    intro k hk
    have h1 := Dict.get?_filter (d := a) (p := fun x => decide (x ≠ .str py"h")) (k := .str k) (by simpa using hk)
    have h2 := Dict.get?_filter (d := b) (p := fun x => decide (x ≠ .str py"h")) (k := .str k) (by simpa using hk)
    unfold lookup
    rw [← h1, ← h2]
    exact congrArg (fun d => Dict.get? d (Key.str k)) h
  have hnums : numsOf env a = numsOf env b := by
    unfold numsOf
    apply numericKeys_congr
    rw [← Dict.keys_filter, ← Dict.keys_filter, cleaned_eq_filter na, cleaned_eq_filter nb, List.filter_filter, List.filter_filter]
    congr 1
    rw [filter_of_filter (p := fun kv : Key × Val => decide (kv.1 ≠ .str py"h")) (l := a), h,
      ← filter_of_filter (p := fun kv : Key × Val => decide (kv.1 ≠ .str py"h")) (l := b)]
    · intro x hx; simp only [Bool.and_eq_true] at hx; exact hrel x (by first | exact hx.1 | exact hx.2)
    · intro x hx; simp only [Bool.and_eq_true] at hx; exact hrel x (by first | exact hx.1 | exact hx.2)
  have : encPure env spec (lookup a) (numsOf env a) = encPure env spec (lookup b) (numsOf env b) := by
    rw [hnums]
    unfold encPure
    have e1 : hdrPure env spec (lookup a) = hdrPure env spec (lookup b) := by
      unfold hdrPure
      rw [hs]
      simp only [if_pos hm]
    rw [e1, typePure_congr (hget py"t" (by decide))]
    have e2 : ∀ F, bodyPure env spec (lookup a) F = bodyPure env spec (lookup b) F := fun F =>
      bodyPure_congr (List.Perm.refl F) fun i _ _ => hget _ (fun e => natStr_ne_letter (by decide) e)
    simp only [e2]
  rw [this]

/-- The worked specification with the header switched off. -/
def noHeaderSpec : Spec := demoSpec.set py"h" { dataEnc := py"ascii", lenEnc := py"ascii", lenType := 0, maxLen := 0 }

/-- A header of any kind makes no difference there, and the message is encoded without it. -/
example : outcome cpython noHeaderSpec demoDoc = outcome cpython noHeaderSpec (demoDoc.set (.str py"h") .unsized) ∧
    outcome cpython noHeaderSpec demoDoc = .ok (demoMsg.drop 3, demoEnc.drop 1) :=
  ⟨encode_header_ignored cpython_ascii demo_nodup (demo_nodup.set _ _) rfl (by decide) (by decide +kernel), by decide +kernel⟩

/-! ## C15: numbers out of range -/

theorem mem_numsOf {env : PyEnv} {doc : Doc} (nd : doc.NoDup) {ns : List Int} (hn : numsOf env doc = .ok ns) {x : Int}
    (hx : x < 1 ∨ 192 < x) : x ∈ ns ↔ Denotes env doc x := by
  obtain ⟨_, h2, h3⟩ := numericKeys_ok hn
  constructor
  · intro h
    obtain ⟨t, ht, h4, h5⟩ := h3 x h
    exact ⟨t, ((mem_keys_cleaned nd).1 ht).1, h4, h5⟩
  · rintro ⟨t, ht, h4, h5⟩
    have hne : ∀ n : Nat, 1 ≤ n → n ≤ 192 → Key.str t ≠ .str (natStr n) := by
      rintro n h1 h192 e
      cases e
      have := pyInt_natStr_eq h5
      omega
    obtain ⟨y, hy, h6⟩ := h2 t ((mem_keys_cleaned nd).2 ⟨ht, hne 1 (by omega) (by omega), hne 65 (by omega) (by omega)⟩) h4
    rw [h5] at h6; cases h6; exact hy

theorem not_inRange {n : Int} : inRange n = false ↔ n < 1 ∨ 192 < n := by
  cases h : inRange n with
  | true => simp [inRange] at h; simp; omega
  | false => simp [inRange] at h; simp; omega

/-- **C15**: with header and type in order, a number outside 1..192 makes `encode` raise
`EncodeError` for `p`, listing exactly the numbers outside, in ascending order. -/
theorem encode_out_of_range {env : PyEnv} {spec : Spec} {doc : Doc} (nd : doc.NoDup) (hh : HeaderReady env spec doc)
    (ht : TypeReady env spec doc) (hk : KeysParse env doc) {n : Int} (hn : Denotes env doc n) (hr : n < 1 ∨ 192 < n) :
    ∃ l, Raises env spec doc (.outOfRange l) py"p" ∧ l.Pairwise (· < ·) ∧
      ∀ x, x ∈ l ↔ Denotes env doc x ∧ (x < 1 ∨ 192 < x) := by
  obtain ⟨hdr, hh⟩ := headerReady_iff.1 hh
  obtain ⟨ty, ht⟩ := typeReady_iff.1 ht
  obtain ⟨ns, hns⟩ : ∃ ns, numsOf env doc = .ok ns :=
    numericKeys_of_parse fun k hk' => hk k ((mem_keys_cleaned nd).1 hk').1
  have hmem : n ∈ setUpdate [] ns := mem_setUpdate.2 (.inr ((mem_numsOf nd hns hr).2 hn))
  have hall : (setUpdate [] ns).all inRange = false := by
    rw [List.all_eq_false]
    exact ⟨n, hmem, by simp [not_inRange.2 hr]⟩
  obtain ⟨e, h1, h2, h3, _⟩ := raises_of_faults (.range hh ht hns hall)
  refine ⟨_, ⟨e, h1, h2, h3⟩, ?_, ?_⟩
  · have hs := sortedBy_sorted id ((setUpdate [] ns).filter fun n => ¬ inRange n)
    have hnd : (sortedBy id ((setUpdate [] ns).filter fun n => ¬ inRange n)).Nodup :=
      (sortedBy_perm id _).nodup_iff.2 ((nodup_setUpdate List.nodup_nil).filter _)
    refine (List.Pairwise.and hs (List.nodup_iff_pairwise_ne.1 hnd)).imp ?_
    intro a b h
    simp only [id] at h
    omega
  · intro x
    rw [(sortedBy_perm id _).mem_iff]
    simp only [List.mem_filter, mem_setUpdate, List.not_mem_nil, false_or, decide_eq_true_eq, Bool.not_eq_true]
    constructor
    · rintro ⟨h4, h5⟩
      have := not_inRange.1 h5
      exact ⟨(mem_numsOf nd hns this).1 h4, this⟩
    · rintro ⟨h4, h5⟩
      exact ⟨(mem_numsOf nd hns h5).2 h4, not_inRange.2 h5⟩

/-- **C15**, the other way round: when `encode` succeeds every key is a string, and every number is
in 1..192. -/
theorem encode_ok_range {env : PyEnv} {spec : Spec} {doc doc' : Doc} {s : Bytes} {enc : EncDoc} (nd : doc.NoDup)
    (h : encode env spec doc = (.ok (s, enc), doc')) :
    (∀ k ∈ doc.keys, ∃ t, k = .str t) ∧ ∀ n, Denotes env doc n → 1 ≤ n ∧ n ≤ 192 := by
  obtain ⟨ns, hns, hr, _⟩ := encode_ok_iff.1 h
  constructor
  · intro k hk
    cases k with
    | str t => exact ⟨t, rfl⟩
    | obj r =>
      obtain ⟨t, e⟩ := (numericKeys_ok hns).1 (.obj r) ((mem_keys_cleaned nd).2 ⟨hk, by simp, by simp⟩)
      cases e
  · intro n hn
    by_cases hb : n < 1 ∨ 192 < n
    · have := List.all_eq_true.1 hr n (mem_setUpdate.2 (.inr ((mem_numsOf nd hns hb).2 hn)))
      rw [not_inRange.2 hb] at this; cases this
    · omega

/-- The worked message with fields 0 and 193 added, in no particular order. -/
def outOfRangeDoc : Doc := (.str py"193", .str py"x") :: demoDoc ++ [(.str py"000", .str py"y"), (.str py"0193", .unsized)]

theorem keysParse_of {doc : Doc} (h : ∀ k ∈ doc.keys, (match k with
      | .str s => !(isNumeric cpython s) || (pyInt cpython s).isSome
      | .obj _ => false) = true) : KeysParse cpython doc := by
  intro k hk
  have h1 := h k hk
  cases k with
  | obj r => cases h1
  | str s =>
    refine ⟨s, rfl, fun hs => ?_⟩
    simp only [hs, Bool.not_true, Bool.false_or] at h1
    exact Option.isSome_iff_exists.1 h1

example : ∃ l, Raises cpython demoSpec outOfRangeDoc (.outOfRange l) py"p" ∧ l.Pairwise (· < ·) ∧
    ∀ x, x ∈ l ↔ Denotes cpython outOfRangeDoc x ∧ (x < 1 ∨ 192 < x) :=
  encode_out_of_range (n := 193) (by unfold Dict.NoDup; decide +kernel) (demo_header.of_eq (by decide +kernel))
    (demo_type.of_eq (by decide +kernel)) (keysParse_of (by decide +kernel))
    ⟨py"193", by decide +kernel, by decide +kernel, by decide +kernel⟩ (by omega)

example : Raises cpython demoSpec outOfRangeDoc (.outOfRange [0, 193]) py"p" := by
  refine ⟨⟨.outOfRange [0, 193], outOfRangeDoc.pop (.str py"1"), demoEnc.take 2, py"p"⟩, ?_, rfl, rfl⟩
  decide +kernel

/-! ## C44: keys that are not strings -/

theorem numericKeys_obj {env : PyEnv} {all : List Key} {r : Str} {post : List Key} : ∀ {pre : List Key},
    (∀ s, Key.str s ∈ pre → isNumeric env s = true → ∃ n, pyInt env s = some n) →
    numericKeys env all (pre ++ .obj r :: post) = .error (.err (.invalidFields (objKeys all)) py"p")
  | [], _ => rfl
  | .obj _ :: _, _ => rfl
  | .str s :: t, h => by
    have ih := numericKeys_obj (env := env) (all := all) (r := r) (post := post) (pre := t) fun s hs => h s (by simp [hs])
    simp only [List.cons_append, numericKeys, ih]
    split
    · next hn =>
      obtain ⟨n, hp⟩ := h s (by simp) hn
      simp [hp]
    · rfl

/-- **C44**: with header and type in order, a key that is not a string makes `encode` raise
`EncodeError` for `p` listing all such keys in dict order, provided `int` accepts the numeric
keys in front of the first of them. -/
theorem encode_invalid_keys {env : PyEnv} {spec : Spec} {doc : Doc} (nd : doc.NoDup) (hh : HeaderReady env spec doc)
    (ht : TypeReady env spec doc) {pre post : List Key} {r : Str} (hk : doc.keys = pre ++ .obj r :: post)
    (hp : ∀ s, Key.str s ∈ pre → isNumeric env s = true → ∃ n, pyInt env s = some n) :
    Raises env spec doc (.invalidFields (doc.keys.filterMap fun | .obj r => some r | .str _ => none)) py"p" := by
  obtain ⟨hdr, hh⟩ := headerReady_iff.1 hh
  obtain ⟨ty, ht⟩ := typeReady_iff.1 ht
  have hc : (cleaned doc).keys = doc.keys.filter fun k => k ≠ .str py"1" && k ≠ .str py"65" := by
    rw [cleaned_eq_filter nd, Dict.keys_filter doc fun k => k ≠ .str py"1" && k ≠ .str py"65"]
  have hobj : objKeys (cleaned doc).keys = objKeys doc.keys := by
    rw [hc]
    unfold objKeys
    rw [List.filterMap_filter]
    congr 1
    funext k
    cases k with
    | obj r => simp
    | str s => split <;> rfl
  have hnums : numsOf env doc = .error (.err (.invalidFields (objKeys doc.keys)) py"p") := by
    unfold numsOf
    rw [← hobj]
    rw [hc, hk, List.filter_append, List.filter_cons_of_pos (by simp)]
    exact numericKeys_obj fun s hs => hp s (List.mem_filter.1 hs).1
  obtain ⟨e, h1, h2, h3, _⟩ := raises_of_faults (.keys hh ht hnums)
  exact ⟨e, h1, h2, h3⟩

/-- **C44**: `encode` never succeeds on such a dict. -/
theorem encode_needs_str_keys {env : PyEnv} {spec : Spec} {doc : Doc} (nd : doc.NoDup) {r : Str}
    (hk : Key.obj r ∈ doc.keys) (out : Bytes × EncDoc) : (encode env spec doc).1 ≠ .ok out := by
  intro h
  obtain ⟨s, enc⟩ := out
  obtain ⟨t, e⟩ := (encode_ok_range (s := s) (enc := enc) (doc' := (encode env spec doc).2) nd (by rw [← h])).1 _ hk
  cases e

/-- The worked message with the keys `2` (an int) and `(1,)` added. -/
example : Raises cpython demoSpec ((.obj py"2", .str py"x") :: demoDoc ++ [(.obj py"(1,)", .unsized)])
    (.invalidFields [py"2", py"(1,)"]) py"p" :=
  encode_invalid_keys (pre := []) (by unfold Dict.NoDup; decide +kernel) (demo_header.of_eq (by decide +kernel))
    (demo_type.of_eq (by decide +kernel)) rfl (by simp)

/-! ## One field at fault: C20, C21 -/

/-- When everything but one field of the dict is in order, `encode` raises `EncodeError` for that
field, with the message that states what is wrong with it, and the fields before it complete. -/
theorem encode_field_fault {env : PyEnv} {spec : Spec} {doc d : Doc} {k : Str} {v' : Val} {t : Str} {s : Bytes} {enc : EncDoc}
    {fs : FieldSpec} {ent : EncEntry} {m : EncMsg}
    (h : encode env spec (doc.set (.str k) v') = (.ok (s, enc), d)) (hk : k ∈ enc.keys)
    (ht : k ≠ py"t") (hp : k ≠ py"p") (h1 : k ≠ py"1") (hv : doc.get? (.str k) = some (.str t)) (hs : spec.get? k = some fs)
    (hm : FieldFault env fs t ent m) : Raises env spec doc m k := by
  obtain ⟨items, texts, hf⟩ := single_fault h hk ht hp h1 hv hs (encOut_str_error_iff.2 ⟨m, rfl, hm⟩)
  obtain ⟨e, h2, h3, h4, _⟩ := raises_of_faults hf
  exact ⟨e, h2, h3, h4⟩

/-- **C20**: units within `max_len` that do not fit the length prefix make `encode` raise
`EncodeError` for the field.  A text prefix must write digits as one byte each. -/
theorem encode_len_does_not_fit {env : PyEnv} {spec : Spec} {doc d : Doc} {k : Str} {v' : Val} {t : Str} {s : Bytes}
    {enc : EncDoc} {fs : FieldSpec} {n : Nat} {D : Bytes}
    (h : encode env spec (doc.set (.str k) v') = (.ok (s, enc), d)) (hk : k ∈ enc.keys)
    (ht : k ≠ py"t") (hp : k ≠ py"p") (h1 : k ≠ py"1") (hv : doc.get? (.str k) = some (.str t)) (hs : spec.get? k = some fs)
    (hl : fs.lenEnc = py"b" ∨ fs.lenEnc = py"bcd" ∨ FieldLaws env fs) (h0 : fs.lenType ≠ 0)
    (hw : DataWrites env fs (.str t) n D) (hle : (n : Int) ≤ fs.maxLen) (hcap : capacity fs ≤ n) :
    Raises env spec doc .lenDoesNotFit k := by
  by_cases hb : fs.lenEnc = py"b" ∨ fs.lenEnc = py"bcd"
  · exact encode_field_fault (ent := ⟨[], D⟩) h hk ht hp h1 hv hs ⟨n, hw, h0, hle, by rw [if_pos hb]; exact ⟨hcap, rfl⟩⟩
  · have hlb : fs.lenEnc ≠ py"b" := fun e => hb (.inl e)
    have hlc : fs.lenEnc ≠ py"bcd" := fun e => hb (.inr e)
    have hl : FieldLaws env fs := by
      rcases hl with e | e | e
      · exact absurd e hlb
      · exact absurd e hlc
      · exact e
    obtain ⟨e, he⟩ := Dict.mem_keys_iff.1 hk
    obtain ⟨fs', v, n', hs', _, hw'⟩ := encode_entry h he ht hp h1
    rw [hs] at hs'; cases hs'
    have hsz := hw'.size
    rw [if_neg h0] at hsz
    obtain ⟨_, hpre⟩ := hsz
    unfold PrefixWrites at hpre
    rw [if_neg hlb, if_neg hlc] at hpre
    obtain ⟨c, hc, _⟩ := hpre
    obtain ⟨_, hdig⟩ := hl.prefixCodec h0 hlb hlc c hc
    have hcap' : 10 ^ fs.lenType ≤ n := by
      unfold capacity at hcap
      rw [if_neg hlb, if_neg hlc] at hcap
      exact hcap
    obtain ⟨L, hL, hLl⟩ := hdig (zeroPad fs.lenType n) (fun x hx => by
      have := zeroPad_digits fs.lenType n x hx
      simp [isAsciiDigit] at this
      simp [isHexDigit, this])
    have hlen : fs.lenType < (natStr n).length := by
      have := (natStr_length_le (w := fs.lenType) (n := n) (by omega))
      omega
    have hzl := zeroPad_length fs.lenType n
    refine encode_field_fault (ent := ⟨L, D⟩) h hk ht hp h1 hv hs ⟨n, hw, h0, hle, ?_⟩
    rw [if_neg hb]
    exact ⟨c, hc, hL, by show fs.lenType < L.length; omega⟩

/-- **C21**: an odd number of nibbles and no pad make `encode` raise `EncodeError` for the field. -/
theorem encode_odd_nibbles {env : PyEnv} {spec : Spec} {doc d : Doc} {k : Str} {v' : Val} {t : Str} {s : Bytes}
    {enc : EncDoc} {fs : FieldSpec}
    (h : encode env spec (doc.set (.str k) v') = (.ok (s, enc), d)) (hk : k ∈ enc.keys)
    (ht : k ≠ py"t") (hp : k ≠ py"p") (h1 : k ≠ py"1") (hv : doc.get? (.str k) = some (.str t)) (hs : spec.get? k = some fs)
    (hb : fs.isBinary) (hn : fs.inNibbles) (hl : firstPad fs.leftPad = none) (hr : firstPad fs.rightPad = none)
    (ho : t.length % 2 = 1) : Raises env spec doc .oddNibbles k :=
  encode_field_fault (ent := ⟨[], []⟩) h hk ht hp h1 hv hs ⟨hb, hn, ho, hl, hr, rfl⟩

/-- Fields 2 and 3 whose `max_len` exceeds what a one-byte prefix can say; field 4 in nibbles without pad. -/
def tightSpec : Spec := [
  (py"h", { dataEnc := py"ascii", lenEnc := py"ascii", lenType := 0, maxLen := 0 }),
  (py"t", { dataEnc := py"ascii", lenEnc := py"ascii", lenType := 0, maxLen := 4 }),
  (py"p", { dataEnc := py"b", lenEnc := py"ascii", lenType := 0, maxLen := 8 }),
  (py"2", { dataEnc := py"ascii", lenEnc := py"ascii", lenType := 1, maxLen := 12 }),
  (py"3", { dataEnc := py"ascii", lenEnc := py"bcd", lenType := 1, maxLen := 120 }),
  (py"4", { dataEnc := py"b", lenEnc := py"b", lenType := 1, maxLen := 9, lenCount := some py"nibbles" })]

/-- A dict that `tightSpec` encodes. -/
def tightDoc : Doc := [(.str py"4", .str py"ABCD"), (.str py"3", .str py"xyz"), (.str py"2", .str py"123456789"), (.str py"t", .str py"0100")]

theorem tight_encode : ∃ s enc d, encode cpython tightSpec tightDoc = (.ok (s, enc), d) ∧ enc.keys = [py"t", py"p", py"2", py"3", py"4"] := by
  refine ⟨_, _, _, Prod.ext rfl rfl, ?_⟩
  decide +kernel

theorem tight_laws : SpecLaws cpython tightSpec := specLaws_of_lawful cpython_codecs_lawful (by decide) (by decide)

/-- Ten characters do not fit a prefix of one decimal digit. -/
example : Raises cpython tightSpec (tightDoc.set (.str py"2") (.str py"1234567890")) .lenDoesNotFit py"2" := by
  obtain ⟨s, enc, d, h, hk⟩ := tight_encode
  refine encode_len_does_not_fit (d := d) (v' := .str py"123456789") (t := py"1234567890") (s := s) (enc := enc) (n := 10)
    (D := [0x31, 0x32, 0x33, 0x34, 0x35, 0x36, 0x37, 0x38, 0x39, 0x30])
    (fs := { dataEnc := py"ascii", lenEnc := py"ascii", lenType := 1, maxLen := 12 })
    (by rw [Dict.set_set, ← h]; congr 1) (by rw [hk]; decide) (by decide) (by decide) (by decide) (by decide) rfl
    (.inr (.inr (tight_laws.fields py"2" _ rfl (by decide) (by decide) (by decide)))) (by decide) ?_ (by decide) (by decide)
  unfold DataWrites
  rw [if_neg (by decide)]
  exact ⟨py"1234567890", asciiCodec, rfl, rfl, by decide, by decide⟩

/-- Three nibbles without a pad. -/
example : Raises cpython tightSpec (tightDoc.set (.str py"4") (.str py"ABC")) .oddNibbles py"4" := by
  obtain ⟨s, enc, d, h, hk⟩ := tight_encode
  exact encode_odd_nibbles (d := d) (v' := .str py"ABCD") (t := py"ABC") (s := s) (enc := enc)
    (fs := { dataEnc := py"b", lenEnc := py"b", lenType := 1, maxLen := 9, lenCount := some py"nibbles" })
    (by rw [Dict.set_set, ← h]; congr 1) (by rw [hk]; decide) (by decide) (by decide) (by decide) (by decide) rfl
    (by decide) (by decide) (by decide) (by decide) (by decide)

/-- An instance of `encode_ok_range`. -/
example (n : Int) (h : Denotes cpython demoDoc n) : 1 ≤ n ∧ n ≤ 192 := (encode_ok_range demo_nodup demo_encode).2 n h

/-- An instance of `encode_needs_type`. -/
example : HeaderReady cpython demoSpec demoDoc ∧ TypeReady cpython demoSpec demoDoc := encode_needs_type demo_encode

/-- An instance of `encode_needs_str_keys`. -/
example (out : Bytes × EncDoc) : (encode cpython demoSpec ((.obj py"2", .str py"x") :: demoDoc)).1 ≠ .ok out :=
  encode_needs_str_keys (r := py"2") (by unfold Dict.NoDup; decide) (by decide) out

end Iso8583
