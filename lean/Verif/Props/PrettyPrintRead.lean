import Verif.Lemmas.PpRead
import Verif.Props.PrettyPrintResult
import Verif.Props.DecodeFraming
/-!
# What `pp` writes can be read back (C71)
-/

namespace Iso8583

/-- `pp` shows the two values alike: the same text, the same bytes, or encoded entries with the same
length prefix and data (a missing one counts as empty, and data alone is shown like plain bytes). -/
def SameShown (v v' : PpVal) : Prop := ∃ pre w, Unpacks v pre w ∧ Unpacks v' pre w

/-- The values `pp` writes as literals: everything except objects of other types. -/
def Literal (v : PpVal) : Prop := (∃ s, v = .str s ∧ IsText s) ∨ (∃ b, v = .bytes b) ∨ ∃ l d, v = .dict l d

theorem Literal.ok {v : PpVal} (h : Literal v) : ValOk v := by
  rcases h with ⟨s, rfl, h⟩ | ⟨b, rfl⟩ | ⟨l, d, rfl⟩
  · exact h
  · trivial
  · trivial

theorem isNumeric_keyOk {env : PyEnv} (he : AsciiNumeric env) {k : Str} (h : isNumeric env k = true) : KeyOk k := by
  simp only [isNumeric, Bool.and_eq_true, decide_eq_true_eq, List.all_eq_true] at h
  refine ⟨h.1, fun c hc => ⟨?_, ?_⟩⟩
  · rintro rfl
    have := h.2 _ hc
    rw [he 32 (by decide)] at this
    exact absurd this (by decide)
  · rintro rfl
    have := h.2 _ hc
    rw [he 58 (by decide)] at this
    exact absurd this (by decide)

theorem letter_keyOk {k : Str} (h : k = py"h" ∨ k = py"t" ∨ k = py"p") : KeyOk k := by
  rcases h with rfl | rfl | rfl <;> exact ⟨by decide, by decide⟩

theorem printed_keyOk {env : PyEnv} (he : AsciiNumeric env) {spec : Spec} {doc : PpDoc} {ks : List Str}
    (h : PrintedKeys env spec doc ks) : ∀ k ∈ ks, KeyOk k := by
  obtain ⟨ls, ns, rfl, ⟨hs, ts, ps, rfl, h1, h2, h3⟩, hp, _⟩ := h
  intro k hk
  rcases List.mem_append.1 hk with hk | hk
  · refine letter_keyOk ?_
    rcases List.mem_append.1 hk with hk | hk
    · rcases List.mem_append.1 hk with hk | hk
      · rcases h1 with ⟨_, _, rfl⟩ | ⟨_, rfl⟩
        · exact .inl (by simpa using hk)
        · cases hk
      · rcases h2 with ⟨_, rfl⟩ | ⟨_, rfl⟩
        · exact .inr (.inl (by simpa using hk))
        · cases hk
    · rcases h3 with ⟨_, rfl⟩ | ⟨_, rfl⟩
      · exact .inr (.inr (by simpa using hk))
      · cases hk
  · exact isNumeric_keyOk he (mem_numericStrs.1 (hp.mem_iff.1 hk)).2

/-- **C71**: what `pp` wrote determines what it was given.  If two dicts of texts, bytes and encoded
entries are printed alike with one specification and description width — the line widths may differ —
then the same keys were printed in the same order and every printed key has the same value in both. -/
theorem pp_reads_back {env : PyEnv} (he : AsciiNumeric env) {spec : Spec} {doc doc' : PpDoc} {dw lw lw' : Int} {out : Str}
    (nd : doc.NoDup) (nd' : doc'.NoDup) (hl : ∀ k v, doc.get? k = some v → Literal v) (hl' : ∀ k v, doc'.get? k = some v → Literal v)
    (h : pp env doc spec dw lw = (.ok (), out)) (h' : pp env doc' spec dw lw' = (.ok (), out)) :
    ∃ ks, PrintedKeys env spec doc ks ∧ PrintedKeys env spec doc' ks ∧
      ∀ k ∈ ks, ∃ v v', doc.get? (.str k) = some v ∧ doc'.get? (.str k) = some v' ∧ SameShown v v' := by
  obtain ⟨_, _, ks, text, hk, hg, rfl⟩ := (pp_ok_iff nd).1 h
  obtain ⟨_, _, ks', text', hk', hg', e⟩ := (pp_ok_iff nd').1 h'
  obtain ⟨rfl, hs⟩ := groups_read (env := env) (spec := spec) (dw := dw) (lw := lw) (lw' := lw')
    (g := fun k v => doc.get? (.str k) = some v) (g' := fun k v => doc'.get? (.str k) = some v) (text := text) (text' := text')
    (ks := ks) (ks' := ks')
    (fun k hm => ⟨printed_keyOk he hk k hm, (hg k hm).imp fun v hv => ⟨hv.1, (hl _ _ hv.1).ok, hv.2⟩⟩)
    (fun k hm => ⟨printed_keyOk he hk' k hm, (hg' k hm).imp fun v hv => ⟨hv.1, (hl' _ _ hv.1).ok, hv.2⟩⟩) e
  exact ⟨ks, hk, hk', hs⟩

theorem get?_printDec {dec : DecDoc} {k : Str} : (printDec dec).get? (.str k) = (dec.get? k).map PpVal.str := by
  induction dec with
  | nil => rfl
  | cons p t ih =>
    show Dict.get? ((Key.str p.1, PpVal.str p.2) :: printDec t) _ = _
    unfold Dict.get?
    by_cases hk : p.1 = k
    · rw [if_pos (by rw [hk]), if_pos hk]; rfl
    · rw [if_neg (by simpa using hk), if_neg hk]; exact ih

theorem get?_printEnc {enc : EncDoc} {k : Str} :
    (printEnc enc).get? (.str k) = (enc.get? k).map fun e => PpVal.dict (some e.len) (some e.data) := by
  induction enc with
  | nil => rfl
  | cons p t ih =>
    show Dict.get? ((Key.str p.1, PpVal.dict (some p.2.len) (some p.2.data)) :: printEnc t) _ = _
    unfold Dict.get?
    by_cases hk : p.1 = k
    · rw [if_pos (by rw [hk]), if_pos hk]; rfl
    · rw [if_neg (by simpa using hk), if_neg hk]; exact ih

theorem Dict.ext_keys {κ ν : Type} [DecidableEq κ] : ∀ {a b : Dict κ ν}, a.NoDup → a.keys = b.keys → (∀ k ∈ a.keys, a.get? k = b.get? k) → a = b
  | [], [], _, _, _ => rfl
  | [], _ :: _, _, h, _ => by simp [Dict.keys] at h
  | _ :: _, [], _, h, _ => by simp [Dict.keys] at h
  | (k, v) :: t, (k', v') :: t', nd, h, hg => by
    simp only [Dict.keys, List.map_cons, List.cons.injEq] at h
    obtain ⟨rfl, h⟩ := h
    have nd1 := List.nodup_cons.1 nd
    have h1 := hg k (by simp [Dict.keys])
    simp only [Dict.get?, if_true, Option.some.injEq] at h1
    subst h1
    have := Dict.ext_keys (a := t) (b := t') nd1.2 h (by
      intro x hx
      have hne : k ≠ x := fun e => nd1.1 (by subst e; exact hx)
      have := hg x (by simp only [Dict.keys, List.map_cons, List.mem_cons]; exact .inr hx)
      simpa only [Dict.get?, if_neg hne] using this)
    rw [this]

/-- Two decoded dicts printed alike are the same. -/
theorem prints_dec_unique {env : PyEnv} {spec : Spec} {dec dec' : DecDoc} {dw lw lw' : Int} {e e' : Except PpRaise Unit}
    (hp : Prints env spec dw lw (printDec dec) dec.keys) (hp' : Prints env spec dw lw' (printDec dec') dec'.keys)
    (nd : dec.keys.Nodup) (hk : ∀ k ∈ dec.keys, KeyOk k) (hk' : ∀ k ∈ dec'.keys, KeyOk k)
    (ht : ∀ k v, dec.get? k = some v → IsText v) (ht' : ∀ k v, dec'.get? k = some v → IsText v) {out : Str}
    (h : pp env (printDec dec) spec dw lw = (e, out)) (h' : pp env (printDec dec') spec dw lw' = (e', out)) : dec = dec' := by
  obtain ⟨text, hg, hpp⟩ := hp
  obtain ⟨text', hg', hpp'⟩ := hp'
  rw [h] at hpp
  rw [h'] at hpp'
  have e1 := congrArg Prod.snd hpp
  have e2 := congrArg Prod.snd hpp'
  dsimp only at e1 e2
  have ok : ∀ {dec : DecDoc} {lw : Int} {text : Str → Str}, (∀ k ∈ dec.keys, KeyOk k) → (∀ k v, dec.get? k = some v → IsText v) →
      (∀ k ∈ dec.keys, ∃ v, (printDec dec).get? (.str k) = some v ∧ FieldText env spec dw lw k v (text k)) →
      ∀ k ∈ dec.keys, KeyOk k ∧ ∃ v, (∃ s, dec.get? k = some s ∧ v = .str s) ∧ ValOk v ∧ FieldText env spec dw lw k v (text k) := by
    intro dec lw text hk ht hg k hm
    refine ⟨hk k hm, ?_⟩
    obtain ⟨v, hv, hf⟩ := hg k hm
    rw [get?_printDec] at hv
    cases hd : dec.get? k with
    | none => rw [hd] at hv; cases hv
    | some s => rw [hd] at hv; cases hv; exact ⟨_, ⟨s, rfl, rfl⟩, ht k s hd, hf⟩
  obtain ⟨hkk, hs⟩ := groups_read (ok hk ht hg) (ok hk' ht' hg') (e1.symm.trans e2)
  refine Dict.ext_keys nd hkk ?_
  intro k hm
  obtain ⟨v, v', ⟨s, h1, rfl⟩, ⟨s', h2, rfl⟩, pre, w, ⟨_, e3⟩, _, e4⟩ := hs k hm
  rw [h1, h2, PpVal.str.inj (e3.symm.trans e4)]

theorem unpacks_dict {l l' d d' : Bytes} {pre : Str} {w : PpVal} (h : Unpacks (.dict (some l) (some d)) pre w)
    (h' : Unpacks (.dict (some l') (some d')) pre w) : l = l' ∧ d = d' := by
  obtain ⟨h1, h2⟩ := h
  obtain ⟨h3, h4⟩ := h'
  simp only [Option.getD_some] at h1 h2 h3 h4
  refine ⟨?_, PpVal.bytes.inj (h2.symm.trans h4)⟩
  rw [h1] at h3
  by_cases hl : l = []
  · by_cases hl' : l' = []
    · rw [hl, hl']
    · rw [if_pos hl, if_neg hl'] at h3
      have := congrArg List.length h3
      simp at this
  · by_cases hl' : l' = []
    · rw [if_neg hl, if_pos hl'] at h3
      have := congrArg List.length h3
      simp at this
    · rw [if_neg hl, if_neg hl'] at h3
      exact (reprBytes_read h3).1

/-- Two encoded dicts printed alike are the same. -/
theorem prints_enc_unique {env : PyEnv} {spec : Spec} {enc enc' : EncDoc} {dw lw lw' : Int} {e e' : Except PpRaise Unit}
    (hp : Prints env spec dw lw (printEnc enc) enc.keys) (hp' : Prints env spec dw lw' (printEnc enc') enc'.keys)
    (nd : enc.keys.Nodup) (hk : ∀ k ∈ enc.keys, KeyOk k) (hk' : ∀ k ∈ enc'.keys, KeyOk k) {out : Str}
    (h : pp env (printEnc enc) spec dw lw = (e, out)) (h' : pp env (printEnc enc') spec dw lw' = (e', out)) : enc = enc' := by
  obtain ⟨text, hg, hpp⟩ := hp
  obtain ⟨text', hg', hpp'⟩ := hp'
  rw [h] at hpp
  rw [h'] at hpp'
  have e1 := congrArg Prod.snd hpp
  have e2 := congrArg Prod.snd hpp'
  dsimp only at e1 e2
  have ok : ∀ {enc : EncDoc} {lw : Int} {text : Str → Str}, (∀ k ∈ enc.keys, KeyOk k) →
      (∀ k ∈ enc.keys, ∃ v, (printEnc enc).get? (.str k) = some v ∧ FieldText env spec dw lw k v (text k)) →
      ∀ k ∈ enc.keys, KeyOk k ∧ ∃ v, (∃ x, enc.get? k = some x ∧ v = .dict (some x.len) (some x.data)) ∧ ValOk v ∧
        FieldText env spec dw lw k v (text k) := by
    intro enc lw text hk hg k hm
    refine ⟨hk k hm, ?_⟩
    obtain ⟨v, hv, hf⟩ := hg k hm
    rw [get?_printEnc] at hv
    cases hd : enc.get? k with
    | none => rw [hd] at hv; cases hv
    | some s => rw [hd] at hv; cases hv; exact ⟨_, ⟨s, rfl, rfl⟩, trivial, hf⟩
  obtain ⟨hkk, hs⟩ := groups_read (ok hk hg) (ok hk' hg') (e1.symm.trans e2)
  refine Dict.ext_keys nd hkk ?_
  intro k hm
  obtain ⟨v, v', ⟨x, h1, rfl⟩, ⟨x', h2, rfl⟩, pre, w, hu, hu'⟩ := hs k hm
  obtain ⟨a, b⟩ := unpacks_dict hu hu'
  cases x; cases x'
  simp only at a b
  subst a b
  rw [h1, h2]

theorem natStr_keyOk (n : Nat) : KeyOk (natStr n) := by
  refine ⟨natStr_ne_nil n, fun c hc => ?_⟩
  have := natStr_digits n c hc
  simp only [isAsciiDigit, Bool.and_eq_true, decide_eq_true_eq] at this
  omega

theorem message_keyOk {H B : List Str} {F : List Nat} {P : Prop} (hH : (P ∧ H = [py"h"]) ∨ (¬ P ∧ H = []))
    (hB : B = [py"p"] ∨ B = [py"p", py"1"]) : ∀ k ∈ H ++ [py"t"] ++ B ++ F.map natStr, KeyOk k := by
  intro k hk
  rcases List.mem_append.1 hk with hk | hk
  · rcases List.mem_append.1 hk with hk | hk
    · refine letter_keyOk ?_
      rcases List.mem_append.1 hk with hk | hk
      · rcases hH with ⟨_, rfl⟩ | ⟨_, rfl⟩
        · exact .inl (by simpa using hk)
        · cases hk
      · exact .inr (.inl (by simpa using hk))
    · rcases hB with rfl | rfl
      · exact letter_keyOk (.inr (.inr (by simpa using hk)))
      · rcases List.mem_cons.1 hk with rfl | hk
        · exact letter_keyOk (.inr (.inr rfl))
        · rw [List.mem_singleton.1 hk]; exact natStr_keyOk 1
  · obtain ⟨n, _, rfl⟩ := List.mem_map.1 hk
    exact natStr_keyOk n

/-- **C71** (decode): two messages whose decoded dicts are printed alike were decoded alike; two
messages whose encoded dicts are printed alike are the same bytes. -/
theorem pp_decoded_unique {env : PyEnv} {spec : Spec} {s s' : Bytes} {dec dec' : DecDoc} {enc enc' : EncDoc} {dw lw lw' : Int}
    (h : decode env spec s = .ok (dec, enc)) (h' : decode env spec s' = .ok (dec', enc')) (he : AsciiNumeric env)
    (hdig : env.maxStrDigits = 0 ∨ 3 ≤ env.maxStrDigits) (hb : BoundedBitmaps env spec) (hdesc : Described spec dw) :
    ((∀ k v, dec.get? k = some v → IsText v) → (∀ k v, dec'.get? k = some v → IsText v) →
      (pp env (printDec dec) spec dw lw).2 = (pp env (printDec dec') spec dw lw').2 → dec = dec') ∧
    ((pp env (printEnc enc) spec dw lw).2 = (pp env (printEnc enc') spec dw lw').2 → s = s') := by
  obtain ⟨p1, p2⟩ := pp_decoded (lw := lw) h he hdig hb hdesc
  obtain ⟨p1', p2'⟩ := pp_decoded (lw := lw') h' he hdig hb hdesc
  have hent := decode_entries h
  have hent' := decode_entries h'
  have kenc : ∀ {s : Bytes} {dec : DecDoc} {enc : EncDoc}, decode env spec s = .ok (dec, enc) → ∀ k ∈ enc.keys, KeyOk k := by
    intro s dec enc h
    obtain ⟨F, _, _, H, B, hH, hB, hk⟩ := decode_keys_bounded h hb
    rw [hk]
    exact message_keyOk hH hB
  constructor
  · intro t t' e
    exact prints_dec_unique p1 p1' hent.2.1 (by rw [hent.1]; exact kenc h) (by rw [hent'.1]; exact kenc h') t t' rfl
      (Prod.ext rfl e.symm)
  · intro e
    have := prints_enc_unique p2 p2' (by rw [← hent.1]; exact hent.2.1) (kenc h) (kenc h') rfl (Prod.ext rfl e.symm)
    subst this
    rw [← decode_wire h, ← decode_wire h']

/-- **C71** (encode): two dicts whose encoded dicts are printed alike were written as the same
message. -/
theorem pp_encoded_unique {env : PyEnv} {spec : Spec} {doc doc' d d' : Doc} {s s' : Bytes} {enc enc' : EncDoc} {dw lw lw' : Int}
    (h : encode env spec doc = (.ok (s, enc), d)) (h' : encode env spec doc' = (.ok (s', enc'), d')) (he : AsciiNumeric env)
    (hdig : env.maxStrDigits = 0 ∨ 3 ≤ env.maxStrDigits) (hdesc : Described spec dw)
    (e : (pp env (printEnc enc) spec dw lw).2 = (pp env (printEnc enc') spec dw lw').2) : s = s' ∧ enc = enc' := by
  have p := pp_encoded (lw := lw) h he hdig hdesc
  have p' := pp_encoded (lw := lw') h' he hdig hdesc
  have kenc : ∀ {doc d : Doc} {s : Bytes} {enc : EncDoc}, encode env spec doc = (.ok (s, enc), d) → ∀ k ∈ enc.keys, KeyOk k := by
    intro doc d s enc h
    obtain ⟨F, _, _, H, B, hH, hB, hk⟩ := encode_keys h
    rw [hk]
    exact message_keyOk hH hB
  have hn : enc.keys.Nodup := by
    obtain ⟨ns, _, hr, items, bms, hw, rfl, rfl, rfl⟩ := encode_ok_iff.1 h
    rw [keys_encOf]
    exact hw.nodup (inRange_mem hr).1
  have := prints_enc_unique p p' hn (kenc h) (kenc h') rfl (Prod.ext rfl e.symm)
  subst this
  exact ⟨by rw [encode_wire h, encode_wire h'], rfl⟩

/-- A dict and another one, in another order, with an encoded entry in place of plain bytes and a key
that is not printed. -/
def readDoc : PpDoc := [(.str py"t", .str py"0200"), (.str py"2", .bytes [0x12, 0x27, 0x0a]), (.str py"44", .str (py"it's\n" ++ [0xe9]))]

def readDoc' : PpDoc :=
  [(.str py"44", .str (py"it's\n" ++ [0xe9])), (.str py"2", .dict none (some [0x12, 0x27, 0x0a])), (.str py"x", .str py"y"), (.str py"t", .str py"0200")]

theorem literal_of_all {doc : PpDoc} (h : ∀ p ∈ doc, Literal p.2) : ∀ k v, doc.get? k = some v → Literal v :=
  fun _ _ hk => h _ (Dict.mem_of_get? hk)

theorem isText_of_all {s : Str} (h : s.all (· < 0x110000) = true) : IsText s := by
  intro c hc
  simpa using List.all_eq_true.1 h c hc

theorem read_literals : (∀ p ∈ readDoc, Literal p.2) ∧ ∀ p ∈ readDoc', Literal p.2 := by
  constructor
  · intro p hp
    simp only [readDoc, List.mem_cons, List.not_mem_nil, or_false] at hp
    rcases hp with rfl | rfl | rfl
    · exact .inl ⟨_, rfl, isText_of_all (by decide)⟩
    · exact .inr (.inl ⟨_, rfl⟩)
    · exact .inl ⟨_, rfl, isText_of_all (by decide)⟩
  · intro p hp
    simp only [readDoc', List.mem_cons, List.not_mem_nil, or_false] at hp
    rcases hp with rfl | rfl | rfl | rfl
    · exact .inl ⟨_, rfl, isText_of_all (by decide)⟩
    · exact .inr (.inr ⟨_, _, rfl⟩)
    · exact .inl ⟨_, rfl, isText_of_all (by decide)⟩
    · exact .inl ⟨_, rfl, isText_of_all (by decide)⟩

example : ∃ ks, PrintedKeys cpython ppSpec readDoc ks ∧ PrintedKeys cpython ppSpec readDoc' ks ∧
    ∀ k ∈ ks, ∃ v v', readDoc.get? (.str k) = some v ∧ readDoc'.get? (.str k) = some v' ∧ SameShown v v' :=
  pp_reads_back (dw := 0) (lw := 60) (lw' := 80)
    (out := py"t  : '0200'\n2  : b\"\\x12'\\n\"\n44 : \"it's\\n" ++ [0xe9] ++ py"\"\n")
    cpython_ascii (by unfold Dict.NoDup; decide) (by unfold Dict.NoDup; decide)
    (literal_of_all read_literals.1) (literal_of_all read_literals.2) (by decide +kernel) (by decide +kernel)

example {s : Bytes} {dec : DecDoc} {enc : EncDoc} (h : decode cpython demoSpec s = .ok (dec, enc))
    (e : (pp cpython (printEnc enc) demoSpec 0 80).2 = (pp cpython (printEnc demoEnc) demoSpec 0 40).2) : s = demoMsg := by
  refine (pp_decoded_unique h demo_decode cpython_ascii (by decide) ?_ (.inl (by decide))).2 e
  intro k fs hk hs
  right
  intro c hc
  exact (cpython_codecs_lawful _ c hc).bounded

example {doc d : Doc} {s : Bytes} {enc : EncDoc} (h : encode cpython demoSpec doc = (.ok (s, enc), d))
    (e : (pp cpython (printEnc enc) demoSpec 0 80).2 = (pp cpython (printEnc demoEnc) demoSpec 0 40).2) : s = demoMsg :=
  (pp_encoded_unique h demo_encode cpython_ascii (by decide) (.inl (by decide)) e).1

end Iso8583
