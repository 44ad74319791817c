import Verif.Props.Edit
import Verif.Props.Normalise
/-!
# Adding and removing fields (C68)
-/

namespace Iso8583

section
variable {env : PyEnv} {spec : Spec} {doc : Doc}

theorem pyInt_natStr_some {i : Nat} {n : Int} (h : pyInt env (natStr i) = some n) : n = i := by
  rw [pyInt_digits env (natStr_ne_nil i) (natStr_digits i), decVal_natStr] at h
  split at h
  · cases h
  · exact (Option.some.inj h).symm

/-- With canonical keys the numbers of the dict are the fields it has. -/
theorem numbered_canonical (hd : DigitsNumeric env) (hc : CanonicalKeys env doc) (hp : NumbersParse env doc) {n : Int} :
    Numbered env doc n ↔ ∃ j : Nat, n = j ∧ hasField doc j ∧ j ≠ 1 ∧ j ≠ 65 := by
  constructor
  · rintro ⟨s, hs, h1, h65, hnum, hint⟩
    have hall : s ≠ [] ∧ ∀ c ∈ s, env.isNumericCp c = true := by
      simpa [isNumeric] using hnum
    obtain ⟨j, rfl⟩ := hc s hs hall.1 hall.2
    refine ⟨j, pyInt_natStr_some hint, hs, ?_, ?_⟩
    · rintro rfl; exact h1 rfl
    · rintro rfl; exact h65 rfl
  · rintro ⟨j, rfl, hj, h1, h65⟩
    have n1 : natStr j ≠ py"1" := natStr_ne_one h1
    have n65 : natStr j ≠ py"65" := fun e => h65 (natStr_inj.1 (e.trans (show py"65" = natStr 65 from rfl)))
    obtain ⟨s, hs, hint⟩ := hp _ hj (by simpa using n1) (by simpa using n65)
    cases hs
    obtain ⟨n, hn⟩ := hint (isNumeric_natStr hd j)
    exact ⟨_, hj, n1, n65, isNumeric_natStr hd j, by rw [hn, pyInt_natStr_some hn]⟩

/-- The keys of the message, bitmaps aside. -/
theorem mem_encode_keys {doc' : Doc} {s : Bytes} {enc : EncDoc} (nd : doc.NoDup) (hd : DigitsNumeric env) (hc : CanonicalKeys env doc)
    (h : encode env spec doc = (.ok (s, enc), doc')) {x : Str} (hp : x ≠ py"p") (h1 : x ≠ py"1") :
    x ∈ enc.keys ↔ (hasHeader spec ∧ x = py"h") ∨ x = py"t" ∨ ∃ j, x = natStr j ∧ hasField doc j ∧ j ≠ 1 ∧ j ≠ 65 := by
  obtain ⟨ps, b, hw, rfl, rfl, rfl⟩ := (encode_iff nd).1 h
  have hkeys : (partsEnc ps).keys = ps.map Part.key := by simp [partsEnc, Dict.keys, Function.comp_def]
  obtain ⟨H, B, F, hpk, hH, hB, _, hmem⟩ := hw.partKeys
  have hnp := hw.1
  have hF : x ∈ F.map natStr ↔ ∃ j, x = natStr j ∧ hasField doc j ∧ j ≠ 1 ∧ j ≠ 65 := by
    rw [List.mem_map]
    constructor
    · rintro ⟨j, hj, rfl⟩
      obtain ⟨j', e, hj', _⟩ := (numbered_canonical hd hc hnp).1 ((hmem j).1 hj).1
      have : j = j' := by omega
      subst this
      exact ⟨j, rfl, hj', ((hmem j).1 hj).2⟩
    · rintro ⟨j, rfl, hj, a, b⟩
      exact ⟨j, (hmem j).2 ⟨(numbered_canonical hd hc hnp).2 ⟨j, rfl, hj, a, b⟩, a, b⟩, rfl⟩
  have hBx : x ∉ B := by rcases hB with rfl | rfl <;> simp [hp, h1]
  rw [hkeys, hpk]
  simp only [List.mem_append, List.mem_cons, hF]
  rcases hH with ⟨hh, rfl⟩ | ⟨hh, rfl⟩
  · simp [hh, hBx, or_assoc]
  · simp [hh, hBx]

/-- The bitmap encodings can write hex digits. -/
def BitmapsWritable (env : PyEnv) (spec : Spec) : Prop :=
  ∀ k fs, k = py"p" ∨ k = py"1" → spec.get? k = some fs → ¬ fs.isBinary → ∀ c, env.codec fs.dataEnc = some c → c.WritesHexDigits

theorem SpecLaws.writable (hl : SpecLaws env spec) : BitmapsWritable env spec :=
  fun k fs hk hs hb c hc => (hl.bitmaps k fs hk hs hb c hc).2

theorem bitmapsReady_known {A : Nat → Prop} (h : BitmapsReady env spec A) :
    (∃ fs, spec.get? py"p" = some fs ∧ (¬ fs.isBinary → ∃ c, env.codec fs.dataEnc = some c)) ∧
    (A 1 → ∃ fs, spec.get? py"1" = some fs ∧ (¬ fs.isBinary → ∃ c, env.codec fs.dataEnc = some c)) := by
  have known : ∀ {fs off D t}, BitmapWritten env fs A off D t → ¬ fs.isBinary → ∃ c, env.codec fs.dataEnc = some c := by
    rintro fs off D t ⟨bm, _, _, _, h⟩ hb
    rw [if_neg hb] at h
    exact ⟨h.choose, h.choose_spec.1⟩
  obtain ⟨fs, hs, ⟨D, t, hw⟩, h1⟩ := h
  refine ⟨⟨fs, hs, known hw⟩, fun ha => ?_⟩
  obtain ⟨fs1, hs1, ⟨D1, t1, hw1⟩, _⟩ := h1 ha
  exact ⟨fs1, hs1, known hw1⟩

theorem bitmapsReady_of_known (hw : BitmapsWritable env spec) (nd : doc.NoDup) (hp : NumbersParse env doc)
    (hr : ∀ n, Numbered env doc n → 1 ≤ n ∧ n ≤ 192)
    (h0 : ∃ fs, spec.get? py"p" = some fs ∧ (¬ fs.isBinary → ∃ c, env.codec fs.dataEnc = some c))
    (h1 : Flagged env doc 1 → ∃ fs, spec.get? py"1" = some fs ∧ (¬ fs.isBinary → ∃ c, env.codec fs.dataEnc = some c)) :
    BitmapsReady env spec (Flagged env doc) := by
  have write : ∀ {k fs}, (k = py"p" ∨ k = py"1") → spec.get? k = some fs → (¬ fs.isBinary → ∃ c, env.codec fs.dataEnc = some c) →
      ∀ off, ∃ D t, BitmapWritten env fs (Flagged env doc) off D t := by
    intro k fs hk hs hc off
    refine bitmapWritten_exists off nd hp hr fun hb => ?_
    obtain ⟨c, hc⟩ := hc hb
    exact ⟨c, hc, hw k fs hk hs hb c hc⟩
  obtain ⟨fs, hs, hc⟩ := h0
  refine ⟨fs, hs, write (.inl rfl) hs hc 0, fun ha => ?_⟩
  obtain ⟨fs1, hs1, hc1⟩ := h1 ha
  exact ⟨fs1, hs1, write (.inr rfl) hs1 hc1 64, fun _ => write (.inr rfl) hs1 hc1 128⟩

end

/-- **C68**: from a dict that can be encoded every field can be removed. The entries of the header,
the type and the other fields stay as they are. -/
theorem remove_field {env : PyEnv} {spec : Spec} {doc d : Doc} {s : Bytes} {enc : EncDoc} {i : Nat} (nd : doc.NoDup)
    (hd : DigitsNumeric env) (hc : CanonicalKeys env doc) (hb : BitmapsWritable env spec)
    (h : encode env spec doc = (.ok (s, enc), d)) :
    ∃ s' enc' d', encode env spec (doc.pop (.str (natStr i))) = (.ok (s', enc'), d') ∧
      ∀ x, x ≠ py"p" → x ≠ py"1" → enc'.get? x = if x = natStr i then none else enc.get? x := by
  have nd' : (doc.pop (.str (natStr i))).NoDup := nd.pop _
  have hm : ∀ k, k ∈ (doc.pop (.str (natStr i))).keys ↔ k ≠ .str (natStr i) ∧ k ∈ doc.keys := fun k => Dict.mem_keys_pop nd
  have hc' : CanonicalKeys env (doc.pop (.str (natStr i))) := fun k hk => hc k ((hm _).1 hk).2
  obtain ⟨r1, r2, r3, r4, r5, r6⟩ := (encode_succeeds_iff nd).1 ⟨_, _, h⟩
  have hp' : NumbersParse env (doc.pop (.str (natStr i))) := fun k hk => r3 k ((hm _).1 hk).2
  have hnum : ∀ {n}, Numbered env (doc.pop (.str (natStr i))) n → Numbered env doc n := by
    rintro n ⟨x, hx, rest⟩
    exact ⟨x, ((hm _).1 hx).2, rest⟩
  have hflag : Flagged env (doc.pop (.str (natStr i))) 1 → Flagged env doc 1 := by
    rintro (h | ⟨e, j, hj, h⟩ | ⟨e, j, hj, h⟩)
    · exact .inl (hnum h)
    · exact .inr (.inl ⟨e, j, hj, hnum h⟩)
    · exact .inr (.inr ⟨e, j, hj, hnum h⟩)
  have hne : ∀ c, ¬ (48 ≤ c ∧ c ≤ 57) → Key.str [c] ≠ .str (natStr i) := fun c hc e => natStr_ne_letter hc (Key.str.inj e).symm
  have hfr : ∀ j : Nat, Numbered env (doc.pop (.str (natStr i))) j → j ≠ 1 → j ≠ 65 →
      FieldReady env spec (doc.pop (.str (natStr i))) j := by
    intro j hj a b
    obtain ⟨fs, v, n, L, D, b1, b2, b3⟩ := r6 j (hnum hj) a b
    obtain ⟨j', e, hj', _⟩ := (numbered_canonical hd hc' hp').1 hj
    have : j = j' := by omega
    subst this
    exact ⟨fs, v, n, L, D, b1, by rw [Dict.get?_pop_ne _ ((hm _).1 hj').1]; exact b2, b3⟩
  have k5 := bitmapsReady_known r5
  obtain ⟨⟨s', enc'⟩, d', h'⟩ := (encode_succeeds_iff nd').2
    ⟨by unfold HeaderReady; rw [Dict.get?_pop_ne _ (hne 104 (by omega))]; exact r1,
     by unfold TypeReady; rw [Dict.get?_pop_ne _ (hne 116 (by omega))]; exact r2,
     hp', fun n hn => r4 n (hnum hn),
     bitmapsReady_of_known hb nd' hp' (fun n hn => r4 n (hnum hn)) k5.1 (fun ha => k5.2 (hflag ha)), hfr⟩
  refine ⟨s', enc', d', h', fun x hp h1' => ?_⟩
  have m := mem_encode_keys nd hd hc h hp h1'
  have m' := mem_encode_keys nd' hd hc' h' hp h1'
  by_cases hx : x = natStr i
  · subst hx
    rw [if_pos rfl, Dict.get?_eq_none, m']
    rintro (⟨_, e⟩ | e | ⟨j, e, hj, _⟩)
    · exact natStr_ne_letter (by omega) e
    · exact natStr_ne_letter (by omega) e
    · rw [natStr_inj] at e; subst e
      exact ((hm _).1 hj).1 rfl
  · rw [if_neg hx]
    have hiff : x ∈ enc'.keys ↔ x ∈ enc.keys := by
      rw [m, m']
      refine or_congr Iff.rfl (or_congr Iff.rfl ?_)
      constructor
      · rintro ⟨j, e, hj, rest⟩; exact ⟨j, e, ((hm _).1 hj).2, rest⟩
      · rintro ⟨j, e, hj, rest⟩
        exact ⟨j, e, (hm _).2 ⟨by rw [← e]; simpa using hx, hj⟩, rest⟩
    cases he : enc.get? x with
    | none =>
      rw [Dict.get?_eq_none] at he ⊢
      rwa [hiff]
    | some e =>
      have : x ∈ enc'.keys := hiff.2 (Dict.mem_keys_iff.2 ⟨_, he⟩)
      obtain ⟨e', he'⟩ := Dict.mem_keys_iff.1 this
      rw [he', encode_local h' h hp h1' rfl (Dict.get?_pop_ne _ (by simpa using hx)) he' he]

/-- **C68**: a field can be added, or given another value, exactly when the specification knows it, its value can be
written and, for a field above 64, the secondary bitmap can be written. Header, type and the other
fields stay as they are. -/
theorem add_field {env : PyEnv} {spec : Spec} {doc d : Doc} {s : Bytes} {enc : EncDoc} {i : Nat} {v : Val} (nd : doc.NoDup)
    (hd : DigitsNumeric env) (hc : CanonicalKeys env doc) (hb : BitmapsWritable env spec)
    (hlim : env.maxStrDigits = 0 ∨ 3 ≤ env.maxStrDigits)
    (h : encode env spec doc = (.ok (s, enc), d)) (hi : 2 ≤ i) (hi' : i ≤ 192) (h65 : i ≠ 65) :
    ((∃ r d', encode env spec (doc.set (.str (natStr i)) v) = (.ok r, d')) ↔
      (∃ fs n L D, spec.get? (natStr i) = some fs ∧ FieldWrites env fs v n L D) ∧
      (64 < i → ∃ fs, spec.get? py"1" = some fs ∧ (¬ fs.isBinary → ∃ c, env.codec fs.dataEnc = some c))) ∧
    ∀ s' enc' d', encode env spec (doc.set (.str (natStr i)) v) = (.ok (s', enc'), d') →
      (∃ fs n L D, spec.get? (natStr i) = some fs ∧ FieldWrites env fs v n L D ∧ enc'.get? (natStr i) = some ⟨L, D⟩) ∧
      ∀ x, x ≠ py"p" → x ≠ py"1" → x ≠ natStr i → enc'.get? x = enc.get? x := by
  have nd' : (doc.set (.str (natStr i)) v).NoDup := nd.set _ _
  have hm : ∀ k, k ∈ (doc.set (.str (natStr i)) v).keys ↔ k = .str (natStr i) ∨ k ∈ doc.keys := fun k => Dict.mem_keys_set
  have hc' : CanonicalKeys env (doc.set (.str (natStr i)) v) := by
    intro k hk h1 h2
    rcases (hm _).1 hk with e | hk
    · cases e; exact ⟨i, rfl⟩
    · exact hc k hk h1 h2
  have hne : ∀ c, ¬ (48 ≤ c ∧ c ≤ 57) → Key.str [c] ≠ .str (natStr i) := fun c hc e => natStr_ne_letter hc (Key.str.inj e).symm
  have hint : pyInt env (natStr i) = some (i : Int) := by
    refine pyInt_natStr env i ?_
    rcases hlim with h | h
    · exact .inl h
    · exact .inr (Nat.le_trans ((natStr_length_le (by omega)).2 (by omega)) h)
  have n1 : natStr i ≠ py"1" := natStr_ne_one (by omega)
  have n65 : natStr i ≠ py"65" := fun e => h65 (natStr_inj.1 (e.trans (show py"65" = natStr 65 from rfl)))
  obtain ⟨r1, r2, r3, r4, r5, r6⟩ := (encode_succeeds_iff nd).1 ⟨_, _, h⟩
  have hp' : NumbersParse env (doc.set (.str (natStr i)) v) := by
    intro k hk a b
    rcases (hm _).1 hk with rfl | hk
    · exact ⟨_, rfl, fun _ => ⟨_, hint⟩⟩
    · exact r3 k hk a b
  have hnum : ∀ {n}, Numbered env (doc.set (.str (natStr i)) v) n ↔ n = i ∨ Numbered env doc n := by
    intro n
    constructor
    · rintro ⟨x, hx, a, b, c, e⟩
      rcases (hm _).1 hx with e' | hx
      · cases e'; exact .inl (by rw [hint] at e; exact (Option.some.inj e).symm)
      · exact .inr ⟨x, hx, a, b, c, e⟩
    · rintro (rfl | ⟨x, hx, rest⟩)
      · exact ⟨_, (hm _).2 (.inl rfl), n1, n65, isNumeric_natStr hd i, hint⟩
      · exact ⟨x, (hm _).2 (.inr hx), rest⟩
  have hrange : ∀ n, Numbered env (doc.set (.str (natStr i)) v) n → 1 ≤ n ∧ n ≤ 192 := by
    intro n hn
    rcases hnum.1 hn with rfl | hn
    · omega
    · exact r4 n hn
  have k5 := bitmapsReady_known r5
  refine ⟨⟨?_, ?_⟩, ?_⟩
  · rintro ⟨⟨s', enc'⟩, d', h'⟩
    obtain ⟨_, _, _, _, q5, q6⟩ := (encode_succeeds_iff nd').1 ⟨_, _, h'⟩
    obtain ⟨fs, w, n, L, D, b1, b2, b3⟩ := q6 i (hnum.2 (.inl rfl)) (by omega) h65
    rw [Dict.get?_set_same] at b2; cases b2
    refine ⟨⟨fs, n, L, D, b1, b3⟩, fun h64 => (bitmapsReady_known q5).2 (.inr (.inr ⟨rfl, i, h64, hnum.2 (.inl rfl)⟩))⟩
  · rintro ⟨⟨fs, n, L, D, b1, b3⟩, hone⟩
    refine ⟨_, (encode_succeeds_iff nd').2
      ⟨by unfold HeaderReady; rw [Dict.get?_set_ne _ _ (hne 104 (by omega))]; exact r1,
       by unfold TypeReady; rw [Dict.get?_set_ne _ _ (hne 116 (by omega))]; exact r2,
       hp', hrange, bitmapsReady_of_known hb nd' hp' hrange k5.1 ?_, ?_⟩ |>.choose_spec⟩
    · have other : Flagged env doc 1 ∨ 64 < i → ∃ fs, spec.get? py"1" = some fs ∧ (¬ fs.isBinary → ∃ c, env.codec fs.dataEnc = some c) := by
        rintro (h | h)
        · exact k5.2 h
        · exact hone h
      rintro (h | ⟨e, _⟩ | ⟨_, j, hj, h⟩)
      · rcases hnum.1 h with e | h
        · omega
        · exact other (.inl (.inl h))
      · omega
      · rcases hnum.1 h with e | h
        · exact other (.inr (by omega))
        · exact other (.inl (.inr (.inr ⟨rfl, j, hj, h⟩)))
    · intro j hj a b
      by_cases hji : j = i
      · subst hji
        exact ⟨fs, v, n, L, D, b1, Dict.get?_set_same _ _ _, b3⟩
      · rcases hnum.1 hj with e | hj
        · omega
        · obtain ⟨fs', w, n', L', D', c1, c2, c3⟩ := r6 j hj a b
          exact ⟨fs', w, n', L', D', c1, by rw [Dict.get?_set_ne _ _ (by simpa [natStr_inj] using hji)]; exact c2, c3⟩
  · intro s' enc' d' h'
    have key := fun x hp h1' => mem_encode_keys (x := x) nd hd hc h hp h1'
    have key' := fun x hp h1' => mem_encode_keys (x := x) nd' hd hc' h' hp h1'
    have np : natStr i ≠ py"p" := natStr_ne_letter (by omega)
    refine ⟨?_, fun x hp h1' hx => ?_⟩
    · have : natStr i ∈ enc'.keys := (key' _ np n1).2 (.inr (.inr ⟨i, rfl, (hm _).2 (.inl rfl), by omega, h65⟩))
      obtain ⟨e, he⟩ := Dict.mem_keys_iff.1 this
      obtain ⟨fs, w, n, b1, b2, b3⟩ := encode_entry h' he (natStr_ne_letter (by omega)) np n1
      rw [Dict.get?_set_same] at b2; cases b2
      exact ⟨fs, n, _, _, b1, b3, he⟩
    · have hiff : x ∈ enc'.keys ↔ x ∈ enc.keys := by
        rw [key x hp h1', key' x hp h1']
        refine or_congr Iff.rfl (or_congr Iff.rfl ?_)
        constructor
        · rintro ⟨j, e, hj, rest⟩
          rcases (hm _).1 hj with e' | hj
          · exact absurd (e.trans (Key.str.inj e')) hx
          · exact ⟨j, e, hj, rest⟩
        · rintro ⟨j, e, hj, rest⟩; exact ⟨j, e, (hm _).2 (.inr hj), rest⟩
      cases he : enc.get? x with
      | none =>
        rw [Dict.get?_eq_none] at he ⊢
        rwa [hiff]
      | some e =>
        have : x ∈ enc'.keys := hiff.2 (Dict.mem_keys_iff.2 ⟨_, he⟩)
        obtain ⟨e', he'⟩ := Dict.mem_keys_iff.1 this
        rw [he', encode_local h' h hp h1' rfl (Dict.get?_set_ne _ _ (by simpa using hx)) he' he]

/-- What the reader of a message sees of one field. -/
theorem seen_of_entry {env : PyEnv} {spec : Spec} (hl : SpecLaws env spec) {doc doc' d d' : Doc} {s s' : Bytes} {enc enc' : EncDoc}
    {dec dec' : DecDoc} (h : encode env spec doc = (.ok (s, enc), d))
    (h' : encode env spec doc' = (.ok (s', enc'), d')) (hr : decode env spec s = .ok (dec, enc)) (hr' : decode env spec s' = .ok (dec', enc'))
    {x : Str} (hp : x ≠ py"p") (h1 : x ≠ py"1") (hv : doc'.get? (.str x) = doc.get? (.str x)) (he : enc'.get? x = enc.get? x) :
    dec'.get? x = dec.get? x := by
  obtain ⟨dec1, a1, a2, a3⟩ := encode_decode hl h
  obtain ⟨dec2, b1, b2, b3⟩ := encode_decode hl h'
  rw [hr] at a1; cases a1
  rw [hr'] at b1; cases b1
  cases hx : enc.get? x with
  | none =>
    rw [hx] at he
    rw [Dict.get?_eq_none.2 (by rw [b2]; exact Dict.get?_eq_none.1 he), Dict.get?_eq_none.2 (by rw [a2]; exact Dict.get?_eq_none.1 hx)]
  | some e =>
    rw [hx] at he
    obtain ⟨fs, v, c1, c2, c3⟩ := a3 x (Dict.mem_keys_iff.2 ⟨_, hx⟩)
    obtain ⟨fs', v', d1, d2, d3⟩ := b3 x (Dict.mem_keys_iff.2 ⟨_, he⟩)
    have h65 : x ≠ py"65" := by
      obtain ⟨F, _, hF, H, B, hH, hB, hk⟩ := encode_keys h
      have hm := Dict.mem_keys_iff.2 ⟨_, hx⟩
      rintro rfl
      rw [hk] at hm
      simp only [List.mem_append, List.mem_map, List.mem_singleton] at hm
      rcases hm with ((h | h) | h) | ⟨i, hi, h⟩
      · rcases hH with ⟨_, rfl⟩ | ⟨_, rfl⟩ <;> simp at h
      · simp at h
      · rcases hB with rfl | rfl <;> simp at h
      · exact (hF i hi).2.2 (natStr_inj.1 (h.trans (show py"65" = natStr 65 from rfl)))
    have k1 := encode_keeps_values env spec doc (k := .str x) (by simpa using hp) (by simpa using h1) (by simpa using h65)
    have k2 := encode_keeps_values env spec doc' (k := .str x) (by simpa using hp) (by simpa using h1) (by simpa using h65)
    rw [h] at k1
    rw [h'] at k2
    rw [k1] at c2
    rw [k2, hv, c2] at d2
    cases d2
    rw [c1] at d1; cases d1
    rw [c3, d3]

/-- **C68**: whoever decodes both messages sees the one field gone, and the rest unchanged. -/
theorem remove_seen {env : PyEnv} {spec : Spec} (hl : SpecLaws env spec) {doc d : Doc} {s : Bytes} {enc : EncDoc} {dec : DecDoc} {i : Nat}
    (nd : doc.NoDup) (hd : DigitsNumeric env) (hc : CanonicalKeys env doc) (h : encode env spec doc = (.ok (s, enc), d))
    (hr : decode env spec s = .ok (dec, enc)) :
    ∃ s' enc' d' dec', encode env spec (doc.pop (.str (natStr i))) = (.ok (s', enc'), d') ∧ decode env spec s' = .ok (dec', enc') ∧
      ∀ x, x ≠ py"p" → x ≠ py"1" → dec'.get? x = if x = natStr i then none else dec.get? x := by
  obtain ⟨s', enc', d', h', he⟩ := remove_field (i := i) nd hd hc hl.writable h
  obtain ⟨dec', hr', hk', _⟩ := encode_decode hl h'
  refine ⟨s', enc', d', dec', h', hr', fun x hp h1 => ?_⟩
  by_cases hx : x = natStr i
  · rw [if_pos hx, Dict.get?_eq_none, hk', ← Dict.get?_eq_none, he x hp h1, if_pos hx]
  · rw [if_neg hx]
    exact seen_of_entry hl h h' hr hr' hp h1 (Dict.get?_pop_ne _ (by simpa using hx)) (by rw [he x hp h1, if_neg hx])

/-- **C68**: whoever decodes both messages sees the new field, and the rest unchanged. -/
theorem add_seen {env : PyEnv} {spec : Spec} (hl : SpecLaws env spec) {doc d d' : Doc} {s s' : Bytes} {enc enc' : EncDoc} {dec : DecDoc}
    {i : Nat} {v : Val} (nd : doc.NoDup) (hd : DigitsNumeric env) (hc : CanonicalKeys env doc)
    (hlim : env.maxStrDigits = 0 ∨ 3 ≤ env.maxStrDigits) (h : encode env spec doc = (.ok (s, enc), d))
    (hr : decode env spec s = .ok (dec, enc)) (hi : 2 ≤ i) (hi' : i ≤ 192) (h65 : i ≠ 65)
    (h' : encode env spec (doc.set (.str (natStr i)) v) = (.ok (s', enc'), d')) :
    ∃ dec' fs, decode env spec s' = .ok (dec', enc') ∧ spec.get? (natStr i) = some fs ∧ dec'.get? (natStr i) = some (readBack fs v) ∧
      ∀ x, x ≠ py"p" → x ≠ py"1" → x ≠ natStr i → dec'.get? x = dec.get? x := by
  obtain ⟨⟨fs, n, L, D, hs, hw, hen⟩, he⟩ := (add_field (v := v) nd hd hc hl.writable hlim h hi hi' h65).2 _ _ _ h'
  obtain ⟨dec', hr', hk', hv'⟩ := encode_decode hl h'
  refine ⟨dec', fs, hr', hs, ?_, fun x hp h1 hx => seen_of_entry hl h h' hr hr' hp h1
    (Dict.get?_set_ne _ _ (by simpa using hx)) (he x hp h1 hx)⟩
  obtain ⟨fs', w, a1, a2, a3⟩ := hv' (natStr i) (Dict.mem_keys_iff.2 ⟨_, hen⟩)
  rw [hs] at a1; cases a1
  have n65 : natStr i ≠ py"65" := fun e => h65 (natStr_inj.1 (e.trans (show py"65" = natStr 65 from rfl)))
  have k := encode_keeps_values env spec (doc.set (.str (natStr i)) v) (k := .str (natStr i))
    (by simpa using natStr_ne_letter (by omega)) (by simpa using natStr_ne_one (by omega)) (by simpa using n65)
  rw [h', Dict.get?_set_same] at k
  rw [k] at a2; cases a2
  exact a3

/-! ## Examples -/

/-- The worked dict without field 130 needs no tertiary bitmap. -/
example : ∃ s' enc' d' dec', encode cpython demoSpec (demoDoc.pop (.str py"130")) = (.ok (s', enc'), d') ∧
    decode cpython demoSpec s' = .ok (dec', enc') ∧
    ∀ x, x ≠ py"p" → x ≠ py"1" → dec'.get? x = if x = py"130" then none else demoDec.get? x :=
  remove_seen (i := 130) demo_laws (by unfold Dict.NoDup; decide) cpython_digits demo_canonical demo_encode demo_decode

/-- Its bitmaps. -/
example : (encode cpython demoSpec (demoDoc.pop (.str py"130"))).2.get? (.str py"1") = some (.str py"0400000000000000") := by
  decide +kernel

/-- Field 4 cannot be added: the specification does not know it. -/
example : ¬ ∃ r d', encode cpython demoSpec (demoDoc.set (.str py"4") (.str py"1")) = (.ok r, d') := by
  intro h
  obtain ⟨⟨fs, _, _, _, hs, _⟩, _⟩ := (add_field (i := 4) (v := .str py"1") (by unfold Dict.NoDup; decide) cpython_digits demo_canonical
    demo_laws.writable (.inr (by decide)) demo_encode (by decide) (by decide) (by decide)).1.1 h
  have : Dict.get? demoSpec (natStr 4) = none := by decide
  rw [this] at hs
  cases hs

/-- Field 70 added to the worked dict without it. -/
example : ∃ s' enc' d' dec' fs, encode cpython demoSpec ((demoDoc.pop (.str py"70")).set (.str py"70") (.str py"abc")) = (.ok (s', enc'), d') ∧
    decode cpython demoSpec s' = .ok (dec', enc') ∧ demoSpec.get? py"70" = some fs ∧ dec'.get? py"70" = some (readBack fs (.str py"abc")) := by
  obtain ⟨s1, enc1, d1, h1, _⟩ := remove_field (i := 70) (by unfold Dict.NoDup; decide) cpython_digits demo_canonical demo_laws.writable demo_encode
  obtain ⟨dec1, hr1, _⟩ := encode_decode demo_laws h1
  have hnd : (demoDoc.pop (.str (natStr 70))).NoDup := by unfold Dict.NoDup; decide
  have hc : CanonicalKeys cpython (demoDoc.pop (.str (natStr 70))) := fun k hk => demo_canonical k (Dict.keys_pop_subset hk)
  obtain ⟨⟨s', enc'⟩, d', h'⟩ := (add_field (i := 70) (v := .str py"abc") hnd cpython_digits hc
    demo_laws.writable (.inr (by decide)) h1 (by decide) (by decide) (by decide)).1.2 ⟨by
      obtain ⟨n, L, D, hw, _⟩ := (edit_field (v := .str py"abc") (by unfold Dict.NoDup; decide) demo_encode (k := py"70") (by decide)
        (by decide) (by decide) (by decide) rfl).1 (show encode cpython demoSpec (demoDoc.set (.str py"70") (.str py"abc")) =
          (.ok (wire (demoEnc.set py"70" ⟨[0xF0, 0xF3], [0x81, 0x82, 0x83]⟩), demoEnc.set py"70" ⟨[0xF0, 0xF3], [0x81, 0x82, 0x83]⟩),
            demoDocAfter.set (.str py"70") (.str py"abc")) by decide +kernel)
      exact ⟨_, n, L, D, rfl, hw⟩, fun _ => ⟨_, rfl, fun _ => ⟨_, rfl⟩⟩⟩
  obtain ⟨dec', fs, a, b, c, _⟩ := add_seen demo_laws hnd cpython_digits hc (.inr (by decide)) h1 hr1 (by decide) (by decide) (by decide) h'
  exact ⟨s', enc', d', dec', fs, h', a, b, c⟩

end Iso8583
