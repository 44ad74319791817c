import Verif.Props.Grammar
/-!
# Entries of a specification that a message does not use (C57)
-/

namespace Iso8583

theorem fieldsPure_spec {env : PyEnv} {A B : Spec} {g : Str → Option Val} : ∀ {l : List Nat},
    (∀ i ∈ l, A.get? (natStr i) = B.get? (natStr i)) → fieldsPure env A g l = fieldsPure env B g l
  | [], _ => rfl
  | i :: l, h => by
    have ih := fieldsPure_spec (env := env) (g := g) (l := l) (fun j hj => h j (by simp [hj]))
    simp only [fieldsPure, h i (by simp), ih]

theorem bmsPure_spec {env : PyEnv} {A B : Spec} {pri sec ter : List Nat} {has1 has65 : Bool}
    (hp : A.get? py"p" = B.get? py"p") (h1 : has1 = true → A.get? py"1" = B.get? py"1") :
    bmsPure env A pri sec ter has1 has65 = bmsPure env B pri sec ter has1 has65 := by
  unfold bmsPure
  rw [hp]
  cases has1 with
  | true => simp only [h1 rfl]
  | false => simp only [Bool.false_eq_true, if_false]

/-- **C57** (encode): the outcome of `encode` (result or exception, and the caller's dict
afterwards) depends on the specification only through the entries of header, type, primary bitmap,
the secondary bitmap if one is needed, and the fields the dict numbers. -/
theorem encode_spec_local {env : PyEnv} {A B : Spec} {doc : Doc} (nd : doc.NoDup)
    (hh : A.get? py"h" = B.get? py"h") (ht : A.get? py"t" = B.get? py"t") (hp : A.get? py"p" = B.get? py"p")
    (h1 : Flagged env doc 1 → A.get? py"1" = B.get? py"1")
    (hf : ∀ i : Nat, Numbered env doc i → i ≠ 1 → i ≠ 65 → A.get? (natStr i) = B.get? (natStr i)) :
    encode env A doc = encode env B doc := by
  rw [encode_run, encode_run]
  have key : encPure env A (lookup doc) (numsOf env doc) = encPure env B (lookup doc) (numsOf env doc) := by
    have eh : hdrPure env A (lookup doc) = hdrPure env B (lookup doc) := by simp only [hdrPure, hh]
    have et : typePure env A (lookup doc) = typePure env B (lookup doc) := by simp only [typePure, ht]
    unfold encPure
    rw [eh, et]
    cases hn : numsOf env doc with
    | error r => rfl
    | ok ns =>
      by_cases hr : (setUpdate [] ns).all inRange = true
      · have hm := (numsOf_ok nd hn).2
        have hrange : ∀ n ∈ ns, 1 ≤ n ∧ n ≤ 192 := by
          intro n hn
          have := List.all_eq_true.1 hr n (mem_setUpdate.2 (.inr hn))
          simp [inRange] at this
          omega
        have hF : ∀ x ∈ (setUpdate [] ns).map Int.toNat, x ≤ 192 := by
          intro x hx
          obtain ⟨y, hy, rfl⟩ := List.mem_map.1 hx
          have := hrange y (by simpa [mem_setUpdate] using hy)
          omega
        have hFm : ∀ i : Nat, i ∈ (setUpdate [] ns).map Int.toNat → Numbered env doc i := by
          intro i hi
          obtain ⟨x, hx, rfl⟩ := List.mem_map.1 hi
          have hx : x ∈ ns := by simpa [mem_setUpdate] using hx
          have := hrange x hx
          rw [Int.toNat_of_nonneg (by omega)]
          exact (hm x).1 hx
        have eb : bodyPure env A (lookup doc) ((setUpdate [] ns).map Int.toNat) =
            bodyPure env B (lookup doc) ((setUpdate [] ns).map Int.toNat) := by
          unfold bodyPure
          rw [bmsPure_spec hp, fieldsPure_spec]
          · intro i hi
            rw [mem_sortedNat, mem_restOf] at hi
            exact hf i (hFm i hi.1) hi.2.1 hi.2.2
          · intro h
            refine h1 ?_
            rcases (mem_f2Of hF).1 (of_decide_eq_true h) with h | ⟨h, _⟩ | ⟨_, y, hy, h⟩
            · exact .inl (hFm 1 h)
            · cases h
            · exact .inr (.inr ⟨rfl, y, h, hFm y hy⟩)
        dsimp only
        rw [eb]
      · dsimp only
        simp only [if_neg hr]
  rw [key]

theorem message_spec {env : PyEnv} {A B : Spec} {ps : List Part} (h : Message env A ps) (hh : A.get? py"h" = B.get? py"h")
    (hk : ∀ p ∈ ps, A.get? p.key = B.get? p.key) : Message env B ps := by
  obtain ⟨h, t, b, f, P, F, rfl, ⟨fs, hs, hx⟩, ht, hb, hF, hm, hkeys, hf⟩ := h
  refine ⟨h, t, b, f, P, F, rfl, ⟨fs, by rw [← hh]; exact hs, hx⟩, ?_, ?_, hF, hm, hkeys, ?_⟩
  · obtain ⟨ft, D, v, hs, rfl, h1⟩ := ht
    have : A.get? py"t" = B.get? py"t" := hk ⟨py"t", ⟨[], D⟩, v⟩ (by simp)
    exact ⟨ft, D, v, by rw [← this]; exact hs, rfl, h1⟩
  · have hkb : ∀ p ∈ b, A.get? p.key = B.get? p.key := fun p hp => hk p (by simp [hp])
    cases hb with
    | one hs hb h1 h65 =>
      simp only [List.mem_cons, List.not_mem_nil, or_false, forall_eq_or_imp, forall_eq] at hkb
      exact .one (hkb.symm.trans hs) hb h1 h65
    | two hs hb h1 hs1 hb1 h65 =>
      simp only [List.mem_cons, List.not_mem_nil, or_false, forall_eq_or_imp, forall_eq] at hkb
      exact .two (hkb.1.symm.trans hs) hb h1 (hkb.2.symm.trans hs1) hb1 h65
    | three hs hb h1 hs1 hb1 h65 hb2 =>
      simp only [List.mem_cons, List.not_mem_nil, or_false, forall_eq_or_imp, forall_eq] at hkb
      exact .three (hkb.1.symm.trans hs) hb h1 (hkb.2.symm.trans hs1) hb1 h65 hb2
    | wide hs hb h1 h65 hb2 =>
      simp only [List.mem_cons, List.not_mem_nil, or_false, forall_eq_or_imp, forall_eq] at hkb
      exact .wide (hkb.symm.trans hs) hb h1 h65 hb2
  · intro p hp
    obtain ⟨fs, hs, hr⟩ := hf p hp
    exact ⟨fs, by rw [← hk p (by simp [hp])]; exact hs, hr⟩

/-- **C57** (decode): a message is decoded to the same dicts by every specification with the same
header entry and the same entries for the keys of the result. -/
theorem decode_spec_local {env : PyEnv} {A B : Spec} {s : Bytes} {dec : DecDoc} {enc : EncDoc}
    (h : decode env A s = .ok (dec, enc)) (hh : A.get? py"h" = B.get? py"h")
    (hk : ∀ k ∈ dec.keys, A.get? k = B.get? k) : decode env B s = .ok (dec, enc) := by
  obtain ⟨ps, hm, rfl, rfl, rfl⟩ := decode_iff.1 h
  refine decode_iff.2 ⟨ps, message_spec hm hh fun p hp => hk _ ?_, rfl, rfl, rfl⟩
  exact List.mem_map.2 ⟨(p.key, p.text), List.mem_map.2 ⟨p, hp, rfl⟩, rfl⟩

/-- The worked specification with one more field. -/
def demoMore : Spec := demoSpec ++ [(py"4", { dataEnc := py"b", lenEnc := py"b", lenType := 3, maxLen := 9 })]

example : decode cpython demoMore demoMsg = .ok (demoDec, demoEnc) :=
  decode_spec_local demo_decode (by decide) (by decide)

/-- Field 4 of the specification plays no role in a dict without it, whether or not it encodes. -/
example (v : Val) : encode cpython demoMore [(.str py"t", v), (.str py"2", .unsized)] =
    encode cpython demoSpec [(.str py"t", v), (.str py"2", .unsized)] := by
  refine encode_spec_local (by unfold Dict.NoDup; simp [Dict.keys]) (by decide) (by decide) (by decide) (fun _ => by decide) ?_
  rintro i ⟨s, hs, _, _, hn, hp⟩ _ _
  simp only [Dict.keys, List.map_cons, List.map_nil, List.mem_cons, Key.str.injEq, List.not_mem_nil, or_false] at hs
  rcases hs with rfl | rfl
  · exact absurd hn (by decide)
  · have : pyInt cpython py"2" = some 2 := by decide
    rw [this] at hp
    have : i = 2 := by have := Option.some.inj hp; omega
    subst this
    decide

end Iso8583
