import Verif.Lemmas.EncodeCongr
import Verif.Props.EncodeRoundTrip
/-!
# `encode` and the caller's dict (C12, C13, C14, C23, C27, C33, C34, C35)
-/

namespace Iso8583

/-! ## C14 -/

theorem encPure_texts (env : PyEnv) (spec : Spec) (g : Str → Option Val) (ns : Except EncRaise (List Int)) :
    ∀ kv ∈ (encPure env spec g ns).2.2, kv.1 = py"p" ∨ kv.1 = py"1" := by
  unfold encPure
  cases hH : (hdrPure env spec g).1 with
  | error r => simp [hH]
  | ok h =>
    cases hT : (typePure env spec g).1 with
    | error r => simp [hH, hT]
    | ok t =>
      cases ns with
      | error r => simp [hH, hT]
      | ok ns =>
        simp only [hH, hT]
        by_cases hr : (setUpdate [] ns).all inRange = true
        · rw [if_pos hr]
          dsimp only
          unfold bodyPure
          have := bmsPure_sets env spec (priOf ((setUpdate [] ns).map Int.toNat)) (secOf ((setUpdate [] ns).map Int.toNat))
            (terOf ((setUpdate [] ns).map Int.toNat)) (1 ∈ f2Of ((setUpdate [] ns).map Int.toNat))
            (65 ∈ f2Of ((setUpdate [] ns).map Int.toNat))
          dsimp only
          split
          · exact this
          · exact this
        · rw [if_neg hr]; simp

theorem Dict.filter_set {d : Doc} {p : Key → Bool} {k : Key} (hk : p k = false) (v : Val) :
    (Dict.set d k v).filter (fun kv => p kv.1) = d.filter fun kv => p kv.1 := by
  induction d with
  | nil => simp [Dict.set, hk]
  | cons x t ih =>
    obtain ⟨a, b⟩ := x
    unfold Dict.set
    split
    · next h => subst h; simp [hk]
    · rw [List.filter_cons, List.filter_cons, ih]

theorem Dict.filter_pop {d : Doc} {p : Key → Bool} {k : Key} (hk : p k = false) :
    (Dict.pop d k).filter (fun kv => p kv.1) = d.filter fun kv => p kv.1 := by
  induction d with
  | nil => rfl
  | cons x t ih =>
    obtain ⟨a, b⟩ := x
    unfold Dict.pop
    split
    · next h => subst h; simp [hk]
    · rw [List.filter_cons, List.filter_cons, ih]

theorem filter_applySets {p : Key → Bool} : ∀ {sets : List (Str × Str)} {doc : Doc}, (∀ kv ∈ sets, p (.str kv.1) = false) →
    (applySets doc sets).filter (fun kv => p kv.1) = doc.filter fun kv => p kv.1
  | [], _, _ => rfl
  | kv :: t, doc, h => by
    have := filter_applySets (p := p) (sets := t) (doc := doc.set (.str kv.1) (.str kv.2)) (fun x hx => h x (by simp [hx]))
    rw [Dict.filter_set (h kv (by simp))] at this
    exact this

theorem encode_filter {env : PyEnv} {spec : Spec} {doc : Doc} {p : Key → Bool} (hp : p (.str py"p") = false)
    (h1 : p (.str py"1") = false) (h65 : p (.str py"65") = false) :
    (encode env spec doc).2.filter (fun kv => p kv.1) = doc.filter fun kv => p kv.1 := by
  rw [encode_run]
  dsimp only
  rw [filter_applySets]
  · unfold cleaned
    rw [Dict.filter_pop h65, Dict.filter_pop h1]
  · intro kv hkv
    rcases encPure_texts _ _ _ _ kv hkv with h | h <;> rw [h] <;> assumption

theorem not_bitmapKey {k : Key} : (!isBitmapKey k) = true ↔ k ≠ .str py"p" ∧ k ≠ .str py"1" ∧ k ≠ .str py"65" := by
  simp [isBitmapKey, and_assoc]

/-- **C14**: whatever happens, the items of the caller's dict other than `p`, `1` and `65` stay as
they are, in the same order: each keeps its value, none appears, none disappears. -/
theorem encode_touches_only_bitmaps (env : PyEnv) (spec : Spec) (doc : Doc) :
    ((encode env spec doc).2.filter fun kv => !isBitmapKey kv.1) = doc.filter fun kv => !isBitmapKey kv.1 :=
  encode_filter (p := fun k => !isBitmapKey k) (by decide) (by decide) (by decide)

/-- **C14**, key by key. -/
theorem encode_keeps_values (env : PyEnv) (spec : Spec) (doc : Doc) {k : Key} (hp : k ≠ .str py"p") (h1 : k ≠ .str py"1")
    (h65 : k ≠ .str py"65") : (encode env spec doc).2.get? k = doc.get? k := by
  have hk := not_bitmapKey.2 ⟨hp, h1, h65⟩
  have := encode_touches_only_bitmaps env spec doc
  rw [← Dict.get?_filter (d := doc) (p := fun k => !isBitmapKey k) hk, ← this, Dict.get?_filter (p := fun k => !isBitmapKey k) hk]

/-- On success and on failure. -/
example : (encode cpython demoSpec demoDoc).2.get? (.str py"note") = some .unsized := by
  rw [encode_keeps_values _ _ _ (by decide) (by decide) (by decide)]; decide

/-- Here field 4 has no specification: `encode` fails after it has written `p` and `1`. -/
example : encode cpython demoSpec (demoDoc.set (.str py"4") (.str py"x")) =
      (.error (.keyError py"4"), demoDocAfter.pop (.str py"p") |>.pop (.str py"1") |>.set (.str py"4") (.str py"x")
        |>.set (.str py"p") (.str py"F000000000000000") |>.set (.str py"1") (.str py"84000000000000004000000000000000")) ∧
    (encode cpython demoSpec (demoDoc.set (.str py"4") (.str py"x"))).2.get? (.str py"4") = some (.str py"x") := by
  refine ⟨by decide +kernel, ?_⟩
  rw [encode_keeps_values _ _ _ (by decide) (by decide) (by decide)]; decide

/-! ## C12 and C33 -/

theorem AsciiNumeric.digits {env : PyEnv} (h : AsciiNumeric env) : DigitsNumeric env := by
  intro c h1 h2
  rw [h c (by omega)]
  simp [h1, h2]

theorem AsciiNumeric.letter {env : PyEnv} (h : AsciiNumeric env) {c : Nat} {t : Str} (h1 : 58 ≤ c) (h2 : c < 128) :
    isNumeric env (c :: t) = false := by
  have := h c h2
  simp only [isNumeric, List.all_cons, this]
  have : (48 ≤ c && c ≤ 57) = false := by simp; omega
  simp [this]

theorem filter_of_filter {α : Type} {p q : α → Bool} (h : ∀ x, q x = true → p x = true) (l : List α) :
    l.filter q = (l.filter p).filter q := by
  rw [List.filter_filter]
  congr 1
  funext x
  cases hq : q x
  · rfl
  · simp [h x hq]

theorem outcome_of_matters {env : PyEnv} {spec : Spec} {a b : Doc} (hd : DigitsNumeric env) (na : a.NoDup) (nb : b.NoDup)
    (h : (a.filter fun kv => matters env kv.1) = b.filter fun kv => matters env kv.1) :
    outcome env spec a = outcome env spec b := by
  rw [outcome_eq, outcome_eq, encPure_filter hd na nb h]

/-- **C12**: two dicts that differ only in what they hold under `p`, `1` and `65` (any values, or
nothing) have the same outcome: bytes and encoded dict, or exception. -/
theorem encode_ignores_stale_bitmaps {env : PyEnv} {spec : Spec} {a b : Doc} (he : AsciiNumeric env) (na : a.NoDup)
    (nb : b.NoDup) (h : (a.filter fun kv => !isBitmapKey kv.1) = b.filter fun kv => !isBitmapKey kv.1) :
    outcome env spec a = outcome env spec b := by
  apply outcome_of_matters he.digits na nb
  have hm : ∀ kv : Key × Val, matters env kv.1 = true → (!isBitmapKey kv.1) = true := by
    rintro ⟨k, v⟩ hk
    rw [not_bitmapKey]
    refine ⟨?_, ?_, ?_⟩
    · rintro rfl
      simp [matters, he.letter (c := 112) (t := []) (by omega) (by omega)] at hk
    · rintro rfl; simp [matters] at hk
    · rintro rfl; simp [matters] at hk
  rw [filter_of_filter hm a, h, ← filter_of_filter hm b]

theorem cpython_ascii : AsciiNumeric cpython := by
  intro c hc
  revert c
  decide +kernel

/-- Overwriting the stale bitmaps of the worked message, including a value that is no string. -/
example : outcome cpython demoSpec ((demoDoc.set (.str py"p") .unsized).set (.str py"65") (.str py"zz")) =
    outcome cpython demoSpec (demoDoc.pop (.str py"1")) :=
  encode_ignores_stale_bitmaps cpython_ascii (by unfold Dict.NoDup; decide) (by unfold Dict.NoDup; decide) (by decide)

/-- A key that is a string, not numeric and not `h`, `t` or `p`. -/
def isUnrelated (env : PyEnv) : Key → Bool
  | .str s => !(isNumeric env s) && s ≠ py"h" && s ≠ py"t" && s ≠ py"p"
  | .obj _ => false

/-- **C33**: unrelated keys have no effect on the outcome, and they stay in the dict. -/
theorem encode_ignores_unrelated {env : PyEnv} {spec : Spec} {a b : Doc} (he : DigitsNumeric env) (na : a.NoDup)
    (nb : b.NoDup) (h : (a.filter fun kv => !isUnrelated env kv.1) = b.filter fun kv => !isUnrelated env kv.1) :
    outcome env spec a = outcome env spec b ∧
      ∀ k, isUnrelated env k = true → (encode env spec a).2.get? k = a.get? k := by
  constructor
  · apply outcome_of_matters he na nb
    have hm : ∀ kv : Key × Val, matters env kv.1 = true → (!isUnrelated env kv.1) = true := by
      rintro ⟨k, v⟩ hk
      cases k with
      | obj r => rfl
      | str s =>
        simp only [matters, Bool.or_eq_true, decide_eq_true_eq, Bool.and_eq_true] at hk
        rcases hk with (rfl | rfl) | hk
        · simp [isUnrelated]
        · simp [isUnrelated]
        · simp [isUnrelated, hk.1.1]
    rw [filter_of_filter hm a, h, ← filter_of_filter hm b]
  · intro k hk
    have h1 : isNumeric env py"1" = true := by
      have := isNumeric_natStr he 1
      exact this
    have h65 : isNumeric env py"65" = true := by
      have := isNumeric_natStr he 65
      exact this
    apply encode_keeps_values
    · rintro rfl; simp [isUnrelated] at hk
    · rintro rfl; simp [isUnrelated, h1] at hk
    · rintro rfl; simp [isUnrelated, h65] at hk

example : outcome cpython demoSpec (demoDoc.set (.str py"7a") (.str py"comment")) =
    outcome cpython demoSpec (demoDoc.pop (.str py"note")) :=
  (encode_ignores_unrelated cpython_digits (by unfold Dict.NoDup; decide) (by unfold Dict.NoDup; decide) (by decide +kernel)).1

/-! ## C13 -/

theorem applySets_pop_last {d : Doc} {sets : List (Str × Str)} (hnd : d.NoDup) (h1 : Key.str py"1" ∉ d.keys)
    (h65 : Key.str py"65" ∉ d.keys) (hs : (∃ t, sets = [(py"p", t)]) ∨ ∃ t u, sets = [(py"p", t), (py"1", u)]) :
    applySets (cleaned (applySets d sets)) sets = applySets d sets := by
  have hp1 : ∀ t : Val, Key.str py"1" ∉ (d.set (.str py"p") t).keys := by
    intro t; rw [Dict.mem_keys_set]; simp [h1]
  have hp65 : ∀ t : Val, Key.str py"65" ∉ (d.set (.str py"p") t).keys := by
    intro t; rw [Dict.mem_keys_set]; simp [h65]
  have hset : ∀ t : Val, (d.set (.str py"p") t).set (.str py"p") t = d.set (.str py"p") t := fun t =>
    Dict.set_get?_self (by simp)
  rcases hs with ⟨t, rfl⟩ | ⟨t, u, rfl⟩
  · simp only [applySets, List.foldl_cons, List.foldl_nil, cleaned]
    rw [Dict.pop_of_not_mem (hp1 _), Dict.pop_of_not_mem (hp65 _), hset]
  · simp only [applySets, List.foldl_cons, List.foldl_nil, cleaned]
    have h2 : ((d.set (.str py"p") (.str t)).set (.str py"1") (.str u)).pop (.str py"1") = d.set (.str py"p") (.str t) := by
      rw [Dict.set_of_not_mem (hp1 _), Dict.pop_eq_filter]
      · rw [List.filter_append, List.filter_eq_self.2]
        · simp
        · rintro ⟨k, v⟩ hkv
          simp only [ne_eq, decide_eq_true_eq]
          rintro rfl
          exact hp1 (.str t) (List.mem_map.2 ⟨_, hkv, rfl⟩)
      · rw [← Dict.set_of_not_mem (hp1 _)]
        exact (hnd.set _ _).set _ _
    rw [h2, Dict.pop_of_not_mem (hp65 _), hset]

theorem encode_texts {env : PyEnv} {spec : Spec} {F : List Nat} {bms : List Item} (h : BitmapsWrite env spec F bms) :
    (∃ t, textsOf bms = [(py"p", t)]) ∨ ∃ t u, textsOf bms = [(py"p", t), (py"1", u)] := by
  cases h with
  | primary _ _ _ => exact .inl ⟨_, rfl⟩
  | secondary _ _ _ _ _ _ => exact .inr ⟨_, _, rfl⟩
  | tertiary _ _ _ _ _ _ _ => exact .inr ⟨_, _, rfl⟩

/-- **C13**: after a successful encode, encoding the dict again gives the same bytes and encoded
dict and leaves the dict as it is. -/
theorem encode_idempotent {env : PyEnv} {spec : Spec} {doc doc' : Doc} {s : Bytes} {enc : EncDoc} (he : AsciiNumeric env)
    (nd : doc.NoDup) (h : encode env spec doc = (.ok (s, enc), doc')) : encode env spec doc' = (.ok (s, enc), doc') := by
  have hnd' : doc'.NoDup := by
    obtain ⟨_, _, _, _, _, _, _, _, rfl⟩ := encode_ok_iff.1 h
    exact applySets_nodup (cleaned_nodup nd)
  have hpure : encPure env spec (lookup doc') (numsOf env doc') = encPure env spec (lookup doc) (numsOf env doc) := by
    apply encPure_filter he.digits hnd' nd
    have := encode_filter (env := env) (spec := spec) (doc := doc) (p := matters env)
      (by simp [matters, he.letter (c := 112) (t := []) (by omega) (by omega)]) (by simp [matters]) (by simp [matters])
    rw [h] at this
    exact this
  have h2 := encode_run env spec doc'
  rw [hpure] at h2
  have h1 := encode_run env spec doc
  rw [h] at h1
  obtain ⟨ns, hn, hr, items, bms, hw, hs, henc, hdoc⟩ := encode_ok_iff.1 h
  have hP := encPure_ok_iff.2 ⟨ns, hn, hr, items, bms, hw, hs, henc, rfl⟩
  rw [hP] at h1 h2
  simp only at h1 h2
  rw [h2]
  refine congrArg (Prod.mk _) ?_
  obtain ⟨_, _, _, _, _, _, hb, _⟩ := hw.parts
  rw [hdoc]
  exact applySets_pop_last (cleaned_nodup nd) (fun hm => ((mem_keys_cleaned nd).1 hm).2.1 rfl)
    (fun hm => ((mem_keys_cleaned nd).1 hm).2.2 rfl) (encode_texts hb)

/-- `n` further calls of `encode` on the same dict: the result of the last one. -/
def encodeAgain (env : PyEnv) (spec : Spec) (doc : Doc) : Nat → Except EncodeExc (Bytes × EncDoc) × Doc
  | 0 => encode env spec doc
  | n + 1 => encode env spec (encodeAgain env spec doc n).2

/-- **C13**, any number of times. -/
theorem encode_idempotent_many {env : PyEnv} {spec : Spec} {doc doc' : Doc} {s : Bytes} {enc : EncDoc} (he : AsciiNumeric env)
    (nd : doc.NoDup) (h : encode env spec doc = (.ok (s, enc), doc')) : ∀ n, encodeAgain env spec doc n = (.ok (s, enc), doc')
  | 0 => h
  | n + 1 => by
    rw [encodeAgain, encode_idempotent_many he nd h n]
    exact encode_idempotent he nd h

example : encode cpython demoSpec demoDocAfter = (.ok (demoMsg, demoEnc), demoDocAfter) :=
  encode_idempotent cpython_ascii demo_nodup demo_encode

/-! ## C23 -/

/-- **C23**: the bitmap code gives the same result, and leaves the same state, for every iteration
order of the set of fields. -/
theorem encodeBitmap_perm {env : PyEnv} {key : Str} {fs : FieldSpec} {offset : Nat} {ext : Bool} {l l' : List Nat}
    (h : l.Perm l') : encodeBitmap env key fs offset ext l = encodeBitmap env key fs offset ext l' := by
  unfold encodeBitmap
  rw [bitmapLoop_perm h]

example : bitmapLoop 0 [3, 64, 2] (List.replicate 8 0) = bitmapLoop 0 [64, 2, 3] (List.replicate 8 0) ∧
    bitmapLoop 0 [64, 2, 3] (List.replicate 8 0) = some [0x60, 0, 0, 0, 0, 0, 0, 1] :=
  ⟨bitmapLoop_perm (l := [3, 64, 2]) (l' := [64, 2, 3]) (by decide) _, by decide⟩

example (env : PyEnv) (key : Str) (fs : FieldSpec) :
    encodeBitmap env key fs 64 true [70, 65, 128] = encodeBitmap env key fs 64 true [128, 70, 65] :=
  encodeBitmap_perm (by decide)

/-! ## C34 and C35 -/

theorem outcome_of_matters_perm {env : PyEnv} {spec : Spec} {a b : Doc} (hd : DigitsNumeric env) (na : a.NoDup) (nb : b.NoDup)
    (h : (a.filter fun kv => matters env kv.1).Perm (b.filter fun kv => matters env kv.1)) :
    (KeysParse env a → outcome env spec a = outcome env spec b) ∧
    ∀ r, outcome env spec a = .ok r ↔ outcome env spec b = .ok r := by
  have key : ∀ {a b : Doc} (_ : a.NoDup) (_ : b.NoDup)
      (_ : (a.filter fun kv => matters env kv.1).Perm (b.filter fun kv => matters env kv.1)) {ns : List Int}
      (_ : numsOf env a = .ok ns), outcome env spec a = outcome env spec b := by
    intro a b na nb h ns hn
    rw [outcome_eq, outcome_eq, encPure_perm hd na nb h hn]
  have ok : ∀ {a b : Doc} (_ : a.NoDup) (_ : b.NoDup)
      (_ : (a.filter fun kv => matters env kv.1).Perm (b.filter fun kv => matters env kv.1)) {r : Bytes × EncDoc},
      outcome env spec a = .ok r → outcome env spec b = .ok r := by
    rintro a b na nb h ⟨s, enc⟩ ha
    obtain ⟨d, hd'⟩ := encode_ok_outcome.2 ha
    obtain ⟨ns, hn, _⟩ := encode_ok_iff.1 hd'
    rw [← key na nb h hn]; exact ha
  refine ⟨fun hk => ?_, fun r => ⟨ok na nb h, ok nb na h.symm⟩⟩
  obtain ⟨ns, hn⟩ := numericKeys_of_parse (env := env) (all := (cleaned a).keys) (ks := (cleaned a).keys)
    (fun k hk' => hk k ((mem_keys_cleaned na).1 hk').1)
  exact key na nb h hn

/-- **C34**: the insertion order of the dict is irrelevant: the same bytes and encoded dict on
success and, when every key is a string whose number `int` accepts, the same exception on failure. -/
theorem encode_order_irrelevant {env : PyEnv} {spec : Spec} {a b : Doc} (hd : DigitsNumeric env) (na : a.NoDup)
    (h : a.Perm b) :
    (∀ r, outcome env spec a = .ok r ↔ outcome env spec b = .ok r) ∧
    (KeysParse env a → outcome env spec a = outcome env spec b) := by
  have := outcome_of_matters_perm (spec := spec) hd na (na.perm h) (h.filter _)
  exact ⟨this.2, this.1⟩

theorem demo_keys : KeysParse cpython demoDoc := by
  intro k hk
  have : ∀ k ∈ demoDoc.keys, (match k with
      | .str s => !(isNumeric cpython s) || (pyInt cpython s).isSome
      | .obj _ => false) = true := by decide +kernel
  have := this k hk
  cases k with
  | obj r => simp at this
  | str s =>
    refine ⟨s, rfl, fun hs => ?_⟩
    simp only [hs, Bool.not_true, Bool.false_or] at this
    exact Option.isSome_iff_exists.1 this

example : outcome cpython demoSpec demoDoc = outcome cpython demoSpec demoDoc.reverse :=
  (encode_order_irrelevant cpython_digits demo_nodup (List.reverse_perm _).symm).2 demo_keys

/-- Without the condition on keys the exception may differ: `int` raises on the first bad key. -/
example : outcome cpython demoSpec (demoDoc ++ [(.str [0xBD], .unsized), (.obj py"7", .unsized)]) =
      .error .valueError ∧
    outcome cpython demoSpec (demoDoc ++ [(.obj py"7", .unsized), (.str [0xBD], .unsized)]) =
      .error (.encodeError ⟨.invalidFields [py"7"], [], demoEnc.take 2, py"p"⟩) := by decide +kernel

/-- Something a program does with its dict. -/
inductive Op
  | set (k : Key) (v : Val)
  | remove (k : Key)
  | encode (spec : Spec)

/-- What it does to the dict. -/
def Op.run (env : PyEnv) (doc : Doc) : Op → Doc
  | .set k v => doc.set k v
  | .remove k => doc.pop k
  | .encode spec => (Iso8583.encode env spec doc).2

/-- What it does to a plain map, for which encoding is no operation. -/
def Op.plain (m : Key → Option Val) : Op → Key → Option Val
  | .set k v => fun k' => if k' = k then some v else m k'
  | .remove k => fun k' => if k' = k then none else m k'
  | .encode _ => m

theorem encode_nodup {env : PyEnv} {spec : Spec} {doc : Doc} (nd : doc.NoDup) : (encode env spec doc).2.NoDup := by
  rw [encode_run]
  exact applySets_nodup (cleaned_nodup nd)

theorem run_plain {env : PyEnv} : ∀ (ops : List Op) (doc : Doc) (m : Key → Option Val), doc.NoDup →
    (∀ k, isBitmapKey k = false → doc.get? k = m k) →
    (ops.foldl (Op.run env) doc).NoDup ∧
      ∀ k, isBitmapKey k = false → (ops.foldl (Op.run env) doc).get? k = ops.foldl Op.plain m k
  | [], _, _, nd, h => ⟨nd, h⟩
  | op :: t, doc, m, nd, h => by
    simp only [List.foldl_cons]
    apply run_plain t
    · cases op with
      | set k v => exact nd.set k v
      | remove k => exact nd.pop k
      | encode spec => exact encode_nodup nd
    · intro k hk
      cases op with
      | set k' v => simp only [Op.run, Op.plain, Dict.get?_set]; split <;> simp [h k hk]
      | remove k' =>
        simp only [Op.run, Op.plain]
        split
        · next e => subst e; rw [Dict.get?_eq_none]; exact Dict.not_mem_keys_pop nd _
        · next e => rw [Dict.get?_pop_ne _ e, h k hk]
      | encode spec =>
        have := not_bitmapKey.1 (by simpa using hk)
        simp only [Op.run, Op.plain]
        rw [encode_keeps_values _ _ _ this.1 this.2.1 this.2.2, h k hk]

/-- **C35**: encoding after any history of assignments, removals and encodes gives the same as
encoding any fresh dict that holds the surviving assignments. -/
theorem encode_history {env : PyEnv} {spec : Spec} (he : AsciiNumeric env) (ops : List Op) {fresh : Doc} (nd : fresh.NoDup)
    (h : ∀ k, isBitmapKey k = false → fresh.get? k = ops.foldl Op.plain (fun _ => none) k) :
    (∀ r, outcome env spec (ops.foldl (Op.run env) []) = .ok r ↔ outcome env spec fresh = .ok r) ∧
    (KeysParse env fresh → outcome env spec (ops.foldl (Op.run env) []) = outcome env spec fresh) := by
  obtain ⟨nd', h'⟩ := run_plain (env := env) ops [] (fun _ => none) (by simp [Dict.NoDup]) (by simp [Dict.get?])
  have hm : ∀ k : Key, matters env k = true → isBitmapKey k = false := by
    intro k hk
    rw [← Bool.not_eq_true', not_bitmapKey]
    refine ⟨?_, ?_, ?_⟩
    · rintro rfl
      simp [matters, he.letter (c := 112) (t := []) (by omega) (by omega)] at hk
    · rintro rfl; simp [matters] at hk
    · rintro rfl; simp [matters] at hk
  have hp : (fresh.filter fun kv => matters env kv.1).Perm
      ((ops.foldl (Op.run env) []).filter fun kv => matters env kv.1) := by
    apply Dict.perm_of_get? (nd.filter _) (nd'.filter _)
    intro k
    by_cases hk : matters env k = true
    · rw [Dict.get?_filter hk, Dict.get?_filter hk, h k (hm k hk), h' k (hm k hk)]
    · rw [Dict.get?_eq_none.2, Dict.get?_eq_none.2]
      · rw [Dict.keys_filter]; simp [hk]
      · rw [Dict.keys_filter]; simp [hk]
  have := outcome_of_matters_perm (spec := spec) he.digits nd nd' hp
  exact ⟨fun r => (this.2 r).symm, fun hk => (this.1 hk).symm⟩

/-- Field 130 is set, encoded with and removed again; the secondary bitmap leaves no trace. -/
example : outcome cpython demoSpec ([Op.set (.str py"2") (.str py"1"), .set (.str py"130") (.str py"BEEF"),
      .set (.str py"t") (.str py"0100"), .set (.str py"h") (.str py"HDR"), .encode demoSpec, .remove (.str py"130"),
      .set (.str py"2") (.str py"12345")].foldl (Op.run cpython) []) =
    outcome cpython demoSpec [(.str py"h", .str py"HDR"), (.str py"t", .str py"0100"), (.str py"2", .str py"12345")] := by
  refine (encode_history cpython_ascii _ (by unfold Dict.NoDup; decide) ?_).2 ?_
  · intro k _
    simp only [List.foldl_cons, List.foldl_nil, Op.plain, Dict.get?, eq_comm (b := k)]
    grind
  · intro k hk
    simp [Dict.keys] at hk
    rcases hk with rfl | rfl | rfl
    · exact ⟨_, rfl, fun h => absurd h (by decide +kernel)⟩
    · exact ⟨_, rfl, fun h => absurd h (by decide +kernel)⟩
    · exact ⟨_, rfl, fun _ => ⟨2, by decide +kernel⟩⟩

/-! ## C27 -/

/-- **C27**: the entry of a field depends only on its specification and value. -/
theorem encode_local {env : PyEnv} {spec spec' : Spec} {doc doc' d d' : Doc} {s s' : Bytes} {enc enc' : EncDoc}
    (h : encode env spec doc = (.ok (s, enc), d)) (h' : encode env spec' doc' = (.ok (s', enc'), d')) {k : Str}
    (hp : k ≠ py"p") (h1 : k ≠ py"1") (hs : spec.get? k = spec'.get? k) (hv : doc.get? (.str k) = doc'.get? (.str k))
    {e e' : EncEntry} (he : enc.get? k = some e) (he' : enc'.get? k = some e') : e = e' := by
  by_cases ht : k = py"t"
  · subst ht
    obtain ⟨fs, D, v, a1, a2, a3, _, a5, a6⟩ := encode_type h
    obtain ⟨fs', D', v', b1, b2, b3, _, b5, b6⟩ := encode_type h'
    rw [a3] at he; cases he
    rw [b3] at he'; cases he'
    rw [hs, b1] at a1; cases a1
    rw [hv, b2] at a2; cases a2
    by_cases hb : fs.isBinary
    · rw [hexText_inj ((a5 hb).trans (b5 hb).symm)]
    · obtain ⟨t, c, rfl, c1, c2⟩ := a6 hb
      obtain ⟨t', c', e, c1', c2'⟩ := b6 hb
      cases e
      rw [c1] at c1'; cases c1'
      rw [c2] at c2'; cases c2'
      rfl
  · obtain ⟨fs, v, n, a1, a2, a3⟩ := encode_entry h he ht hp h1
    obtain ⟨fs', v', n', b1, b2, b3⟩ := encode_entry h' he' ht hp h1
    rw [hs, b1] at a1; cases a1
    rw [hv, b2] at a2; cases a2
    have x := (encOut_ok_iff (e := e) (key := k)).2 ⟨n, a3⟩
    have y := (encOut_ok_iff (e := e') (key := k)).2 ⟨n', b3⟩
    rw [x] at y
    simpa using y

/-- Field 3 in the worked message and in a much smaller one with other fields under it. -/
example : ∀ e, demoEnc.get? py"3" = some e → e = ⟨[0x03], [0x0A, 0xBC]⟩ := by
  intro e he
  have h' : ∃ s enc d, encode cpython demoSpec [(.str py"3", .str py"aBC"), (.str py"t", .str py"0800"), (.str py"h", .str py"abc")] =
      (.ok (s, enc), d) ∧ enc.get? py"3" = some ⟨[0x03], [0x0A, 0xBC]⟩ := by
    refine ⟨[97, 98, 99, 8, 0, 32, 0, 0, 0, 0, 0, 0, 0, 3, 10, 188],
      [(py"h", ⟨[], [97, 98, 99]⟩), (py"t", ⟨[], [8, 0]⟩), (py"p", ⟨[], [32, 0, 0, 0, 0, 0, 0, 0]⟩), (py"3", ⟨[3], [10, 188]⟩)],
      [(.str py"3", .str py"aBC"), (.str py"t", .str py"0800"), (.str py"h", .str py"abc"), (.str py"p", .str py"2000000000000000")],
      by decide +kernel, by decide +kernel⟩
  obtain ⟨s, enc, d, h', h3⟩ := h'
  exact encode_local demo_encode h' (by decide) (by decide) rfl (by decide) he h3

/-- An instance of `encode_idempotent_many`. -/
example (n : Nat) : encodeAgain cpython demoSpec demoDoc n = (.ok (demoMsg, demoEnc), demoDocAfter) :=
  encode_idempotent_many cpython_ascii demo_nodup demo_encode n

/-- An instance of `encode_touches_only_bitmaps`. -/
example (env : PyEnv) (spec : Spec) : (encode env spec demoDoc).2.filter (fun kv => !isBitmapKey kv.1) =
    demoDoc.filter fun kv => !isBitmapKey kv.1 := encode_touches_only_bitmaps env spec demoDoc

end Iso8583
