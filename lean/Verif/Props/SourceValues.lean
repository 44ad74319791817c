import Verif.Props.SourceHeap
/-!
# C91: what `encode` takes as a value

The values of the caller's dict are whatever Python objects the caller put there: texts, numbers, `None`,
`bytes`, or objects of the heap, such as bytearrays, sets, dicts and exceptions.  `encode` of encoder.py writes texts, and for
a field of hex digits also `bytes` and bytearrays.  It refuses everything else, and it leaves every value,
and every object among the values, as it was.
-/

namespace Iso8583

variable {env : PyEnv} {spec : Spec}

/-- Texts, and `bytes` where hex digits are asked for. -/
def Val.Takes (fs : FieldSpec) (v : Val) : Prop := (∃ t, v = .str t) ∨ (fs.isBinary ∧ ∃ b, v = .bytes b)

theorem FieldWrites.takes {fs : FieldSpec} {v : Val} {n : Nat} {L D : Bytes} (h : FieldWrites env fs v n L D) : v.Takes fs := by
  by_cases hb : fs.isBinary
  · rcases h.hexable hb with h | ⟨b, h, -⟩
    · exact .inl h
    · exact .inr ⟨hb, b, h⟩
  · have := h.data
    unfold DataWrites at this
    rw [if_neg hb] at this
    obtain ⟨t, _, h, -⟩ := this
    exact .inl ⟨t, h⟩

/-- The fields whose values `encode` writes: the type, the header if there is one, and the numbered
fields. -/
def Written.Field (spec : Spec) (k : Str) : Prop :=
  k = py"t" ∨ (k = py"h" ∧ hasHeader spec) ∨ ∃ i, 2 ≤ i ∧ i ≤ 192 ∧ i ≠ 65 ∧ k = natStr i

/-- **C91** (of the model): each of them is a text, or `bytes` for hex digits. -/
theorem encode_takes {doc doc' : Doc} {r : Bytes × EncDoc} (hd : DigitsNumeric env) (hs : env.maxStrDigits = 0 ∨ 3 ≤ env.maxStrDigits) (nd : doc.NoDup)
    (h : encode env spec doc = (.ok r, doc')) {k : Str} (hk : Written.Field spec k) {v : Val} (hv : doc.get? (.str k) = some v) :
    ∃ fs, spec.get? k = some fs ∧ v.Takes fs := by
  obtain ⟨hh, ht, -, -, -, hf⟩ := (encode_succeeds_iff nd).1 ⟨r, doc', h⟩
  rcases hk with rfl | ⟨rfl, hk⟩ | ⟨i, h1, h2, h3, rfl⟩
  · obtain ⟨fs, w, D, g1, g2, g3, g4⟩ := ht
    rw [hv] at g2; cases g2
    refine ⟨fs, g1, ?_⟩
    by_cases hb : fs.isBinary
    · rcases g4 hb with g | ⟨b, g, -⟩
      · exact .inl g
      · exact .inr ⟨hb, b, g⟩
    · unfold DataWrites at g3
      rw [if_neg (show ¬ (asType fs).isBinary from hb)] at g3
      obtain ⟨t, _, g, -⟩ := g3
      exact .inl ⟨t, g⟩
  · obtain ⟨fs, g1, g2 | ⟨w, n, L, D, g2, g3⟩⟩ := hh
    · obtain ⟨fs', g3, g4⟩ := hk
      rw [g1] at g3; cases g3
      omega
    · rw [hv] at g2; cases g2
      exact ⟨fs, g1, g3.takes⟩
  · have hlen : (natStr i).length ≤ 3 := (natStr_length_le (by decide)).2 (by omega)
    have hn : Numbered env doc i := ⟨natStr i, Dict.mem_keys_iff.2 ⟨v, hv⟩, fun e => by have := natStr_inj.1 (e.trans (show py"1" = natStr 1 by decide)); omega,
      fun e => h3 (natStr_inj.1 (e.trans (show py"65" = natStr 65 by decide))), isNumeric_natStr hd i, pyInt_natStr env i (by omega)⟩
    obtain ⟨fs, w, n, L, D, g1, g2, g3⟩ := hf i hn (by omega) h3
    rw [hv] at g2; cases g2
    exact ⟨fs, g1, g3.takes⟩

end Iso8583

namespace Iso8583.Src

variable {ε σ : Type} {rt : Rt ε σ} {pv : Val} {spec : Spec}

/-- A text, or `bytes` or a bytearray where hex digits are asked for. -/
def Takes (h : List Obj) (fs : FieldSpec) (w : Val) : Prop :=
  (∃ t, w = .str t) ∨ (fs.isBinary ∧ ((∃ b, w = .bytes b) ∨ (∃ b, w = .barray b) ∨ ∃ (l : Nat) (b : Bytes), w = .ref l ∧ h[l]? = some (.barray b)))

theorem takes_of {h : List Obj} {fs : FieldSpec} {w : Val} {v : Iso8583.Val} (hv : valAt h w = some v) (ht : v.Takes fs) : Takes h fs w := by
  rcases valAt_cases hv with ⟨h1, h2⟩ | ⟨l, o, rfl, h2, rfl⟩
  · rcases ht with ⟨t, rfl⟩ | ⟨hb, b, rfl⟩
    · cases w with
      | str => cases h2; exact .inl ⟨_, rfl⟩
      | obj c r n => cases n <;> cases h2
      | _ => first | cases h2 | cases h1
    · cases w with
      | bytes => exact .inr ⟨hb, .inl ⟨_, rfl⟩⟩
      | barray => exact .inr ⟨hb, .inr (.inl ⟨_, rfl⟩)⟩
      | obj c r n => cases n <;> cases h2
      | _ => first | cases h2 | cases h1
  · cases o with
    | barray b =>
      rcases ht with ⟨t, ht⟩ | ⟨hb, c, -⟩
      · cases ht
      · exact .inr ⟨hb, .inr (.inr ⟨l, b, rfl, h2⟩)⟩
    | _ => rcases ht with ⟨t, ht⟩ | ⟨hb, c, ht⟩ <;> cases ht

theorem DocAt.get {h : List Obj} {D : Nat → Prop} {k : Str} : ∀ {items : List (Val × Val)} {doc : Doc}, DocAt h D items doc →
    match doc.get? (.str k) with
    | none => lookup items (.str k) = none
    | some v => ∃ x, lookup items (.str k) = some x ∧ valAt h x = some v
  | [], [], _ => rfl
  | p :: t, q :: t', hd => by
    obtain ⟨h1, h2, -, h3⟩ := hd
    have ih := DocAt.get (k := k) h3
    simp only [Dict.get?, lookup, same_key h1, decide_eq_true_eq]
    by_cases hk : q.1 = .str k
    · simp only [hk, if_true]
      exact ⟨_, rfl, h2⟩
    · simp only [hk, if_false]
      exact ih

/-- **C91**: when `encode` of encoder.py returns, the value of every field it wrote was a text, or `bytes` or
a bytearray for a field of hex digits. -/
theorem encode_took (hg : ∀ x, rt.globals x = none) (ho : ∀ xs, (rt.order xs).Perm xs) (hn : DigitsNumeric rt.env)
    (hs : rt.env.maxStrDigits = 0 ∨ 640 ≤ rt.env.maxStrDigits) (st : St σ) (hp : SpecAt st.heap pv spec)
    {dd : Nat} {items : List (Val × Val)} {doc : Doc} (hd : st.heap[dd]? = some (.dict items)) (nd : doc.NoDup)
    (di : DocAt st.heap (fun l => l = dd ∨ Refers st.heap pv l) items doc) (hr : ¬ Refers st.heap pv dd)
    {r : Val} {st' : St σ} (he : program rt encoderDefs .encode [.ref dd, pv] [] st = (.ok r, st'))
    {k : Str} (hk : Written.Field spec k) {w : Val} (hw : lookup items (.str k) = some w) :
    ∃ fs, spec.get? k = some fs ∧ Takes st.heap fs w := by
  obtain ⟨x, h, items', h1, -, -, -, -, h3⟩ := encode_heap hg ho hs st hp hd di hr
  rw [he] at h1
  simp only [Prod.mk.injEq] at h1
  obtain ⟨rfl, -⟩ := h1
  have hget := di.get (k := k)
  rcases hm : encodeLim rt.env spec doc with ⟨y, d⟩
  rw [hm] at h3
  cases y with
  | ok q =>
    cases hv : doc.get? (.str k) with
    | none => rw [hv, hw] at hget; cases hget
    | some v =>
      rw [hv] at hget
      obtain ⟨w', g1, g2⟩ := hget
      rw [hw] at g1; cases g1
      obtain ⟨fs, f1, f2⟩ := encode_takes hn (by omega) nd (encodeLim_ok (by rw [hm])) hk hv
      exact ⟨fs, f1, takes_of g2 f2⟩
  | error e => exact absurd h3 (by cases e with | exc e => cases e <;> simp [EncodeOut] | _ => simp [EncodeOut])

/-- **C91** (refused): a dict with any other value for one of these fields is not encoded.  `encode` raises
a Python exception; all objects but the dict are as they were, and so are the dict's values, except those under `p`, `1` and
`65`. -/
theorem encode_refuses (hg : ∀ x, rt.globals x = none) (ho : ∀ xs, (rt.order xs).Perm xs) (hn : DigitsNumeric rt.env)
    (hs : rt.env.maxStrDigits = 0 ∨ 640 ≤ rt.env.maxStrDigits) (st : St σ) (hp : SpecAt st.heap pv spec)
    {dd : Nat} {items : List (Val × Val)} {doc : Doc} (hd : st.heap[dd]? = some (.dict items)) (nd : doc.NoDup)
    (di : DocAt st.heap (fun l => l = dd ∨ Refers st.heap pv l) items doc) (hr : ¬ Refers st.heap pv dd)
    {k : Str} (hk : Written.Field spec k) {w : Val} (hw : lookup items (.str k) = some w)
    (hno : ∀ fs, spec.get? k = some fs → ¬ Takes st.heap fs w) :
    ∃ (e : Exc ε) (h : List Obj) (items' : List (Val × Val)), e ≠ .stuck ∧
      program rt encoderDefs .encode [.ref dd, pv] [] st = (.error e, { st with heap := h }) ∧
      (∀ (l : Nat) o, l ≠ dd → st.heap[l]? = some o → h[l]? = some o) ∧ h[dd]? = some (.dict items') ∧ Keeps items items' := by
  obtain ⟨x, h, items', h1, h2, h3, -, h5, h6⟩ := encode_heap hg ho hs st hp hd di hr
  cases x with
  | ok r =>
    obtain ⟨fs, f1, f2⟩ := encode_took hg ho hn hs st hp hd nd di hr h1 hk hw
    exact absurd f2 (hno fs f1)
  | error e => exact ⟨e, h, items', fun he => h6.not_stuck (he ▸ rfl), h1, h2, h3, h5⟩

/-! ## The hypotheses are met -/

/-- A dict for `heapSpec` whose type is the bytearray at 6. -/
def barrayItems : List (Val × Val) := [(.str py"h", .str py"HD"), (.str py"t", .ref 6), (.str py"3", .str py"123"), (.str py"note", .ref 7)]

theorem heapSpec_apart {g : List Obj} {l : Nat} (hl : 5 ≤ l) : ¬ Refers (heapOf heapSpec ++ g) (.ref 4) l := by
  rintro (h | ⟨i, items, k, h1, h2, h3⟩)
  · cases h; omega
  · cases h1
    cases h2
    obtain ⟨i, q, h4, h5⟩ := specItems_mem h3
    have h6 : l = 0 + i := by simpa using congrArg Prod.snd h5
    obtain ⟨hi, -⟩ := List.getElem?_eq_some_iff.1 h4
    have : i < 4 := hi
    omega

set_option maxRecDepth 4000 in
/-- The digits of a binary field are in a bytearray, and a set is under a key that is no field: `encode`
takes the one, ignores the other, and leaves both as they were. -/
example (st : St Unit) (hh : st.heap = heapOf heapSpec ++ [.dict barrayItems, .barray [0x30, 0x32, 0x30, 0x30], .set [1, 2]]) : ∃ (sl de : Nat) (h : List Obj) (items' : List (Val × Val)),
    program plainRt encoderDefs .encode [.ref 5, .ref 4] [] st = (.ok (.tuple [.ref sl, .ref de]), { st with heap := h }) ∧ h[sl]? = some (.barray heapMsg) ∧
    h[6]? = some (.barray [0x30, 0x32, 0x30, 0x30]) ∧ h[7]? = some (.set [1, 2]) ∧ h[5]? = some (.dict items') ∧ lookup items' (.str py"t") = some (.ref 6) := by
  have hap : ∀ l, 5 ≤ l → ¬ Refers st.heap (.ref 4) l := fun l hl => hh ▸ heapSpec_apart hl
  have hd : st.heap[5]? = some (.dict barrayItems) := by rw [hh]; rfl
  have h6 : st.heap[6]? = some (.barray [0x30, 0x32, 0x30, 0x30]) := by rw [hh]; rfl
  have h7 : st.heap[7]? = some (.set [1, 2]) := by rw [hh]; rfl
  obtain ⟨x, h, items', h1, h2, h3, h4, h5, h8⟩ := encode_heap (rt := plainRt) (pv := .ref 4)
    (doc := [(.str py"h", .str py"HD"), (.str py"t", .bytes [0x30, 0x32, 0x30, 0x30]), (.str py"3", .str py"123"), (.str py"note", .sized 2)])
    (fun _ => rfl) (fun _ => .refl _) cpython_sane.digits st (hh ▸ heapOf_spec (spec := heapSpec) (by decide) _) hd
    ⟨rfl, rfl, nofun, rfl, by simp [valAt, h6, thingOf, thingVal], (by rintro l ⟨⟩; rintro (h | h); exact absurd h (by decide); exact hap 6 (by decide) h),
      rfl, rfl, nofun, rfl, by simp [valAt, h7, thingOf, thingVal], (by rintro l ⟨⟩; rintro (h | h); exact absurd h (by decide); exact hap 7 (by decide) h), trivial⟩
    (hap 5 (by decide))
  have hr : ∃ enc, (encodeLim plainRt.env heapSpec [(.str py"h", .str py"HD"), (.str py"t", .bytes [0x30, 0x32, 0x30, 0x30]), (.str py"3", .str py"123"), (.str py"note", .sized 2)]).1 = .ok (heapMsg, enc) :=
    ⟨[(py"h", ⟨[], [0x48, 0x44]⟩), (py"t", ⟨[], [2, 0]⟩), (py"p", ⟨[], [0x20, 0, 0, 0, 0, 0, 0, 0]⟩), (py"3", ⟨[3], [0xF1, 0xF2, 0xF3]⟩)], by decide +kernel⟩
  obtain ⟨enc, hr⟩ := hr
  rw [hr] at h8
  obtain ⟨sl, de, rfl, g1, -⟩ := h8
  exact ⟨sl, de, h, items', h1, g1, h2 6 _ (by decide) h6, h2 7 _ (by decide) h7, h3, (h5 _ rfl rfl rfl).trans rfl⟩

/-- A number where a text is needed: refused. -/
example (st : St Unit) (hh : st.heap = heapOf heapSpec ++ [.dict [(.str py"h", .str py"HD"), (.str py"t", .str py"0200"), (.str py"3", .int 123)]]) :
    ∃ (e : Exc Empty) (h : List Obj), e ≠ .stuck ∧ program plainRt encoderDefs .encode [.ref 5, .ref 4] [] st = (.error e, { st with heap := h }) := by
  obtain ⟨e, h, -, h1, h2, -⟩ := encode_refuses (rt := plainRt) (pv := .ref 4) (dd := 5) (spec := heapSpec) (k := py"3") (w := .int 123)
    (doc := [(.str py"h", .str py"HD"), (.str py"t", .str py"0200"), (.str py"3", .unsized)])
    (fun _ => rfl) (fun _ => .refl _) cpython_digits cpython_sane.digits st (hh ▸ heapOf_spec (by decide) _) (items := [(.str py"h", .str py"HD"), (.str py"t", .str py"0200"), (.str py"3", .int 123)]) (by rw [hh]; rfl)
    (by unfold Dict.NoDup; decide) ⟨rfl, rfl, nofun, rfl, rfl, nofun, rfl, rfl, nofun, trivial⟩ (hh ▸ heapSpec_apart (by decide))
    (.inr (.inr ⟨3, by decide, by decide, by decide, rfl⟩)) rfl
    (by rintro fs - (⟨t, h⟩ | ⟨-, ⟨b, h⟩ | ⟨b, h⟩ | ⟨l, b, h, -⟩⟩) <;> cases h)
  exact ⟨e, h, h1, h2⟩

/-- An instance of `encode_takes`. -/
example : ∃ fs, demoSpec.get? py"2" = some fs ∧ (Iso8583.Val.str py"12345").Takes fs :=
  encode_takes cpython_digits (by decide) demo_nodup demo_encode (k := py"2") (.inr (.inr ⟨2, by decide, by decide, by decide, rfl⟩)) (by decide)

/-- An instance of `encode_took`. -/
example (st st' : St Unit) (r : Val) (hh : st.heap = heapOf heapSpec ++ [.dict [(.str py"h", .str py"HD"), (.str py"t", .str py"0200"), (.str py"3", .int 123)]]) :
    program plainRt encoderDefs .encode [.ref 5, .ref 4] [] st ≠ (.ok r, st') := by
  intro he
  obtain ⟨fs, -, ht⟩ := encode_took (rt := plainRt) (pv := .ref 4) (dd := 5) (spec := heapSpec) (k := py"3") (w := .int 123)
    (doc := [(.str py"h", .str py"HD"), (.str py"t", .str py"0200"), (.str py"3", .unsized)])
    (fun _ => rfl) (fun _ => .refl _) cpython_digits cpython_sane.digits st (hh ▸ heapOf_spec (by decide) _) (items := [(.str py"h", .str py"HD"), (.str py"t", .str py"0200"), (.str py"3", .int 123)]) (by rw [hh]; rfl)
    (by unfold Dict.NoDup; decide) ⟨rfl, rfl, nofun, rfl, rfl, nofun, rfl, rfl, nofun, trivial⟩ (hh ▸ heapSpec_apart (by decide)) he
    (.inr (.inr ⟨3, by decide, by decide, by decide, rfl⟩)) rfl
  rcases ht with ⟨t, h⟩ | ⟨-, ⟨b, h⟩ | ⟨b, h⟩ | ⟨l, b, h, -⟩⟩ <;> cases h

end Iso8583.Src
