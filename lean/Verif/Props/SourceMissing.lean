import Verif.Props.SourceTools
/-!
# C87: the source text on specifications with missing properties

`decode_source_missing`, `encode_source_missing` and `pp_source_missing` say that running the text on a
specification that lacks properties is the model of `Model/Partial.lean` (and `ppStreamP`).  Here that is
put together with **C66**: the text does what it does when the gaps are filled in, with anything, or it
raises `KeyError` for a property that is needed and missing.
-/

namespace Iso8583.Src

variable {ε σ : Type} {rt : Rt ε σ} {pv sv docv : Val} {raw : PartialSpec} {spec : Spec}

/-- **C87** (decode, gaps): `decode` of decoder.py on a specification that lacks properties ends as it ends
when they are filled in, with anything; or it raises `KeyError` for a missing property of the header or of
a field it got to, one that this field cannot do without. -/
theorem decode_source_gaps {s : Bytes} (hg : ∀ x, rt.globals x = none) (ho : ∀ xs, (rt.order xs).Perm xs) (hs : Sane rt.env)
    (hp : PSpecVal pv raw) (hf : raw.FilledBy spec) (st : St σ) (hb : BytesIn st.heap sv s) :
    ∃ (x : Except (Exc ε) Val) (h : List Obj), program rt decoderDefs .decode [sv, pv] [] st = (x, { st with heap := h }) ∧
      (∀ (l : Nat) o, st.heap[l]? = some o → h[l]? = some o) ∧
      (DecodeOut h sv (decodeLim rt.env spec s) x ∨
        ∃ k p, raw.Lacks k p ∧ (k = py"h" ∨ GotTo (decode rt.env spec s) k) ∧ x = .error (.std .KeyError (.str p))) := by
  obtain ⟨x, h, h1, h2, h3⟩ := decode_source_missing hg ho hs hp st hb
  refine ⟨x, h, h1, h2, ?_⟩
  rcases decode_missing (env := rt.env) hf s with he | ⟨k, p, hl, hv, he⟩
  · left
    have : decodeLimP rt.env raw s = decodeLim rt.env spec s := by
      unfold decodeLimP decodeLim
      rw [he]
    rwa [this] at h3
  · right
    unfold decodeLimP at h3
    rw [he] at h3
    exact ⟨k, p, hl, hv, h3⟩

/-- **C87** (encode, gaps): likewise `encode` of encoder.py; in the first case the caller's dict ends up the
same too, in the second only its bitmap entries may have changed. -/
theorem encode_source_gaps (hg : ∀ x, rt.globals x = none) (ho : ∀ xs, (rt.order xs).Perm xs)
    (hs : rt.env.maxStrDigits = 0 ∨ 640 ≤ rt.env.maxStrDigits) (hp : PSpecVal pv raw) (hf : raw.FilledBy spec)
    (st : St σ) {dd : Nat} {items : List (Val × Val)} {doc : Doc} (hd : st.heap[dd]? = some (.dict items)) (di : DocIs items doc) :
    ∃ (x : Except (Exc ε) Val) (h : List Obj) (items' : List (Val × Val)) (doc' : Doc),
      program rt encoderDefs .encode [.ref dd, pv] [] st = (x, { st with heap := h }) ∧
      (∀ (l : Nat) o, l ≠ dd → st.heap[l]? = some o → h[l]? = some o) ∧
      h[dd]? = some (.dict items') ∧ DocIs items' doc' ∧ Keeps items items' ∧
      ((EncodeOut h dd (encodeLim rt.env spec doc).1 x ∧ doc' = (encodeLim rt.env spec doc).2) ∨
        (∃ k p, raw.Lacks k p ∧ (k = py"h" ∨ EncGotTo (encode rt.env spec doc).1 k) ∧ x = .error (.std .KeyError (.str p))) ∧
          (doc'.filter fun kv => !isBitmapKey kv.1) = doc.filter fun kv => !isBitmapKey kv.1) := by
  obtain ⟨x, h, items', h1, h2, h3, h4, h5, h6⟩ := encode_source_missing hg ho hs hp st hd di
  refine ⟨x, h, items', _, h1, h2, h3, h4, h5, ?_⟩
  rcases encode_missing (env := rt.env) hf doc with he | ⟨k, p, hl, hv, he⟩
  · left
    have : encodeLimP rt.env raw doc = encodeLim rt.env spec doc := by
      unfold encodeLimP encodeLim
      rw [he]
    rw [this] at h6
    exact ⟨h6, by rw [this]⟩
  · right
    have hd := encode_missing_dict rt.env raw doc
    unfold encodeLimP at h6 ⊢
    rcases hr : encodeP rt.env raw doc with ⟨r, d⟩
    rw [hr] at he h6 hd
    cases he
    exact ⟨⟨k, p, hl, hv, h6⟩, hd⟩

theorem ppFieldS_described {env : PyEnv} {w : Writer ε σ} {doc : PpDoc} (h : raw.FilledBy spec) {dw lw : Int} {key : Str} :
    ppFieldS env w doc raw.described dw lw key = ppFieldS env w doc spec dw lw key := by
  unfold ppFieldS
  rw [described_get]
  rcases h key with ⟨h1, h2⟩ | ⟨f, g, h1, h2, h⟩
  · rw [h1, h2]; rfl
  · rw [h1, h2]
    simp only [Option.map_some, PartialField.seen]
    rw [h.2.2.2.2.2.2.2]

theorem ppFieldsS_described {env : PyEnv} {w : Writer ε σ} {doc : PpDoc} (h : raw.FilledBy spec) {dw lw : Int} :
    ∀ {l : List Str}, ppFieldsS env w doc raw.described dw lw l = ppFieldsS env w doc spec dw lw l
  | [] => rfl
  | k :: l => by unfold ppFieldsS; rw [ppFieldS_described h, ppFieldsS_described h]

/-- What `pp` does with gaps, on any stream. -/
theorem ppBodySP_gaps {env : PyEnv} {w : Writer ε σ} {doc : PpDoc} (h : raw.FilledBy spec) (dw lw : Int) :
    ppBodySP env w doc raw dw lw = ppBodyS env w doc spec dw lw ∨
    ((∃ f, raw.get? py"h" = some f ∧ f.maxLen = none) ∧ (.str py"h") ∈ doc.keys ∧
      ∀ s, ppBodySP env w doc raw dw lw s = (.error (.pp (.keyError py"max_len")), s)) := by
  unfold ppBodySP ppBodyS
  simp only [ppFieldS_described h, ppFieldsS_described h]
  by_cases hh : doc.contains (.str py"h") = true
  · simp only [if_pos hh]
    rcases h py"h" with ⟨h1, h2⟩ | ⟨f, g, h1, h2, h⟩
    · left; rw [h1, h2]
    · rw [h1, h2]
      dsimp only
      cases hm : f.maxLen with
      | none => exact .inr ⟨⟨f, rfl, hm⟩, Dict.contains_iff.1 hh, fun s => rfl⟩
      | some m =>
        left
        dsimp only
        rw [h.2.2.2.1 m hm]
  · simp only [if_neg hh]
    exact .inl trivial

/-- **C87** (pp, gaps): `pp` of tools.py on a specification that lacks mandatory properties makes the calls
of `write` it makes when they are filled in, with anything; or the dict has a header, the header's `max_len`
is missing, and it raises `KeyError('max_len')` without calling `write`. -/
theorem pp_source_gaps {doc : PpDoc} {items : List (Val × Val)} {dl : Nat} (hg : ToolsGlobals rt dl) (hp : PSpecVal pv raw) (hf : raw.FilledBy spec)
    (st : St σ) (hd : st.heap[dl]? = some (.dict dispatchItems))
    (hat : DictAt st.heap docv items) (hdoc : PpDocIs st.heap items doc) {dwv sv lwv : Val} {dw lw : PpWidth} {ow : Option (Writer ε σ)}
    (hdw : widthOf dwv = some dw) (hs : streamOf rt sv = some ow) (hlw : widthOf lwv = some lw) :
    program rt toolsDefs .pp [docv, pv, dwv, sv, lwv] [] st = callS (ppStream rt.env (rt.write true) doc spec dw ow lw) st ∨
    ((∃ f, raw.get? py"h" = some f ∧ f.maxLen = none) ∧ (.str py"h") ∈ doc.keys ∧
      program rt toolsDefs .pp [docv, pv, dwv, sv, lwv] [] st = (.error (.std .KeyError (.str py"max_len")), st)) := by
  rw [pp_source_missing hg hp st hd hat hdoc hdw hs hlw]
  unfold callS ppStreamP ppStream
  simp only [PyM.run_bind, PyM.run_lift]
  rcases h1 : (ppWidth rt.env dw : Except (StreamRaise ε) Int) with e | m
  · exact .inl rfl
  rcases h2 : (ppWidth rt.env lw : Except (StreamRaise ε) Int) with e | n
  · exact .inl rfl
  dsimp only
  cases ow with
  | none =>
    rcases ppBodySP_gaps (env := rt.env) (w := rt.write true) (doc := doc) hf m n with he | ⟨a, b, he⟩
    · left; dsimp only; rw [he]; rfl
    · exact .inr ⟨a, b, by dsimp only; rw [he st.world]; rfl⟩
  | some w =>
    rcases ppBodySP_gaps (env := rt.env) (w := w) (doc := doc) hf m n with he | ⟨a, b, he⟩
    · left; dsimp only; rw [he]; rfl
    · exact .inr ⟨a, b, by dsimp only; rw [he st.world]; rfl⟩

/-! ## The hypotheses are met -/

/-- A dict item that may be missing. -/
def optItem (k : Str) : Option Val → List (Val × Val)
  | some v => [(.str k, v)]
  | none => []

theorem lookup_optItem (k k' : Str) (v : Option Val) (l : List (Val × Val)) :
    lookup (optItem k v ++ l) (.str k') = if k = k' then v.or (lookup l (.str k')) else lookup l (.str k') := by
  cases v with
  | none => simp [optItem]
  | some v => simp [optItem, lookup, same_str]

/-- A specification with gaps as a dict of dicts. -/
def pspecVal (raw : PartialSpec) : Val := .dict (raw.map fun p => (.str p.1, .dict (
  optItem py"data_enc" (p.2.dataEnc.map .str) ++ (optItem py"len_enc" (p.2.lenEnc.map .str) ++
  (optItem py"len_type" (p.2.lenType.map fun n : Nat => Val.int (n : Int)) ++ (optItem py"max_len" (p.2.maxLen.map .int) ++
  (optItem py"len_count" (p.2.lenCount.map .str) ++ (optItem py"left_pad" (p.2.leftPad.map .str) ++
  (optItem py"right_pad" (p.2.rightPad.map .str) ++ (optItem py"desc" (p.2.desc.map .str) ++ []))))))))))

theorem pspecVal_is (raw : PartialSpec) : PSpecVal (pspecVal raw) raw := by
  refine ⟨_, rfl, fun k => ?_⟩
  induction raw with
  | nil => rfl
  | cons p t ih =>
    simp only [List.map_cons, lookup, Dict.get?, same_str, beq_iff_eq]
    by_cases h : p.1 = k
    · simp only [h, if_true]
      refine ⟨_, rfl, _, rfl, ?_⟩
      simp [-List.append_nil, lookup_optItem, lookup]
    · simp only [h, if_false]
      exact ih

/-- decoder.py decodes the demo message with a specification full of gaps, none of which matter. -/
example (st : St Unit) : ∃ (dd de : Nat) (h : List Obj), program plainRt decoderDefs .decode [.bytes demoMsg, pspecVal gappySpec] [] st =
    (.ok (.tuple [.ref dd, .ref de]), { st with heap := h }) ∧ HasDec h dd demoDec ∧ HasEnc h de demoEnc := by
  obtain ⟨x, h, h1, -, h3⟩ := decode_source_missing (rt := plainRt) (fun _ => rfl) (fun _ => .refl _) cpython_sane (pspecVal_is gappySpec) st (.inl (.inl rfl))
  have hl : decodeLimP plainRt.env gappySpec demoMsg = .ok (demoDec, demoEnc) := by decide +kernel
  rw [hl] at h3
  obtain ⟨dd, de, rfl, -, h4, h5⟩ := h3
  exact ⟨dd, de, h, h1, h4, h5⟩

/-- Field 3 of this message needs the `max_len` it lacks. -/
example (st : St Unit) : ∃ (h : List Obj), program plainRt decoderDefs .decode [.bytes [2, 0, 0x20, 0, 0, 0, 0, 0, 0, 0, 0], pspecVal gappySpec3] [] st =
    (.error (.std .KeyError (.str py"max_len")), { st with heap := h }) := by
  obtain ⟨x, h, h1, -, h3⟩ := decode_source_missing (rt := plainRt) (fun _ => rfl) (fun _ => .refl _) cpython_sane (pspecVal_is gappySpec3) st (.inl (.inl rfl))
  have hl : decodeLimP plainRt.env gappySpec3 [2, 0, 0x20, 0, 0, 0, 0, 0, 0, 0, 0] = .error (.exc (.keyError py"max_len")) := by decide +kernel
  rw [hl] at h3
  cases h3
  exact ⟨h, h1⟩

/-- The demo message has a completion of the gaps: the hypotheses of `decode_source_gaps`. -/
example (st : St Unit) : ∃ (x : Except (Exc Empty) Val) (h : List Obj), program plainRt decoderDefs .decode [.bytes demoMsg, pspecVal gappySpec] [] st = (x, { st with heap := h }) ∧
    (DecodeOut h (.bytes demoMsg) (decodeLim plainRt.env gappyFilled demoMsg) x ∨
      ∃ k p, gappySpec.Lacks k p ∧ (k = py"h" ∨ GotTo (decode plainRt.env gappyFilled demoMsg) k) ∧ x = .error (.std .KeyError (.str p))) := by
  obtain ⟨x, h, h1, -, h3⟩ := decode_source_gaps (rt := plainRt) (fun _ => rfl) (fun _ => .refl _) cpython_sane (pspecVal_is gappySpec) gappy_filled st (.inl (.inl rfl))
  exact ⟨x, h, h1, h3⟩

set_option maxRecDepth 4000 in
/-- encoder.py encodes the demo document with the same specification. -/
example (st : St Unit) (hst : st.heap = [.set [7], .dict (docVal demoDoc)]) :
    ∃ (h : List Obj) (sl de : Nat) (items' : List (Val × Val)), program plainRt encoderDefs .encode [.ref 1, pspecVal gappySpec] [] st =
      (.ok (.tuple [.ref sl, .ref de]), { st with heap := h }) ∧ h[sl]? = some (.barray demoMsg) ∧ HasEnc h de demoEnc ∧
      h[1]? = some (.dict items') ∧ DocIs items' demoDocAfter := by
  obtain ⟨x, h, items', h1, -, h3, h4, -, h6⟩ := encode_source_missing (rt := plainRt) (fun _ => rfl) (fun _ => .refl _) cpython_sane.digits (pspecVal_is gappySpec) st
    (dd := 1) (doc := demoDoc) (by rw [hst]; rfl) (docVal_is demoDoc)
  have hl : encodeLimP plainRt.env gappySpec demoDoc = (.ok (demoMsg, demoEnc), demoDocAfter) := by decide +kernel
  rw [hl] at h4 h6
  obtain ⟨sl, de, rfl, h7, -, h8⟩ := h6
  exact ⟨h, sl, de, items', h1, h7, h8, h3, h4⟩

/-- encoder.py needs a property of field 4, which has none; the bitmap it has made by then stays in the dict. -/
example (st : St Unit) (hst : st.heap = [.dict [(.str py"h", .str py"HDR"), (.str py"t", .str py"0200"), (.str py"4", .str py"1")]]) :
    ∃ (h : List Obj) (items' : List (Val × Val)), program plainRt encoderDefs .encode [.ref 0, pspecVal gappySpec] [] st =
      (.error (.std .KeyError (.str py"data_enc")), { st with heap := h }) ∧ h[0]? = some (.dict items') ∧
      DocIs items' [(.str py"h", .str py"HDR"), (.str py"t", .str py"0200"), (.str py"4", .str py"1"), (.str py"p", .str py"1000000000000000")] := by
  obtain ⟨x, h, items', h1, -, h3, h4, -, h6⟩ := encode_source_missing (rt := plainRt) (fun _ => rfl) (fun _ => .refl _) cpython_sane.digits (pspecVal_is gappySpec) st
    (dd := 0) (doc := [(.str py"h", .str py"HDR"), (.str py"t", .str py"0200"), (.str py"4", .str py"1")]) (by rw [hst]; rfl) (docVal_is _)
  have hl : encodeLimP plainRt.env gappySpec [(.str py"h", .str py"HDR"), (.str py"t", .str py"0200"), (.str py"4", .str py"1")] =
    (.error (.exc (.keyError py"data_enc")), [(.str py"h", .str py"HDR"), (.str py"t", .str py"0200"), (.str py"4", .str py"1"), (.str py"p", .str py"1000000000000000")]) := by decide +kernel
  rw [hl] at h4 h6
  cases h6
  exact ⟨h, items', h1, h3, h4⟩

/-- tools.py: a header without `max_len`, and a dict with a header. -/
example (st : St (List (Bool × Str))) (hd : st.heap[0]? = some (.dict dispatchItems)) :
    program (recordRt 0) toolsDefs .pp [.dict [(.str py"2", .str py"12"), (.str py"h", .str [])], pspecVal [(py"h", { desc := some py"Header" }), (py"2", {})], .int 0, .none, .int 80] [] st =
      (.error (.std .KeyError (.str py"max_len")), st) := by
  have := pp_source_missing (recordRt_globals 0) (pspecVal_is [(py"h", { desc := some py"Header" }), (py"2", {})]) st hd (.inl rfl)
    (ppItems_is _ [(.str py"2", .str py"12"), (.str py"h", .str [])]) (dwv := .int 0) (sv := .none) (lwv := .int 80) rfl rfl rfl
  exact this

/-- The same without the header: the field is printed. -/
example (st : St (List (Bool × Str))) (hd : st.heap[0]? = some (.dict dispatchItems)) (hw : st.world = []) : ∃ out,
    program (recordRt 0) toolsDefs .pp [.dict [(.str py"2", .str py"12")], pspecVal [(py"h", { desc := some py"Header" }), (py"2", {})], .int 0, .none, .int 80] [] st =
      (.ok .none, { st with world := out }) ∧ (out.map Prod.snd).flatten = py"2  : '12'\n" := by
  have := pp_source_missing (recordRt_globals 0) (pspecVal_is [(py"h", { desc := some py"Header" }), (py"2", {})]) st hd (.inl rfl)
    (ppItems_is _ [(.str py"2", .str py"12")]) (dwv := .int 0) (sv := .none) (lwv := .int 80) rfl rfl rfl
  have hk : ppStreamP (ε := String) (recordRt 0).env ((recordRt 0).write true) [(.str py"2", .str py"12")] [(py"h", { desc := some py"Header" }), (py"2", {})] (.int 0) none (.int 80) [] =
    (.ok (), [(true, py"2  "), (true, py": "), (true, py"'12'\n")]) := by decide +kernel
  rw [hw, hk] at this
  exact ⟨_, this, by decide⟩

/-- An instance of `encode_source_gaps`. -/
example (st : St Unit) (hst : st.heap = [.dict (docVal demoDoc)]) : ∃ (x : Except (Exc Empty) Val) (st' : St Unit),
    program plainRt encoderDefs .encode [.ref 0, pspecVal gappySpec] [] st = (x, st') := by
  obtain ⟨x, h, -, -, h1, -⟩ := encode_source_gaps (rt := plainRt) (fun _ => rfl) (fun _ => .refl _) cpython_sane.digits (pspecVal_is gappySpec) gappy_filled st
    (dd := 0) (by rw [hst]; rfl) (docVal_is demoDoc)
  exact ⟨x, _, h1⟩

/-- An instance of `pp_source_gaps`. -/
example (st : St (List (Bool × Str))) (hd : st.heap[0]? = some (.dict dispatchItems)) :
    program (recordRt 0) toolsDefs .pp [.dict [(.str py"2", .str py"12")], pspecVal gappySpec, .int 0, .none, .int 80] [] st =
      callS (ppStream cpython ((recordRt 0).write true) [(.str py"2", .str py"12")] gappyFilled (.int 0) none (.int 80)) st := by
  rcases pp_source_gaps (recordRt_globals 0) (pspecVal_is gappySpec) gappy_filled st hd (.inl rfl)
    (ppItems_is _ [(.str py"2", .str py"12")]) (dwv := .int 0) (sv := .none) (lwv := .int 80) rfl rfl rfl with h | ⟨_, h, _⟩
  · exact h
  · exact absurd h (by decide)

end Iso8583.Src
