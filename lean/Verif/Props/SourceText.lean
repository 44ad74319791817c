import Verif.Source.Equal
import Verif.Source.Text
import Verif.Source.Code
import Verif.Source.SpecsCode
import Verif.Props.SourceTools
import Verif.Props.SourceEncode
import Verif.Props.SourceSpecs
/-!
# C95: the syntax the other properties speak about is the syntax of the text

`Source/Text.lean` has the files of `/repo/iso8583` as they are, line by line and character by
character.  `Source/Lexer.lean` and `Source/Parser.lean` read them.  What they read is
`Source/Code.lean` and `Source/SpecsCode.lean`: every function, class and statement, none left out
and none added.  So that the printer of those two files need not be trusted.
-/

namespace Iso8583.Src

/-! ## Spellings -/

/-- No two identifiers have one spelling, no identifier has two, and none is left out. -/
theorem spellings_one_to_one : (∀ x, ∃ s, (s, x) ∈ spellings) ∧
    (∀ s x t y, (s, x) ∈ spellings → (t, y) ∈ spellings → (s = t ↔ x = y)) := by
  have h1 : ∀ x, (spellings.map (·.2)).contains x = true := by intro x; cases x <;> decide +kernel
  have h2 : spellings.all (fun p => spellings.all fun q => decide (p.1 = q.1 ↔ p.2 = q.2)) = true := by decide +kernel
  refine ⟨fun x => ?_, fun s x t y hs ht => ?_⟩
  · have := h1 x
    simp only [List.contains_iff_mem, List.mem_map, Prod.exists, exists_eq_right] at this
    exact this
  · have := List.all_eq_true.1 (List.all_eq_true.1 h2 _ hs) _ ht
    exact of_decide_eq_true this

theorem lookupIdent_mem {w : Str} {x : Ident} : ∀ {t : List (Str × Ident)}, lookupIdent w t = some x → (w, x) ∈ t
  | [], h => by simp [lookupIdent] at h
  | (s, y) :: t, h => by
    unfold lookupIdent at h
    rcases hs : same w s with _ | _
    · rw [hs] at h
      exact List.mem_cons_of_mem _ (lookupIdent_mem h)
    · rw [hs, if_pos rfl] at h
      rw [same_eq hs, Option.some.inj h]
      exact List.mem_cons_self

/-- A word is read as the identifier that is spelled so. -/
theorem identOf_spelled {w : Str} {x : Ident} (h : identOf w = some x) : (w, x) ∈ spellings := by
  unfold identOf at h
  rcases hr : reserved.any (same w) with _ | _
  · rw [hr] at h
    exact lookupIdent_mem h
  · rw [hr] at h
    cases h

/-! ## What a file defines -/

/-- The `__init__` of a class, as the function that makes its instances. -/
def Item.ctor : Item → List Def
  | .cls c _ ms => (ms.filter fun m => decide (m.name = .__init__)).map fun m => { m with name := c, isClass := true }
  | _ => []

/-- A function of a file. -/
def Item.defn : Item → List Def
  | .fn d => [d]
  | _ => []

/-- A statement of a file. -/
def Item.toStmt : Item → List Stmt
  | .stmt s => [s]
  | _ => []

/-- The functions of a file, in the order of the text, then the constructors of its classes. -/
def defsOf (is : List Item) : List Def := is.flatMap Item.defn ++ is.flatMap Item.ctor

/-- The statements of a file. -/
def stmtsOf (is : List Item) : List Stmt := is.flatMap Item.toStmt

/-! ## The files -/

/-- The tokens of names separated by commas. -/
def commaNames : List Str → List Tok
  | [] => []
  | [x] => [.name x]
  | x :: xs => .name x :: .op py"," :: commaNames xs

/-- What decoder.py consists of. -/
def decoderItems : List Item :=
  [.imports (.name py"typing" :: .name py"import" ::
     commaNames [py"Any", py"Dict", py"Literal", py"Mapping", py"Set", py"Tuple", py"Type", py"Union"]),
   .unused py"__all__", .unused py"DecodedDict", .unused py"EncodedDict", .unused py"SpecDict",
   .cls .DecodeError .ValueError [{ decodeErrorInitDef with name := .__init__, isClass := false }, decodeErrorReduceDef],
   .fn decodeDef, .unused py"_FieldSpecDict", .fn decodeHeaderDef, .fn decodeTypeDef, .fn decodeBitmapDef,
   .fn decodeFieldDef, .fn removePadFieldDef, .fn decodeTextDataDef]

/-- What encoder.py consists of. -/
def encoderItems : List Item :=
  [.imports (.name py"typing" :: .name py"import" ::
     commaNames [py"Any", py"Dict", py"Literal", py"Mapping", py"MutableMapping", py"Set", py"Tuple", py"Type"]),
   .imports [.name py"binascii"],
   .unused py"__all__", .unused py"DecodedDict", .unused py"EncodedDict", .unused py"SpecDict",
   .cls .EncodeError .ValueError [{ encodeErrorInitDef with name := .__init__, isClass := false }, encodeErrorReduceDef],
   .fn encodeDef, .unused py"_FieldSpecDict", .fn encodeHeaderDef, .fn encodeTypeDef, .fn encodeBitmapDef,
   .fn encodeFieldDef, .fn encodeBindaryFieldDef, .fn addPadFieldDef, .fn encodeTextFieldDef]

/-- What tools.py consists of. -/
def toolsItems : List Item :=
  [.imports [.name py"sys", .name py"as", .name py"_sys"],
   .imports (.name py"typing" :: .name py"import" ::
     commaNames [py"Any", py"Callable", py"Dict", py"Generator", py"Mapping", py"Optional", py"TextIO", py"Union"]),
   .unused py"__all__", .unused py"DecodedDict", .unused py"EncodedDict", .unused py"SpecDict",
   .fn ppDef, .fn ppFieldDef, .stmt (.assign [.name ._dispatch] (.dict [] [])),
   .fn pprintStrDef, .stmt (.assign [.sub (.name ._dispatch) (.attr (.name .str) .__repr__)] (.name ._pprint_str)),
   .fn pprintBytesDef, .stmt (.assign [.sub (.name ._dispatch) (.attr (.name .bytes) .__repr__)] (.name ._pprint_bytes)),
   .fn wrapStrReprDef, .fn wrapBytesReprDef]

/-- `from iso8583.m import xs`, after its first word. -/
def fromPackage (m : Str) (xs : List Str) : Item :=
  .imports (.name py"iso8583" :: .op py"." :: .name m :: .name py"import" :: commaNames xs)

/-- What `__init__.py` consists of. -/
def initItems : List Item :=
  [.unused py"__version__", .unused py"__all__", .unused py"__author__",
   fromPackage py"decoder" [py"DecodeError", py"decode"], fromPackage py"encoder" [py"EncodeError", py"encode"],
   fromPackage py"tools" [py"pp"]]

/-- **C95**: decoder.py parses, to the functions of `Code.lean` and nothing else but imports and
assignments to names no function refers to. -/
theorem decoder_text : parse decoderText = some decoderItems := parsesTo_eq (by decide +kernel)

/-- **C95**: so does encoder.py. -/
theorem encoder_text : parse encoderText = some encoderItems := parsesTo_eq (by decide +kernel)

/-- **C95**: so does tools.py. -/
theorem tools_text : parse toolsText = some toolsItems := parsesTo_eq (by decide +kernel)

/-- **C95**: specs.py parses, to the two statements of `SpecsCode.lean` and nothing else. -/
theorem specs_text : parse specsText = some [.stmt specs1, .stmt specs2] := parsesTo_eq (by decide +kernel)

/-- **C95**: `__init__.py` parses, to the imports of `DecodeError`, `decode`, `EncodeError`, `encode` and
`pp` from the files they are in. -/
theorem init_text : parse initText = some initItems := parsesTo_eq (by decide +kernel)

/-- The functions of the files are those the other properties speak about. -/
theorem defsOf_items : defsOf decoderItems = decoderDefs ∧ defsOf encoderItems = encoderDefs ∧ defsOf toolsItems = toolsDefs ∧
    stmtsOf decoderItems = [] ∧ stmtsOf encoderItems = [] ∧ stmtsOf toolsItems = toolsModule ∧
    stmtsOf [.stmt specs1, .stmt specs2] = specsModule :=
  ⟨rfl, rfl, rfl, rfl, rfl, rfl, rfl⟩

/-! ## Running a text -/

section
variable {ε σ : Type} (rt : Rt ε σ)

/-- The functions of a text, ready to be called; `none` when the text does not parse. -/
def textProgram (ls : List Str) : Option (Caller ε σ) := (parse ls).map fun is => program rt (defsOf is)

/-- Running the statements of a text. -/
def textModule (ls : List Str) (call : Caller ε σ) : Option (M ε σ Flow) :=
  (parse ls).map fun is => execs rt call (stmtsOf is)

end

variable {ε σ : Type} {rt : Rt ε σ} {pv sv : Val} {spec : Spec} {s : Bytes}

/-- **C95**: calling a function of the text of decoder.py, encoder.py or tools.py is calling it in `Code.lean`, and
importing the text of tools.py or specs.py is running its statements. -/
theorem text_program (call : Caller ε σ) : textProgram rt decoderText = some (program rt decoderDefs) ∧
    textProgram rt encoderText = some (program rt encoderDefs) ∧ textProgram rt toolsText = some (program rt toolsDefs) ∧
    textModule rt toolsText call = some (execs rt call toolsModule) ∧ textModule rt specsText call = some (execs rt call specsModule) := by
  unfold textProgram textModule
  rw [decoder_text, encoder_text, tools_text, specs_text]
  obtain ⟨h1, h2, h3, _, _, h6, h7⟩ := defsOf_items
  exact ⟨by rw [Option.map_some, h1], by rw [Option.map_some, h2], by rw [Option.map_some, h3], by rw [Option.map_some, h6],
    by rw [Option.map_some, h7]⟩

/-- **C95** (C80 of the text itself): the text of decoder.py parses, and calling its `decode` ends the way the model says. -/
theorem decode_text (hg : ∀ x, rt.globals x = none) (ho : ∀ xs, (rt.order xs).Perm xs) (hs : Sane rt.env)
    (hp : SpecVal pv spec) (st : St σ) (hb : BytesIn st.heap sv s) :
    ∃ (run : Caller ε σ) (x : Except (Exc ε) Val) (h : List Obj), textProgram rt decoderText = some run ∧
      run .decode [sv, pv] [] st = (x, { st with heap := h }) ∧
      (∀ (l : Nat) o, st.heap[l]? = some o → h[l]? = some o) ∧ DecodeOut h sv (decodeLim rt.env spec s) x := by
  obtain ⟨x, h, hx⟩ := decode_source hg ho hs hp st hb
  exact ⟨_, x, h, (text_program (builtin rt)).1, hx⟩

/-- **C95** (C81 of the text itself): the text of encoder.py parses, and calling its `encode` ends the way the model says. -/
theorem encode_text (hg : ∀ x, rt.globals x = none) (ho : ∀ xs, (rt.order xs).Perm xs)
    (hs : rt.env.maxStrDigits = 0 ∨ 640 ≤ rt.env.maxStrDigits) (hp : SpecVal pv spec)
    (st : St σ) {dd : Nat} {items : List (Val × Val)} {doc : Doc} (hd : st.heap[dd]? = some (.dict items)) (di : DocIs items doc) :
    ∃ (run : Caller ε σ) (x : Except (Exc ε) Val) (h : List Obj) (items' : List (Val × Val)), textProgram rt encoderText = some run ∧
      run .encode [.ref dd, pv] [] st = (x, { st with heap := h }) ∧
      (∀ (l : Nat) o, l ≠ dd → st.heap[l]? = some o → h[l]? = some o) ∧
      h[dd]? = some (.dict items') ∧ DocIs items' (encodeLim rt.env spec doc).2 ∧ Keeps items items' ∧
      EncodeOut h dd (encodeLim rt.env spec doc).1 x := by
  obtain ⟨x, h, items', hx⟩ := encode_source hg ho hs hp st hd di
  exact ⟨_, x, h, items', (text_program (builtin rt)).2.1, hx⟩

/-- **C95** (C82 of the text itself): the text of tools.py parses, and calling its `pp` does what the model says. -/
theorem pp_text {dl : Nat} {docv : Val} {items : List (Val × Val)} {doc : PpDoc}
    (hg : ToolsGlobals rt dl) (hp : SpecVal pv spec) (st : St σ) (hd : st.heap[dl]? = some (.dict dispatchItems))
    (hat : DictAt st.heap docv items) (hdoc : PpDocIs st.heap items doc) {dwv sv lwv : Val} {dw lw : PpWidth} {ow : Option (Writer ε σ)}
    (hdw : widthOf dwv = some dw) (hs : streamOf rt sv = some ow) (hlw : widthOf lwv = some lw) :
    ∃ run : Caller ε σ, textProgram rt toolsText = some run ∧ run .pp [docv, pv, dwv, sv, lwv] [] st =
      match ppStream rt.env (rt.write true) doc spec dw ow lw st.world with
      | (.ok _, w) => (.ok .none, { st with world := w })
      | (.error e, w) => (.error (excS e), { st with world := w }) :=
  ⟨_, (text_program (builtin rt)).2.2.1, pp_source hg hp st hd hat hdoc hdw hs hlw⟩

/-- **C95** (C85 of the text itself): importing the text of specs.py makes the tables of the model. -/
theorem specs_module_text {call : Caller ε σ} (st : St σ) :
    ∃ (run : M ε σ Flow) (a b : Nat) (h : List Obj), textModule rt specsText call = some run ∧
      run st = (.ok .next, { st with vars := (st.vars.set .default (.ref a)).set .default_ascii (.ref b), heap := h }) ∧
      a ≠ b ∧ (∀ (l : Nat) o, st.heap[l]? = some o → h[l]? = some o) ∧
      deepCopy h 2 (.ref a) = specVal defaultSpec ∧ deepCopy h 2 (.ref b) = specVal defaultAsciiSpec := by
  obtain ⟨a, b, h, hx⟩ := specs_source (rt := rt) (call := call) st
  exact ⟨_, a, b, h, (text_program call).2.2.2.2, hx⟩

/-! ## Examples -/

/-- A function with comments, an annotation, a default, a doc string and a line that is continued inside brackets. -/
example : parse [py"def pp(doc: Dict[str, int], spec=-1) -> None:  # says", py"    r\"\"\"Some", py"", py"  words.\"\"\"", py"    # and",
    py"    if doc <= 0 and not spec + 1 == 2 * 3:", py"        i, idx = doc[1:], f\"a{s.upper()}\"", py"    elif spec:",
    py"        yield len(", py"            doc", py"        )"] =
    some [.fn { name := .pp, isClass := false, isGen := true, params := [.doc, .spec], defaults := [.neg (.int 1)], locals := [.i, .idx], body := [.ite (.and (.cmp .le (.name .doc) (.int 0)) (.not (.cmp .eq (.bin .add (.name .spec) (.int 1)) (.bin .mul (.int 2) (.int 3))))) [.assign [.name .i, .name .idx] (.tuple [.slice (.name .doc) (.int 1) .none, .fstr [.str py"a", .meth (.name .s) .upper [] [] []]])] [.ite (.name .spec) [.yield (.call .len [.name .doc] [] [])] []]] }] :=
  parsesTo_eq (by decide +kernel)

/-- Subtraction groups to the left, and binds less tightly than the operators it should. -/
example : parse [py"i = s - doc - 1 // 2 << 3 & 4"] =
    some [.stmt (.assign [.name .i] (.bin .band (.bin .shl (.bin .sub (.bin .sub (.name .s) (.name .doc)) (.bin .floordiv (.int 1) (.int 2))) (.int 3)) (.int 4)))] :=
  parsesTo_eq (by decide +kernel)

/-- No parse: a chained comparison, a block that is not indented, an open bracket, an unknown name. -/
example : (parse [py"i = 1 < s < 3"]).isNone ∧ (parse [py"if s:", py"i = 1"]).isNone ∧ (parse [py"i = (s"]).isNone ∧
    (parse [py"i = other"]).isNone := by decide +kernel

/-- A text that differs from decoder.py in one character is a different program. -/
example : parse (decoderText.map fun l => if same l py"    if idx != len(s):" then py"    if idx == len(s):" else l) ≠ some decoderItems := by
  intro h
  have : parsesTo (decoderText.map fun l => if same l py"    if idx != len(s):" then py"    if idx == len(s):" else l) decoderItems = true := by
    unfold parsesTo; rw [h]; decide +kernel
  revert this
  decide +kernel

/-- The text of decoder.py decodes the demo message. -/
example (st : St Unit) : ∃ (run : Caller Empty Unit) (dd de : Nat) (h : List Obj), textProgram plainRt decoderText = some run ∧
    run .decode [.bytes demoMsg, specVal demoSpec] [] st = (.ok (.tuple [.ref dd, .ref de]), { st with heap := h }) ∧
    HasDec h dd demoDec ∧ HasEnc h de demoEnc := by
  obtain ⟨run, x, h, h1, h2, -, h3⟩ := decode_text (rt := plainRt) (fun _ => rfl) (fun _ => .refl _) cpython_sane (specVal_is demoSpec) st (s := demoMsg) (.inl (.inl rfl))
  rw [show decodeLim plainRt.env demoSpec demoMsg = .ok (demoDec, demoEnc) by decide +kernel] at h3
  obtain ⟨dd, de, rfl, -, h4, h5⟩ := h3
  exact ⟨run, dd, de, h, h1, h2, h4, h5⟩

set_option maxRecDepth 4000 in
/-- The text of encoder.py encodes the demo document. -/
example (st : St Unit) (hst : st.heap = [.set [7], .dict (docVal demoDoc), .inst .EncodeError [] []]) :
    ∃ (run : Caller Empty Unit) (h : List Obj) (sl de : Nat), textProgram plainRt encoderText = some run ∧
      run .encode [.ref 1, specVal demoSpec] [] st = (.ok (.tuple [.ref sl, .ref de]), { st with heap := h }) ∧
      h[sl]? = some (.barray demoMsg) ∧ HasEnc h de demoEnc := by
  obtain ⟨run, x, h, items', h0, h1, -, -, h4, -, h6⟩ := encode_text (rt := plainRt) (fun _ => rfl) (fun _ => .refl _) cpython_sane.digits
    (specVal_is demoSpec) st (dd := 1) (doc := demoDoc) (by rw [hst]; rfl) (docVal_is demoDoc)
  have hl : encodeLim plainRt.env demoSpec demoDoc = (.ok (demoMsg, demoEnc), demoDocAfter) := by decide +kernel
  rw [hl] at h4 h6
  obtain ⟨sl, de, rfl, h7, -, h8⟩ := h6
  exact ⟨run, h, sl, de, h0, h1, h7, h8⟩

/-- What the text of tools.py writes. -/
example (st : St (List (Bool × Str))) (hd : st.heap[1]? = some (.dict dispatchItems)) (hw : st.world = []) :
    ∃ run, textProgram (recordRt 1) toolsText = some run ∧
      run .pp [.dict (ppItems ppDoc), specVal ppSpec, .str py"7", .stream false, .float 51 (-1)] [] st = (.ok .none, { st with world := ppWrites }) := by
  obtain ⟨run, h0, h1⟩ := pp_text (recordRt_globals 1) (specVal_is ppSpec) st hd (.inl rfl) (ppItems_is _ ppDoc) (dwv := .str py"7")
    (sv := .stream false) (lwv := .float 51 (-1)) rfl rfl rfl
  have hk : ppStream (ε := String) (recordRt 1).env ((recordRt 1).write true) ppDoc ppSpec (.str py"7") (some ((recordRt 1).write false)) (.float 51 (-1)) [] = (.ok (), ppWrites) := by decide +kernel
  rw [hw, hk] at h1
  exact ⟨run, h0, h1⟩

end Iso8583.Src
