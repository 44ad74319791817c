import Verif.Spec.Grammar
/-!
# How writing a message fails

What `encode` writes before it fails, and what it means to fail there.  Together with `Written`
this says what `encode` does on every dict.
-/

namespace Iso8583

/-- Value `v` can be treated as text by field `fs`: it is text or, in a binary field, `bytes` that
need no pad. -/
def Val.TextLike (fs : FieldSpec) (v : Val) : Prop :=
  (fs.isBinary → v.Hexable fs) ∧ (¬ fs.isBinary → ∃ t, v = .str t)

/-- Field `fs` has a pad. -/
def FieldSpec.hasPad (fs : FieldSpec) : Prop := (firstPad fs.leftPad).isSome ∨ (firstPad fs.rightPad).isSome

instance (fs : FieldSpec) : Decidable fs.hasPad := inferInstanceAs (Decidable (_ ∨ _))

/-- What is raised for a value that cannot be treated as text. -/
inductive NotText (fs : FieldSpec) (key : Str) : Val → EncRaise → Prop
  | noEncode {v : Val} : ¬ fs.isBinary → (∀ t, v ≠ .str t) → NotText fs key v (.err .invalidData key)
  | noLen : fs.isBinary → ¬ fs.inNibbles → NotText fs key .unsized .typeError
  | noNibbles : fs.isBinary → fs.inNibbles → NotText fs key .unsized .unboundLocal
  | padBytes {b : Bytes} : fs.isBinary → fs.inNibbles → b.length % 2 = 1 → fs.hasPad → NotText fs key (.bytes b) .unboundLocal
  | padSized {n : Nat} : fs.isBinary → fs.inNibbles → n % 2 = 1 → fs.hasPad → NotText fs key (.sized n) .unboundLocal
  | oddSized {n : Nat} : fs.isBinary → fs.inNibbles → n % 2 = 1 → ¬ fs.hasPad → NotText fs key (.sized n) (.err .oddNibbles key)
  | oddHexSized {n : Nat} : fs.isBinary → ¬ fs.inNibbles → n % 2 = 1 → NotText fs key (.sized n) (.err .oddHex key)
  | evenSized {n : Nat} : fs.isBinary → n % 2 = 0 → NotText fs key (.sized n) (.err .nonHex key)

/-- Writing value `v` as field `key` fails with `r` and leaves the entry `e`. -/
def FieldStops (env : PyEnv) (fs : FieldSpec) (key : Str) (v : Val) (e : EncEntry) (r : EncRaise) : Prop :=
  (v.TextLike fs ∧ ∃ m, r = .err m key ∧ FieldFault env fs v.text e m) ∨ (NotText fs key v r ∧ e = ⟨[], []⟩)

/-- Writing value `v` as message type fails with `r` and leaves the data `D`. -/
def TypeStops (env : PyEnv) (fs : FieldSpec) (v : Val) (D : Bytes) (r : EncRaise) : Prop :=
  (v.TextLike (asType fs) ∧ ∃ m, r = .err m py"t" ∧ TypeFault env fs v.text D m) ∨ (NotText (asType fs) py"t" v r ∧ D = [])

/-- `t` is the hex text of the bitmap behind field `off` of the fields `A`. -/
def BitmapText (A : Nat → Prop) (off : Nat) (t : Str) : Prop :=
  ∃ bm : Bytes, bm.length = 8 ∧ (∀ i, off < i → i ≤ off + 64 → (announces bm off i ↔ A i)) ∧ t = hexText bm

/-- Writing the bitmaps of the fields `A` fails with `r`; `b` are the bitmap parts so far, the last
one possibly incomplete. -/
inductive BitmapsStop (env : PyEnv) (spec : Spec) (A : Nat → Prop) : List Part → EncRaise → Prop
  | lackPrimary : spec.get? py"p" = none → BitmapsStop env spec A [] (.keyError py"p")
  | primary {fs : FieldSpec} {t : Str} {m : EncMsg} : spec.get? py"p" = some fs → BitmapText A 0 t →
      BitmapFault env fs t m → BitmapsStop env spec A [⟨py"p", ⟨[], []⟩, t⟩] (.err m py"p")
  | lackSecondary {fs : FieldSpec} {D : Bytes} {t : Str} : spec.get? py"p" = some fs → BitmapWritten env fs A 0 D t → A 1 →
      spec.get? py"1" = none → BitmapsStop env spec A [⟨py"p", ⟨[], D⟩, t⟩] (.keyError py"1")
  | secondary {fs fs1 : FieldSpec} {D : Bytes} {t t1 : Str} {m : EncMsg} : spec.get? py"p" = some fs →
      BitmapWritten env fs A 0 D t → A 1 → spec.get? py"1" = some fs1 → BitmapText A 64 t1 → BitmapFault env fs1 t1 m →
      BitmapsStop env spec A [⟨py"p", ⟨[], D⟩, t⟩, ⟨py"1", ⟨[], []⟩, t1⟩] (.err m py"1")
  | tertiary {fs fs1 : FieldSpec} {D D1 : Bytes} {t t1 t2 : Str} {m : EncMsg} : spec.get? py"p" = some fs →
      BitmapWritten env fs A 0 D t → A 1 → spec.get? py"1" = some fs1 → BitmapWritten env fs1 A 64 D1 t1 → A 65 →
      BitmapText A 128 t2 → BitmapFault env fs1 t2 m →
      BitmapsStop env spec A [⟨py"p", ⟨[], D⟩, t⟩, ⟨py"1", ⟨[], D1⟩, t1 ++ t2⟩] (.err m py"1")

/-- `encode` never looks at key `k` as a number: it is `1` or `65`. -/
def ignoredKey (k : Key) : Prop := k = .str py"1" ∨ k = .str py"65"

/-- Collecting the numbers goes past key `k`. -/
def KeyPasses (env : PyEnv) (k : Key) : Prop :=
  ignoredKey k ∨ ∃ s, k = .str s ∧ (isNumeric env s = true → ∃ n, pyInt env s = some n)

/-- What the first key that stops the collection of the numbers makes `encode` raise. -/
inductive KeysStop (env : PyEnv) (doc : Doc) : EncRaise → Prop
  | notString {a c : List Key} {x : Str} : doc.keys = a ++ .obj x :: c → (∀ k ∈ a, KeyPasses env k) →
      KeysStop env doc (.err (.invalidFields (doc.keys.filterMap fun | .obj r => some r | .str _ => none)) py"p")
  | notNumber {a c : List Key} {s : Str} : doc.keys = a ++ .str s :: c → (∀ k ∈ a, KeyPasses env k) → ¬ ignoredKey (.str s) →
      isNumeric env s = true → pyInt env s = none → KeysStop env doc .valueError

/-- How `encode` fails: the parts completed outside the bitmaps, then the bitmap parts, then the
fields completed, then the entry in progress, and what is raised. -/
inductive EncodeStops (env : PyEnv) (spec : Spec) (doc : Doc) : List Part → List Part → List Part → EncDoc → EncRaise → Prop
  | lackHeader : spec.get? py"h" = none → EncodeStops env spec doc [] [] [] [] (.keyError py"h")
  | noHeader {fs : FieldSpec} : spec.get? py"h" = some fs → 0 < fs.maxLen → doc.get? (.str py"h") = none →
      EncodeStops env spec doc [] [] [] [] (.err .requiredBySpec py"h")
  | header {fs : FieldSpec} {v : Val} {e : EncEntry} {r : EncRaise} : spec.get? py"h" = some fs → 0 < fs.maxLen →
      doc.get? (.str py"h") = some v → FieldStops env fs py"h" v e r → EncodeStops env spec doc [] [] [] [(py"h", e)] r
  | noType {h : List Part} : HeaderPartWritten env spec doc h → doc.get? (.str py"t") = none →
      EncodeStops env spec doc h [] [] [] (.err .required py"t")
  | lackType {h : List Part} {v : Val} : HeaderPartWritten env spec doc h → doc.get? (.str py"t") = some v →
      spec.get? py"t" = none → EncodeStops env spec doc h [] [] [] (.keyError py"t")
  | type {h : List Part} {fs : FieldSpec} {v : Val} {D : Bytes} {r : EncRaise} : HeaderPartWritten env spec doc h →
      spec.get? py"t" = some fs → doc.get? (.str py"t") = some v → TypeStops env fs v D r →
      EncodeStops env spec doc h [] [] [(py"t", ⟨[], D⟩)] r
  | keys {h : List Part} {t : Part} {r : EncRaise} : HeaderPartWritten env spec doc h → TypePartWritten env spec doc t →
      KeysStop env doc r → EncodeStops env spec doc (h ++ [t]) [] [] [] r
  | range {h : List Part} {t : Part} {l : List Int} : HeaderPartWritten env spec doc h → TypePartWritten env spec doc t →
      NumbersParse env doc → l ≠ [] → l.Pairwise (· < ·) → (∀ x, x ∈ l ↔ Numbered env doc x ∧ (x < 1 ∨ 192 < x)) →
      EncodeStops env spec doc (h ++ [t]) [] [] [] (.err (.outOfRange l) py"p")
  | bitmaps {h : List Part} {t : Part} {b : List Part} {r : EncRaise} : HeaderPartWritten env spec doc h →
      TypePartWritten env spec doc t → NumbersParse env doc → (∀ n, Numbered env doc n → 1 ≤ n ∧ n ≤ 192) →
      BitmapsStop env spec (Flagged env doc) b r → EncodeStops env spec doc (h ++ [t]) b [] [] r
  | lackField {h : List Part} {t : Part} {b f : List Part} {done rest : List Nat} {i : Nat} {tail : EncDoc} {r : EncRaise} :
      HeaderPartWritten env spec doc h → TypePartWritten env spec doc t → NumbersParse env doc →
      (∀ n, Numbered env doc n → 1 ≤ n ∧ n ≤ 192) → BitmapPartsWritten env spec (Flagged env doc) b →
      (done ++ i :: rest).Pairwise (· < ·) → (∀ j : Nat, j ∈ done ++ i :: rest ↔ Numbered env doc j ∧ j ≠ 1 ∧ j ≠ 65) →
      f.map Part.key = done.map natStr → (∀ p ∈ f, FieldPartWritten env spec doc p) →
      ((spec.get? (natStr i) = none ∧ tail = []) ∨
        ((spec.get? (natStr i)).isSome ∧ doc.get? (.str (natStr i)) = none ∧ tail = [(natStr i, ⟨[], []⟩)])) →
      r = .keyError (natStr i) → EncodeStops env spec doc (h ++ [t]) b f tail r
  | field {h : List Part} {t : Part} {b f : List Part} {done rest : List Nat} {i : Nat} {fs : FieldSpec} {v : Val}
      {e : EncEntry} {r : EncRaise} :
      HeaderPartWritten env spec doc h → TypePartWritten env spec doc t → NumbersParse env doc →
      (∀ n, Numbered env doc n → 1 ≤ n ∧ n ≤ 192) → BitmapPartsWritten env spec (Flagged env doc) b →
      (done ++ i :: rest).Pairwise (· < ·) → (∀ j : Nat, j ∈ done ++ i :: rest ↔ Numbered env doc j ∧ j ≠ 1 ∧ j ≠ 65) →
      f.map Part.key = done.map natStr → (∀ p ∈ f, FieldPartWritten env spec doc p) →
      spec.get? (natStr i) = some fs → doc.get? (.str (natStr i)) = some v → FieldStops env fs (natStr i) v e r →
      EncodeStops env spec doc (h ++ [t]) b f [(natStr i, e)] r

/-- What leaves `encode` when `r` is raised: an `EncodeError` carries both dicts. -/
def EncRaise.leaves (doc : Doc) (enc : EncDoc) : EncRaise → EncodeExc
  | .err m f => .encodeError ⟨m, doc, enc, f⟩
  | .keyError k => .keyError k
  | .valueError => .valueError
  | .typeError => .typeError
  | .unboundLocal => .unboundLocal
  | .indexError => .indexError

/-- `encode` fails with `x` and leaves the caller's dict at `doc'`. -/
def EncodeFails (env : PyEnv) (spec : Spec) (doc : Doc) (x : EncodeExc) (doc' : Doc) : Prop :=
  ∃ ps b f tail r, EncodeStops env spec doc ps b f tail r ∧ doc' = docAfter doc b ∧
    x = r.leaves doc' (partsEnc (ps ++ b ++ f) ++ tail)

end Iso8583
