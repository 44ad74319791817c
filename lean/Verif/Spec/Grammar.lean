import Verif.Spec.Encode
import Verif.Spec.DecodeFault
/-!
# The message format

Which byte strings are messages under a specification, and which dictionaries can be written as
messages: header, message type, bitmaps, fields.  Nothing here refers to how the decoder or the
encoder goes about it.
-/

namespace Iso8583

/-- One part of a message: its key, its entry in the encoded dict, its text in the decoded dict. -/
structure Part where
  key   : Str
  entry : EncEntry
  text  : Str

/-- The decoded dict made of parts. -/
def partsDec (ps : List Part) : DecDoc := ps.map fun p => (p.key, p.text)

/-- The encoded dict made of parts. -/
def partsEnc (ps : List Part) : EncDoc := ps.map fun p => (p.key, p.entry)

/-! ## What can be read -/

/-- Length prefix and data of a field are read as `v`: the prefix (or `max_len`) says how many
units there are, the data has that size, and it stands for `v`.  Binary data cannot have minus one
nibble. -/
def FieldRead (env : PyEnv) (fs : FieldSpec) (e : EncEntry) (v : Str) : Prop :=
  ∃ n, UnitsRead env fs e.len n ∧ (e.data.length : Int) = bytesFor fs n ∧ DataSays env fs n e.data v ∧
    (fs.isBinary → fs.inNibbles → n ≠ -1)

/-- One bitmap `D` is read as text `t` and has the bits `bm`. -/
def BitmapRead (env : PyEnv) (fs : FieldSpec) (D : Bytes) (t : Str) (bm : Bytes) : Prop :=
  D.length = bitmapBytes fs ∧ PlainSays env fs D t ∧ if fs.isBinary then bm = D else fromHex t = some bm

/-- Bitmap `bm`, which starts behind field `off`, announces field `i`. -/
def announces (bm : Bytes) (off i : Nat) : Prop := off < i ∧ bitOn bm (i - off) = true

/-- The bitmap parts of a message and the fields they announce: a primary bitmap; a secondary one
exactly when bit 1 is set; a tertiary one, kept in the same entry as the bitmap before it, exactly
when bit 65 is set.  The last case needs a text codec that reads 16 bytes as more than 16 hex
digits. -/
inductive BitmapParts (env : PyEnv) (spec : Spec) : List Part → (Nat → Prop) → Prop
  | one {fs : FieldSpec} {D : Bytes} {t : Str} {bm : Bytes} :
      spec.get? py"p" = some fs → BitmapRead env fs D t bm → ¬ announces bm 0 1 → ¬ announces bm 0 65 →
      BitmapParts env spec [⟨py"p", ⟨[], D⟩, t⟩] (announces bm 0)
  | two {fs fs1 : FieldSpec} {D D1 : Bytes} {t t1 : Str} {bm bm1 : Bytes} :
      spec.get? py"p" = some fs → BitmapRead env fs D t bm → announces bm 0 1 →
      spec.get? py"1" = some fs1 → BitmapRead env fs1 D1 t1 bm1 → ¬ (announces bm 0 65 ∨ announces bm1 64 65) →
      BitmapParts env spec [⟨py"p", ⟨[], D⟩, t⟩, ⟨py"1", ⟨[], D1⟩, t1⟩] (fun i => announces bm 0 i ∨ announces bm1 64 i)
  | three {fs fs1 : FieldSpec} {D D1 D2 : Bytes} {t t1 t2 : Str} {bm bm1 bm2 : Bytes} :
      spec.get? py"p" = some fs → BitmapRead env fs D t bm → announces bm 0 1 →
      spec.get? py"1" = some fs1 → BitmapRead env fs1 D1 t1 bm1 → announces bm 0 65 ∨ announces bm1 64 65 →
      BitmapRead env fs1 D2 t2 bm2 →
      BitmapParts env spec [⟨py"p", ⟨[], D⟩, t⟩, ⟨py"1", ⟨[], D1 ++ D2⟩, t1 ++ t2⟩]
        (fun i => announces bm 0 i ∨ announces bm1 64 i ∨ announces bm2 128 i)
  | wide {fs : FieldSpec} {D D2 : Bytes} {t t2 : Str} {bm bm2 : Bytes} :
      spec.get? py"p" = some fs → BitmapRead env fs D t bm → ¬ announces bm 0 1 → announces bm 0 65 →
      BitmapRead env fs D2 t2 bm2 →
      BitmapParts env spec [⟨py"p", ⟨[], D ++ D2⟩, t ++ t2⟩] (fun i => announces bm 0 i ∨ announces bm2 128 i)

/-- `h` is the header of a message: a field, or nothing when the specification has no header. -/
def HeaderPart (env : PyEnv) (spec : Spec) (h : List Part) : Prop :=
  ∃ fs, spec.get? py"h" = some fs ∧
    ((fs.maxLen ≤ 0 ∧ h = []) ∨ (0 < fs.maxLen ∧ ∃ e v, h = [⟨py"h", e, v⟩] ∧ FieldRead env fs e v))

/-- `t` is a message type. -/
def TypePart (env : PyEnv) (spec : Spec) (t : Part) : Prop :=
  ∃ fs D v, spec.get? py"t" = some fs ∧ t = ⟨py"t", ⟨[], D⟩, v⟩ ∧ D.length = typeBytes fs ∧ PlainSays env fs D v

/-- `ps` are the parts of a message: header, type, bitmaps, and the fields the bitmaps announce in
ascending order. -/
def Message (env : PyEnv) (spec : Spec) (ps : List Part) : Prop :=
  ∃ (h : List Part) (t : Part) (b f : List Part) (P : Nat → Prop) (F : List Nat),
    ps = h ++ t :: b ++ f ∧ HeaderPart env spec h ∧ TypePart env spec t ∧ BitmapParts env spec b P ∧
    F.Pairwise (· < ·) ∧ (∀ i, i ∈ F ↔ P i ∧ i ≠ 1 ∧ i ≠ 65) ∧ f.map Part.key = F.map natStr ∧
    ∀ p ∈ f, ∃ fs, spec.get? p.key = some fs ∧ FieldRead env fs p.entry p.text

/-! ## What can be written -/

/-- Some key of the dict, other than `1` and `65`, is a field number to `isnumeric` and denotes `n`. -/
def Numbered (env : PyEnv) (doc : Doc) (n : Int) : Prop :=
  ∃ s, Key.str s ∈ doc.keys ∧ s ≠ py"1" ∧ s ≠ py"65" ∧ isNumeric env s = true ∧ pyInt env s = some n

/-- Every key other than `1` and `65` is a string, and `int` accepts those `isnumeric` accepts. -/
def NumbersParse (env : PyEnv) (doc : Doc) : Prop :=
  ∀ k ∈ doc.keys, k ≠ .str py"1" → k ≠ .str py"65" →
    ∃ s, k = .str s ∧ (isNumeric env s = true → ∃ n, pyInt env s = some n)

/-- The bits of the bitmaps: the fields of the dict, 65 for a tertiary bitmap, 1 for a secondary one. -/
def Flagged (env : PyEnv) (doc : Doc) (i : Nat) : Prop :=
  Numbered env doc i ∨ (i = 65 ∧ ∃ j : Nat, 128 < j ∧ Numbered env doc j) ∨ (i = 1 ∧ ∃ j : Nat, 64 < j ∧ Numbered env doc j)

/-- `D` is written for the bitmap behind field `off` of the fields `A`, with hex text `t`. -/
def BitmapWritten (env : PyEnv) (fs : FieldSpec) (A : Nat → Prop) (off : Nat) (D : Bytes) (t : Str) : Prop :=
  ∃ bm : Bytes, bm.length = 8 ∧ (∀ i, off < i → i ≤ off + 64 → (announces bm off i ↔ A i)) ∧ t = hexText bm ∧
    if fs.isBinary then D = bm else ∃ c, env.codec fs.dataEnc = some c ∧ c.encode t = some D

/-- The bitmap parts `encode` writes for the fields `A`. -/
inductive BitmapPartsWritten (env : PyEnv) (spec : Spec) (A : Nat → Prop) : List Part → Prop
  | one {fs : FieldSpec} {D : Bytes} {t : Str} : ¬ A 1 → spec.get? py"p" = some fs → BitmapWritten env fs A 0 D t →
      BitmapPartsWritten env spec A [⟨py"p", ⟨[], D⟩, t⟩]
  | two {fs fs1 : FieldSpec} {D D1 : Bytes} {t t1 : Str} : A 1 → ¬ A 65 → spec.get? py"p" = some fs →
      BitmapWritten env fs A 0 D t → spec.get? py"1" = some fs1 → BitmapWritten env fs1 A 64 D1 t1 →
      BitmapPartsWritten env spec A [⟨py"p", ⟨[], D⟩, t⟩, ⟨py"1", ⟨[], D1⟩, t1⟩]
  | three {fs fs1 : FieldSpec} {D D1 D2 : Bytes} {t t1 t2 : Str} : A 1 → A 65 → spec.get? py"p" = some fs →
      BitmapWritten env fs A 0 D t → spec.get? py"1" = some fs1 → BitmapWritten env fs1 A 64 D1 t1 →
      BitmapWritten env fs1 A 128 D2 t2 →
      BitmapPartsWritten env spec A [⟨py"p", ⟨[], D⟩, t⟩, ⟨py"1", ⟨[], D1 ++ D2⟩, t1 ++ t2⟩]

/-- Part `p` is written for the value the dict holds under its key. -/
def FieldPartWritten (env : PyEnv) (spec : Spec) (doc : Doc) (p : Part) : Prop :=
  ∃ fs v n, spec.get? p.key = some fs ∧ doc.get? (.str p.key) = some v ∧ FieldWrites env fs v n p.entry.len p.entry.data ∧
    p.text = readBack fs v

/-- `h` is the header written: a field, or nothing when the specification has no header. -/
def HeaderPartWritten (env : PyEnv) (spec : Spec) (doc : Doc) (h : List Part) : Prop :=
  ∃ fs, spec.get? py"h" = some fs ∧
    ((fs.maxLen ≤ 0 ∧ h = []) ∨ (0 < fs.maxLen ∧ ∃ p, h = [p] ∧ p.key = py"h" ∧ FieldPartWritten env spec doc p))

/-- `t` is the message type written. -/
def TypePartWritten (env : PyEnv) (spec : Spec) (doc : Doc) (t : Part) : Prop :=
  ∃ fs v D, spec.get? py"t" = some fs ∧ doc.get? (.str py"t") = some v ∧ t = ⟨py"t", ⟨[], D⟩, readBack fs v⟩ ∧
    DataWrites env (asType fs) v (typeBytes fs) D ∧ (fs.isBinary → v.Hexable (asType fs))

/-- `ps`, with bitmaps `b`, is the message for the dict `doc`: every key is usable, every number is
a field, and header, type, bitmaps and fields in ascending order are written. -/
def Written (env : PyEnv) (spec : Spec) (doc : Doc) (ps b : List Part) : Prop :=
  NumbersParse env doc ∧ (∀ n, Numbered env doc n → 1 ≤ n ∧ n ≤ 192) ∧
  ∃ (h : List Part) (t : Part) (f : List Part) (F : List Nat),
    ps = h ++ t :: b ++ f ∧ HeaderPartWritten env spec doc h ∧ TypePartWritten env spec doc t ∧
    BitmapPartsWritten env spec (Flagged env doc) b ∧ F.Pairwise (· < ·) ∧
    (∀ i : Nat, i ∈ F ↔ Numbered env doc i ∧ i ≠ 1 ∧ i ≠ 65) ∧ f.map Part.key = F.map natStr ∧
    ∀ p ∈ f, FieldPartWritten env spec doc p

/-- The caller's dict afterwards: stale bitmap keys removed, the texts of the new bitmaps stored. -/
def docAfter (doc : Doc) (b : List Part) : Doc :=
  b.foldl (fun d p => d.set (.str p.key) (.str p.text)) ((doc.pop (.str py"1")).pop (.str py"65"))

/-- The bitmaps of the fields `A` can be written: a secondary one if 1 is flagged, a tertiary one if
65 is flagged. -/
def BitmapsReady (env : PyEnv) (spec : Spec) (A : Nat → Prop) : Prop :=
  ∃ fs, spec.get? py"p" = some fs ∧ (∃ D t, BitmapWritten env fs A 0 D t) ∧
    (A 1 → ∃ fs1, spec.get? py"1" = some fs1 ∧ (∃ D t, BitmapWritten env fs1 A 64 D t) ∧
      (A 65 → ∃ D t, BitmapWritten env fs1 A 128 D t))

/-- Field `i` can be written. -/
def FieldReady (env : PyEnv) (spec : Spec) (doc : Doc) (i : Nat) : Prop :=
  ∃ fs v n L D, spec.get? (natStr i) = some fs ∧ doc.get? (.str (natStr i)) = some v ∧ FieldWrites env fs v n L D

end Iso8583
