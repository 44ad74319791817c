import Verif.Spec.Grammar
/-!
# How reading a message fails

Which part of a message comes next when some parts have been read, and what it means to fail
there.  Together with `Message` this says what `decode` does on every input.
-/

namespace Iso8583

/-- What message `m` says about the entry of key `k`, not counting faults of a tertiary bitmap,
and how far into the entry the reported position is. -/
def DecSimpleFault (env : PyEnv) (fs : FieldSpec) (s : Bytes) (idx : Nat) (k : Str) (e : EncEntry) (v : Str) (m : DecMsg)
    (off : Nat) : Prop :=
  if k = py"t" then DecTypeFault env fs s idx e v m ∧ off = 0
  else if k = py"p" ∨ k = py"1" then e.len = [] ∧ DecBitmapFault env fs s idx 0 1 e.data v m ∧ off = 0
  else DecFieldFault env fs s idx e v m ∧ off = if m.aboutData then fs.lenType else 0

/-- After the parts `ps` of a message comes a part with key `k`: the header unless the
specification has none, the message type, the primary bitmap, the secondary one when bit 1 is set,
and then the announced fields in ascending order. -/
inductive Expects (env : PyEnv) (spec : Spec) : List Part → Str → Prop
  | header : (∀ fs, spec.get? py"h" = some fs → 0 < fs.maxLen) → Expects env spec [] py"h"
  | type {h : List Part} : HeaderPart env spec h → Expects env spec h py"t"
  | primary {h : List Part} {t : Part} : HeaderPart env spec h → TypePart env spec t → Expects env spec (h ++ [t]) py"p"
  | secondary {h : List Part} {t : Part} {fs : FieldSpec} {D : Bytes} {x : Str} {bm : Bytes} :
      HeaderPart env spec h → TypePart env spec t → spec.get? py"p" = some fs → BitmapRead env fs D x bm →
      announces bm 0 1 → Expects env spec (h ++ [t, ⟨py"p", ⟨[], D⟩, x⟩]) py"1"
  | field {h : List Part} {t : Part} {b f : List Part} {P : Nat → Prop} {done rest : List Nat} {i : Nat} :
      HeaderPart env spec h → TypePart env spec t → BitmapParts env spec b P →
      (done ++ i :: rest).Pairwise (· < ·) → (∀ j, j ∈ done ++ i :: rest ↔ P j ∧ j ≠ 1 ∧ j ≠ 65) →
      f.map Part.key = done.map natStr → (∀ p ∈ f, ∃ fs, spec.get? p.key = some fs ∧ FieldRead env fs p.entry p.text) →
      Expects env spec (h ++ t :: b ++ f) (natStr i)

/-- After the parts `ps` comes an entry with two bitmaps, the first of which is `q`. -/
inductive ExpectsSecondHalf (env : PyEnv) (spec : Spec) : List Part → Part → Prop
  | three {h : List Part} {t : Part} {fs fs1 : FieldSpec} {D D1 : Bytes} {x x1 : Str} {bm bm1 : Bytes} :
      HeaderPart env spec h → TypePart env spec t → spec.get? py"p" = some fs → BitmapRead env fs D x bm →
      announces bm 0 1 → spec.get? py"1" = some fs1 → BitmapRead env fs1 D1 x1 bm1 →
      announces bm 0 65 ∨ announces bm1 64 65 →
      ExpectsSecondHalf env spec (h ++ [t, ⟨py"p", ⟨[], D⟩, x⟩]) ⟨py"1", ⟨[], D1⟩, x1⟩
  | wide {h : List Part} {t : Part} {fs : FieldSpec} {D : Bytes} {x : Str} {bm : Bytes} :
      HeaderPart env spec h → TypePart env spec t → spec.get? py"p" = some fs → BitmapRead env fs D x bm →
      ¬ announces bm 0 1 → announces bm 0 65 → ExpectsSecondHalf env spec (h ++ [t]) ⟨py"p", ⟨[], D⟩, x⟩

/-- The bytes of parts. -/
def partsWire (ps : List Part) : Bytes := wire (partsEnc ps)

/-- `s` starts with a message and goes on. -/
def FailsExtra (env : PyEnv) (spec : Spec) (s : Bytes) (e : DecodeError) : Prop :=
  ∃ ps, Message env spec ps ∧ partsWire ps <+: s ∧ partsWire ps ≠ s ∧
    e.msg = .extraData ∧ e.docDec = partsDec ps ∧ e.docEnc = partsEnc ps ∧ e.pos = (partsWire ps).length ∧
    ps.getLast?.map Part.key = some e.field

/-- `s` starts with the parts before `e.field`, and there the message of `e` is true. -/
def FailsAt (env : PyEnv) (spec : Spec) (s : Bytes) (e : DecodeError) : Prop :=
  ∃ ps fs ent v off, Expects env spec ps e.field ∧ partsWire ps <+: s ∧ spec.get? e.field = some fs ∧
    DecSimpleFault env fs s (partsWire ps).length e.field ent v e.msg off ∧
    e.docDec = partsDec ps ++ [(e.field, v)] ∧ e.docEnc = partsEnc ps ++ [(e.field, ent)] ∧
    e.pos = (partsWire ps).length + off

/-- `s` starts with all parts before a tertiary bitmap, and there the message of `e` is true. -/
def FailsSecondHalf (env : PyEnv) (spec : Spec) (s : Bytes) (e : DecodeError) : Prop :=
  ∃ ps q fs D v, ExpectsSecondHalf env spec ps q ∧ partsWire (ps ++ [q]) <+: s ∧ spec.get? q.key = some fs ∧
    DecBitmapFault env fs s (partsWire (ps ++ [q])).length (bitmapBytes fs) 2 D v e.msg ∧
    e.field = q.key ∧ e.docDec = partsDec ps ++ [(q.key, q.text ++ v)] ∧
    e.docEnc = partsEnc ps ++ [(q.key, ⟨[], q.entry.data ++ D⟩)] ∧ e.pos = (partsWire (ps ++ [q])).length

/-- Reading `s` fails as reported by `e`. -/
def DecodeFails (env : PyEnv) (spec : Spec) (s : Bytes) (e : DecodeError) : Prop :=
  e.s = s ∧ (FailsExtra env spec s e ∨ FailsAt env spec s e ∨ FailsSecondHalf env spec s e)

/-- Reading `s` needs the entry `k` of the specification, and there is none. -/
def DecodeLacks (env : PyEnv) (spec : Spec) (s : Bytes) (k : Str) : Prop :=
  ∃ ps, Expects env spec ps k ∧ partsWire ps <+: s ∧ spec.get? k = none

end Iso8583
