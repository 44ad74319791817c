import Verif.Spec.Grammar
/-!
# How long messages can be
-/

namespace Iso8583

/-- The most bytes the entry of key `k` can take: the type, one primary bitmap, two bitmaps in
entry `1`, and length prefix and `max_len` units for everything else. -/
def entryLimit (spec : Spec) (k : Str) : Nat :=
  match spec.get? k with
  | none => 0
  | some fs =>
    if k = py"t" then typeBytes fs
    else if k = py"p" then bitmapBytes fs
    else if k = py"1" then 2 * bitmapBytes fs
    else fs.lenType + (bytesFor fs fs.maxLen).toNat

/-- The most bytes a message can take (65 is never a field of its own). -/
def messageLimit (spec : Spec) : Nat := ((spec.keys.filter (· ≠ py"65")).map (entryLimit spec)).sum

end Iso8583
