import Verif.Spec.PrettyPrint
/-!
# When `pp` raises, and what it has written by then
-/

namespace Iso8583

/-- Printing the keys `ks` in order stops at one of them, because descriptions are on and the
specification has no entry or no description for it: the groups of the keys before it are written,
and the key column of its own group. -/
def PrintStops (env : PyEnv) (spec : Spec) (doc : PpDoc) (descWidth lineWidth : Int) (ks : List Str) (e : PpRaise) (out : Str) : Prop :=
  0 < descWidth ∧ ∃ done k text, done ++ [k] <+: ks ∧
    (∀ d ∈ done, ∃ v, doc.get? (.str d) = some v ∧ FieldText env spec descWidth lineWidth d v (text d)) ∧
    ((spec.get? k = none ∧ e = .keyError k) ∨ ∃ fs, spec.get? k = some fs ∧ fs.desc = none ∧ e = .keyError py"desc") ∧
    out = done.flatMap text ++ padded 3 k

/-- `pp` raises `e` after writing `out`. -/
inductive PpFails (env : PyEnv) (spec : Spec) (doc : PpDoc) (descWidth lineWidth : Int) : PpRaise → Str → Prop
  /-- the dict has a header, the specification does not say whether there is one -/
  | header : .str py"h" ∈ doc.keys → spec.get? py"h" = none → PpFails env spec doc descWidth lineWidth (.keyError py"h") []
  /-- one of the letters has no description -/
  | letter {ls : List Str} {e : PpRaise} {out : Str} : (.str py"h" ∈ doc.keys → ∃ fs, spec.get? py"h" = some fs) →
      PrintedLetters spec doc ls → PrintStops env spec doc descWidth lineWidth ls e out →
      PpFails env spec doc descWidth lineWidth e out
  /-- the letters are written, then a numeric key is not a number to `int` -/
  | number {ls : List Str} {text : Str → Str} {k : Str} : (.str py"h" ∈ doc.keys → ∃ fs, spec.get? py"h" = some fs) →
      PrintedLetters spec doc ls →
      (∀ l ∈ ls, ∃ v, doc.get? (.str l) = some v ∧ FieldText env spec descWidth lineWidth l v (text l)) →
      .str k ∈ doc.keys → isNumeric env k = true → pyInt env k = none →
      PpFails env spec doc descWidth lineWidth .valueError (ls.flatMap text)
  /-- the numbers are in order, one of the keys has no description -/
  | field {ks : List Str} {e : PpRaise} {out : Str} : (.str py"h" ∈ doc.keys → ∃ fs, spec.get? py"h" = some fs) →
      (∀ k, .str k ∈ doc.keys → isNumeric env k = true → ∃ n, pyInt env k = some n) →
      PrintedKeys env spec doc ks → PrintStops env spec doc descWidth lineWidth ks e out →
      PpFails env spec doc descWidth lineWidth e out

end Iso8583
