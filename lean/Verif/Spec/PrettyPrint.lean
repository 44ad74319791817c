import Verif.Model.Tools
import Verif.Spec.Basic
/-!
# What `pp` should write

Uses only `repr`, slicing, left-justification and the dict and specification read by `pp`.
-/

namespace Iso8583

/-- `sep.join(parts)`. -/
def joinWith (sep : Str) : List Str → Str
  | [] => []
  | [x] => x
  | x :: y :: t => x ++ sep ++ joinWith sep (y :: t)

/-- `ps` is the greedy folding of `obj` into pieces whose `repr` is at most `width` characters:
nothing is lost, no piece is empty, a piece that does not fit is a single byte, and no piece could
have taken the first byte of the next one. -/
structure FoldsBytes (width : Int) (obj : Bytes) (ps : List Bytes) : Prop where
  whole : ps.flatten = obj
  nonempty : ∀ p ∈ ps, p ≠ []
  fits : ∀ p ∈ ps, ((reprBytes p).length : Int) ≤ width ∨ p.length = 1
  full : ∀ i p b q, ps[i]? = some p → ps[i + 1]? = some (b :: q) → width < ((reprBytes (p ++ [b])).length : Int)

/-- `ps` is the folding of `obj` into pieces of `width - 2` characters (at least one), the last of
which may be shorter. -/
structure FoldsStr (width : Int) (obj : Str) (ps : List Str) : Prop where
  whole : ps.flatten = obj
  nonempty : ∀ p ∈ ps, p ≠ []
  atMost : ∀ p ∈ ps, p.length ≤ max 1 (width - 2).toNat
  equal : ∀ p ∈ ps.dropLast, p.length = max 1 (width - 2).toNat

/-- What separates the lines of one value: a newline and `indent` spaces. -/
def newLine (indent : Nat) : Str := 10 :: List.replicate indent 32

/-- The text shown for a value that starts at column `indent`. -/
inductive Shows (env : PyEnv) (indent : Nat) (width : Int) : PpVal → Str → Prop
  | strFits {s : Str} : ((reprStr env s).length + indent : Int) ≤ width ∨ s.length ≤ 1 →
      Shows env indent width (.str s) (reprStr env s)
  | strFolds {s : Str} {ps : List Str} : width < ((reprStr env s).length + indent : Int) → 1 < s.length →
      FoldsStr (width - indent) s ps → Shows env indent width (.str s) (joinWith (newLine indent) (ps.map (reprStr env)))
  | bytesFits {b : Bytes} : ((reprBytes b).length + indent : Int) ≤ width ∨ b.length ≤ 1 →
      Shows env indent width (.bytes b) (reprBytes b)
  | bytesFolds {b : Bytes} {ps : List Bytes} : width < ((reprBytes b).length + indent : Int) → 1 < b.length →
      FoldsBytes (width - indent) b ps → Shows env indent width (.bytes b) (joinWith (newLine indent) (ps.map reprBytes))
  | other {r : Str} : Shows env indent width (.other r) r

/-- A column of `w` characters: the text, then blanks up to that width (none if it is longer). -/
def padded (w : Nat) (t : Str) : Str := t ++ List.replicate (w - t.length) 32

/-- The description column of a key: nothing when descriptions are off, otherwise a space and the
description cut or filled to `descWidth` characters. -/
def DescText (spec : Spec) (descWidth : Int) (key txt : Str) : Prop :=
  (descWidth ≤ 0 ∧ txt = []) ∨
  (0 < descWidth ∧ ∃ fs d, spec.get? key = some fs ∧ fs.desc = some d ∧
    txt = py" " ++ padded descWidth.toNat (d.take descWidth.toNat))

/-- The length prefix shown before the data of an encoded field, and the value shown. -/
def Unpacks : PpVal → Str → PpVal → Prop
  | .dict len data, pre, v =>
    (pre = if len.getD [] = [] then [] else reprBytes (len.getD []) ++ py" ") ∧ v = .bytes (data.getD [])
  | w, pre, v => pre = [] ∧ v = w

/-- The group of lines written for one field. -/
def FieldText (env : PyEnv) (spec : Spec) (descWidth lineWidth : Int) (key : Str) (val : PpVal) (txt : Str) : Prop :=
  ∃ d pre v body, DescText spec descWidth key d ∧ Unpacks val pre v ∧
    Shows env (5 + d.length + pre.length) lineWidth v body ∧
    txt = padded 3 key ++ d ++ py": " ++ pre ++ body ++ [10]

/-- The numeric keys of a dict, in dict order. -/
def numericStrs (env : PyEnv) (doc : PpDoc) : List Str :=
  doc.keys.filterMap fun
    | .str k => if isNumeric env k then some k else none
    | .obj _ => none

/-- The letter keys printed, in order: `h` when the specification has a header, `t`, `p`. -/
def PrintedLetters (spec : Spec) (doc : PpDoc) (ls : List Str) : Prop :=
  ∃ hs ts ps, ls = hs ++ ts ++ ps ∧
    (((.str py"h") ∈ doc.keys ∧ hasHeader spec ∧ hs = [py"h"]) ∨ (¬ ((.str py"h") ∈ doc.keys ∧ hasHeader spec) ∧ hs = [])) ∧
    (((.str py"t") ∈ doc.keys ∧ ts = [py"t"]) ∨ ((.str py"t") ∉ doc.keys ∧ ts = [])) ∧
    (((.str py"p") ∈ doc.keys ∧ ps = [py"p"]) ∨ ((.str py"p") ∉ doc.keys ∧ ps = []))

/-- The keys printed, in order: the letters, then the numeric keys by numeric value; keys of equal
value keep the order of the dict. -/
def PrintedKeys (env : PyEnv) (spec : Spec) (doc : PpDoc) (ks : List Str) : Prop :=
  ∃ ls ns, ks = ls ++ ns ∧ PrintedLetters spec doc ls ∧ ns.Perm (numericStrs env doc) ∧
    ns.Pairwise fun a b => ∃ m n, pyInt env a = some m ∧ pyInt env b = some n ∧
      (m < n ∨ (m = n ∧ [a, b].Sublist (numericStrs env doc)))

/-- Column at which the value of a field starts: the key takes three, the colon and space two, a
description `descWidth` and a space. -/
def valueColumn (descWidth : Int) : Int := if 0 < descWidth then descWidth + 6 else 5

/-- `repr` writes every character of the text as it is. -/
def PlainText (env : PyEnv) (s : Str) : Prop :=
  (∀ c ∈ s, c ≠ 92 ∧ 32 ≤ c ∧ c ≠ 127 ∧ (c < 127 ∨ env.isPrintableCp c = true)) ∧ ¬ (39 ∈ s ∧ 34 ∈ s)

/-- The line is wide enough for the smallest piece of the value, which starts at column `col`: any
byte takes seven characters at most, a plain character three. -/
def Roomy (env : PyEnv) (col lineWidth : Int) : PpVal → Prop
  | .str s => PlainText env s ∧ col + 3 ≤ lineWidth
  | .bytes _ => col + 7 ≤ lineWidth
  | .dict none _ => col + 7 ≤ lineWidth
  | .dict (some l) _ => if l = [] then col + 7 ≤ lineWidth else col + ((reprBytes l).length + 1 : Int) + 7 ≤ lineWidth
  | .other r => col + (r.length : Int) ≤ lineWidth

/-- Every character is a Unicode code point: true of every Python `str`. -/
def IsText (s : Str) : Prop := ∀ c ∈ s, c < 0x110000

/-- No line of `txt` is longer than `w` characters: every stretch without a newline is that short. -/
def LinesFit (w : Int) (txt : Str) : Prop :=
  ∀ a line b, txt = a ++ line ++ b → 10 ∉ line → (line.length : Int) ≤ w

end Iso8583
