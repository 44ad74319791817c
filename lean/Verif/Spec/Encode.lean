import Verif.Spec.Basic
import Verif.Spec.Laws
/-!
# Vocabulary for statements about `encode`
-/

namespace Iso8583

/-- ASCII upper case. -/
def upperCase (t : Str) : Str := t.map fun c => if 97 ≤ c ∧ c ≤ 122 then c - 32 else c

/-- The text of a caller's value: a `str` itself, or the characters of a `bytes` value. -/
def Val.text : Val → Str
  | .str t => t
  | .bytes b => b.map UInt8.toNat
  | _ => []

/-- What decode gives back for a value: the text itself, with hex digits in upper case when the
field is binary. -/
def readBack (fs : FieldSpec) (v : Val) : Str := if fs.isBinary then upperCase v.text else v.text

/-- `D` is the encoding of value `v` in `n` units.  Binary: the hex digits of `v`, one unit per
byte, or per digit when counted in nibbles; an odd number of nibbles is completed by the first
character of the left pad in front, or else of the right pad behind.  Text: what the codec writes,
one unit per byte, or two when counted in nibbles. -/
def DataWrites (env : PyEnv) (fs : FieldSpec) (v : Val) (n : Nat) (D : Bytes) : Prop :=
  if fs.isBinary then
    if fs.inNibbles then
      n = v.text.length ∧
      if n % 2 = 1 then
        match firstPad fs.leftPad, firstPad fs.rightPad with
        | some c, _ => hexText D = upperCase (c :: v.text)
        | none, some c => hexText D = upperCase (v.text ++ [c])
        | none, none => False
      else hexText D = upperCase v.text
    else hexText D = upperCase v.text ∧ n = D.length
  else ∃ t c, v = .str t ∧ env.codec fs.dataEnc = some c ∧ c.encode t = some D ∧
    n = if fs.inNibbles then 2 * D.length else D.length

/-- The largest number of units plus one that a length prefix can hold. -/
def capacity (fs : FieldSpec) : Nat :=
  if fs.lenEnc = py"b" then 256 ^ fs.lenType else if fs.lenEnc = py"bcd" then 100 ^ fs.lenType else 10 ^ fs.lenType

/-- Assumptions on a field under which what is written can be read: text codecs round trip; a text
length codec writes digits as one byte each; length prefixes stay below the digit limit of `int`;
pads are not lower-case letters. -/
structure FieldLaws (env : PyEnv) (fs : FieldSpec) : Prop where
  data : ¬ fs.isBinary → ∀ c, env.codec fs.dataEnc = some c → c.RoundTrips
  prefixCodec : fs.lenType ≠ 0 → fs.lenEnc ≠ py"b" → fs.lenEnc ≠ py"bcd" →
    ∀ c, env.codec fs.lenEnc = some c → c.RoundTrips ∧ c.WritesHexDigits
  prefixDigits : fs.lenType ≠ 0 → fs.lenEnc ≠ py"b" → env.maxStrDigits = 0 ∨ 2 * fs.lenType ≤ env.maxStrDigits
  pads : ∀ c, firstPad fs.leftPad = some c ∨ firstPad fs.rightPad = some c → ¬ (97 ≤ c ∧ c ≤ 122)

/-- Assumptions on a bitmap under which it can be read: a text codec round trips and writes hex
digits as one byte each. -/
def BitmapLaws (env : PyEnv) (fs : FieldSpec) : Prop :=
  ¬ fs.isBinary → ∀ c, env.codec fs.dataEnc = some c → c.RoundTrips ∧ c.WritesHexDigits

/-- The assumptions for a whole specification. -/
structure SpecLaws (env : PyEnv) (spec : Spec) : Prop where
  fields : ∀ k fs, spec.get? k = some fs → k ≠ py"t" → k ≠ py"p" → k ≠ py"1" → FieldLaws env fs
  type : ∀ fs, spec.get? py"t" = some fs → ¬ fs.isBinary → ∀ c, env.codec fs.dataEnc = some c → c.RoundTrips
  bitmaps : ∀ k fs, k = py"p" ∨ k = py"1" → spec.get? k = some fs → BitmapLaws env fs

/-- The text the caller's dict holds under a key; nothing when there is none. -/
def docText (doc : Doc) (k : Str) : Str :=
  match doc.get? (.str k) with
  | some (.str t) => t
  | _ => []

/-- The dict has field `i`. -/
def hasField (doc : Doc) (i : Nat) : Prop := Key.str (natStr i) ∈ doc.keys

/-- Every key `isnumeric` accepts is a plain decimal number without leading zeros. -/
def CanonicalKeys (env : PyEnv) (doc : Doc) : Prop :=
  ∀ k, Key.str k ∈ doc.keys → k ≠ [] → (∀ c ∈ k, env.isNumericCp c = true) → ∃ n, k = natStr n

/-- `isnumeric` accepts the ASCII digits. -/
def DigitsNumeric (env : PyEnv) : Prop := ∀ c, 48 ≤ c → c ≤ 57 → env.isNumericCp c = true

/-- Emitted data `D` is one bitmap whose upper-case hex text is `t`. -/
def BitmapEmitted (env : PyEnv) (fs : FieldSpec) (t : Str) (D : Bytes) : Prop :=
  t.length = 16 ∧ if fs.isBinary then hexText D = t else ∃ c, env.codec fs.dataEnc = some c ∧ c.encode t = some D

/-- Keys `encode` maintains itself. -/
def isBitmapKey (k : Key) : Bool := k = .str py"p" || k = .str py"1" || k = .str py"65"

/-- Among the ASCII characters `isnumeric` accepts exactly the digits. -/
def AsciiNumeric (env : PyEnv) : Prop := ∀ c, c < 128 → env.isNumericCp c = (48 ≤ c && c ≤ 57)

/-- An exception without the caller's dict it carries. -/
def EncodeExc.sansDict : EncodeExc → EncodeExc
  | .encodeError e => .encodeError { e with docDec := [] }
  | x => x

/-- What a call of `encode` produces: bytes and encoded dict, or the exception (message, field and
partial encoded dict; the caller's dict left out). -/
def outcome (env : PyEnv) (spec : Spec) (doc : Doc) : Except EncodeExc (Bytes × EncDoc) :=
  match (encode env spec doc).1 with
  | .ok r => .ok r
  | .error x => .error x.sansDict

/-- Every key is a string, and `int` accepts those `isnumeric` accepts. -/
def KeysParse (env : PyEnv) (doc : Doc) : Prop :=
  ∀ k ∈ doc.keys, ∃ s, k = .str s ∧ (isNumeric env s = true → ∃ n, pyInt env s = some n)

/-! ## Failures -/

/-- `L` is the prefix written for `n` units: big endian, packed decimal, or zero-padded decimal
text; the text form is only checked not to be too wide. -/
def PrefixWrites (env : PyEnv) (fs : FieldSpec) (n : Nat) (L : Bytes) : Prop :=
  if fs.lenEnc = py"b" then L.length = fs.lenType ∧ beValue L = n
  else if fs.lenEnc = py"bcd" then L.length = fs.lenType ∧ bcdValue L = some n
  else ∃ c, env.codec fs.lenEnc = some c ∧ c.encode (zeroPad fs.lenType n) = some L ∧ L.length ≤ fs.lenType

/-- The value can be written as hex digits: text, or `bytes` that need no pad. -/
def Val.Hexable (fs : FieldSpec) (v : Val) : Prop :=
  (∃ t, v = .str t) ∨ ∃ b, v = .bytes b ∧
    ¬ (fs.inNibbles ∧ b.length % 2 = 1 ∧ ((firstPad fs.leftPad).isSome ∨ (firstPad fs.rightPad).isSome))

/-- Success of one field: value `v` is written as prefix `L` and data `D`. -/
structure FieldWrites (env : PyEnv) (fs : FieldSpec) (v : Val) (n : Nat) (L D : Bytes) : Prop where
  data : DataWrites env fs v n D
  hexable : fs.isBinary → v.Hexable fs
  size : if fs.lenType = 0 then (n : Int) = fs.maxLen ∧ L = [] else (n : Int) ≤ fs.maxLen ∧ PrefixWrites env fs n L

/-- Specification of the type field seen as a fixed field of bytes. -/
def asType (fs : FieldSpec) : FieldSpec := { fs with lenCount := none, leftPad := none, rightPad := none }

/-- The header can be written, or the specification has none. -/
def HeaderReady (env : PyEnv) (spec : Spec) (doc : Doc) : Prop :=
  ∃ fs, spec.get? py"h" = some fs ∧
    (fs.maxLen ≤ 0 ∨ ∃ v n L D, doc.get? (.str py"h") = some v ∧ FieldWrites env fs v n L D)

/-- The message type can be written. -/
def TypeReady (env : PyEnv) (spec : Spec) (doc : Doc) : Prop :=
  ∃ fs v D, spec.get? py"t" = some fs ∧ doc.get? (.str py"t") = some v ∧
    DataWrites env (asType fs) v (typeBytes fs) D ∧ (fs.isBinary → v.Hexable (asType fs))

/-- `encode` raises `EncodeError` with message `m` for field `f`. -/
def Raises (env : PyEnv) (spec : Spec) (doc : Doc) (m : EncMsg) (f : Str) : Prop :=
  ∃ e, (encode env spec doc).1 = .error (.encodeError e) ∧ e.msg = m ∧ e.field = f

/-- Some key of the dict that `isnumeric` accepts denotes the number `n`. -/
def Denotes (env : PyEnv) (doc : Doc) (n : Int) : Prop :=
  ∃ s, Key.str s ∈ doc.keys ∧ isNumeric env s = true ∧ pyInt env s = some n

/-- The name of the unit in messages. -/
def unitName (fs : FieldSpec) : Str :=
  match fs.lenCount with
  | some c => c
  | none => py"bytes"

/-- The digits a binary field converts: the value, completed by a pad when its number of nibbles is
odd and there is a pad. -/
def paddedDigits (fs : FieldSpec) (t : Str) : Str :=
  if fs.inNibbles ∧ t.length % 2 = 1 then
    match firstPad fs.leftPad, firstPad fs.rightPad with
    | some c, _ => c :: t
    | none, some c => t ++ [c]
    | none, none => t
  else t

/-- Message `m` states correctly why the value `t` cannot be encoded, and the entry is left at `e`. -/
def FieldFault (env : PyEnv) (fs : FieldSpec) (t : Str) (e : EncEntry) : EncMsg → Prop
  | .unknownEncoding => ¬ fs.isBinary ∧ env.codec fs.dataEnc = none ∧ e = ⟨[], []⟩
  | .invalidData => ¬ fs.isBinary ∧ (∃ c, env.codec fs.dataEnc = some c ∧ c.encode t = none) ∧ e = ⟨[], []⟩
  | .oddNibbles => fs.isBinary ∧ fs.inNibbles ∧ t.length % 2 = 1 ∧ firstPad fs.leftPad = none ∧
      firstPad fs.rightPad = none ∧ e = ⟨[], []⟩
  | .oddHex => fs.isBinary ∧ ¬ fs.inNibbles ∧ t.length % 2 = 1 ∧ e = ⟨[], []⟩
  | .nonHex => fs.isBinary ∧ (paddedDigits fs t).length % 2 = 0 ∧ (∃ c ∈ paddedDigits fs t, isHexDigit c = false) ∧ e = ⟨[], []⟩
  | .fixedLen n u x => DataWrites env fs (.str t) n e.data ∧ e.len = [] ∧ fs.lenType = 0 ∧ (n : Int) ≠ fs.maxLen ∧
      u = unitName fs ∧ x = fs.maxLen
  | .tooLong n u x => DataWrites env fs (.str t) n e.data ∧ e.len = [] ∧ fs.lenType ≠ 0 ∧ fs.maxLen < (n : Int) ∧
      u = unitName fs ∧ x = fs.maxLen
  | .lenDoesNotFit => ∃ n, DataWrites env fs (.str t) n e.data ∧ fs.lenType ≠ 0 ∧ (n : Int) ≤ fs.maxLen ∧
      if fs.lenEnc = py"b" ∨ fs.lenEnc = py"bcd" then capacity fs ≤ n ∧ e.len = []
      else ∃ c, env.codec fs.lenEnc = some c ∧ c.encode (zeroPad fs.lenType n) = some e.len ∧ fs.lenType < e.len.length
  | .lenUnknownEncoding => ∃ n, DataWrites env fs (.str t) n e.data ∧ fs.lenType ≠ 0 ∧ (n : Int) ≤ fs.maxLen ∧
      fs.lenEnc ≠ py"b" ∧ fs.lenEnc ≠ py"bcd" ∧ env.codec fs.lenEnc = none ∧ e.len = []
  | .lenInvalid => ∃ n, DataWrites env fs (.str t) n e.data ∧ fs.lenType ≠ 0 ∧ (n : Int) ≤ fs.maxLen ∧
      fs.lenEnc ≠ py"b" ∧ fs.lenEnc ≠ py"bcd" ∧ (∃ c, env.codec fs.lenEnc = some c ∧ c.encode (zeroPad fs.lenType n) = none) ∧
      e.len = []
  | _ => False

/-- Message `m` states correctly why `t` cannot be the message type, and the entry's data is left at `D`. -/
def TypeFault (env : PyEnv) (fs : FieldSpec) (t : Str) (D : Bytes) : EncMsg → Prop
  | .typeLen n w => DataWrites env (asType fs) (.str t) n D ∧ n ≠ typeBytes fs ∧ w = typeBytes fs
  | .unknownEncoding => FieldFault env (asType fs) t ⟨[], D⟩ .unknownEncoding
  | .invalidData => FieldFault env (asType fs) t ⟨[], D⟩ .invalidData
  | .oddHex => FieldFault env (asType fs) t ⟨[], D⟩ .oddHex
  | .nonHex => FieldFault env (asType fs) t ⟨[], D⟩ .nonHex
  | _ => False

/-- Message `m` states correctly why the hex text `t` of a bitmap cannot be written. -/
def BitmapFault (env : PyEnv) (fs : FieldSpec) (t : Str) : EncMsg → Prop
  | .unknownEncoding => ¬ fs.isBinary ∧ env.codec fs.dataEnc = none
  | .invalidData => ¬ fs.isBinary ∧ ∃ c, env.codec fs.dataEnc = some c ∧ c.encode t = none
  | _ => False

/-- `D` is one bitmap with hex text `t`, or two one after the other. -/
def BitmapsEmitted (env : PyEnv) (fs : FieldSpec) (t : Str) (D : Bytes) : Prop :=
  BitmapEmitted env fs t D ∨ ∃ D1 D2, D = D1 ++ D2 ∧ t.length = 32 ∧ BitmapEmitted env fs (t.take 16) D1 ∧
    BitmapEmitted env fs (t.drop 16) D2

/-- The entry of `k` is the complete encoding of what the caller's dict holds: `doc` before the
call, and `doc'` after it for the bitmaps. -/
def EntryComplete (env : PyEnv) (spec : Spec) (doc doc' : Doc) (k : Str) (ent : EncEntry) : Prop :=
  ∃ fs, spec.get? k = some fs ∧
    if k = py"t" then ent.len = [] ∧ ∃ v, doc.get? (.str py"t") = some v ∧ DataWrites env (asType fs) v (typeBytes fs) ent.data
    else if k = py"p" ∨ k = py"1" then ent.len = [] ∧ BitmapsEmitted env fs (docText doc' k) ent.data
    else ∃ v n, doc.get? (.str k) = some v ∧ FieldWrites env fs v n ent.len ent.data

/-- `ks` are the keys encoded before field `f`: header if there is one, type, bitmaps, and the
numbers the dict's keys denote in ascending order. -/
def KeysBefore (env : PyEnv) (spec : Spec) (doc : Doc) (f : Str) (ks : List Str) : Prop :=
  ∃ H, ((hasHeader spec ∧ H = [py"h"]) ∨ (¬ hasHeader spec ∧ H = [])) ∧
    ((f = py"h" ∧ ks = []) ∨ (f = py"t" ∧ ks = H) ∨ (f = py"p" ∧ ks = H ++ [py"t"]) ∨ (f = py"1" ∧ ks = H ++ [py"t", py"p"]) ∨
     ∃ B F i G, f = natStr i ∧ (F ++ i :: G).Pairwise (· < ·) ∧
      (∀ j, j ∈ F ++ i :: G ↔ j ≠ 1 ∧ j ≠ 65 ∧ Denotes env doc (j : Int)) ∧
      (B = [py"p"] ∨ B = [py"p", py"1"]) ∧ ((∃ j : Int, 65 < j ∧ Denotes env doc j) → B = [py"p", py"1"]) ∧
      (B = [py"p", py"1"] → ∃ j : Int, (j = 1 ∨ 64 < j) ∧ Denotes env doc j) ∧
      ks = H ++ [py"t"] ++ B ++ F.map natStr)

/-- Message `m` about field `f`, whose entry is left at `ent`, is true. -/
def MessageTrue (env : PyEnv) (spec : Spec) (doc doc' : Doc) (f : Str) (ent : EncEntry) (m : EncMsg) : Prop :=
  (m = .requiredBySpec ∧ f = py"h" ∧ hasHeader spec ∧ doc.get? (.str py"h") = none) ∨
  (m = .required ∧ f = py"t" ∧ doc.get? (.str py"t") = none) ∨
  (∃ l, m = .outOfRange l ∧ f = py"p" ∧ l ≠ [] ∧ l.Pairwise (· < ·) ∧ ∀ x, x ∈ l ↔ Denotes env doc x ∧ (x < 1 ∨ 192 < x)) ∨
  (∃ l, m = .invalidFields l ∧ f = py"p" ∧ l ≠ [] ∧ l = doc.keys.filterMap fun | .obj r => some r | .str _ => none) ∨
  (∃ fs v, f = py"t" ∧ spec.get? f = some fs ∧ doc.get? (.str f) = some v ∧ ent.len = [] ∧
    ∀ t, v = .str t → TypeFault env fs t ent.data m) ∨
  (∃ fs t, (f = py"p" ∨ f = py"1") ∧ spec.get? f = some fs ∧ t.length = 16 ∧ t <:+ docText doc' f ∧ BitmapFault env fs t m) ∨
  (∃ fs v, f ≠ py"t" ∧ f ≠ py"p" ∧ f ≠ py"1" ∧ spec.get? f = some fs ∧ doc.get? (.str f) = some v ∧
    ∀ t, v = .str t → FieldFault env fs t ent m)

/-- The value is not text, has an odd length, and the field has a pad to prepend or append. -/
def UnpaddableValue (fs : FieldSpec) (v : Val) : Prop :=
  ((firstPad fs.leftPad).isSome ∨ (firstPad fs.rightPad).isSome) ∧
    ((∃ b, v = .bytes b ∧ b.length % 2 = 1) ∨ (∃ n, v = .sized n ∧ n % 2 = 1))

/-- Why `encode` raises something other than `EncodeError`. -/
def RawCause (env : PyEnv) (spec : Spec) (doc : Doc) : EncodeExc → Prop
  | .encodeError _ => False
  | .keyError k =>
    (spec.get? k = none ∧ (k = py"h" ∨ k = py"t" ∨ k = py"p" ∨
      (k = py"1" ∧ ∃ j : Int, (j = 1 ∨ 64 < j) ∧ Denotes env doc j) ∨
      ∃ i : Nat, k = natStr i ∧ 2 ≤ i ∧ i ≤ 192 ∧ i ≠ 65 ∧ Denotes env doc (i : Int))) ∨
    (doc.get? (.str k) = none ∧ ∃ i : Nat, k = natStr i ∧ 2 ≤ i ∧ i ≤ 192 ∧ i ≠ 65 ∧ Denotes env doc (i : Int))
  | .valueError => ∃ k, Key.str k ∈ doc.keys ∧ isNumeric env k = true ∧ pyInt env k = none
  | .typeError => ∃ k fs, spec.get? k = some fs ∧ doc.get? (.str k) = some .unsized ∧ fs.dataEnc = py"b" ∧
      (k = py"t" ∨ fs.count ≠ py"nibbles")
  | .unboundLocal => ∃ k fs v, spec.get? k = some fs ∧ doc.get? (.str k) = some v ∧ fs.dataEnc = py"b" ∧ k ≠ py"t" ∧
      fs.count = py"nibbles" ∧ (v = .unsized ∨ UnpaddableValue fs v)
  | .indexError => False
  | .notDict _ => False

end Iso8583
