import Verif.Spec.DecodeFault
import Verif.Spec.Encode
/-!
# The sentences in exceptions

What the user reads when `decode` or `encode` fails, sentence by sentence: the words, what has to be
the case for them to be used, and what the numbers in them are.
-/

namespace Iso8583

/-- What is said of a field (header or numbered) with specification `fs` that starts at `idx` of the
message `s`; `e` is its entry, as far as it was read. -/
inductive FieldSentence (env : PyEnv) (fs : FieldSpec) (s : Bytes) (idx : Nat) (e : EncEntry) : Str → Prop
  /-- The message ends inside the length prefix. -/
  | prefixShort : idx ≤ s.length → s.length < idx + fs.lenType →
    FieldSentence env fs s idx e
      (py"Field length is " ++ natStr (s.length - idx) ++ py" bytes wide, expecting " ++ natStr fs.lenType)
  /-- The length prefix has nibbles above nine, or more digits than `int` takes. -/
  | notBcd : PrefixHeld fs s idx e → fs.lenType ≠ 0 → fs.lenEnc = py"bcd" →
    bcdValue e.len = none ∨ tooManyDigits env (2 * fs.lenType) →
    FieldSentence env fs s idx e py"Failed to decode field length, invalid BCD data"
  | prefixCodec : PrefixHeld fs s idx e → fs.lenType ≠ 0 → fs.textLen → env.codec fs.lenEnc = none →
    FieldSentence env fs s idx e py"Failed to decode field length, unknown encoding specified"
  | prefixText {c : Codec} : PrefixHeld fs s idx e → fs.lenType ≠ 0 → fs.textLen → env.codec fs.lenEnc = some c →
    c.decode e.len = none → FieldSentence env fs s idx e py"Failed to decode field length, invalid data"
  | prefixNumber {c : Codec} {t : Str} : PrefixHeld fs s idx e → fs.lenType ≠ 0 → fs.textLen → env.codec fs.lenEnc = some c →
    c.decode e.len = some t → pyInt env t = none →
    FieldSentence env fs s idx e py"Failed to decode field length, non-numeric data"
  /-- The prefix declares more units than the specification allows. -/
  | tooLong {n : Int} : PrefixHeld fs s idx e → fs.lenType ≠ 0 → declared env fs e.len = some n → fs.maxLen < n →
    FieldSentence env fs s idx e
      (py"Field data is " ++ intStr n ++ py" " ++ unitName fs ++ py", larger than maximum " ++ intStr fs.maxLen)
  /-- There is less data than the prefix or the specification calls for.  (A negative length calls
  for data as well: what Python takes for `s[i:i-n]`.) -/
  | dataShort {n : Int} : PrefixHeld fs s idx e → UnitsAre env fs e.len n → 0 < n →
    e.data = s.drop (idx + fs.lenType) → (e.data.length : Int) < bytesFor fs n →
    FieldSentence env fs s idx e
      (py"Field data is " ++ natStr (if fs.inNibbles then 2 * e.data.length else e.data.length) ++ py" " ++ unitName fs ++
        py", expecting " ++ intStr n)
  | dataNegative {n : Int} : PrefixHeld fs s idx e → UnitsAre env fs e.len n → n < 0 →
    FieldSentence env fs s idx e
      (py"Field data is " ++ natStr (if fs.inNibbles then 2 * e.data.length else e.data.length) ++ py" " ++ unitName fs ++
        py", expecting " ++ intStr n)
  /-- An odd number of nibbles, and neither pad is where it should be. -/
  | noPad {n : Int} : DataHeld env fs s idx e n → fs.isBinary → fs.inNibbles → n % 2 = 1 →
    (∀ c, firstPad fs.leftPad = some c → (hexText e.data).head? ≠ some c) →
    (∀ c, firstPad fs.rightPad = some c → (hexText e.data).getLast? ≠ some c) →
    FieldSentence env fs s idx e
      (py"Field data is " ++ natStr (2 * e.data.length) ++ py" nibbles, expecting " ++ intStr n)
  | dataCodec {n : Int} : DataHeld env fs s idx e n → ¬ fs.isBinary → env.codec fs.dataEnc = none →
    FieldSentence env fs s idx e py"Failed to decode field, unknown encoding specified"
  | dataText {n : Int} {c : Codec} : DataHeld env fs s idx e n → ¬ fs.isBinary → env.codec fs.dataEnc = some c →
    c.decode e.data = none → FieldSentence env fs s idx e py"Failed to decode field, invalid data"

/-- What is said of a message type or bitmap of `w` bytes that starts at `idx`; `old` bytes of its
entry belong to the bitmap before it. -/
inductive FixedSentence (env : PyEnv) (fs : FieldSpec) (s : Bytes) (idx old w : Nat) (bitmap : Prop) : Str → Prop
  /-- The message ends inside. -/
  | short : idx ≤ s.length → s.length < idx + w →
    FixedSentence env fs s idx old w bitmap
      (py"Field data is " ++ natStr (old + (s.length - idx)) ++ py" bytes, expecting " ++ natStr (old + w))
  | codec : idx + w ≤ s.length → ¬ fs.isBinary → env.codec fs.dataEnc = none →
    FixedSentence env fs s idx old w bitmap py"Failed to decode field, unknown encoding specified"
  | text {c : Codec} : idx + w ≤ s.length → ¬ fs.isBinary → env.codec fs.dataEnc = some c →
    c.decode ((s.drop idx).take w) = none →
    FixedSentence env fs s idx old w bitmap py"Failed to decode field, invalid data"
  | notHex {c : Codec} {t : Str} : bitmap → idx + w ≤ s.length → ¬ fs.isBinary → env.codec fs.dataEnc = some c →
    c.decode ((s.drop idx).take w) = some t → fromHex t = none →
    FixedSentence env fs s idx old w bitmap py"Failed to decode field, non-hex data"

/-- What `decode` says of the entry of key `k` that starts at `idx` and of which `e` was read. -/
def DecodeSentence (env : PyEnv) (fs : FieldSpec) (s : Bytes) (idx : Nat) (k : Str) (e : EncEntry) (text : Str) : Prop :=
  if k = py"t" then FixedSentence env fs s idx 0 (typeBytes fs) False text
  else if k = py"p" ∨ k = py"1" then
    FixedSentence env fs s idx 0 (bitmapBytes fs) True text ∨
    FixedSentence env fs s (idx + bitmapBytes fs) (bitmapBytes fs) (bitmapBytes fs) True text
  else FieldSentence env fs s idx e text

/-- Numbers or names, separated as in a Python list of them. -/
inductive Listed : List Str → Str → Prop
  | one {x : Str} : Listed [x] x
  | more {x y : Str} {l : List Str} {t : Str} : Listed (y :: l) t → Listed (x :: y :: l) (x ++ py", " ++ t)

/-- What is said of the value `t` of a field with specification `fs`. -/
inductive ValueSentence (env : PyEnv) (fs : FieldSpec) (t : Str) : Str → Prop
  | codec : ¬ fs.isBinary → env.codec fs.dataEnc = none →
    ValueSentence env fs t py"Failed to encode field, unknown encoding specified"
  | text {c : Codec} : ¬ fs.isBinary → env.codec fs.dataEnc = some c → c.encode t = none →
    ValueSentence env fs t py"Failed to encode field, invalid data"
  | oddNibbles : fs.isBinary → fs.inNibbles → t.length % 2 = 1 → firstPad fs.leftPad = none → firstPad fs.rightPad = none →
    ValueSentence env fs t py"Failed to encode field, odd-length nibble data, specify pad"
  | oddHex : fs.isBinary → ¬ fs.inNibbles → t.length % 2 = 1 →
    ValueSentence env fs t py"Failed to encode field, odd-length hex data"
  /-- A character that is no hex digit, in the value or as its pad. -/
  | notHex {c : Nat} : fs.isBinary → c ∈ paddedDigits fs t → isHexDigit c = false →
    ValueSentence env fs t py"Failed to encode field, non-hex data"
  | fixed {n : Nat} {D : Bytes} : DataWrites env fs (.str t) n D → fs.lenType = 0 → (n : Int) ≠ fs.maxLen →
    ValueSentence env fs t (py"Field data is " ++ natStr n ++ py" " ++ unitName fs ++ py", expecting " ++ intStr fs.maxLen)
  | tooLong {n : Nat} {D : Bytes} : DataWrites env fs (.str t) n D → fs.lenType ≠ 0 → fs.maxLen < n →
    ValueSentence env fs t
      (py"Field data is " ++ natStr n ++ py" " ++ unitName fs ++ py", larger than maximum " ++ intStr fs.maxLen)
  | doesNotFit {n : Nat} {D : Bytes} : DataWrites env fs (.str t) n D → fs.lenType ≠ 0 → (n : Int) ≤ fs.maxLen →
    (fs.lenEnc = py"b" ∨ fs.lenEnc = py"bcd" → capacity fs ≤ n) →
    (¬ (fs.lenEnc = py"b" ∨ fs.lenEnc = py"bcd") →
      ∃ c L, env.codec fs.lenEnc = some c ∧ c.encode (zeroPad fs.lenType n) = some L ∧ fs.lenType < L.length) →
    ValueSentence env fs t py"Failed to encode field length, field length does not fit into configured field size"
  | prefixCodec : fs.lenType ≠ 0 → fs.textLen → env.codec fs.lenEnc = none →
    ValueSentence env fs t py"Failed to encode field length, unknown encoding specified"
  /-- Here Python's own explanation follows, which is not modelled. -/
  | prefixText {n : Nat} {D : Bytes} {c : Codec} : DataWrites env fs (.str t) n D → fs.lenType ≠ 0 → fs.textLen →
    env.codec fs.lenEnc = some c → c.encode (zeroPad fs.lenType n) = none →
    ValueSentence env fs t py"Failed to encode field length, "

/-- What is said of the value `t` of the message type. -/
inductive TypeSentence (env : PyEnv) (fs : FieldSpec) (t : Str) : Str → Prop
  | length {n : Nat} {D : Bytes} : DataWrites env (asType fs) (.str t) n D → n ≠ typeBytes fs →
    TypeSentence env fs t (py"Field data is " ++ natStr n ++ py" bytes, expecting " ++ natStr (typeBytes fs))
  | codec : ¬ fs.isBinary → env.codec fs.dataEnc = none →
    TypeSentence env fs t py"Failed to encode field, unknown encoding specified"
  | text {c : Codec} : ¬ fs.isBinary → env.codec fs.dataEnc = some c → c.encode t = none →
    TypeSentence env fs t py"Failed to encode field, invalid data"
  | oddHex : fs.isBinary → t.length % 2 = 1 → TypeSentence env fs t py"Failed to encode field, odd-length hex data"
  | notHex {c : Nat} : fs.isBinary → c ∈ t → isHexDigit c = false →
    TypeSentence env fs t py"Failed to encode field, non-hex data"

/-- What is said of a bitmap that was to be written as the text `t`. -/
inductive BitmapSentence (env : PyEnv) (fs : FieldSpec) (t : Str) : Str → Prop
  | codec : ¬ fs.isBinary → env.codec fs.dataEnc = none →
    BitmapSentence env fs t py"Failed to encode field, unknown encoding specified"
  | text {c : Codec} : ¬ fs.isBinary → env.codec fs.dataEnc = some c → c.encode t = none →
    BitmapSentence env fs t py"Failed to encode field, invalid data"

/-- What `encode` says of key `k` of the caller's dict, which was `doc` before the call and is `doc'`
after it.  Nothing is claimed about values that are not text. -/
inductive EncodeSentence (env : PyEnv) (spec : Spec) (doc doc' : Doc) : Str → Str → Prop
  | noHeader : hasHeader spec → doc.get? (.str py"h") = none →
    EncodeSentence env spec doc doc' py"h" py"Field data is required according to specifications"
  | noType : doc.get? (.str py"t") = none → EncodeSentence env spec doc doc' py"t" py"Field data is required"
  /-- All numbers out of range, in ascending order. -/
  | range {l : List Int} {t : Str} : l.Pairwise (· < ·) → (∀ x, x ∈ l ↔ Denotes env doc x ∧ (x < 1 ∨ 192 < x)) →
    Listed (l.map intStr) t →
    EncodeSentence env spec doc doc' py"p" (py"Dictionary contains fields outside of 1-192 range [" ++ t ++ py"]")
  /-- All keys that are not strings, in the order of the dict. -/
  | keys {t : Str} : Listed (doc.keys.filterMap fun | .obj r => some r | .str _ => none) t →
    EncodeSentence env spec doc doc' py"p" (py"Dictionary contains invalid fields [" ++ t ++ py"]")
  | type {fs : FieldSpec} {v : Val} {text : Str} : spec.get? py"t" = some fs → doc.get? (.str py"t") = some v →
    (∀ t, v = .str t → TypeSentence env fs t text) → EncodeSentence env spec doc doc' py"t" text
  | bitmap {k : Str} {fs : FieldSpec} {t text : Str} : (k = py"p" ∨ k = py"1") → spec.get? k = some fs → t.length = 16 →
    t <:+ docText doc' k → BitmapSentence env fs t text → EncodeSentence env spec doc doc' k text
  | field {k : Str} {fs : FieldSpec} {v : Val} {text : Str} : k ≠ py"t" → k ≠ py"p" → k ≠ py"1" → spec.get? k = some fs →
    doc.get? (.str k) = some v → (∀ t, v = .str t → ValueSentence env fs t text) → EncodeSentence env spec doc doc' k text

end Iso8583
