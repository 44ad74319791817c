import Verif.Model.Py
/-!
# Concrete text codecs and a concrete runtime

`ascii`, `latin-1`, `cp500`, `cp037` and `utf-8` as CPython implements them in strict mode
(`specs.py` names `ascii` in the shipped specifications; the documentation in `specs.py:18-97`
and `/repo/docs` uses `cp500`, `latin-1`).  Not code of the repository; used to show that the
codec laws assumed by the theorems are met, and in the concrete examples.
-/

namespace Iso8583

/-- Encode character by character; `none` if any character has no encoding. -/
def encodeChars (f : Nat → Option UInt8) : Str → Option Bytes
  | [] => some []
  | c :: t => match f c, encodeChars f t with
    | some b, some r => some (b :: r)
    | _, _ => none

/-- Decode byte by byte; `none` if any byte is undefined. -/
def decodeBytes (f : UInt8 → Option Nat) : Bytes → Option Str
  | [] => some []
  | b :: t => match f b, decodeBytes f t with
    | some c, some r => some (c :: r)
    | _, _ => none

/-- `"ascii"`: code points below 128. -/
def asciiCodec : Codec where
  encode := encodeChars fun c => if c < 128 then some (UInt8.ofNat c) else none
  decode := decodeBytes fun b => if b.toNat < 128 then some b.toNat else none

/-- `"latin-1"`: code points below 256. -/
def latin1Codec : Codec where
  encode := encodeChars fun c => if c < 256 then some (UInt8.ofNat c) else none
  decode := decodeBytes fun b => some b.toNat

/-- Position of the first occurrence in a table. -/
def tableIndex : List Nat → Nat → Option Nat
  | [], _ => none
  | x :: t, c => if x = c then some 0 else (tableIndex t c).map (· + 1)

/-- A single-byte codec given by its decoding table. -/
def charmapCodec (table : List Nat) : Codec where
  encode := encodeChars fun c => (tableIndex table c).map UInt8.ofNat
  decode := decodeBytes fun b => table[b.toNat]?

/-- CPython `encodings/cp500.py` `decoding_table`. -/
def cp500Table : List Nat := [
  0, 1, 2, 3, 156, 9, 134, 127, 151, 141, 142, 11, 12, 13, 14, 15,
  16, 17, 18, 19, 157, 133, 8, 135, 24, 25, 146, 143, 28, 29, 30, 31,
  128, 129, 130, 131, 132, 10, 23, 27, 136, 137, 138, 139, 140, 5, 6, 7,
  144, 145, 22, 147, 148, 149, 150, 4, 152, 153, 154, 155, 20, 21, 158, 26,
  32, 160, 226, 228, 224, 225, 227, 229, 231, 241, 91, 46, 60, 40, 43, 33,
  38, 233, 234, 235, 232, 237, 238, 239, 236, 223, 93, 36, 42, 41, 59, 94,
  45, 47, 194, 196, 192, 193, 195, 197, 199, 209, 166, 44, 37, 95, 62, 63,
  248, 201, 202, 203, 200, 205, 206, 207, 204, 96, 58, 35, 64, 39, 61, 34,
  216, 97, 98, 99, 100, 101, 102, 103, 104, 105, 171, 187, 240, 253, 254, 177,
  176, 106, 107, 108, 109, 110, 111, 112, 113, 114, 170, 186, 230, 184, 198, 164,
  181, 126, 115, 116, 117, 118, 119, 120, 121, 122, 161, 191, 208, 221, 222, 174,
  162, 163, 165, 183, 169, 167, 182, 188, 189, 190, 172, 124, 175, 168, 180, 215,
  123, 65, 66, 67, 68, 69, 70, 71, 72, 73, 173, 244, 246, 242, 243, 245,
  125, 74, 75, 76, 77, 78, 79, 80, 81, 82, 185, 251, 252, 249, 250, 255,
  92, 247, 83, 84, 85, 86, 87, 88, 89, 90, 178, 212, 214, 210, 211, 213,
  48, 49, 50, 51, 52, 53, 54, 55, 56, 57, 179, 219, 220, 217, 218, 159]

/-- CPython `encodings/cp037.py` `decoding_table`. -/
def cp037Table : List Nat := [
  0, 1, 2, 3, 156, 9, 134, 127, 151, 141, 142, 11, 12, 13, 14, 15,
  16, 17, 18, 19, 157, 133, 8, 135, 24, 25, 146, 143, 28, 29, 30, 31,
  128, 129, 130, 131, 132, 10, 23, 27, 136, 137, 138, 139, 140, 5, 6, 7,
  144, 145, 22, 147, 148, 149, 150, 4, 152, 153, 154, 155, 20, 21, 158, 26,
  32, 160, 226, 228, 224, 225, 227, 229, 231, 241, 162, 46, 60, 40, 43, 124,
  38, 233, 234, 235, 232, 237, 238, 239, 236, 223, 33, 36, 42, 41, 59, 172,
  45, 47, 194, 196, 192, 193, 195, 197, 199, 209, 166, 44, 37, 95, 62, 63,
  248, 201, 202, 203, 200, 205, 206, 207, 204, 96, 58, 35, 64, 39, 61, 34,
  216, 97, 98, 99, 100, 101, 102, 103, 104, 105, 171, 187, 240, 253, 254, 177,
  176, 106, 107, 108, 109, 110, 111, 112, 113, 114, 170, 186, 230, 184, 198, 164,
  181, 126, 115, 116, 117, 118, 119, 120, 121, 122, 161, 191, 208, 221, 222, 174,
  94, 163, 165, 183, 169, 167, 182, 188, 189, 190, 91, 93, 175, 168, 180, 215,
  123, 65, 66, 67, 68, 69, 70, 71, 72, 73, 173, 244, 246, 242, 243, 245,
  125, 74, 75, 76, 77, 78, 79, 80, 81, 82, 185, 251, 252, 249, 250, 255,
  92, 247, 83, 84, 85, 86, 87, 88, 89, 90, 178, 212, 214, 210, 211, 213,
  48, 49, 50, 51, 52, 53, 54, 55, 56, 57, 179, 219, 220, 217, 218, 159]

/-- One code point in UTF-8; surrogates and values above 0x10FFFF cannot be encoded. -/
def utf8Char (c : Nat) : Option Bytes :=
  if c < 0x80 then some [UInt8.ofNat c]
  else if c < 0x800 then some [UInt8.ofNat (0xC0 + c / 64), UInt8.ofNat (0x80 + c % 64)]
  else if 0xD800 ≤ c ∧ c < 0xE000 then none
  else if c < 0x10000 then
    some [UInt8.ofNat (0xE0 + c / 4096), UInt8.ofNat (0x80 + c / 64 % 64), UInt8.ofNat (0x80 + c % 64)]
  else if c < 0x110000 then
    some [UInt8.ofNat (0xF0 + c / 262144), UInt8.ofNat (0x80 + c / 4096 % 64),
      UInt8.ofNat (0x80 + c / 64 % 64), UInt8.ofNat (0x80 + c % 64)]
  else none

/-- `str.encode("utf-8")`. -/
def utf8Encode : Str → Option Bytes
  | [] => some []
  | c :: t => match utf8Char c, utf8Encode t with
    | some b, some r => some (b ++ r)
    | _, _ => none

/-- A UTF-8 continuation byte: its six payload bits. -/
def cont? (b : UInt8) : Option Nat := if 0x80 ≤ b.toNat ∧ b.toNat < 0xC0 then some (b.toNat - 0x80) else none

/-- `bytes.decode("utf-8")`: overlong forms, surrogates and values above 0x10FFFF are errors. -/
def utf8Decode : Bytes → Option Str
  | [] => some []
  | a :: t =>
    if a.toNat < 0x80 then (utf8Decode t).map (a.toNat :: ·)
    else if a.toNat < 0xC2 then none
    else if a.toNat < 0xE0 then
      match t with
      | b :: t => match cont? b with
        | some y => (utf8Decode t).map (((a.toNat - 0xC0) * 64 + y) :: ·)
        | none => none
      | _ => none
    else if a.toNat < 0xF0 then
      match t with
      | b :: c :: t => match cont? b, cont? c with
        | some y, some z =>
          let n := (a.toNat - 0xE0) * 4096 + y * 64 + z
          if n < 0x800 ∨ (0xD800 ≤ n ∧ n < 0xE000) then none else (utf8Decode t).map (n :: ·)
        | _, _ => none
      | _ => none
    else if a.toNat < 0xF5 then
      match t with
      | b :: c :: d :: t => match cont? b, cont? c, cont? d with
        | some y, some z, some w =>
          let n := (a.toNat - 0xF0) * 262144 + y * 4096 + z * 64 + w
          if n < 0x10000 ∨ 0x110000 ≤ n then none else (utf8Decode t).map (n :: ·)
        | _, _, _ => none
      | _ => none
    else none

/-- `"utf-8"`. -/
def utf8Codec : Codec := ⟨utf8Encode, utf8Decode⟩

/-- `"cp500"`. -/
def cp500Codec : Codec := charmapCodec cp500Table

/-- `"cp037"`. -/
def cp037Codec : Codec := charmapCodec cp037Table

/-- A concrete runtime: five codecs under their usual names (codec aliases left out), Unicode
properties exact for code points below 256 and "no" above, CPython's default digit limit. -/
def cpython : PyEnv where
  codec name :=
    if name = py"ascii" then some asciiCodec
    else if name = py"latin-1" then some latin1Codec
    else if name = py"cp500" then some cp500Codec
    else if name = py"cp037" then some cp037Codec
    else if name = py"utf-8" then some utf8Codec
    else none
  isNumericCp c := isAsciiDigit c || c == 178 || c == 179 || c == 185 || (188 ≤ c && c ≤ 190)
  decimalCp c := if isAsciiDigit c then some (c - 48) else none
  isSpaceCp c := (9 ≤ c && c ≤ 13) || (28 ≤ c && c ≤ 32) || c == 133 || c == 160
  isPrintableCp c := (32 ≤ c && c ≤ 126) || (161 ≤ c && c ≤ 255 && c != 173)
  maxStrDigits := 4300

end Iso8583
