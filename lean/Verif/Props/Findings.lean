import Verif.Props.Demo
import Verif.Spec.Encode
/-!
# Surprising behaviour, with witnesses

Where a property carries a hypothesis one might not expect, the program really does behave
differently without it.  Each theorem exhibits an input; the kernel runs the model on it.
-/

namespace Iso8583

/-- A specification without header, in ascii, and with field 2 as given. -/
def oneField (f : FieldSpec) : Spec := [
  (py"h", { dataEnc := py"ascii", lenEnc := py"ascii", lenType := 0, maxLen := 0 }),
  (py"t", { dataEnc := py"ascii", lenEnc := py"ascii", lenType := 0, maxLen := 4 }),
  (py"p", { dataEnc := py"ascii", lenEnc := py"ascii", lenType := 0, maxLen := 16 }),
  (py"1", { dataEnc := py"ascii", lenEnc := py"ascii", lenType := 0, maxLen := 16 }),
  (py"2", f)]

/-- Text as ascii bytes. -/
def ascii (t : Str) : Bytes := t.map Nat.toUInt8

/-- A caller's dict with a message type and field 2. -/
def docWith (v : Val) : Doc := [(.str py"t", .str py"0200"), (.str py"2", v)]

/-- Does the call raise exactly `EncodeError` with this message for this field? -/
def raisesWith (r : Except EncodeExc (Bytes × EncDoc) × Doc) (m : EncMsg) (f : Str) : Bool :=
  match r.1 with
  | .error (.encodeError e) => e.msg = m && e.field = f
  | _ => false

/-! ## What decode accepts -/

/-- A negative length is accepted when it rounds to no bytes: `-1` nibble of text is an empty field
(compare C22: for `b` and `bcd` prefixes lengths are never negative). -/
theorem negative_length_accepted :
    (decode cpython (oneField { dataEnc := py"ascii", lenEnc := py"ascii", lenType := 2, maxLen := 9, lenCount := some py"nibbles" })
      (ascii py"02004000000000000000-1")).map (fun r => (r.1.get? py"2", r.2.get? py"2")) =
      .ok (some [], some ⟨ascii py"-1", []⟩) := by decide +kernel

/-- Length prefixes are read by `int`: `" 3"`, `"+3"` and `"3 "` are as good as `"03"`, so different bytes
decode to the same dict. -/
theorem spelled_lengths_accepted : ∀ L ∈ [py"03", py" 3", py"+3", py"3 "],
    (decode cpython (oneField { dataEnc := py"ascii", lenEnc := py"ascii", lenType := 2, maxLen := 9 })
      (ascii (py"02004000000000000000" ++ L ++ py"abc"))).map (fun r => r.1) =
      .ok [(py"t", py"0200"), (py"p", py"4000000000000000"), (py"2", py"abc")] := by decide +kernel

/-- A text bitmap may contain blanks, which `bytes.fromhex` skips; it then has fewer than 64 bits
(the hypothesis of C09 on white space). -/
theorem blank_bitmap_accepted :
    (decode cpython (oneField { dataEnc := py"ascii", lenEnc := py"ascii", lenType := 0, maxLen := 1 })
      (ascii py"020040 00 00 00 0000X")).map (fun r => r.1) =
      .ok [(py"t", py"0200"), (py"p", py"40 00 00 00 0000"), (py"2", py"X")] := by decide +kernel

/-- A secondary bitmap without any bit is accepted (encode never sends one for canonical keys, C11). -/
theorem empty_secondary_accepted :
    (decode cpython (oneField { dataEnc := py"ascii", lenEnc := py"ascii", lenType := 0, maxLen := 1 })
      (ascii py"0200C0000000000000000000000000000000X")).map (fun r => r.1) =
      .ok [(py"t", py"0200"), (py"p", py"C000000000000000"), (py"1", py"0000000000000000"), (py"2", py"X")] := by decide +kernel

/-- An unknown encoding goes unnoticed while the field is empty; the same dict cannot be encoded. -/
theorem unknown_encoding_unnoticed :
    (decode cpython (oneField { dataEnc := py"nope", lenEnc := py"ascii", lenType := 1, maxLen := 1 })
      (ascii py"020040000000000000000")).map (fun r => r.1) =
      .ok [(py"t", py"0200"), (py"p", py"4000000000000000"), (py"2", [])] ∧
    raisesWith (encode cpython (oneField { dataEnc := py"nope", lenEnc := py"ascii", lenType := 1, maxLen := 1 }) (docWith (.str [])))
      .unknownEncoding py"2" = true := by decide +kernel

/-- Text counted in nibbles may have an odd count on the wire, which encode never writes and does
not write back. -/
theorem odd_text_nibbles :
    (decode cpython (oneField { dataEnc := py"ascii", lenEnc := py"ascii", lenType := 1, maxLen := 3, lenCount := some py"nibbles" })
      (ascii py"020040000000000000003ab")).map (fun r => r.1.get? py"2") = .ok (some py"ab") ∧
    raisesWith (encode cpython (oneField { dataEnc := py"ascii", lenEnc := py"ascii", lenType := 1, maxLen := 3, lenCount := some py"nibbles" })
      (docWith (.str py"ab"))) (.tooLong 4 py"nibbles" 3) py"2" = true := by decide +kernel

/-! ## What encode accepts -/

/-- The key `'065'` denotes 65: encode sends empty secondary and tertiary bitmaps. -/
theorem key_065_sends_empty_bitmaps :
    (encode cpython (oneField { dataEnc := py"ascii", lenEnc := py"ascii", lenType := 0, maxLen := 1 })
      [(.str py"t", .str py"0200"), (.str py"065", .unsized)]).1.map (fun r => r.1) =
      .ok (ascii (py"02008000000000000000" ++ py"8000000000000000" ++ py"0000000000000000")) := by decide +kernel

/-- The width of the message type is counted in bytes: two characters of two bytes each pass. -/
theorem type_width_in_bytes :
    (encode cpython ((oneField { dataEnc := py"ascii", lenEnc := py"ascii", lenType := 0, maxLen := 1 }).set py"t"
        { dataEnc := py"utf-8", lenEnc := py"ascii", lenType := 0, maxLen := 4 })
      [(.str py"t", .str [233, 233])]).1.map (fun r => r.1.take 4) = .ok [0xC3, 0xA9, 0xC3, 0xA9] := by decide +kernel

/-- A pad that is not a single hex digit is only noticed on odd data, and as non-hex data. -/
theorem bad_pad_noticed_late :
    (encode cpython (oneField { dataEnc := py"b", lenEnc := py"b", lenType := 1, maxLen := 9, lenCount := some py"nibbles", leftPad := some py"?" })
      (docWith (.str py"1234"))).1.map (fun r => r.2.get? py"2") = .ok (some ⟨[4], [0x12, 0x34]⟩) ∧
    raisesWith (encode cpython (oneField { dataEnc := py"b", lenEnc := py"b", lenType := 1, maxLen := 9, lenCount := some py"nibbles", leftPad := some py"?" })
      (docWith (.str py"123"))) .nonHex py"2" = true := by decide +kernel

/-- A failed encode has already dropped the old secondary bitmap from the caller's dict and written
the new primary one (C59 says when exactly). -/
theorem failed_encode_changes_dict :
    (encode cpython (oneField { dataEnc := py"ascii", lenEnc := py"ascii", lenType := 0, maxLen := 1 })
      [(.str py"t", .str py"0200"), (.str py"1", .str py"old"), (.str py"2", .str py"too long")]).2 =
      [(.str py"t", .str py"0200"), (.str py"2", .str py"too long"), (.str py"p", .str py"4000000000000000")] := by decide +kernel

/-! ## Exceptions that are neither `EncodeError` nor about the specification -/

/-- `'²'` is numeric for `str.isnumeric` and not a number for `int`: `ValueError`. -/
theorem superscript_key : (encode cpython (oneField { dataEnc := py"ascii", lenEnc := py"ascii", lenType := 0, maxLen := 1 })
    [(.str py"t", .str py"0200"), (.str [178], .str py"x")]).1 = .error .valueError := by decide +kernel

/-- `'02'` is taken for field 2 and then not found: `KeyError`. -/
theorem leading_zero_key : (encode cpython (oneField { dataEnc := py"ascii", lenEnc := py"ascii", lenType := 0, maxLen := 1 })
    [(.str py"t", .str py"0200"), (.str py"02", .str py"x")]).1 = .error (.keyError py"2") := by decide +kernel

/-- `None` in a binary field: `TypeError`, or `UnboundLocalError` when counted in nibbles. -/
theorem none_value :
    (encode cpython (oneField { dataEnc := py"b", lenEnc := py"b", lenType := 1, maxLen := 9 }) (docWith .unsized)).1 = .error .typeError ∧
    (encode cpython (oneField { dataEnc := py"b", lenEnc := py"b", lenType := 1, maxLen := 9, lenCount := some py"nibbles" })
      (docWith .unsized)).1 = .error .unboundLocal := by decide +kernel

/-- A decimal key with more digits than `int` converts: `ValueError` instead of "outside of 1-192
range" (the hypothesis of C25 on the number of digits; 640 is the smallest limit CPython takes). -/
theorem huge_key : (encode { cpython with maxStrDigits := 640 } (oneField { dataEnc := py"ascii", lenEnc := py"ascii", lenType := 0, maxLen := 1 })
    [(.str py"t", .str py"0200"), (.str (List.replicate 641 49), .str py"x")]).1 = .error .valueError := by decide +kernel

/-! ## Codecs that do not write one byte per digit -/

/-- Two bytes per character, as in `utf-16-le`. -/
def twoByteCodec : Codec where
  encode t := some (t.flatMap fun c => [UInt8.ofNat (c % 256), UInt8.ofNat (c / 256)])
  decode b := if b.length % 2 = 1 then none else some ((List.range (b.length / 2)).map fun i =>
    (b.getD (2 * i) 0).toNat + 256 * (b.getD (2 * i + 1) 0).toNat)

/-- Each byte is read as two characters, its hex digits; digits are written packed. -/
def packedCodec : Codec where
  encode t := a2bHex t
  decode b := some (upperAscii (bytesHex b))

/-- The runtime with these two codecs added. -/
def wideEnv : PyEnv := { cpython with codec := fun n => if n = py"wide" then some twoByteCodec else if n = py"packed" then some packedCodec else cpython.codec n }

/-- The specification with the bitmap encoding `e`. -/
def bitmapIn (e : Str) : Spec :=
  ((oneField { dataEnc := py"ascii", lenEnc := py"ascii", lenType := 0, maxLen := 1 }).set py"p"
    { dataEnc := e, lenEnc := py"ascii", lenType := 0, maxLen := 16 })

/-- encode does not check the width of a text bitmap: in two-byte characters it sends 32 bytes, and
decode, which takes 16, cannot read the message (the hypothesis of C01 on bitmap codecs). -/
theorem wide_bitmap_unreadable :
    ∃ s enc doc', encode wideEnv (bitmapIn py"wide") (docWith (.str py"X")) = (.ok (s, enc), doc') ∧ s.length = 37 ∧
      ∃ e, decode wideEnv (bitmapIn py"wide") s = .error (.decodeError e) :=
  ⟨_, _, _, rfl, by decide +kernel, _, rfl⟩

/-- A bitmap codec that reads two digits from each byte gives a primary bitmap of 128 bits: fields
above 64 without a secondary bitmap (the hypothesis of C09 and C24 on bitmap codecs). -/
theorem wide_bitmap_read :
    (decode wideEnv ((bitmapIn py"packed").set py"66" { dataEnc := py"ascii", lenEnc := py"ascii", lenType := 0, maxLen := 1 })
      (ascii py"0200" ++ [0, 0, 0, 0, 0, 0, 0, 0, 0x40, 0, 0, 0, 0, 0, 0, 0] ++ ascii py"X")).map (fun r => r.1.keys) =
      .ok [py"t", py"p", py"66"] := by decide +kernel

/-- The width of a text length prefix is only checked from above: packed digits are half as wide as
configured, and decode cannot read the message (the hypothesis of C19 on prefix codecs). -/
theorem narrow_prefix_unreadable :
    ∃ s enc doc', encode wideEnv (oneField { dataEnc := py"ascii", lenEnc := py"packed", lenType := 2, maxLen := 9 }) (docWith (.str py"abc")) =
        (.ok (s, enc), doc') ∧ (enc.get? py"2").map (fun e => e.len) = some [0x03] ∧
      ∃ e, decode wideEnv (oneField { dataEnc := py"ascii", lenEnc := py"packed", lenType := 2, maxLen := 9 }) s = .error (.decodeError e) :=
  ⟨_, _, _, rfl, by decide +kernel, _, rfl⟩

end Iso8583
