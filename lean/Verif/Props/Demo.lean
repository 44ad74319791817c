import Verif.Model.Codecs
import Verif.Model.Encoder
/-!
# A worked message

A specification, a message and its two dicts that exercise a header, a binary type, a binary and
a text bitmap, a tertiary bitmap, all three kinds of length prefix, nibbles with a pad and two
text codecs.  The examples beside the theorems use them.
-/

namespace Iso8583

deriving instance DecidableEq for Except

/-- A specification with a bit of everything. -/
def demoSpec : Spec := [
  (py"h", { dataEnc := py"ascii", lenEnc := py"ascii", lenType := 0, maxLen := 3 }),
  (py"t", { dataEnc := py"b", lenEnc := py"ascii", lenType := 0, maxLen := 2 }),
  (py"p", { dataEnc := py"b", lenEnc := py"ascii", lenType := 0, maxLen := 8 }),
  (py"1", { dataEnc := py"ascii", lenEnc := py"ascii", lenType := 0, maxLen := 16 }),
  (py"2", { dataEnc := py"ascii", lenEnc := py"bcd", lenType := 1, maxLen := 19 }),
  (py"3", { dataEnc := py"b", lenEnc := py"b", lenType := 1, maxLen := 9, lenCount := some py"nibbles", leftPad := some py"0" }),
  (py"70", { dataEnc := py"cp500", lenEnc := py"cp500", lenType := 2, maxLen := 10 }),
  (py"130", { dataEnc := py"b", lenEnc := py"ascii", lenType := 0, maxLen := 2 })]

/-- The encoded dict of the message. -/
def demoEnc : EncDoc := [
  (py"h", ⟨[], [0x48, 0x44, 0x52]⟩),
  (py"t", ⟨[], [0x02, 0x00]⟩),
  (py"p", ⟨[], [0xE0, 0, 0, 0, 0, 0, 0, 0]⟩),
  (py"1", ⟨[], [0x38, 0x34, 0x30, 0x30, 0x30, 0x30, 0x30, 0x30, 0x30, 0x30, 0x30, 0x30, 0x30, 0x30, 0x30, 0x30,
                0x34, 0x30, 0x30, 0x30, 0x30, 0x30, 0x30, 0x30, 0x30, 0x30, 0x30, 0x30, 0x30, 0x30, 0x30, 0x30]⟩),
  (py"2", ⟨[0x05], [0x31, 0x32, 0x33, 0x34, 0x35]⟩),
  (py"3", ⟨[0x03], [0x0A, 0xBC]⟩),
  (py"70", ⟨[0xF0, 0xF3], [0xA7, 0xA8, 0xA9]⟩),
  (py"130", ⟨[], [0xBE, 0xEF]⟩)]

/-- The bytes of the message. -/
def demoMsg : Bytes :=
  [0x48, 0x44, 0x52, 0x02, 0x00, 0xE0, 0, 0, 0, 0, 0, 0, 0,
   0x38, 0x34, 0x30, 0x30, 0x30, 0x30, 0x30, 0x30, 0x30, 0x30, 0x30, 0x30, 0x30, 0x30, 0x30, 0x30,
   0x34, 0x30, 0x30, 0x30, 0x30, 0x30, 0x30, 0x30, 0x30, 0x30, 0x30, 0x30, 0x30, 0x30, 0x30, 0x30,
   0x05, 0x31, 0x32, 0x33, 0x34, 0x35, 0x03, 0x0A, 0xBC, 0xF0, 0xF3, 0xA7, 0xA8, 0xA9, 0xBE, 0xEF]

/-- The decoded dict of the message. -/
def demoDec : DecDoc := [
  (py"h", py"HDR"), (py"t", py"0200"), (py"p", py"E000000000000000"),
  (py"1", py"84000000000000004000000000000000"),
  (py"2", py"12345"), (py"3", py"ABC"), (py"70", py"xyz"), (py"130", py"BEEF")]

theorem demo_decode : decode cpython demoSpec demoMsg = .ok (demoDec, demoEnc) := by decide +kernel

/-- What a caller passes to `encode`: keys in no particular order, a lower-case hex digit, a stale
secondary bitmap and a key that is not a field. -/
def demoDoc : Doc := [
  (.str py"70", .str py"xyz"), (.str py"1", .str py"stale"), (.str py"3", .str py"aBC"), (.str py"t", .str py"0200"),
  (.str py"note", .unsized), (.str py"130", .str py"BEEF"), (.str py"2", .str py"12345"), (.str py"h", .str py"HDR")]

/-- The caller's dict after `encode`. -/
def demoDocAfter : Doc := [
  (.str py"70", .str py"xyz"), (.str py"3", .str py"aBC"), (.str py"t", .str py"0200"),
  (.str py"note", .unsized), (.str py"130", .str py"BEEF"), (.str py"2", .str py"12345"), (.str py"h", .str py"HDR"),
  (.str py"p", .str py"E000000000000000"), (.str py"1", .str py"84000000000000004000000000000000")]

theorem demo_encode : encode cpython demoSpec demoDoc = (.ok (demoMsg, demoEnc), demoDocAfter) := by decide +kernel

end Iso8583
