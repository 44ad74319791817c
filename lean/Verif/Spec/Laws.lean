import Verif.Model.Py
/-!
# Laws of the runtime

What the theorems assume about text codecs and the runtime, where they assume anything.
-/

namespace Iso8583

/-- A hex digit, either case. -/
def isHexDigit (c : Nat) : Bool := (48 ≤ c && c ≤ 57) || (65 ≤ c && c ≤ 70) || (97 ≤ c && c ≤ 102)

/-- An upper-case hex digit. -/
def isUpperHexDigit (c : Nat) : Bool := (48 ≤ c && c ≤ 57) || (65 ≤ c && c ≤ 70)

namespace Codec

/-- Decoding undoes encoding, and only the empty text is written as no bytes. -/
structure RoundTrips (c : Codec) : Prop where
  decode_encode : ∀ s b, c.encode s = some b → c.decode b = some s
  nonempty : ∀ s, c.encode s = some [] → s = []

/-- Text made of hex digits is always encodable, one byte per digit. -/
def WritesHexDigits (c : Codec) : Prop :=
  ∀ s : Str, (∀ x ∈ s, isHexDigit x = true) → ∃ b, c.encode s = some b ∧ b.length = s.length

/-- Hex digits are read from one byte each. -/
def ReadsHexDigits (c : Codec) : Prop :=
  ∀ b s, c.decode b = some s → (∀ x ∈ s, isHexDigit x = true) → s.length = b.length

/-- Decoding never yields more characters than bytes. -/
def Bounded (c : Codec) : Prop := ∀ b s, c.decode b = some s → s.length ≤ b.length

/-- Encoding undoes decoding: every byte string that is read is written back identically. -/
def Canonical (c : Codec) : Prop := ∀ b s, c.decode b = some s → c.encode s = some b

end Codec

end Iso8583
