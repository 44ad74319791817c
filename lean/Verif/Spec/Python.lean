import Verif.Spec.Basic
/-!
# Python's own functions, as the Python reference describes them

`int`, `str`, zero-padded formatting, `bytes.fromhex` and slices appear in the statements of other
properties by the name of their model.  Here is what they do in other words, as grammars.
-/

namespace Iso8583

/-! ## `int(text)` -/

/-- White space `int` skips: ASCII white space, or what `str.isspace` accepts beyond ASCII. -/
def Blank (env : PyEnv) (c : Nat) : Prop := c = 32 ∨ (9 ≤ c ∧ c ≤ 13) ∨ (127 ≤ c ∧ env.isSpaceCp c = true)

/-- The character is a decimal digit worth `d`: ASCII, or Unicode (category Nd). -/
def DigitOf (env : PyEnv) (c d : Nat) : Prop :=
  (48 ≤ c ∧ c ≤ 57 ∧ d = c - 48) ∨ (127 ≤ c ∧ env.isSpaceCp c = false ∧ env.decimalCp c = some d)

/-- `digitpart` of the Python grammar: digits, with single underscores allowed between them. -/
inductive DigitPart (env : PyEnv) : Str → List Nat → Prop
  | last {c d : Nat} : DigitOf env c d → DigitPart env [c] [d]
  | next {c d : Nat} {t : Str} {ds : List Nat} : DigitOf env c d → DigitPart env t ds → DigitPart env (c :: t) (d :: ds)
  | under {c d : Nat} {t : Str} {ds : List Nat} : DigitOf env c d → DigitPart env t ds → DigitPart env (c :: 95 :: t) (d :: ds)

/-- The number written with these decimal digits. -/
def digitsValue : List Nat → Nat
  | [] => 0
  | d :: t => d * 10 ^ t.length + digitsValue t

/-- The text `int` reads as `n`: white space, a sign, digits, white space; not more digits than the
interpreter allows. -/
def IntText (env : PyEnv) (t : Str) (n : Int) : Prop :=
  ∃ pre sign body post ds, t = pre ++ sign ++ body ++ post ∧ (∀ c ∈ pre, Blank env c) ∧ (∀ c ∈ post, Blank env c) ∧
    DigitPart env body ds ∧ (env.maxStrDigits = 0 ∨ ds.length ≤ env.maxStrDigits) ∧
    (((sign = [] ∨ sign = py"+") ∧ n = digitsValue ds) ∨ (sign = py"-" ∧ n = -digitsValue ds))

/-- Decimal digits are worth at most nine: true of the Unicode database. -/
def SaneDigits (env : PyEnv) : Prop := ∀ c d, env.decimalCp c = some d → d < 10

/-! ## Decimal numerals -/

/-- ASCII decimal digits denoting `n`. -/
def Numeral (t : Str) (n : Nat) : Prop := t ≠ [] ∧ (∀ c ∈ t, 48 ≤ c ∧ c ≤ 57) ∧ digitsValue (t.map (· - 48)) = n

/-- `str(n)`: the numeral of `n` without a leading zero, unless `n` is zero. -/
def Shortest (t : Str) (n : Nat) : Prop := Numeral t n ∧ (t.head? = some 48 → t = py"0")

/-! ## `bytes.fromhex(text)` -/

/-- The character is a hex digit of either case, worth `x`. -/
def HexDigit (c x : Nat) : Prop :=
  ((48 ≤ c ∧ c ≤ 57) ∨ (65 ≤ c ∧ c ≤ 70) ∨ (97 ≤ c ∧ c ≤ 102)) ∧ x = hexDigitValue c

/-- Pairs of hex digits, with ASCII white space allowed around the pairs but not inside. -/
inductive HexBytes : Str → Bytes → Prop
  | done {w : Str} : (∀ c ∈ w, c = 32 ∨ (9 ≤ c ∧ c ≤ 13)) → HexBytes w []
  | byte {w t : Str} {a c x y : Nat} {b : Bytes} : (∀ c ∈ w, c = 32 ∨ (9 ≤ c ∧ c ≤ 13)) → HexDigit a x → HexDigit c y →
      HexBytes t b → HexBytes (w ++ a :: c :: t) (UInt8.ofNat (16 * x + y) :: b)

/-! ## Hexadecimal without white space: `binascii.a2b_hex(text)`, `data.hex()` -/

/-- Pairs of hex digits and nothing else. -/
inductive HexPairs : Str → Bytes → Prop
  | nil : HexPairs [] []
  | byte {t : Str} {a c x y : Nat} {b : Bytes} : HexDigit a x → HexDigit c y → HexPairs t b →
      HexPairs (a :: c :: t) (UInt8.ofNat (16 * x + y) :: b)

end Iso8583
