import Verif.Model.Stream
/-!
# Vocabulary for `pp` on arbitrary streams (C67)
-/

namespace Iso8583

/-- Hand the texts to `write` one after the other; stop at the first exception. -/
def feed {ε σ : Type} (w : Writer ε σ) : List Str → σ → Except ε Unit × σ
  | [], s => (.ok (), s)
  | t :: ts, s => match w t s with
    | (.ok _, s') => feed w ts s'
    | (.error e, s') => (.error e, s')

/-- A stream that remembers the texts of all calls, the failing one included. `fails` decides,
from the texts of the calls before, what the next call raises. -/
def recorder {ε : Type} (fails : List Str → Option ε) : Writer ε (List Str) := fun t seen =>
  (match fails seen with
   | none => .ok ()
   | some e => .error e, seen ++ [t])

/-- The width `int()` makes of the argument: an `int` itself, the number a `str` spells, the whole
part of a `float`. -/
inductive WidthSays (env : PyEnv) : PpWidth → Int → Prop
  | int (n : Int) : WidthSays env (.int n) n
  | str {s : Str} {n : Int} : pyInt env s = some n → WidthSays env (.str s) n
  | whole (m : Int) (e : Nat) : WidthSays env (.float m e) (m * 2 ^ e)
  | down {m n : Int} {e : Nat} : 0 ≤ m → n * 2 ^ e ≤ m → m < (n + 1) * 2 ^ e → WidthSays env (.float m (-e)) n
  | up {m n : Int} {e : Nat} : m < 0 → (n - 1) * 2 ^ e < m → m ≤ n * 2 ^ e → WidthSays env (.float m (-e)) n

/-- What `int()` raises for the argument. -/
inductive WidthRefused (env : PyEnv) (ε : Type) : PpWidth → StreamRaise ε → Prop
  | str {s : Str} : pyInt env s = none → WidthRefused env ε (.str s) .widthValue
  | nan : WidthRefused env ε .nan .widthValue
  | inf : WidthRefused env ε .inf .widthOverflow
  | other : WidthRefused env ε .other .widthType

end Iso8583
