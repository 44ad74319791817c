import Verif.Spec.DecodeFault
import Verif.Spec.Python
/-!
# Numbers an interpreter can print
-/

namespace Iso8583

/-- `n` has no more decimal digits than the interpreter converts. -/
def Short (env : PyEnv) (n : Nat) : Prop := env.maxStrDigits = 0 ∨ n < 10 ^ env.maxStrDigits

/-- The numbers of the specification are short. -/
def ShortSpec (env : PyEnv) (spec : Spec) : Prop :=
  ∀ k fs, spec.get? k = some fs → Short env fs.maxLen.natAbs ∧ Short env fs.lenType

/-- Every number a binary length prefix can hold is short. -/
def ShortPrefixes (env : PyEnv) (spec : Spec) : Prop :=
  ∀ k fs, spec.get? k = some fs → fs.lenEnc = py"b" → Short env (256 ^ fs.lenType - 1)

end Iso8583
