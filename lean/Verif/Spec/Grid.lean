import Verif.Spec.Value
import Verif.Spec.Numeral
import Mathlib.Data.Real.Basic
import Mathlib.Algebra.Order.Field.Basic

/-!
# Numbers on a binary grid
-/

namespace Spoc.Spec

/-- The number is a multiple of 2^k, less than 2^b of these units in size. -/
def OnGrid (k : ℤ) (b : Nat) (x : F64) : Prop :=
  x.isFinite = true ∧ ∃ m : ℤ, |m| < 2 ^ b ∧ x.val = m * (2 : ℝ) ^ k

/-- The same numeral with the opposite sign. -/
def Numeral.opposite (n : Numeral) : Numeral := { n with sg := if n.sg = ['-'] then [] else ['-'] }

end Spoc.Spec
