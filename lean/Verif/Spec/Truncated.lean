import Mathlib.Data.Real.Basic
import Mathlib.Algebra.Order.Group.Abs

/-!
# Cutting off the digits behind the point
-/

namespace Spoc.Spec

/-- `k` is `v` without its fraction: the whole number of at most the magnitude of `v` whose distance from `v` is less than one.
There is none if `v ≤ -1`. -/
def Truncated (v : ℝ) (k : Nat) : Prop := (k : ℝ) ≤ |v| ∧ |v - k| < 1

end Spoc.Spec
