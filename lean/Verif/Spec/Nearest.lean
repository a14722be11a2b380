import Verif.Spec.Numeral
import Verif.Spec.Value
import Mathlib.Data.Real.Basic
import Mathlib.Algebra.Order.Field.Basic

/-!
# Nearest doubles

Infinities count as ±2^1024 here, which is how IEEE 754 decides on overflow.
-/

namespace Spoc.Spec

/-- `y` is a double nearest to `q`. -/
def Nearest (y : F64) (q : ℝ) : Prop :=
  y.isNaN = false ∧ ∀ z : F64, z.isNaN = false → |y.val - q| ≤ |z.val - q|

/-- `y` is the only double nearest to `q` (up to the sign of zero). -/
def StrictlyNearest (y : F64) (q : ℝ) : Prop :=
  y.isNaN = false ∧ ∀ z : F64, z.isNaN = false → z.val ≠ y.val → |y.val - q| < |z.val - q|

/-- The real number a numeral stands for. -/
noncomputable def Numeral.value (n : Numeral) : ℝ :=
  (if n.negative then -1 else 1) * n.mantissa * (10 : ℝ) ^ n.exponent

/-- The absolute value is a power of two. -/
def PowerOfTwo (x : F64) : Prop := ∃ k : ℤ, |x.val| = (2 : ℝ) ^ k

/-- The number has a representation with at most `P` significant decimal digits, or is the only double nearest to
a number with such a representation and no power of two. -/
def Digits (P : Nat) (x : F64) : Prop :=
  x.isFinite = true ∧ ∃ (m : ℤ) (j : ℤ), |m| < 10 ^ P ∧
    (x.val = m * (10 : ℝ) ^ j ∨ (¬ PowerOfTwo x ∧ StrictlyNearest x (m * (10 : ℝ) ^ j)))

end Spoc.Spec
