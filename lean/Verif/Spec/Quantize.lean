import Verif.Spec.Value
import Verif.Spec.Geometry

/-!
# Specification of quantisation
-/

namespace Spoc.Spec

/-- Can be quantised: a finite number whose quotient by the precision is in the range of `int`, and which is not
larger than half of the largest double. -/
def Quantisable (precision x : F64) : Prop :=
  x.isFinite = true ∧ -(2 ^ 31) * precision.fv ≤ x.fv ∧ x.fv ≤ (2 ^ 31 - 1) * precision.fv
    ∧ 2 * |x.fv| ≤ F64.maxVal.fv

/-- `y` is `x` rounded to the grid, up to rounding: it is finite, it is not on the other side of zero, it is not
further away from zero than `x` by more than a millionth of a step, it is not closer to zero than `x` by
more than a step and a millionth, and it is a multiple of the step up to the rounding of one product. -/
def Quantised (precision x y : F64) : Prop :=
  y.isFinite = true ∧ (0 ≤ x.fv → 0 ≤ y.fv) ∧ (x.fv ≤ 0 → y.fv ≤ 0)
    ∧ |y.val| ≤ |x.val| + precision.val / 2 ^ 20
    ∧ |x.val| < |y.val| + precision.val + precision.val / 2 ^ 20
    ∧ ∃ n : Int, 2 ^ 53 * |y.val - n * precision.val| ≤ |n * precision.val|

/-- All three coordinates. -/
def OnPoint (R : F64 → F64 → Prop) (p q : Pt F64) : Prop := R p.x q.x ∧ R p.y q.y ∧ R p.z q.z

end Spoc.Spec
