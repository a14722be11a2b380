import Verif.Spec.Value
import Verif.Spec.Geometry

/-!
# Words for clouds that have been moved
-/

namespace Spoc.Spec

/-- `q` is exactly `(dx, dy, dz)` away from `p`, both being finite. -/
def Displaced (dx dy dz : ℝ) (p q : Pt F64) : Prop :=
  Fin p ∧ Fin q ∧ q.x.val = p.x.val + dx ∧ q.y.val = p.y.val + dy ∧ q.z.val = p.z.val + dz

/-- A real number that is a double. -/
def IsDouble (q : ℝ) : Prop := ∃ x : F64, x.isFinite = true ∧ x.val = q

end Spoc.Spec
