import Verif.Spec.Rotation
import Verif.Model.Point

/-!
# The area and the volume of the box around a cloud

In real arithmetic, without reference to the functions of the library.
-/

namespace Spoc.Spec

/-- `lo` and `hi` are the smallest and the largest of the values. -/
def Spans (xs : List F64) (lo hi : ℝ) : Prop :=
  (∃ x ∈ xs, x.val = lo) ∧ (∃ x ∈ xs, x.val = hi) ∧ ∀ x ∈ xs, lo ≤ x.val ∧ x.val ≤ hi

/-- `A` is the area of the smallest box, parallel to the axes, that contains the points seen from above. -/
def BoxArea (ps : List PointRecord) (A : ℝ) : Prop :=
  ∃ x0 x1 y0 y1, Spans (ps.map (·.x)) x0 x1 ∧ Spans (ps.map (·.y)) y0 y1 ∧ A = (x1 - x0) * (y1 - y0)

/-- `V` is the volume of the smallest box, parallel to the axes, that contains the points, and `H` is its height. -/
def BoxVolume (ps : List PointRecord) (H V : ℝ) : Prop :=
  ∃ x0 x1 y0 y1 z0 z1, Spans (ps.map (·.x)) x0 x1 ∧ Spans (ps.map (·.y)) y0 y1 ∧ Spans (ps.map (·.z)) z0 z1
    ∧ H = z1 - z0 ∧ V = (x1 - x0) * (y1 - y0) * (z1 - z0)

end Spoc.Spec
