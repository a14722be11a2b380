import Verif.Spec.Displaced

/-!
# Words for clouds whose unit of length has been changed
-/

namespace Spoc.Spec

/-- The coordinates of `q` are exactly `s` times those of `p`, all being finite. -/
def Scaled (s : ℝ) (p q : Pt F64) : Prop :=
  Fin p ∧ Fin q ∧ q.x.val = s * p.x.val ∧ q.y.val = s * p.y.val ∧ q.z.val = s * p.z.val

/-- The differences of the coordinates of any two points are doubles. -/
def ExactDifferences {α : Type} [HasXYZ α] (ps : List α) : Prop :=
  ∀ p ∈ ps, ∀ q ∈ ps, IsDouble ((pt p).x.val - (pt q).x.val) ∧ IsDouble ((pt p).y.val - (pt q).y.val) ∧ IsDouble ((pt p).z.val - (pt q).z.val)

/-- No difference of the coordinates of two points is larger than the largest double. -/
def BoundedDifferences {α : Type} [HasXYZ α] (ps : List α) : Prop :=
  ∀ p ∈ ps, ∀ q ∈ ps, |(pt p).x.val - (pt q).x.val| ≤ F64.maxVal.val ∧ |(pt p).y.val - (pt q).y.val| ≤ F64.maxVal.val
    ∧ |(pt p).z.val - (pt q).z.val| ≤ F64.maxVal.val

/-- No rounding gets in the way of the change of the unit: either the factor is a power of two (and no difference is too large for a
double), or the differences are doubles before and after. -/
def Faithful {α : Type} [HasXYZ α] (s : ℝ) (ps qs : List α) : Prop :=
  ((∃ k : ℕ, s = 2 ^ k) ∧ BoundedDifferences qs) ∨ (ExactDifferences ps ∧ ExactDifferences qs)

end Spoc.Spec
