import Verif.Spec.Geometry

/-!
# Words for the places that a cloud occupies
-/

namespace Spoc.Spec

/-- The points of both clouds are at the same places, however many there are at each, and in whatever order. -/
def SamePlaces (ps qs : List (Pt F64)) : Prop :=
  (∀ p ∈ ps, ∃ q ∈ qs, SamePlace p q) ∧ ∀ q ∈ qs, ∃ p ∈ ps, SamePlace p q

end Spoc.Spec
