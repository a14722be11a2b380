import Verif.Model.Point
import Mathlib.Logic.Equiv.Defs

/-!
# Words for clouds whose axes have been exchanged
-/

namespace Spoc.Spec

/-- Coordinate number `i` of a point: 0 is x, 1 is y, 2 is z. -/
def coord {β : Type} (p : Pt β) : Fin 3 → β
  | 0 => p.x
  | 1 => p.y
  | 2 => p.z

/-- The point whose coordinate number `i` is coordinate number `σ i` of `p`. -/
def reorder {β : Type} (σ : Equiv.Perm (Fin 3)) (p : Pt β) : Pt β :=
  ⟨coord p (σ 0), coord p (σ 1), coord p (σ 2)⟩

end Spoc.Spec
