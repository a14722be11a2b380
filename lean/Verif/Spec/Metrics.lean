import Verif.Spec.Nearest
import Verif.Model.Extent
import Mathlib.Algebra.Order.Floor.Ring
import Mathlib.Data.Finset.Card
import Mathlib.Algebra.Order.Archimedean.Real.Basic
import Mathlib.Data.Finset.Dedup

/-!
# What the densities of the info application mean
-/

namespace Spoc.Spec

/-- The square of side 1 in which a point lies, counted from the smallest coordinates. -/
noncomputable def cell2 (m p : Pt F64) : ℤ × ℤ := (⌊(F64.sub p.x m.x).val⌋, ⌊(F64.sub p.y m.y).val⌋)

/-- The cube of side 1 in which a point lies, counted from the smallest coordinates. -/
noncomputable def cell3 (m p : Pt F64) : ℤ × ℤ × ℤ := (⌊(F64.sub p.x m.x).val⌋, ⌊(F64.sub p.y m.y).val⌋, ⌊(F64.sub p.z m.z).val⌋)

/-- The number of different values. -/
def distinct {α : Type} [DecidableEq α] (l : List α) : Nat := l.toFinset.card

end Spoc.Spec
