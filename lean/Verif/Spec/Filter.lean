import Verif.Spec.Io
import Verif.Base.F64

/-!
# Specification vocabulary for the filter application
-/

namespace Spoc.Spec

/-- A comparison that can be asked for: `less` or not `less` (then greater). -/
structure Condition where
  axis : Fin 3
  less : Bool
  deriving DecidableEq, Repr

namespace Condition

/-- The way it is written, without the number. -/
def text (c : Condition) : List Char :=
  [match c.axis with | 0 => 'x' | 1 => 'y' | 2 => 'z', ' ', if c.less then '<' else '>', ' ']

/-- The coordinate it is about. -/
def coord (c : Condition) (q : PointRecord) : F64 :=
  match c.axis with | 0 => q.x | 1 => q.y | 2 => q.z

/-- The coordinate of the record stands in the relation to the number: neither of them is NaN, and their exact
values compare (infinities count as larger than every finite number). -/
def Holds (c : Condition) (q : PointRecord) (v : F64) : Prop :=
  (c.coord q).isNaN = false ∧ v.isNaN = false ∧
    if c.less then (c.coord q).fv < v.fv else (c.coord q).fv > v.fv

instance (c : Condition) (q : PointRecord) (v : F64) : Decidable (c.Holds q v) := by
  unfold Holds; infer_instance

end Condition

end Spoc.Spec
