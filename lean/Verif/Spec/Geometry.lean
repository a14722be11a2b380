import Verif.Model.Utils

/-!
# Specifications for points, extents and cropping

Everything is stated with the exact values of the coordinates (`F64.fv`, an integer number of 2^-1074).
-/

namespace Spoc.Spec

/-- No coordinate is NaN. -/
def NoNaN (p : Pt F64) : Prop := p.x.isNaN = false ∧ p.y.isNaN = false ∧ p.z.isNaN = false

/-- All coordinates are finite. -/
def Fin (p : Pt F64) : Prop := p.x.isFinite = true ∧ p.y.isFinite = true ∧ p.z.isFinite = true

/-- The record has no NaN coordinate. -/
def NoNaNRecord (q : PointRecord) : Prop := NoNaN (pt q)

/-- The point lies in the closed box. -/
def Inside (e : Extent) (p : Pt F64) : Prop :=
  e.minp.x.fv ≤ p.x.fv ∧ p.x.fv ≤ e.maxp.x.fv
    ∧ e.minp.y.fv ≤ p.y.fv ∧ p.y.fv ≤ e.maxp.y.fv
    ∧ e.minp.z.fv ≤ p.z.fv ∧ p.z.fv ≤ e.maxp.z.fv

instance (e : Extent) (p : Pt F64) : Decidable (Inside e p) := by unfold Inside; infer_instance

/-- The two boxes are numerically the same. -/
def SameBox (a b : Extent) : Prop :=
  a.minp.x.fv = b.minp.x.fv ∧ a.minp.y.fv = b.minp.y.fv ∧ a.minp.z.fv = b.minp.z.fv
    ∧ a.maxp.x.fv = b.maxp.x.fv ∧ a.maxp.y.fv = b.maxp.y.fv ∧ a.maxp.z.fv = b.maxp.z.fv

/-- Numerically the same location. -/
def SamePlace (a b : Pt F64) : Prop := a.x.fv = b.x.fv ∧ a.y.fv = b.y.fv ∧ a.z.fv = b.z.fv

/-- Numerical lexicographic order of locations. -/
def LexLt (a b : Pt F64) : Prop :=
  a.x.fv < b.x.fv ∨ (a.x.fv = b.x.fv ∧ (a.y.fv < b.y.fv ∨ (a.y.fv = b.y.fv ∧ a.z.fv < b.z.fv)))

end Spoc.Spec
