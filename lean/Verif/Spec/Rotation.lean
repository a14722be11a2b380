import Verif.Spec.Value
import Verif.Model.Utils
import Mathlib.Analysis.SpecialFunctions.Trigonometric.Basic

/-!
# Specification of rotations, in real numbers
-/

namespace Spoc.Spec

/-- The functions `sin` and `cos` of the library return finite numbers and err by at most `ε`. -/
def AccurateTrig (t : Trig) (ε : ℝ) : Prop :=
  ∀ r : F64, r.isFinite = true →
    (t.sin r).isFinite = true ∧ (t.cos r).isFinite = true
      ∧ |(t.sin r).val - Real.sin r.val| ≤ ε ∧ |(t.cos r).val - Real.cos r.val| ≤ ε

/-- A finite coordinate of magnitude at most 2^k. -/
def Below (k : Nat) (x : F64) : Prop := x.isFinite = true ∧ |x.val| ≤ 2 ^ k

/-- The coordinate axes. -/
inductive Axis3 | x | y | z
  deriving DecidableEq

/-- The coordinate along the axis. -/
def Axis3.along : Axis3 → Pt F64 → F64
  | .x, p => p.x
  | .y, p => p.y
  | .z, p => p.z

/-- The other two coordinates, in order. -/
def Axis3.across : Axis3 → Pt F64 → F64 × F64
  | .x, p => (p.y, p.z)
  | .y, p => (p.x, p.z)
  | .z, p => (p.x, p.y)

/-- The rotation function of the library for the axis. -/
def Axis3.rotate : Axis3 → Trig → F64 → Pt F64 → Pt F64
  | .x => Affine.rotateX
  | .y => Affine.rotateY
  | .z => Affine.rotateZ

/-- Distance to the axis. -/
noncomputable def axisDist (a : Axis3) (p : Pt F64) : ℝ :=
  Real.sqrt ((a.across p).1.val ^ 2 + (a.across p).2.val ^ 2)

/-- Distance between two points. -/
noncomputable def dist3 (p q : Pt F64) : ℝ :=
  Real.sqrt ((p.x.val - q.x.val) ^ 2 + (p.y.val - q.y.val) ^ 2 + (p.z.val - q.z.val) ^ 2)

/-- The size of the coordinates across the axis. -/
noncomputable def size (a : Axis3) (p : Pt F64) : ℝ := |(a.across p).1.val| + |(a.across p).2.val|

/-- Error allowed for coordinates of size `m` when the trigonometric functions err by `ε`. -/
noncomputable def tolerance (ε m : ℝ) : ℝ := (ε + 1 / 2 ^ 50) * m + 16 / (F64.one1074 : ℝ)

end Spoc.Spec
