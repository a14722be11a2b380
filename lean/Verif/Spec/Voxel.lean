import Verif.Model.Voxel

/-!
# Specification of voxel grids
-/

namespace Spoc.Spec

/-- 2^64 as a double -/
def limit64 : F64 := ⟨0x43F0000000000000⟩

/-- The extent divided by the resolution, computed in double precision, stays below 2^64 in each dimension. -/
def GridFits (e : Extent) (r : F64) : Prop :=
  F64.lt (F64.div (F64.sub e.maxp.x e.minp.x) r) limit64 = true
    ∧ F64.lt (F64.div (F64.sub e.maxp.y e.minp.y) r) limit64 = true
    ∧ F64.lt (F64.div (F64.sub e.maxp.z e.minp.z) r) limit64 = true

instance (e : Extent) (r : F64) : Decidable (GridFits e r) := by unfold GridFits; infer_instance

end Spoc.Spec
