import Verif.Model.Extent

/-!
# Model of `get_volume` and `get_area` (`/repo/spoc/extent.h`)
-/

namespace Spoc.Extent

/-- `get_volume` (`/repo/spoc/extent.h` lines 21-26). -/
def volume (e : Extent) : F64 :=
  F64.mul (F64.mul (F64.sub e.maxp.x e.minp.x) (F64.sub e.maxp.y e.minp.y)) (F64.sub e.maxp.z e.minp.z)

/-- `get_area` (`/repo/spoc/extent.h` lines 28-32). -/
def area (e : Extent) : F64 := F64.mul (F64.sub e.maxp.x e.minp.x) (F64.sub e.maxp.y e.minp.y)

end Spoc.Extent
