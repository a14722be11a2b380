import Verif.Base.F64
import Mathlib.Data.Real.Basic

/-!
# The real number a double stands for
-/

namespace Spoc.F64

/-- The real number a finite double stands for. -/
noncomputable def val (x : F64) : ℝ := (x.fv : ℝ) / (one1074 : ℝ)

end Spoc.F64
