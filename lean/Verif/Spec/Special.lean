import Verif.Spec.Nearest

/-!
# Sums and products of doubles, including infinities and NaN, as IEEE 754 has them
-/

namespace Spoc.Spec

/-- `y` is the sum of `x` and `v`. -/
structure IsSum (x v y : F64) : Prop where
  nan : x.isNaN = true ∨ v.isNaN = true → y.isNaN = true
  opposite : x.isInf = true → v.isInf = true → x.neg ≠ v.neg → y.isNaN = true
  left : x.isInf = true → v.isNaN = false → (v.isInf = true → v.neg = x.neg) → y.isInf = true ∧ y.neg = x.neg
  right : v.isInf = true → x.isNaN = false → (x.isInf = true → x.neg = v.neg) → y.isInf = true ∧ y.neg = v.neg
  finite : x.isFinite = true → v.isFinite = true → Nearest y (x.val + v.val)

/-- `y` is the product of `x` and `v`. -/
structure IsProduct (x v y : F64) : Prop where
  nan : x.isNaN = true ∨ v.isNaN = true → y.isNaN = true
  zero_inf : x.val = 0 → v.isInf = true → y.isNaN = true
  inf_zero : x.isInf = true → v.val = 0 → y.isNaN = true
  inf : x.isInf = true ∨ v.isInf = true → x.isNaN = false → v.isNaN = false → x.val ≠ 0 → v.val ≠ 0 →
    y.isInf = true ∧ y.neg = (x.neg != v.neg)
  finite : x.isFinite = true → v.isFinite = true → Nearest y (x.val * v.val)

end Spoc.Spec
