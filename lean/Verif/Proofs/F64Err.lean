import Verif.Proofs.VoxelNear
import Verif.Spec.Value
import Mathlib.Tactic.Linarith
import Mathlib.Tactic.FieldSimp
import Mathlib.Algebra.Order.AbsoluteValue.Basic

/-!
# Rounding errors as real numbers
-/

namespace Spoc

namespace F64

/-- Rounding error of a quantity `A / B` that does not overflow: half a unit in the last place,
at most 2^-53 of the quantity or half of 2^-1074. -/
theorem rfv_err (A : Int) {B : Nat} (hB : 0 < B) (hf : roundMag A.natAbs B < infMag) :
    2 ^ 53 * |rfv A B * B - A| ≤ |A| + 2 ^ 52 * B
      ∧ ((2 ^ 52 * (B : Int) ≤ |A| ∨ B = 1) → 2 ^ 53 * |rfv A B * B - A| ≤ |A|) := by
  have key : ∀ n : Nat, roundMag n B < infMag →
      2 ^ 53 * |(fixMag (roundMag n B) : Int) * B - n| ≤ (n : Int) + 2 ^ 52 * B
      ∧ ((2 ^ 52 * (B : Int) ≤ n ∨ B = 1) → 2 ^ 53 * |(fixMag (roundMag n B) : Int) * B - n| ≤ n) := by
    intro n hn
    rw [roundMag_eq_raw hn]
    clear hn hf
    have hrel : (2 ^ 52 * (B : Int) ≤ n ∨ B = 1) →
        2 ^ 53 * |(fixMag (roundRaw n B) : Int) * B - n| ≤ n := by
      intro h
      have h1 := roundRaw_rel n hB (h.symm.imp id (by intro h; exact_mod_cast h))
      set w := fixMag (roundRaw n B) * B with hw
      have e : ((fixMag (roundRaw n B) : Int) * B) = (w : Int) := by rw [hw]; push_cast; ring
      rw [e]
      rcases abs_cases ((w : Int) - n) with ⟨h, _⟩ | ⟨h, _⟩ <;> rw [h] <;> omega
    refine ⟨?_, hrel⟩
    by_cases h : 2 ^ 52 * (B : Int) ≤ n
    · have := hrel (Or.inl h)
      have : (0 : Int) ≤ 2 ^ 52 * B := by positivity
      omega
    · -- no dropped bits
      have hq : n / B < 2 ^ 53 := by
        have : n < 2 ^ 52 * B := by
          have : (n : Int) < ((2 ^ 52 * B : Nat) : Int) := by push_cast; omega
          exact_mod_cast this
        have := Nat.div_lt_of_lt_mul (by rw [Nat.mul_comm]; exact this : n < B * 2 ^ 52)
        omega
      rw [fixMag_roundRaw n hB, dropBits_small hq]
      simp only [pow_zero, Nat.mul_one]
      obtain ⟨d1, d2, _⟩ := divHE_spec n hB
      set w := divHE n B * B with hw
      have e : ((divHE n B : Int) * B) = (w : Int) := by rw [hw]; push_cast; ring
      rw [e]
      rcases abs_cases ((w : Int) - n) with ⟨h, _⟩ | ⟨h, _⟩ <;> rw [h] <;> omega
  by_cases hA : A < 0
  · have e : rfv A B = - (fixMag (roundMag A.natAbs B) : Int) := by unfold rfv; rw [if_pos hA]
    rw [e]
    have := key A.natAbs hf
    have e2 : |(-(fixMag (roundMag A.natAbs B) : Int)) * B - A|
        = |(fixMag (roundMag A.natAbs B) : Int) * B - (A.natAbs : Int)| := by
      rw [← abs_neg]
      congr 1
      have : (A.natAbs : Int) = -A := by omega
      rw [this]; ring
    have e3 : |A| = (A.natAbs : Int) := by rw [Int.abs_eq_natAbs]
    rw [e2, e3]
    exact this
  · have e : rfv A B = (fixMag (roundMag A.natAbs B) : Int) := by unfold rfv; rw [if_neg hA]
    rw [e]
    have := key A.natAbs hf
    have e3 : |A| = (A.natAbs : Int) := by rw [Int.abs_eq_natAbs]
    have e4 : (A.natAbs : Int) = A := by omega
    rw [e3]
    rw [e4] at this ⊢
    exact this

theorem one1074_pos' : (0 : ℝ) < (one1074 : ℝ) := by exact_mod_cast one1074_pos

theorem roundMag_of_finite {x : F64} {A : Int} {B : Nat} (h : x.fv = rfv A B) (hf : x.isFinite = true) :
    roundMag A.natAbs B < infMag := by
  rw [isFinite_iff, ← fixMag_lt_iff, ← fv_natAbs, h] at hf
  rw [← fixMag_lt_iff]
  unfold rfv at hf
  split at hf
  · rwa [Int.natAbs_neg, Int.natAbs_natCast] at hf
  · rwa [Int.natAbs_natCast] at hf

/-- Adding: one rounding of at most half a unit in the last place. -/
theorem add_val {x y : F64} (hx : x.isFinite = true) (hy : y.isFinite = true) (hf : (add x y).isFinite = true) :
    2 ^ 53 * |(add x y).val - (x.val + y.val)| ≤ |x.val + y.val| := by
  have h1 := roundMag_of_finite (add_fv hx hy) hf
  have h2 := (rfv_err (x.fv + y.fv) (B := 1) (by norm_num) h1).2 (Or.inr rfl)
  unfold val
  rw [add_fv hx hy]
  set r := rfv (x.fv + y.fv) 1
  have hU := one1074_pos'
  have e1 : (r : ℝ) / one1074 - ((x.fv : ℝ) / one1074 + (y.fv : ℝ) / one1074) = (r - (x.fv + y.fv)) / one1074 := by ring
  have e2 : (x.fv : ℝ) / one1074 + (y.fv : ℝ) / one1074 = (x.fv + y.fv) / one1074 := by ring
  rw [e1, e2, abs_div, abs_div, abs_of_pos hU, ← mul_div_assoc]
  apply div_le_div_of_nonneg_right _ hU.le
  rw [Nat.cast_one, mul_one] at h2
  exact_mod_cast h2

theorem negate_val (x : F64) : (negate x).val = - x.val := by
  unfold val; rw [negate_fv]; push_cast; ring

/-- Subtracting. -/
theorem sub_val {x y : F64} (hx : x.isFinite = true) (hy : y.isFinite = true) (hf : (sub x y).isFinite = true) :
    2 ^ 53 * |(sub x y).val - (x.val - y.val)| ≤ |x.val - y.val| := by
  have := add_val hx (negate_finite hy) hf
  rw [negate_val] at this
  exact this

/-- Multiplying: an additional absolute error of half of the smallest positive double. -/
theorem mul_val {x y : F64} (hx : x.isFinite = true) (hy : y.isFinite = true) (hf : (mul x y).isFinite = true) :
    2 ^ 53 * |(mul x y).val - x.val * y.val| ≤ |x.val * y.val| + 2 ^ 52 / (one1074 : ℝ) := by
  have h1 := roundMag_of_finite (mul_fv hx hy) hf
  have h2 := (rfv_err (x.fv * y.fv) one1074_pos h1).1
  unfold val
  rw [mul_fv hx hy]
  set r := rfv (x.fv * y.fv) one1074
  have h3 : (2 : ℝ) ^ 53 * |(r : ℝ) * one1074 - (x.fv * y.fv)| ≤ |(x.fv : ℝ) * y.fv| + 2 ^ 52 * one1074 := by
    exact_mod_cast h2
  have hU := one1074_pos'
  generalize (one1074 : ℝ) = U at *
  have e1 : (r : ℝ) / U - (x.fv : ℝ) / U * ((y.fv : ℝ) / U) = (r * U - (x.fv * y.fv)) / (U * U) := by
    field_simp
  have e2 : (x.fv : ℝ) / U * ((y.fv : ℝ) / U) = (x.fv * y.fv) / (U * U) := by field_simp
  have e3 : 2 ^ 52 / U = 2 ^ 52 * U / (U * U) := by field_simp
  rw [e1, e2, abs_div, abs_div, abs_of_pos (mul_pos hU hU), ← mul_div_assoc, e3, ← add_div]
  exact div_le_div_of_nonneg_right h3 (mul_pos hU hU).le

/-- Dividing by a positive number. -/
theorem div_val {x y : F64} (hx : x.isFinite = true) (hy : y.isFinite = true) (hpos : 0 < y.fv)
    (hf : (div x y).isFinite = true) :
    2 ^ 53 * |(div x y).val - x.val / y.val| ≤ |x.val / y.val| + 2 ^ 52 / (one1074 : ℝ) := by
  obtain ⟨e, hn⟩ := div_fv hx hy hpos
  have h1 := roundMag_of_finite e hf
  have h2 := (rfv_err (x.fv * one1074) (B := y.fv.natAbs) (by omega) h1).1
  unfold val
  rw [e]
  set r := rfv (x.fv * one1074) y.fv.natAbs
  have hy' : (y.fv.natAbs : Int) = y.fv := by omega
  rw [hy'] at h2
  have h3 : (2 : ℝ) ^ 53 * |(r : ℝ) * y.fv - (x.fv * one1074)| ≤ |(x.fv : ℝ) * one1074| + 2 ^ 52 * y.fv := by
    exact_mod_cast h2
  have hU := one1074_pos'
  have hY : (0 : ℝ) < (y.fv : ℝ) := by exact_mod_cast hpos
  generalize (one1074 : ℝ) = U at *
  generalize (y.fv : ℝ) = Y at *
  have e1 : (r : ℝ) / U - (x.fv : ℝ) / U / (Y / U) = (r * Y - (x.fv * U)) / (Y * U) := by
    field_simp
  have e2 : (x.fv : ℝ) / U / (Y / U) = (x.fv * U) / (Y * U) := by field_simp
  have e3 : 2 ^ 52 / U = 2 ^ 52 * Y / (Y * U) := by field_simp
  rw [e1, e2, abs_div, abs_div, abs_of_pos (mul_pos hY hU), ← mul_div_assoc, e3, ← add_div]
  exact div_le_div_of_nonneg_right h3 (mul_pos hY hU).le

/-- A quantity whose magnitude is at most that of a finite double does not overflow when rounded. -/
theorem rfv_finite {y : F64} (hy : y.isFinite = true) {A : Int} {B : Nat} (hB : 0 < B)
    (h : |A| ≤ |y.fv| * B) : (rfv A B).natAbs ≤ y.fv.natAbs := by
  have key : ∀ n : Nat, n ≤ fixMag y.mag * B → fixMag (roundMag n B) ≤ fixMag y.mag := by
    intro n hn
    exact fixMag_le_iff.mpr (roundMag_le_of hB (isFinite_iff.mp hy).le hn)
  have h1 : A.natAbs ≤ fixMag y.mag * B := by
    rw [← fv_natAbs]
    rw [Int.abs_eq_natAbs, Int.abs_eq_natAbs] at h
    exact_mod_cast h
  have h2 := key _ h1
  rw [fv_natAbs]
  unfold rfv
  split
  · rwa [Int.natAbs_neg, Int.natAbs_natCast]
  · rwa [Int.natAbs_natCast]

end F64

end Spoc
