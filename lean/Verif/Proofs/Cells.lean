import Verif.Proofs.ThereAndBack
import Verif.Proofs.Tile

/-!
# Quotients on a grid
-/

namespace Spoc

open Spec

namespace F64

/-- The integers up to 2^53 are doubles. -/
theorem exists_int {n : ℤ} (hn : n.natAbs < 2 ^ 53) : ∃ x : F64, x.isFinite = true ∧ x.fv = n * one1074 := by
  have e : (rnd false (n * 2 ^ ((0 : ℤ) + 1074).toNat) 1).fv = n * 2 ^ ((0 : ℤ) + 1074).toNat := by
    rw [rnd_fv _ _ (by norm_num)]
    exact rfv_dyadic two1023_finite hn (units_bound hn (by norm_num))
  refine ⟨_, ?_, e.trans ?_⟩
  · refine finite_of_fv_le two1023_finite ?_
    rw [e, Int.natAbs_mul, natAbs_two_pow]
    exact units_bound hn (by norm_num)
  · rw [show ((0 : ℤ) + 1074).toNat = 1074 from rfl]
    congr 1

/-- The quotient of the difference of two numbers on a grid and a third one, rounded down after rounding, is the exact quotient rounded down. -/
theorem quot_units {U c n : ℤ} (hU : 0 < U) (hc : 0 < c) (hc2 : c < 2 ^ 53) (hn : 0 ≤ n) (hn2 : n ≤ 2 ^ 53 - 2) {x s : F64} (hx : x.isFinite = true)
    (hs : s.isFinite = true) (ex : x.fv = n * U) (es : s.fv = c * U) :
    (div x s).isFinite = true ∧ 0 ≤ (div x s).fv ∧ (div x s).trunc = n / c := by
  have spos : 0 < s.fv := by rw [es]; positivity
  obtain ⟨e, -⟩ := div_fv hx hs spos
  have hB : 0 < s.fv.natAbs := by omega
  have hBi : (s.fv.natAbs : ℤ) = c * U := by rw [← es]; omega
  have hone : (0 : ℤ) < one1074 := by exact_mod_cast one1074_pos
  have hbig : (2 : ℤ) ^ 105 ≤ one1074 := by exact_mod_cast le_one1074 105 (by norm_num)
  obtain ⟨y, hy, ey⟩ := exists_int (n := n) (by omega)
  have fin : (div x s).isFinite = true := by
    refine finite_of_fv_le hy ?_
    rw [e]
    refine rfv_finite hy hB ?_
    rw [hBi, ex, ey]
    generalize (one1074 : ℤ) = O at *
    rw [abs_of_nonneg (by positivity), abs_of_nonneg (by positivity)]
    have : n * U * O ≤ n * U * O * c := le_mul_of_one_le_right (by positivity) hc
    calc n * U * O ≤ n * U * O * c := this
      _ = n * O * (c * U) := by ring
  have hK0 : 0 ≤ n / c := Int.ediv_nonneg hn hc.le
  have hKn : n / c ≤ n := Int.ediv_le_self _ hn
  have h1 : n / c * c ≤ n := Int.ediv_mul_le _ hc.ne'
  have h2 : n + 1 ≤ (n / c + 1) * c := Int.lt_ediv_add_one_mul_self _ hc
  obtain ⟨z, hz, ez⟩ := exists_int (n := n / c) (by omega)
  generalize n / c = K at *
  have low : K * one1074 ≤ (div x s).fv := by
    rw [e, ← ez]
    refine le_rfv (not_nan_of_finite hz) hB ?_
    rw [hBi, ex, ez]
    generalize (one1074 : ℤ) = O at *
    calc K * O * (c * U) = K * c * (O * U) := by ring
      _ ≤ n * (O * U) := mul_le_mul_of_nonneg_right h1 (by positivity)
      _ = n * U * O := by ring
  have high : (div x s).fv < (K + 1) * one1074 := by
    by_contra hcon
    push Not at hcon
    have h3 := (rfv_err (x.fv * one1074) hB (roundMag_of_finite e fin)).1
    rw [← e, hBi, ex] at h3
    generalize (one1074 : ℤ) = O at *
    generalize (div x s).fv = F at *
    have hA : |n * U * O| = n * U * O := abs_of_nonneg (by positivity)
    rw [hA] at h3
    have h4 : U * O ≤ F * (c * U) - n * U * O := by
      have h5 : (K + 1) * O * (c * U) ≤ F * (c * U) := mul_le_mul_of_nonneg_right hcon (by positivity)
      have h6 : (n + 1) * (O * U) ≤ (K + 1) * c * (O * U) := mul_le_mul_of_nonneg_right h2 (by positivity)
      nlinarith
    have h7 : 2 ^ 53 * (U * O) ≤ n * U * O + 2 ^ 52 * (c * U) :=
      le_trans (mul_le_mul_of_nonneg_left (le_trans h4 (le_abs_self _)) (by norm_num)) h3
    have h8 : U * (2 ^ 53 * O) ≤ U * (n * O + 2 ^ 52 * c) := by nlinarith
    have h9 := le_of_mul_le_mul_left h8 hU
    have h10 : n * O ≤ (2 ^ 53 - 2) * O := mul_le_mul_of_nonneg_right hn2 hone.le
    norm_num at *
    omega
  have d0 : 0 ≤ (div x s).fv := le_trans (mul_nonneg hK0 hone.le) low
  refine ⟨fin, d0, ?_⟩
  unfold trunc
  rw [Int.tdiv_eq_ediv_of_nonneg d0]
  exact le_antisymm (Int.lt_add_one_iff.mp (Int.ediv_lt_of_lt_mul hone high)) (Int.le_ediv_of_mul_le hone low)

/-- The column of a coordinate on a grid. -/
theorem cell_exact {k : ℤ} (hk0 : -1074 ≤ k) (hk : k ≤ 970) {s o v : F64} (hs : OnGrid k 53 s) (ho : OnGrid k 52 o) (hv : OnGrid k 52 v)
    (hpos : 0 < s.fv) (hle : o.fv ≤ v.fv) :
    (div (sub v o) s).isFinite = true ∧ 0 ≤ (div (sub v o) s).fv ∧ (div (sub v o) s).trunc = ⌊(v.val - o.val) / s.val⌋
      ∧ (div (sub v o) s).trunc < 2 ^ 53 := by
  obtain ⟨c, hc, es⟩ := grid_fv hk0 hs
  obtain ⟨b, hb, eo⟩ := grid_fv hk0 ho
  obtain ⟨a, ha, ev⟩ := grid_fv hk0 hv
  have hU : (0 : ℤ) < 2 ^ (k + 1074).toNat := by positivity
  have eno : (negate o).fv = (-b) * 2 ^ (k + 1074).toNat := by rw [negate_fv, eo]; ring
  obtain ⟨fin, esub⟩ := add_units hk hv.1 (negate_finite ho.1) ev eno (by omega)
  have c0 : 0 < c := by rw [es] at hpos; exact (pos_iff_pos_of_mul_pos hpos).mpr hU
  have n0 : 0 ≤ a + -b := by rw [eo, ev] at hle; have := le_of_mul_le_mul_right hle hU; omega
  obtain ⟨q1, q2, q3⟩ := quot_units hU c0 (by omega) n0 (by omega) fin hs.1 esub es
  refine ⟨q1, q2, q3.trans ?_, ?_⟩
  · have hval : (v.val - o.val) / s.val = ((a + -b : ℤ) : ℝ) / ((c : ℤ) : ℝ) := by
      have h1 := one1074_pos'
      have h2 : (0 : ℝ) < ((2 ^ (k + 1074).toNat : ℤ) : ℝ) := by exact_mod_cast hU
      have h3 : (0 : ℝ) < (c : ℝ) := by exact_mod_cast c0
      unfold val
      rw [es, eo, ev]
      generalize (2 ^ (k + 1074).toNat : ℤ) = U at *
      push_cast
      field_simp
      ring
    rw [hval, Int.floor_div_cast_of_nonneg c0.le, Int.floor_intCast]
  · have : (a + -b) / c ≤ a + -b := Int.ediv_le_self _ n0
    have e : (div (sub v o) s).trunc = (a + -b) / c := q3
    omega

end F64

end Spoc
