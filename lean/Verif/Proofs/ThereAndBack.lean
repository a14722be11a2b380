import Verif.Spec.Grid
import Verif.Proofs.Rotation
import Verif.Proofs.Quantize
import Verif.Proofs.Special
import Verif.Base.Strtod

/-!
# Adding and subtracting, multiplying and dividing
-/

namespace Spoc

namespace F64

open Spec

/-- 2^1023. -/
def two1023 : F64 := ⟨0x7FE0000000000000⟩

theorem two1023_finite : two1023.isFinite = true := by decide

theorem two1023_fv : two1023.fv.natAbs = 2 ^ 2097 := by
  rw [fv_natAbs, show two1023.mag = 2045 * 2 ^ 52 + 2 ^ 52 from by decide, fixMag_enc (by norm_num) (Or.inr le_rfl), ← pow_add]

/-- The units. -/
theorem grid_fv {k : ℤ} {b : Nat} {x : F64} (hk : -1074 ≤ k) (h : OnGrid k b x) :
    ∃ m : ℤ, m.natAbs < 2 ^ b ∧ x.fv = m * 2 ^ (k + 1074).toNat := by
  obtain ⟨_, m, hm, hv⟩ := h
  refine ⟨m, ?_, ?_⟩
  · rw [Int.abs_eq_natAbs] at hm
    exact_mod_cast hm
  · obtain ⟨e, he⟩ := Int.eq_ofNat_of_zero_le (show 0 ≤ k + 1074 by omega)
    have hk' : k = (e : ℤ) - 1074 := by omega
    have hU : (one1074 : ℝ) = (2 : ℝ) ^ (1074 : ℤ) := by
      have : ((one1074 : ℕ) : ℝ) = ((2 ^ 1074 : ℕ) : ℝ) := rfl
      rw [this, Nat.cast_pow, Nat.cast_ofNat]
      exact (zpow_natCast (2 : ℝ) 1074).symm
    unfold val at hv
    rw [div_eq_iff one1074_pos'.ne', hU, hk', mul_assoc, ← zpow_add₀ (by norm_num : (2 : ℝ) ≠ 0), sub_add_cancel, zpow_natCast] at hv
    rw [he, Int.toNat_natCast]
    exact_mod_cast hv

theorem units_bound {m : ℤ} {k : ℤ} (hm : m.natAbs < 2 ^ 53) (hk : k ≤ 970) :
    m.natAbs * 2 ^ (k + 1074).toNat ≤ two1023.fv.natAbs := by
  rw [two1023_fv]
  calc m.natAbs * 2 ^ (k + 1074).toNat ≤ 2 ^ 53 * 2 ^ 2044 :=
        Nat.mul_le_mul hm.le (Nat.pow_le_pow_right (by norm_num) (by omega))
    _ = 2 ^ 2097 := by rw [← pow_add]

/-- Sums on the grid are exact. -/
theorem add_units {k : ℤ} (hk : k ≤ 970) {x y : F64} (hx : x.isFinite = true) (hy : y.isFinite = true) {m n : ℤ}
    (h1 : x.fv = m * 2 ^ (k + 1074).toNat) (h2 : y.fv = n * 2 ^ (k + 1074).toNat) (hs : (m + n).natAbs < 2 ^ 53) :
    (add x y).isFinite = true ∧ (add x y).fv = (m + n) * 2 ^ (k + 1074).toNat := by
  have e : (add x y).fv = (m + n) * 2 ^ (k + 1074).toNat := by
    rw [add_fv hx hy, h1, h2, ← add_mul]
    exact rfv_dyadic two1023_finite hs (units_bound hs hk)
  refine ⟨finite_of_fv_le two1023_finite ?_, e⟩
  rw [e, Int.natAbs_mul, natAbs_two_pow]
  exact units_bound hs hk

/-- There and back on the grid: the same number. -/
theorem add_back_fv {k : ℤ} (hk0 : -1074 ≤ k) (hk : k ≤ 970) {x v : F64} (hx : OnGrid k 52 x) (hv : OnGrid k 52 v) :
    (add x v).isFinite = true ∧ (add (add x v) (negate v)).isFinite = true ∧ (add (add x v) (negate v)).fv = x.fv := by
  obtain ⟨m, hm, h1⟩ := grid_fv hk0 hx
  obtain ⟨n, hn, h2⟩ := grid_fv hk0 hv
  have hs : (m + n).natAbs < 2 ^ 53 := by omega
  obtain ⟨f1, e1⟩ := add_units hk hx.1 hv.1 h1 h2 hs
  have h3 : (negate v).fv = (-n) * 2 ^ (k + 1074).toNat := by rw [negate_fv, h2, neg_mul]
  obtain ⟨f2, e2⟩ := add_units hk f1 (negate_finite hv.1) e1 h3 (by omega : (m + n + -n).natAbs < 2 ^ 53)
  refine ⟨f1, f2, ?_⟩
  rw [e2, h1, add_neg_cancel_right]

theorem zero_of_fv {x : F64} (h : x.fv = 0) : x = zero ∨ x = negZero := by
  have hm := fv_eq_zero.mp h
  cases hs : x.neg
  · left
    rw [ext_iff', hs, hm]
    decide
  · right
    rw [ext_iff', hs, hm]
    decide

theorem mk'_zero (s : Bool) : mk' s 0 = zero ∨ mk' s 0 = negZero := by cases s <;> decide

/-- A sum that is zero is positive zero, unless both summands are negative zeros (or sum up to zero with the sign bits set). -/
theorem add_zero_pos {x y : F64} (hx : x.isFinite = true) (hy : y.isFinite = true) (h : x.fv + y.fv = 0)
    (hs : (x.neg && y.neg) = false) : add x y = zero := by
  rw [add_finite hx hy, h, hs]
  decide

/-- Adding something to positive zero and taking it away again. -/
theorem zero_back {v : F64} (hv : v.isFinite = true) : add (add zero v) (negate v) = zero := by
  have hz : zero.isFinite = true := by decide
  have hzn : zero.neg = false := by decide
  by_cases h0 : v.fv = 0
  · have h1 : add zero v = zero := add_zero_pos hz hv (by rw [zero_fv, h0, add_zero]) (by rw [hzn]; rfl)
    rw [h1]
    exact add_zero_pos hz (negate_finite hv) (by rw [zero_fv, negate_fv, h0, neg_zero, add_zero]) (by rw [hzn]; rfl)
  · have h1 : add zero v = v := by
      refine eq_of_fv_eq ?_ ?_
      · rw [add_fv hz hv, zero_fv, zero_add]
        have := rfv_exact (not_nan_of_finite hv) (B := 1) (by norm_num)
        rwa [Nat.cast_one, mul_one] at this
      · rw [add_fv hz hv, zero_fv, zero_add]
        have := rfv_exact (not_nan_of_finite hv) (B := 1) (by norm_num)
        rw [Nat.cast_one, mul_one] at this
        rwa [this]
    rw [h1]
    refine add_zero_pos hv (negate_finite hv) (by rw [negate_fv, add_neg_cancel]) ?_
    rw [negate_neg]
    cases v.neg <;> rfl

theorem negZero_back {v : F64} (hv : v.isFinite = true) : add (add negZero v) (negate v) = zero := by
  have hz : negZero.isFinite = true := by decide
  have hzf : negZero.fv = 0 := by decide +kernel
  by_cases h0 : v.fv = 0
  · rcases zero_of_fv h0 with rfl | rfl <;> decide +kernel
  · have h1 : add negZero v = v := by
      refine eq_of_fv_eq ?_ ?_
      · rw [add_fv hz hv, hzf, zero_add]
        have := rfv_exact (not_nan_of_finite hv) (B := 1) (by norm_num)
        rwa [Nat.cast_one, mul_one] at this
      · rw [add_fv hz hv, hzf, zero_add]
        have := rfv_exact (not_nan_of_finite hv) (B := 1) (by norm_num)
        rw [Nat.cast_one, mul_one] at this
        rwa [this]
    rw [h1]
    refine add_zero_pos hv (negate_finite hv) (by rw [negate_fv, add_neg_cancel]) ?_
    rw [negate_neg]
    cases v.neg <;> rfl

/-- There and back on the grid, bit by bit. -/
theorem add_back {k : ℤ} (hk0 : -1074 ≤ k) (hk : k ≤ 970) {x v : F64} (hx : OnGrid k 52 x) (hv : OnGrid k 52 v) :
    add (add x v) (negate v) = if x = negZero then zero else x := by
  by_cases hz : x = negZero
  · rw [if_pos hz, hz]
    exact negZero_back hv.1
  · rw [if_neg hz]
    have h := (add_back_fv hk0 hk hx hv).2.2
    by_cases h0 : x.fv = 0
    · rcases zero_of_fv h0 with rfl | h
      · exact zero_back hv.1
      · exact absurd h hz
    · exact eq_of_fv_eq h (by rwa [h])

theorem two1002_eq' : |two1002.val| = 4 * 2 ^ 1000 := by
  rw [Affine.two1002_eq, abs_of_nonneg]
  exact mul_nonneg (by norm_num) (pow_nonneg (by norm_num) _)

/-- There and back in general: an error of one unit in the last place of the sum. -/
theorem add_back_near {x v : F64} (hx : Below 1000 x) (hv : Below 1000 v) :
    (add x v).isFinite = true ∧ (add (add x v) (negate v)).isFinite = true
      ∧ 2 ^ 52 * |(add (add x v) (negate v)).val - x.val| ≤ |x.val + v.val| := by
  have h4 := two1002_eq'
  have f1 : (add x v).isFinite = true := by
    apply add_finite_of hx.1 hv.1 two1002_finite
    rw [h4]
    refine (abs_add_le _ _).trans ?_
    have a := hx.2
    have c := hv.2
    generalize (2 : ℝ) ^ 1000 = K at *
    linarith only [a, c, abs_nonneg x.val]
  have e1 := add_val hx.1 hv.1 f1
  have n2 := ((add_isSum (add x v) (negate v)).finite f1 (negate_finite hv.1)).2 x (not_nan_of_finite hx.1)
  rw [negate_val] at n2
  have f2 : (add (add x v) (negate v)).isFinite = true := by
    apply add_finite_of f1 (negate_finite hv.1) two1002_finite
    rw [h4, negate_val]
    refine (abs_add_le _ _).trans ?_
    rw [abs_neg]
    have a := hx.2
    have c := hv.2
    have t := abs_add_le x.val v.val
    have u : |(add x v).val| ≤ |(add x v).val - (x.val + v.val)| + |x.val + v.val| := by
      have e : (add x v).val = ((add x v).val - (x.val + v.val)) + (x.val + v.val) := by ring
      exact (congrArg abs e).le.trans (abs_add_le _ _)
    have d0 := abs_nonneg ((add x v).val - (x.val + v.val))
    generalize (2 : ℝ) ^ 1000 = K at *
    generalize |(add x v).val - (x.val + v.val)| = d at *
    linarith only [a, c, t, u, e1, d0, abs_nonneg x.val]
  generalize (add x v).val = w at e1 n2
  refine ⟨f1, f2, ?_⟩
  generalize (add (add x v) (negate v)).val = y at n2
  have t1 : |y - x.val| ≤ |y - (w + -v.val)| + |x.val - (w + -v.val)| := by
    rw [abs_sub_comm x.val]
    have e : y - x.val = (y - (w + -v.val)) + ((w + -v.val) - x.val) := by ring
    rw [e]; exact abs_add_le _ _
  have t2 : |x.val - (w + -v.val)| = |w - (x.val + v.val)| := by
    rw [abs_sub_comm]; congr 1; ring
  rw [t2] at t1 n2
  linarith only [t1, n2, e1]

/-- Products with a power of two: exact, and only the sign of the first factor counts. -/
theorem mul_two_pow {k j : ℤ} {x v : F64} {m : ℤ} (hk0 : -1074 ≤ k) (hj : -1074 ≤ j) (hs0 : -1074 ≤ k + j) (hs : k + j ≤ 970)
    (hx : x.isFinite = true) (hv : v.isFinite = true) (hm : m.natAbs < 2 ^ 53) (h1 : x.fv = m * 2 ^ (k + 1074).toNat)
    (h2 : v.fv = 2 ^ (j + 1074).toNat) :
    (mul x v).isFinite = true ∧ (mul x v).fv = m * 2 ^ (k + j + 1074).toNat ∧ (mul x v).neg = x.neg := by
  have e0 : x.fv * v.fv = m * 2 ^ (k + j + 1074).toNat * (one1074 : ℤ) := by
    rw [h1, h2, one1074_eq, mul_assoc, mul_assoc, ← pow_add, ← pow_add]
    congr 2
    omega
  have e : (mul x v).fv = m * 2 ^ (k + j + 1074).toNat := by
    rw [mul_fv hx hv, e0]
    have := Utils.rfv_scale (m * 2 ^ (k + j + 1074).toNat) (B := 1) (c := one1074) (by norm_num) one1074_pos
    rw [Nat.one_mul] at this
    rw [this]
    exact rfv_dyadic two1023_finite hm (units_bound hm hs)
  have hf : (mul x v).isFinite = true := by
    refine finite_of_fv_le two1023_finite ?_
    rw [e, Int.natAbs_mul, natAbs_two_pow]
    exact units_bound hm hs
  refine ⟨hf, e, ?_⟩
  have hvn : v.neg = false := by
    have : 0 < v.fv := by rw [h2]; positivity
    exact (fv_pos.mp this).1
  have hpos : (0 : ℤ) < 2 ^ (k + j + 1074).toNat := by positivity
  have hpos' : (0 : ℤ) < 2 ^ (k + 1074).toNat := by positivity
  by_cases h0 : m = 0
  · have z : x.fv * v.fv = 0 := by rw [e0, h0, zero_mul, zero_mul]
    rw [mul_finite hx hv, z, hvn]
    cases x.neg <;> rfl
  · have key : ∀ y : F64, y.fv ≠ 0 → (y.neg = true ↔ y.fv < 0) := by
      intro y hy
      unfold fv at *
      have h0 : (0 : ℤ) ≤ fixMag y.mag := Int.natCast_nonneg _
      cases hn : y.neg
      · rw [hn] at hy
        simp only [Bool.false_eq_true, if_false, false_iff]
        omega
      · rw [hn] at hy
        simp only [if_true, true_iff] at *
        omega
    have a1 : (mul x v).fv ≠ 0 := by rw [e]; exact mul_ne_zero h0 hpos.ne'
    have a2 : x.fv ≠ 0 := by rw [h1]; exact mul_ne_zero h0 hpos'.ne'
    rw [Bool.eq_iff_iff, key _ a1, key _ a2, e, h1]
    constructor <;> intro h <;> nlinarith only [h, hpos, hpos']

/-- Scaling by a power of two and back: the same number, bit by bit. -/
theorem mul_back {k j : ℤ} {x v w : F64} (hk0 : -1074 ≤ k) (hk : k ≤ 970) (hs0 : -1074 ≤ k + j) (hs : k + j ≤ 970)
    (hj0 : -1022 ≤ j) (hj : j ≤ 1022) (hx : OnGrid k 53 x) (hv : v.isFinite = true) (hw : w.isFinite = true)
    (ev : v.val = (2 : ℝ) ^ j) (ew : w.val = (2 : ℝ) ^ (-j)) : mul (mul x v) w = x := by
  obtain ⟨m, hm, h1⟩ := grid_fv hk0 hx
  have hp : ∀ {u : F64} {i : ℤ}, -1074 ≤ i → u.isFinite = true → u.val = (2 : ℝ) ^ i → u.fv = 2 ^ (i + 1074).toNat := by
    intro u i hi hu e
    obtain ⟨e', he⟩ := Int.eq_ofNat_of_zero_le (show 0 ≤ i + 1074 by omega)
    have hi' : i = (e' : ℤ) - 1074 := by omega
    have hU : (one1074 : ℝ) = (2 : ℝ) ^ (1074 : ℤ) := by
      have : ((one1074 : ℕ) : ℝ) = ((2 ^ 1074 : ℕ) : ℝ) := rfl
      rw [this, Nat.cast_pow, Nat.cast_ofNat]
      exact (zpow_natCast (2 : ℝ) 1074).symm
    unfold val at e
    rw [div_eq_iff one1074_pos'.ne', hU, hi', ← zpow_add₀ (by norm_num : (2 : ℝ) ≠ 0), sub_add_cancel, zpow_natCast] at e
    rw [he, Int.toNat_natCast]
    exact_mod_cast e
  obtain ⟨f1, e1, s1⟩ := mul_two_pow hk0 (by omega) hs0 hs hx.1 hv hm h1 (hp (by omega) hv ev)
  obtain ⟨f2, e2, s2⟩ := mul_two_pow (k := k + j) (j := -j) hs0 (by omega) (by omega) (by omega) f1 hw hm e1 (hp (by omega) hw ew)
  rw [add_neg_cancel_right, ← h1] at e2
  rw [ext_iff', s2, s1]
  refine ⟨rfl, ?_⟩
  rw [← fixMag_inj, ← fv_natAbs, ← fv_natAbs, e2]

/-- Every number on the grid is a double. -/
theorem exists_grid {k : ℤ} (hk0 : -1074 ≤ k) (hk : k ≤ 970) {m : ℤ} (hm : m.natAbs < 2 ^ 53) :
    ∃ x : F64, x.isFinite = true ∧ x.val = m * (2 : ℝ) ^ k := by
  have e : (rnd false (m * 2 ^ (k + 1074).toNat) 1).fv = m * 2 ^ (k + 1074).toNat := by
    rw [rnd_fv _ _ (by norm_num)]
    exact rfv_dyadic two1023_finite hm (units_bound hm hk)
  refine ⟨rnd false (m * 2 ^ (k + 1074).toNat) 1, ?_, ?_⟩
  · refine finite_of_fv_le two1023_finite ?_
    rw [e, Int.natAbs_mul, natAbs_two_pow]
    exact units_bound hm hk
  · unfold val
    rw [e]
    obtain ⟨e', he⟩ := Int.eq_ofNat_of_zero_le (show 0 ≤ k + 1074 by omega)
    have hk' : k = (e' : ℤ) - 1074 := by omega
    have hU : (one1074 : ℝ) = (2 : ℝ) ^ (1074 : ℤ) := by
      have : ((one1074 : ℕ) : ℝ) = ((2 ^ 1074 : ℕ) : ℝ) := rfl
      rw [this, Nat.cast_pow, Nat.cast_ofNat]
      exact (zpow_natCast (2 : ℝ) 1074).symm
    rw [he, Int.toNat_natCast, div_eq_iff one1074_pos'.ne', hU, hk', mul_assoc, ← zpow_add₀ (by norm_num : (2 : ℝ) ≠ 0), sub_add_cancel,
      zpow_natCast, Int.cast_mul, Int.cast_pow, Int.cast_ofNat]

/-- The double nearest to a number on the grid is that number. -/
theorem nearest_grid {k : ℤ} (hk0 : -1074 ≤ k) (hk : k ≤ 970) {m : ℤ} (hm : m.natAbs < 2 ^ 53) {v : F64}
    (h : Nearest v (m * (2 : ℝ) ^ k)) : v.isFinite = true ∧ v.val = m * (2 : ℝ) ^ k := by
  obtain ⟨x, hx, e⟩ := exists_grid hk0 hk hm
  have h1 := h.2 x (not_nan_of_finite hx)
  rw [e, sub_self, abs_zero] at h1
  have h2 : v.val = m * (2 : ℝ) ^ k := sub_eq_zero.mp (abs_nonpos_iff.mp h1)
  exact ⟨finite_of_val_le hx (by rw [h2, e]), h2⟩

/-- The double nearest to a number that is not above 2^1000 is not above 2^1000. -/
theorem nearest_below {v : F64} {q : ℝ} (hq : |q| ≤ 2 ^ 1000) (h : Nearest v q) : Below 1000 v := by
  obtain ⟨x, hx, e⟩ := exists_grid (k := 970) (m := 2 ^ 30) (by norm_num) (by norm_num) (by norm_num)
  have e' : x.val = 2 ^ 1000 := by
    rw [e, show (1000 : ℕ) = 30 + 970 from rfl, pow_add, Int.cast_pow, Int.cast_ofNat]
    congr 1
  have hn : (negate x).isNaN = false := not_nan_of_finite (negate_finite hx)
  have h1 := h.2 x (not_nan_of_finite hx)
  have h2 := h.2 _ hn
  rw [negate_val] at h2
  have hb : |v.val| ≤ 2 ^ 1000 := by
    rw [e'] at h1 h2
    generalize (2 : ℝ) ^ 1000 = K at *
    obtain ⟨q1, q2⟩ := abs_le.mp hq
    rw [abs_le]
    constructor
    · by_contra hc
      rw [not_le] at hc
      rw [abs_of_neg (by linarith only [hc, q1]), abs_of_nonpos (by linarith only [q1])] at h2
      linarith only [h2, hc]
    · by_contra hc
      rw [not_le] at hc
      rw [abs_of_pos (by linarith only [hc, q2] : 0 < v.val - q), abs_of_nonneg (by linarith only [q2])] at h1
      linarith only [h1, hc]
  refine ⟨finite_of_val_le hx ?_, hb⟩
  rw [e']
  exact hb.trans (le_abs_self _)

/-- The opposite sign gives the opposite number. -/
theorem ofScaled_opposite (s : Bool) (m : Nat) (k : ℤ) : ofScaled (!s) 10 m k = negate (ofScaled s 10 m k) := by
  unfold ofScaled rnd negate
  by_cases h0 : (scaledNum 10 m k : ℤ) = 0
  · rw [h0]
    cases s <;> simp only [Bool.not_true, Bool.not_false, if_true, Bool.false_eq_true, if_false, neg_zero] <;> decide
  · have hpos : (0 : ℤ) < scaledNum 10 m k := by
      have := Int.natCast_nonneg (scaledNum 10 m k)
      omega
    have hmag : ∀ s, (mk' s (roundMag (scaledNum 10 m k) (scaledDen 10 k))).mag = roundMag (scaledNum 10 m k) (scaledDen 10 k) :=
      fun s => mag_mk' s (roundMag_lt63 _ _)
    have hneg : ∀ s, (mk' s (roundMag (scaledNum 10 m k) (scaledDen 10 k))).neg = s := fun s => neg_mk' s (roundMag_lt63 _ _)
    cases s
    · simp only [Bool.not_false, if_true, Bool.false_eq_true, if_false, neg_eq_zero, h0, Int.natAbs_neg, Int.natAbs_natCast]
      rw [hmag, hneg, decide_eq_true (by omega), decide_eq_false (by omega), Bool.not_false]
    · simp only [Bool.not_true, if_true, Bool.false_eq_true, if_false, neg_eq_zero, h0, Int.natAbs_neg, Int.natAbs_natCast]
      have t : decide (-(scaledNum 10 m k : ℤ) < 0) = true := decide_eq_true (by omega)
      have f : decide ((scaledNum 10 m k : ℤ) < 0) = false := decide_eq_false (by omega)
      rw [hmag, hneg, t, f, Bool.not_true]

end F64

end Spoc
