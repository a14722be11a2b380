import Verif.Proofs.Cells
import Verif.Proofs.Distance

/-!
# Distances on a grid
-/

namespace Spoc

open Spec

namespace F64

/-- The value of a number of units. -/
theorem val_units {k : ℤ} (hk0 : -1074 ≤ k) {x : F64} {m : ℤ} (h : x.fv = m * 2 ^ (k + 1074).toNat) : x.val = m * (2 : ℝ) ^ k := by
  obtain ⟨e, he⟩ := Int.eq_ofNat_of_zero_le (show 0 ≤ k + 1074 by omega)
  have hk' : k = (e : ℤ) - 1074 := by omega
  have hU : (one1074 : ℝ) = (2 : ℝ) ^ (1074 : ℤ) := by
    have h1 : ((one1074 : ℤ) : ℝ) = ((2 ^ 1074 : ℤ) : ℝ) := by rw [one1074_eq]
    rw [Int.cast_pow, Int.cast_natCast, Int.cast_ofNat] at h1
    rw [h1]
    exact (zpow_natCast (2 : ℝ) 1074).symm
  unfold val
  rw [h, he, hU, Int.toNat_natCast, hk', zpow_sub₀ (by norm_num), Int.cast_mul, Int.cast_pow, Int.cast_ofNat, zpow_natCast, mul_div_assoc]

/-- Differences on the grid are exact. -/
theorem sub_grid {k : ℤ} (hk0 : -1074 ≤ k) (hk : k ≤ 970) {x y : F64} (hx : OnGrid k 52 x) (hy : OnGrid k 52 y) :
    ∃ m : ℤ, (sub x y).isFinite = true ∧ (sub x y).fv = m * 2 ^ (k + 1074).toNat ∧ x.val - y.val = m * (2 : ℝ) ^ k := by
  obtain ⟨a, ha, ea⟩ := grid_fv hk0 hx
  obtain ⟨b, hb, eb⟩ := grid_fv hk0 hy
  have enb : (negate y).fv = (-b) * 2 ^ (k + 1074).toNat := by rw [negate_fv, eb]; ring
  obtain ⟨fin, e⟩ := add_units hk hx.1 (negate_finite hy.1) ea enb (by omega)
  refine ⟨a + -b, fin, e, ?_⟩
  rw [val_units hk0 ea, val_units hk0 eb]
  push_cast
  ring

/-- Squares of few units are exact. -/
theorem square_units {k : ℤ} (hk0 : -537 ≤ k) (hk : k ≤ 485) {x : F64} {m : ℤ} (hx : x.isFinite = true) (h : x.fv = m * 2 ^ (k + 1074).toNat)
    (hm : (m * m).natAbs < 2 ^ 53) : (mul x x).isFinite = true ∧ (mul x x).fv = m * m * 2 ^ (2 * k + 1074).toNat := by
  have e0 : x.fv * x.fv = m * m * 2 ^ (2 * k + 1074).toNat * (one1074 : ℤ) := by
    have : (2 : ℤ) ^ (k + 1074).toNat * 2 ^ (k + 1074).toNat = 2 ^ (2 * k + 1074).toNat * 2 ^ 1074 := by
      rw [← pow_add, ← pow_add]
      congr 1
      omega
    rw [h, one1074_eq]
    linear_combination m * m * this
  have e : (mul x x).fv = m * m * 2 ^ (2 * k + 1074).toNat := by
    rw [mul_fv hx hx, e0]
    have := Utils.rfv_scale (m * m * 2 ^ (2 * k + 1074).toNat) (B := 1) (c := one1074) (by norm_num) one1074_pos
    rw [Nat.one_mul] at this
    rw [this]
    exact rfv_dyadic two1023_finite hm (units_bound hm (by omega))
  refine ⟨finite_of_fv_le two1023_finite ?_, e⟩
  rw [e, Int.natAbs_mul, natAbs_two_pow]
  exact units_bound hm (by omega)

/-- A root is not rounded above a number that is not below it. -/
theorem sqrt_le_of {x c : F64} (hx : x.isFinite = true) (h0 : 0 ≤ x.fv) (hc : c.isFinite = true) (hc0 : 0 ≤ c.fv) (h : x.fv * one1074 ≤ c.fv * c.fv) :
    (sqrt x).fv ≤ c.fv := by
  by_cases hm : x.mag = 0
  · have e : sqrt x = x := by
      unfold sqrt
      rw [not_nan_of_finite hx, if_neg (by simp), if_pos hm]
    rw [e, fv_eq_zero.mpr hm]
    exact hc0
  · have hn : x.neg = false := (fv_pos.mp (lt_of_le_of_ne h0 (fun h => hm (fv_eq_zero.mp h.symm)))).1
    have hfv : x.fv = (fixMag x.mag : Int) := by unfold fv; rw [hn]; rfl
    obtain ⟨n, hnd⟩ : ∃ n, n = fixMag x.mag * one1074 := ⟨_, rfl⟩
    obtain ⟨A, hA⟩ : ∃ A, A = 2 * isqrt n + (if isqrt n * isqrt n = n then 0 else 1) := ⟨_, rfl⟩
    have e : sqrt x = mk' false (roundMag A 2) := by
      rw [hA, hnd]
      unfold sqrt
      rw [not_nan_of_finite hx, if_neg (by simp), if_neg hm, hn, if_neg (by simp), isInf_eq_false_of_finite hx, if_neg (by simp)]
    have hcfv : c.fv = (c.fv.natAbs : ℤ) := by omega
    have hle : n ≤ c.fv.natAbs * c.fv.natAbs := by
      rw [hfv, hcfv] at h
      rw [hnd]
      exact_mod_cast h
    have hAle : A ≤ c.fv.natAbs * 2 := by
      obtain ⟨s1, s2⟩ := isqrt_spec n
      rw [hA]
      generalize isqrt n = s at *
      generalize c.fv.natAbs = d at *
      have hsd : s ≤ d := Nat.mul_self_le_mul_self_iff.mp (le_trans s1 hle)
      rcases Nat.lt_or_ge s d with hlt | hge
      · split <;> omega
      · obtain rfl : s = d := le_antisymm hsd hge
        rw [if_pos (le_antisymm s1 hle)]
        omega
    have hr : roundMag A 2 ≤ c.mag := roundMag_le_of (by norm_num) (isFinite_iff.mp hc).le (by rw [← fv_natAbs]; exact hAle)
    have hmag : (sqrt x).mag = roundMag A 2 := by rw [e, mag_mk' _ (roundMag_lt63 _ _)]
    have hs : (sqrt x).neg = false := by rw [e, neg_mk' _ (roundMag_lt63 _ _)]
    have e1 : (sqrt x).fv = (fixMag (sqrt x).mag : ℤ) := by unfold fv; rw [hs]; rfl
    rw [e1, hcfv, fv_natAbs, hmag]
    exact_mod_cast fixMag_le_iff.mpr hr

end F64


theorem units_small {k : ℤ} {m : ℤ} (h : |(m : ℝ) * (2 : ℝ) ^ k| < 2 ^ 24 * (2 : ℝ) ^ k) : m * m < 2 ^ 48 := by
  have hk : (0 : ℝ) < (2 : ℝ) ^ k := zpow_pos (by norm_num) _
  rw [abs_mul, abs_of_pos hk] at h
  have h1 := lt_of_mul_lt_mul_right h hk.le
  have h2 : |m| < 2 ^ 24 := by exact_mod_cast h1
  have h3 := abs_lt.mp h2
  nlinarith

namespace F64

/-- On a grid the comparison of the computed distance and the radius is exact. -/
theorem distance_grid {k : ℤ} (hk0 : -537 ≤ k) (hk : k ≤ 485) {p q : Pt F64} (px : OnGrid k 52 p.x) (py : OnGrid k 52 p.y) (pz : OnGrid k 52 p.z)
    (qx : OnGrid k 52 q.x) (qy : OnGrid k 52 q.y) (qz : OnGrid k 52 q.z)
    (hx : |p.x.val - q.x.val| < 2 ^ 24 * (2 : ℝ) ^ k) (hy : |p.y.val - q.y.val| < 2 ^ 24 * (2 : ℝ) ^ k) (hz : |p.z.val - q.z.val| < 2 ^ 24 * (2 : ℝ) ^ k)
    {r : F64} (hr : OnGrid k 53 r) (hpos : 0 < r.val) : F64.le (Pt.distance p q) r = true ↔ dist3 p q ≤ r.val := by
  have hk1 : -1074 ≤ k := by omega
  obtain ⟨a, fa, ea, va⟩ := sub_grid hk1 (by omega) px qx
  obtain ⟨b, fb, eb, vb⟩ := sub_grid hk1 (by omega) py qy
  obtain ⟨c, fc, ec, vc⟩ := sub_grid hk1 (by omega) pz qz
  obtain ⟨d, hd, ed⟩ := grid_fv hk1 hr
  rw [va] at hx
  rw [vb] at hy
  rw [vc] at hz
  have ha := units_small hx
  have hb := units_small hy
  have hc := units_small hz
  have ha0 := mul_self_nonneg a
  have hb0 := mul_self_nonneg b
  have hc0 := mul_self_nonneg c
  obtain ⟨fa2, ea2⟩ := square_units hk0 hk fa ea (by omega)
  obtain ⟨fb2, eb2⟩ := square_units hk0 hk fb eb (by omega)
  obtain ⟨fc2, ec2⟩ := square_units hk0 hk fc ec (by omega)
  obtain ⟨fab, eab⟩ := add_units (k := 2 * k) (by omega) fa2 fb2 ea2 eb2 (by omega)
  obtain ⟨fs, es⟩ := add_units (k := 2 * k) (by omega) fab fc2 eab ec2 (by omega)
  obtain ⟨S, hS⟩ : ∃ S, S = add (add (mul (sub p.x q.x) (sub p.x q.x)) (mul (sub p.y q.y) (sub p.y q.y))) (mul (sub p.z q.z) (sub p.z q.z)) := ⟨_, rfl⟩
  have edist : Pt.distance p q = sqrt S := by rw [hS]; rfl
  rw [← hS] at fs es
  obtain ⟨N, hN⟩ : ∃ N, N = a * a + b * b + c * c := ⟨_, rfl⟩
  rw [← hN] at es
  have hN0 : 0 ≤ N := by omega
  have hN1 : N < 2 ^ 50 := by omega
  have hS0 : 0 ≤ S.fv := by rw [es]; positivity
  have vS : S.val = N * ((2 : ℝ) ^ k) ^ 2 := by
    rw [val_units (by omega) es, ← zpow_natCast, ← zpow_mul]
    congr 2
    push_cast
    ring
  have vr : r.val = d * (2 : ℝ) ^ k := val_units hk1 ed
  have hK : (0 : ℝ) < (2 : ℝ) ^ k := zpow_pos (by norm_num) _
  have hd0 : 0 < d := by
    rw [vr] at hpos
    have := (pos_iff_pos_of_mul_pos hpos).mpr hK
    exact_mod_cast this
  have e3 : dist3 p q = Real.sqrt N * (2 : ℝ) ^ k := by
    unfold dist3
    rw [va, vb, vc]
    have : ((a : ℝ) * (2 : ℝ) ^ k) ^ 2 + ((b : ℝ) * (2 : ℝ) ^ k) ^ 2 + ((c : ℝ) * (2 : ℝ) ^ k) ^ 2 = N * ((2 : ℝ) ^ k * (2 : ℝ) ^ k) := by
      rw [hN]
      push_cast
      ring
    rw [this, Real.sqrt_mul' _ (mul_self_nonneg _), Real.sqrt_mul_self hK.le]
  have hfin := sqrt_val fs hS0
  have e4 : dist3 p q ≤ r.val ↔ N ≤ d * d := by
    rw [e3, vr, mul_le_mul_iff_of_pos_right hK, Real.sqrt_le_left (by exact_mod_cast hd0.le), sq]
    exact_mod_cast Iff.rfl
  rw [e4, edist, F64.le_iff]
  constructor
  · rintro ⟨-, -, h⟩
    by_contra hcon
    push Not at hcon
    have h1 := val_le_iff.mpr h
    have h2 : Real.sqrt S.val = Real.sqrt N * (2 : ℝ) ^ k := by
      rw [vS, Real.sqrt_mul' _ (sq_nonneg _), Real.sqrt_sq hK.le]
    have h3 := hfin.2
    rw [h2] at h3
    rw [vr] at h1
    have h4 := (abs_le.mp (show |(sqrt S).val - Real.sqrt N * (2 : ℝ) ^ k| ≤ Real.sqrt N * (2 : ℝ) ^ k / 2 ^ 52 by
      rw [le_div_iff₀ (by norm_num)]; linarith)).1
    have h5 : Real.sqrt N * (1 - 1 / 2 ^ 52) * (2 : ℝ) ^ k ≤ d * (2 : ℝ) ^ k := by linarith
    have h6 := le_of_mul_le_mul_right h5 hK
    have hNr : (0 : ℝ) ≤ N := by exact_mod_cast hN0
    have h7 : (Real.sqrt N * (1 - 1 / 2 ^ 52)) * (Real.sqrt N * (1 - 1 / 2 ^ 52)) ≤ d * d :=
      mul_self_le_mul_self (mul_nonneg (Real.sqrt_nonneg _) (by norm_num)) h6
    have h8 := Real.mul_self_sqrt hNr
    have h9 : (N : ℝ) * (1 - 1 / 2 ^ 52) ^ 2 ≤ d * d := by
      calc (N : ℝ) * (1 - 1 / 2 ^ 52) ^ 2 = (Real.sqrt N * Real.sqrt N) * (1 - 1 / 2 ^ 52) ^ 2 := by rw [h8]
        _ = (Real.sqrt N * (1 - 1 / 2 ^ 52)) * (Real.sqrt N * (1 - 1 / 2 ^ 52)) := by ring
        _ ≤ _ := h7
    have h10 : (d : ℝ) * d + 1 ≤ N := by exact_mod_cast hcon
    have h11 : (N : ℝ) < 2 ^ 50 := by exact_mod_cast hN1
    norm_num at h9 h11
    linarith
  · intro h
    refine ⟨not_nan_of_finite hfin.1, not_nan_of_finite hr.1, ?_⟩
    refine sqrt_le_of fs hS0 hr.1 ((F64.val_pos.mp hpos).le) ?_
    rw [es, ed, one1074_eq]
    have e5 : (2 : ℤ) ^ (k + 1074).toNat * 2 ^ (k + 1074).toNat = 2 ^ (2 * k + 1074).toNat * 2 ^ 1074 := by
      rw [← pow_add, ← pow_add]
      congr 1
      omega
    calc N * 2 ^ (2 * k + 1074).toNat * 2 ^ 1074 = N * (2 ^ (2 * k + 1074).toNat * 2 ^ 1074) := by ring
      _ ≤ d * d * (2 ^ (2 * k + 1074).toNat * 2 ^ 1074) := mul_le_mul_of_nonneg_right h (by positivity)
      _ = d * 2 ^ (k + 1074).toNat * (d * 2 ^ (k + 1074).toNat) := by rw [← e5]; ring

end F64

end Spoc
