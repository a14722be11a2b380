import Verif.Proofs.MergeArea
import Verif.Model.ExtentArea

/-!
# The area and the volume of the box around a cloud
-/

namespace Spoc

open Spec F64

/-- A rounded product of a rounded product with a rounded difference. -/
theorem volume_err {p p' c c' m e : ℝ} (h1 : |p' - p| ≤ |p| / 2 ^ 51 + e) (h3 : 2 ^ 53 * |c' - c| ≤ |c|)
    (h2 : 2 ^ 53 * |m - p' * c'| ≤ |p' * c'| + 2 ^ 52 * e) (he : 0 ≤ e) :
    |m - p * c| ≤ |p * c| / 2 ^ 50 + (1 + 2 * |c|) * e := by
  have q2 : |c' - c| ≤ |c| / 2 ^ 53 := by rw [le_div_iff₀ (by norm_num)]; linarith
  have q3 : |c'| ≤ |c| * (1 + 1 / 2 ^ 53) := by
    have h := abs_sub_abs_le_abs_sub c' c
    linarith
  have hce : 0 ≤ |c| * e := mul_nonneg (abs_nonneg _) he
  have q4 : |p' * c' - p * c| ≤ |p * c| * (1 / 2 ^ 51 + 1 / 2 ^ 53 + 1 / 2 ^ 104) + |c| * e * (1 + 1 / 2 ^ 53) := by
    have e1 : p' * c' - p * c = (p' - p) * c' + p * (c' - c) := by ring
    rw [e1]
    refine (abs_add_le _ _).trans ?_
    rw [abs_mul, abs_mul, abs_mul]
    have r1 := mul_le_mul h1 q3 (abs_nonneg _) (add_nonneg (by positivity) he)
    have r2 := mul_le_mul_of_nonneg_left q2 (abs_nonneg p)
    refine (add_le_add r1 r2).trans (le_of_eq ?_)
    ring
  have q5 : |p' * c'| ≤ 3 / 2 * |p * c| + 3 / 2 * (|c| * e) := by
    have h := abs_sub_abs_le_abs_sub (p' * c') (p * c)
    have := abs_nonneg (p * c)
    norm_num at *
    linarith
  have q6 : |m - p' * c'| ≤ (3 / 2 * |p * c| + 3 / 2 * (|c| * e) + 2 ^ 52 * e) / 2 ^ 53 := by
    rw [le_div_iff₀ (by norm_num)]; linarith
  have q7 := abs_sub_le m (p' * c') (p * c)
  have := abs_nonneg (p * c)
  have e1 : (1 + 2 * |c|) * e = e + 2 * (|c| * e) := by ring
  rw [e1]
  generalize |c| * e = w at *
  norm_num at *
  linarith

theorem below_le {j k : Nat} (h : j ≤ k) {x : F64} (hx : Below j x) : Below k x :=
  ⟨hx.1, hx.2.trans (pow_le_pow_right₀ (by norm_num) h)⟩

theorem pow300 : 4096 * ((2 : ℝ) ^ 300) ^ 3 ≤ 2 ^ 1002 := by
  have h1 : (4096 : ℝ) = 2 ^ 12 := by norm_num
  rw [h1, ← pow_mul, ← pow_add]
  exact pow_le_pow_right₀ (by norm_num) (by norm_num)

/-- A difference. -/
theorem diff_300 {u v : F64} (hu : Below 300 u) (hv : Below 300 v) : (sub u v).isFinite = true ∧ |u.val - v.val| ≤ 2 * 2 ^ 300
    ∧ |(sub u v).val| ≤ 3 * 2 ^ 300 ∧ 2 ^ 53 * |(sub u v).val - (u.val - v.val)| ≤ |u.val - v.val| := by
  have hd : (sub u v).isFinite = true := sub_small (below_le (by norm_num) hu) (below_le (by norm_num) hv)
  obtain ⟨fu, bu⟩ := hu
  obtain ⟨fv, bv⟩ := hv
  have ha : |u.val - v.val| ≤ 2 * 2 ^ 300 := by
    refine (abs_sub _ _).trans ?_
    generalize (2 : ℝ) ^ 300 = V at *
    linarith only [bu, bv]
  have hd1 := sub_val fu fv hd
  refine ⟨hd, ha, ?_, hd1⟩
  have h3 := abs_sub_abs_le_abs_sub (sub u v).val (u.val - v.val)
  have h4 : |(sub u v).val - (u.val - v.val)| ≤ |u.val - v.val| / 2 ^ 53 := by
    rw [le_div_iff₀ (by norm_num)]
    linarith only [hd1]
  have h5 : |u.val - v.val| / 2 ^ 53 ≤ |u.val - v.val| / 2 := div_le_div_of_nonneg_left (abs_nonneg _) (by norm_num) (by norm_num)
  generalize (2 : ℝ) ^ 300 = V at *
  linarith only [h3, h4, h5, ha]

/-- The product of three differences. -/
theorem box_product3 {x0 x1 y0 y1 z0 z1 : F64} (hx0 : Below 300 x0) (hx1 : Below 300 x1) (hy0 : Below 300 y0) (hy1 : Below 300 y1)
    (hz0 : Below 300 z0) (hz1 : Below 300 z1) :
    (mul (mul (sub x1 x0) (sub y1 y0)) (sub z1 z0)).isFinite = true
      ∧ |(mul (mul (sub x1 x0) (sub y1 y0)) (sub z1 z0)).val - (x1.val - x0.val) * (y1.val - y0.val) * (z1.val - z0.val)|
          ≤ |(x1.val - x0.val) * (y1.val - y0.val) * (z1.val - z0.val)| / 2 ^ 50
            + (1 + 2 * |z1.val - z0.val|) * (1 / (one1074 : ℝ)) := by
  obtain ⟨e0, e1⟩ := inv_le_one
  have hV : (1 : ℝ) ≤ 2 ^ 300 := one_le_pow₀ (by norm_num)
  have hW := pow300
  have hw : |two1002.val| = 2 ^ 1002 := by rw [two1002_val, abs_of_nonneg (pow_nonneg (by norm_num) _)]
  obtain ⟨fp, ep, _⟩ := box_product (below_le (by norm_num) hx0 : Below 400 x0) (below_le (by norm_num) hx1 : Below 400 x1)
    (below_le (by norm_num) hy0 : Below 400 y0) (below_le (by norm_num) hy1 : Below 400 y1)
  obtain ⟨_, bx, _, _⟩ := diff_300 hx1 hx0
  obtain ⟨_, b_y, _, _⟩ := diff_300 hy1 hy0
  obtain ⟨fz, _, cz, ez⟩ := diff_300 hz1 hz0
  have bp : |(x1.val - x0.val) * (y1.val - y0.val)| ≤ 4 * ((2 : ℝ) ^ 300) ^ 2 := by
    rw [abs_mul]
    refine (mul_le_mul bx b_y (abs_nonneg _) (mul_nonneg (by norm_num) (pow_nonneg (by norm_num) _))).trans (le_of_eq ?_)
    generalize (2 : ℝ) ^ 300 = V
    ring
  generalize mul (sub x1 x0) (sub y1 y0) = p at *
  generalize (x1.val - x0.val) * (y1.val - y0.val) = P at *
  generalize sub z1 z0 = c at *
  generalize z1.val - z0.val = C at *
  have cp : |p.val| ≤ 9 * ((2 : ℝ) ^ 300) ^ 2 := by
    have k := abs_sub_abs_le_abs_sub p.val P
    have k1 : |P| / 2 ^ 51 ≤ |P| := div_le_self (abs_nonneg _) (by norm_num)
    have k2 : (1 : ℝ) ≤ ((2 : ℝ) ^ 300) ^ 2 := one_le_pow₀ hV
    generalize ((2 : ℝ) ^ 300) ^ 2 = V at *
    linarith only [k, k1, k2, e1, ep, bp]
  have hm : (mul p c).isFinite = true := by
    refine mul_finite_of fp fz two1002_finite ?_
    rw [hw, abs_mul]
    refine le_trans (mul_le_mul cp cz (abs_nonneg _) (mul_nonneg (by norm_num) (sq_nonneg _))) ?_
    refine le_trans ?_ hW
    have : (0 : ℝ) ≤ ((2 : ℝ) ^ 300) ^ 3 := pow_nonneg (pow_nonneg (by norm_num) _) _
    have e : 9 * ((2 : ℝ) ^ 300) ^ 2 * (3 * 2 ^ 300) = 27 * ((2 : ℝ) ^ 300) ^ 3 := by
      generalize (2 : ℝ) ^ 300 = V
      ring
    rw [e]
    generalize ((2 : ℝ) ^ 300) ^ 3 = V at *
    linarith only [this]
  have hm1 := mul_val fp fz hm
  have e2 : (2 : ℝ) ^ 52 / (one1074 : ℝ) = 2 ^ 52 * (1 / (one1074 : ℝ)) := by rw [mul_one_div]
  rw [e2] at hm1
  exact ⟨hm, volume_err ep ez hm1 e0⟩

/-- All coordinates are small. -/
def SmallBox (ps : List PointRecord) : Prop := ∀ p ∈ ps, Below 300 p.x ∧ Below 300 p.y ∧ Below 300 p.z

/-! ## Order -/

theorem sub_mono {a b a' b' : F64} (ha : a.isFinite = true) (hb : b.isFinite = true) (ha' : a'.isFinite = true) (hb' : b'.isFinite = true)
    (h1 : a.fv ≤ a'.fv) (h2 : b'.fv ≤ b.fv) : (sub a b).fv ≤ (sub a' b').fv := by
  rw [sub_fv ha hb, sub_fv ha' hb']
  exact rfv_mono (by norm_num) (by norm_num) (by omega)

theorem sub_nonneg' {a b : F64} (ha : a.isFinite = true) (hb : b.isFinite = true) (h : b.fv ≤ a.fv) : 0 ≤ (sub a b).fv := by
  rw [sub_fv ha hb]
  exact rfv_nonneg (by omega)

theorem mul_nonneg' {a b : F64} (ha : a.isFinite = true) (hb : b.isFinite = true) (h1 : 0 ≤ a.fv) (h2 : 0 ≤ b.fv) : 0 ≤ (mul a b).fv := by
  rw [mul_fv ha hb]
  exact rfv_nonneg (mul_nonneg h1 h2)

theorem mul_mono {a b a' b' : F64} (ha : a.isFinite = true) (hb : b.isFinite = true) (ha' : a'.isFinite = true) (hb' : b'.isFinite = true)
    (h1 : 0 ≤ a.fv) (h2 : 0 ≤ b.fv) (h3 : a.fv ≤ a'.fv) (h4 : b.fv ≤ b'.fv) : (mul a b).fv ≤ (mul a' b').fv := by
  rw [mul_fv ha hb, mul_fv ha' hb']
  refine rfv_mono one1074_pos one1074_pos ?_
  exact mul_le_mul_of_nonneg_right (mul_le_mul h3 h4 h2 (h1.trans h3)) (Int.natCast_nonneg _)

end Spoc
