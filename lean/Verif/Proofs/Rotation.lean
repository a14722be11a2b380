import Verif.Spec.Rotation
import Verif.Proofs.Quantize
import Mathlib.Analysis.Real.Pi.Bounds

/-!
# Helper lemmas for rotations
-/

namespace Spoc

open Spec

namespace F64

/-- 2^1002 -/
def two1002 : F64 := ⟨0x7E90000000000000⟩

theorem two1002_finite : two1002.isFinite = true := by decide +kernel
theorem two1002_fv : two1002.fv = 2 ^ 1002 * (one1074 : Int) := by decide +kernel
theorem two1002_val : two1002.val = 2 ^ 1002 := by
  unfold val
  rw [two1002_fv]
  have hU := one1074_pos'
  generalize (1002 : Nat) = k
  push_cast
  field_simp

theorem abs_val (x : F64) : |x.val| = (|x.fv| : ℤ) / (one1074 : ℝ) := by
  unfold val
  rw [abs_div, abs_of_pos one1074_pos', Int.cast_abs]

theorem finite_of_val_le {x y : F64} (hy : y.isFinite = true) (h : |x.val| ≤ |y.val|) : x.isFinite = true := by
  apply finite_of_fv_le hy
  rw [abs_val, abs_val, div_le_div_iff_of_pos_right one1074_pos'] at h
  have h2 : |x.fv| ≤ |y.fv| := by exact_mod_cast h
  rw [Int.abs_eq_natAbs, Int.abs_eq_natAbs] at h2
  omega

/-- No overflow of a sum. -/
theorem add_finite_of {x y w : F64} (hx : x.isFinite = true) (hy : y.isFinite = true) (hw : w.isFinite = true)
    (h : |x.val + y.val| ≤ |w.val|) : (add x y).isFinite = true := by
  apply finite_of_fv_le hw
  rw [add_fv hx hy]
  apply rfv_finite hw (by norm_num)
  have hU := one1074_pos'
  unfold val at h
  rw [← add_div, abs_div, abs_div, div_le_div_iff_of_pos_right (abs_pos.mpr hU.ne')] at h
  rw [Nat.cast_one, mul_one]
  exact_mod_cast h

theorem sub_finite_of {x y w : F64} (hx : x.isFinite = true) (hy : y.isFinite = true) (hw : w.isFinite = true)
    (h : |x.val - y.val| ≤ |w.val|) : (sub x y).isFinite = true :=
  add_finite_of hx (negate_finite hy) hw (by rw [negate_val]; exact h)

/-- No overflow of a product. -/
theorem mul_finite_of {x y w : F64} (hx : x.isFinite = true) (hy : y.isFinite = true) (hw : w.isFinite = true)
    (h : |x.val * y.val| ≤ |w.val|) : (mul x y).isFinite = true := by
  apply finite_of_fv_le hw
  rw [mul_fv hx hy]
  apply rfv_finite hw one1074_pos
  have hU := one1074_pos'
  unfold val at h
  have h2 : |(x.fv : ℝ) * y.fv| ≤ |(w.fv : ℝ)| * (one1074 : ℝ) := by
    generalize (one1074 : ℝ) = U at *
    rw [div_mul_div_comm, abs_div, abs_div, abs_of_pos hU, abs_of_pos (mul_pos hU hU), div_le_div_iff₀ (mul_pos hU hU) hU,
      ← mul_assoc] at h
    exact le_of_mul_le_mul_right h hU
  exact_mod_cast h2

/-- No overflow of a quotient. -/
theorem div_finite_of {x y w : F64} (hx : x.isFinite = true) (hy : y.isFinite = true) (hpos : 0 < y.fv)
    (hw : w.isFinite = true) (h : |x.val / y.val| ≤ |w.val|) : (div x y).isFinite = true := by
  apply finite_of_fv_le hw
  rw [(div_fv hx hy hpos).1]
  apply rfv_finite hw (by omega)
  have hU := one1074_pos'
  have hY : (0 : ℝ) < (y.fv : ℝ) := by exact_mod_cast hpos
  unfold val at h
  have e : (y.fv.natAbs : Int) = y.fv := by omega
  rw [e]
  have h2 : |(x.fv : ℝ) * (one1074 : ℝ)| ≤ |(w.fv : ℝ)| * (y.fv : ℝ) := by
    generalize (one1074 : ℝ) = U at *
    generalize (y.fv : ℝ) = Y at *
    have e1 : (x.fv : ℝ) / U / (Y / U) = x.fv * U / (Y * U) := by field_simp
    rw [e1, abs_div, abs_div, abs_of_pos hU, abs_of_pos (mul_pos hY hU), div_le_div_iff₀ (mul_pos hY hU) hU,
      ← mul_assoc] at h
    exact le_of_mul_le_mul_right h hU
  exact_mod_cast h2

end F64

namespace Affine

open F64

/-- Error analysis of `a * c ± b * s` in real numbers. -/
theorem combine {a b c s m1 m2 r C S ε η : ℝ} (hε : ε ≤ 1 / 2 ^ 10) (hη : 0 ≤ η)
    (hC : |C| ≤ 1) (hS : |S| ≤ 1) (hc : |c - C| ≤ ε) (hs : |s - S| ≤ ε)
    (h1 : 2 ^ 53 * |m1 - a * c| ≤ |a * c| + 2 ^ 52 * η) (h2 : 2 ^ 53 * |m2 - b * s| ≤ |b * s| + 2 ^ 52 * η)
    (hr : 2 ^ 53 * |r - (m1 + m2)| ≤ |m1 + m2|) :
    |r - (a * C + b * S)| ≤ (ε + 1 / 2 ^ 50) * (|a| + |b|) + 16 * η := by
  have ac : |a * c| ≤ (1 + ε) * |a| := by
    rw [abs_mul, mul_comm]
    refine mul_le_mul_of_nonneg_right ?_ (abs_nonneg _)
    have := abs_sub_abs_le_abs_sub c C
    linarith
  have bs : |b * s| ≤ (1 + ε) * |b| := by
    rw [abs_mul, mul_comm]
    refine mul_le_mul_of_nonneg_right ?_ (abs_nonneg _)
    have := abs_sub_abs_le_abs_sub s S
    linarith
  have acC : |a * c - a * C| ≤ ε * |a| := by
    rw [← mul_sub, abs_mul, mul_comm]
    exact mul_le_mul_of_nonneg_right hc (abs_nonneg _)
  have bsS : |b * s - b * S| ≤ ε * |b| := by
    rw [← mul_sub, abs_mul, mul_comm]
    exact mul_le_mul_of_nonneg_right hs (abs_nonneg _)
  have tri : |r - (a * C + b * S)| ≤ |r - (m1 + m2)| + |m1 - a * c| + |m2 - b * s| + |a * c - a * C| + |b * s - b * S| := by
    have e : r - (a * C + b * S) = (r - (m1 + m2)) + (m1 - a * c) + (m2 - b * s) + (a * c - a * C) + (b * s - b * S) := by ring
    rw [e]
    refine (abs_add_le _ _).trans (add_le_add_left ?_ _)
    refine (abs_add_le _ _).trans (add_le_add_left ?_ _)
    refine (abs_add_le _ _).trans (add_le_add_left ?_ _)
    exact abs_add_le _ _
  have mm : |m1 + m2| ≤ |m1 - a * c| + |m2 - b * s| + |a * c| + |b * s| := by
    have e : m1 + m2 = (m1 - a * c) + (m2 - b * s) + a * c + b * s := by ring
    rw [e]
    refine (abs_add_le _ _).trans (add_le_add_left ?_ _)
    refine (abs_add_le _ _).trans (add_le_add_left ?_ _)
    exact abs_add_le _ _
  have a0 := abs_nonneg a
  have b0 := abs_nonneg b
  have ea : ε * |a| ≤ 1 / 2 ^ 10 * |a| := mul_le_mul_of_nonneg_right hε a0
  have eb : ε * |b| ≤ 1 / 2 ^ 10 * |b| := mul_le_mul_of_nonneg_right hε b0
  rw [add_mul, one_mul] at ac bs
  have e : (ε + 1 / 2 ^ 50) * (|a| + |b|) = ε * |a| + ε * |b| + 1 / 2 ^ 50 * |a| + 1 / 2 ^ 50 * |b| := by ring
  rw [e]
  generalize ε * |a| = A at *
  generalize ε * |b| = B at *
  generalize |a| = a' at *
  generalize |b| = b' at *
  linarith

theorem tiny_le_one : (1 : ℝ) / (one1074 : ℝ) ≤ 1 := by
  rw [div_le_one one1074_pos']
  exact_mod_cast one1074_pos

theorem two1002_eq : two1002.val = 4 * 2 ^ 1000 := by
  rw [two1002_val]
  have : (1002 : Nat) = 2 + 1000 := rfl
  rw [this, pow_add]
  norm_num only

/-- A product with a sine or cosine: finite, small, and its error. -/
theorem mul_trig {a c : F64} {C ε : ℝ} (hε : ε ≤ 1 / 2 ^ 10) (ha : Below 1000 a) (hcf : c.isFinite = true)
    (hC : |C| ≤ 1) (hc : |c.val - C| ≤ ε) :
    (mul a c).isFinite = true ∧ |(mul a c).val| ≤ 2 * 2 ^ 1000
      ∧ 2 ^ 53 * |(mul a c).val - a.val * c.val| ≤ |a.val * c.val| + 2 ^ 52 * (1 / (one1074 : ℝ)) := by
  obtain ⟨haf, hab⟩ := ha
  have hK : (1 : ℝ) ≤ 2 ^ 1000 := one_le_pow₀ (by norm_num)
  have h4 := two1002_eq
  have hη := tiny_le_one
  have c1 : |c.val| ≤ 1 + ε := by
    have := abs_sub_abs_le_abs_sub c.val C
    linarith
  have hprod : |a.val * c.val| ≤ 2 ^ 1000 * (1 + 1 / 2 ^ 10) := by
    rw [abs_mul]
    exact mul_le_mul hab (c1.trans (by linarith)) (abs_nonneg _) (zero_le_one.trans hK)
  have hf : (mul a c).isFinite = true := by
    apply mul_finite_of haf hcf two1002_finite
    rw [h4]
    generalize (2 : ℝ) ^ 1000 = K at *
    refine hprod.trans (le_trans ?_ (le_abs_self _))
    linarith
  have hm := mul_val haf hcf hf
  rw [div_eq_mul_one_div] at hm
  refine ⟨hf, ?_, hm⟩
  have h5 := abs_sub_abs_le_abs_sub (mul a c).val (a.val * c.val)
  generalize (2 : ℝ) ^ 1000 = K at *
  generalize (1 : ℝ) / (one1074 : ℝ) = η at *
  linarith

/-- The two formulas of a rotation. -/
theorem plane {a b c s : F64} {C S ε : ℝ} (hε : ε ≤ 1 / 2 ^ 10) (ha : Below 1000 a) (hb : Below 1000 b)
    (hcf : c.isFinite = true) (hsf : s.isFinite = true) (hC : |C| ≤ 1) (hS : |S| ≤ 1)
    (hc : |c.val - C| ≤ ε) (hs : |s.val - S| ≤ ε) :
    (sub (mul a c) (mul b s)).isFinite = true ∧ (add (mul a s) (mul b c)).isFinite = true
      ∧ |(sub (mul a c) (mul b s)).val - (a.val * C - b.val * S)| ≤ tolerance ε (|a.val| + |b.val|)
      ∧ |(add (mul a s) (mul b c)).val - (a.val * S + b.val * C)| ≤ tolerance ε (|a.val| + |b.val|) := by
  have hη : 0 ≤ 1 / (one1074 : ℝ) := (one_div_pos.mpr one1074_pos').le
  obtain ⟨f1, b1, m1⟩ := mul_trig hε ha hcf hC hc
  obtain ⟨f2, b2, m2⟩ := mul_trig hε hb hsf hS hs
  obtain ⟨f3, b3, m3⟩ := mul_trig hε ha hsf hS hs
  obtain ⟨f4, b4, m4⟩ := mul_trig hε hb hcf hC hc
  have h4 := two1002_eq
  have e16 : (16 : ℝ) / (one1074 : ℝ) = 16 * (1 / (one1074 : ℝ)) := by rw [mul_one_div]
  have hf1 : (sub (mul a c) (mul b s)).isFinite = true := by
    apply sub_finite_of f1 f2 two1002_finite
    rw [h4]
    refine (abs_sub _ _).trans (le_trans ?_ (le_abs_self _))
    generalize (2 : ℝ) ^ 1000 = K at *
    linarith
  have hf2 : (add (mul a s) (mul b c)).isFinite = true := by
    apply add_finite_of f3 f4 two1002_finite
    rw [h4]
    refine (abs_add_le _ _).trans (le_trans ?_ (le_abs_self _))
    generalize (2 : ℝ) ^ 1000 = K at *
    linarith
  refine ⟨hf1, hf2, ?_, ?_⟩
  · have hr := sub_val f1 f2 hf1
    have := combine (a := a.val) (b := b.val) (c := c.val) (s := -s.val) (m1 := (mul a c).val) (m2 := -(mul b s).val)
      (r := (sub (mul a c) (mul b s)).val) (C := C) (S := -S) hε hη hC (by rw [abs_neg]; exact hS) hc
      (by rw [← abs_neg]; convert hs using 2; ring) m1
      (by rw [← abs_neg (-(mul b s).val - _), ← abs_neg (b.val * -s.val)]; convert m2 using 3 <;> ring_nf)
      (by rw [← sub_eq_add_neg]; exact hr)
    unfold tolerance
    rw [e16]
    convert this using 2
    ring
  · have hr := add_val f3 f4 hf2
    have := combine hε hη hS hC hs hc m3 m4 hr
    unfold tolerance
    rw [e16]
    exact this

/-- Euclidean lengths differ by at most the sum of the differences of the coordinates. -/
theorem sqrt_le_of (a b c d w : ℝ) :
    Real.sqrt (a ^ 2 + b ^ 2 + w ^ 2) ≤ Real.sqrt (c ^ 2 + d ^ 2 + w ^ 2) + (|a - c| + |b - d|) := by
  have r0 := Real.sqrt_nonneg (c ^ 2 + d ^ 2 + w ^ 2)
  have r2 := Real.sq_sqrt (by positivity : 0 ≤ c ^ 2 + d ^ 2 + w ^ 2)
  set r := Real.sqrt (c ^ 2 + d ^ 2 + w ^ 2) with hr
  have hc : |c| ≤ r := by
    apply abs_le_of_sq_le_sq _ r0
    nlinarith [sq_nonneg d, sq_nonneg w]
  have hd : |d| ≤ r := by
    apply abs_le_of_sq_le_sq _ r0
    nlinarith [sq_nonneg c, sq_nonneg w]
  have hα := abs_nonneg (a - c)
  have hβ := abs_nonneg (b - d)
  apply Real.sqrt_le_iff.mpr
  refine ⟨by positivity, ?_⟩
  have ea : a ^ 2 ≤ c ^ 2 + 2 * r * |a - c| + |a - c| ^ 2 := by
    have h1 : a ^ 2 = c ^ 2 + 2 * (c * (a - c)) + (a - c) ^ 2 := by ring
    have h2 : c * (a - c) ≤ r * |a - c| := by
      calc c * (a - c) ≤ |c * (a - c)| := le_abs_self _
        _ = |c| * |a - c| := abs_mul _ _
        _ ≤ r * |a - c| := mul_le_mul_of_nonneg_right hc hα
    rw [h1, ← sq_abs (a - c)]
    linarith
  have eb : b ^ 2 ≤ d ^ 2 + 2 * r * |b - d| + |b - d| ^ 2 := by
    have h1 : b ^ 2 = d ^ 2 + 2 * (d * (b - d)) + (b - d) ^ 2 := by ring
    have h2 : d * (b - d) ≤ r * |b - d| := by
      calc d * (b - d) ≤ |d * (b - d)| := le_abs_self _
        _ = |d| * |b - d| := abs_mul _ _
        _ ≤ r * |b - d| := mul_le_mul_of_nonneg_right hd hβ
    rw [h1, ← sq_abs (b - d)]
    linarith
  nlinarith [mul_nonneg hα hβ]

/-- A computed rotation of a vector against the exact one: lengths. -/
theorem rotated_length {a b a' b' w C S E : ℝ} (h1 : C ^ 2 + S ^ 2 = 1) (ha : |a' - (a * C - b * S)| ≤ E)
    (hb : |b' - (a * S + b * C)| ≤ E) :
    |Real.sqrt (a' ^ 2 + b' ^ 2 + w ^ 2) - Real.sqrt (a ^ 2 + b ^ 2 + w ^ 2)| ≤ 2 * E := by
  have e : a ^ 2 + b ^ 2 + w ^ 2 = (a * C - b * S) ^ 2 + (a * S + b * C) ^ 2 + w ^ 2 := by
    have : (a * C - b * S) ^ 2 + (a * S + b * C) ^ 2 = (a ^ 2 + b ^ 2) * (C ^ 2 + S ^ 2) := by ring
    rw [this, h1, mul_one]
  rw [e]
  have h2 := sqrt_le_of a' b' (a * C - b * S) (a * S + b * C) w
  have h3 := sqrt_le_of (a * C - b * S) (a * S + b * C) a' b' w
  rw [abs_sub_comm (a * C - b * S), abs_sub_comm (a * S + b * C)] at h3
  rw [abs_le]
  constructor <;> linarith

theorem pi_fv : pi.fv * 2 ^ 48 = 884279719003555 * (one1074 : Int) := by decide +kernel
theorem pi_finite : pi.isFinite = true := by decide +kernel
theorem pi_val : pi.val = 884279719003555 / 2 ^ 48 := by
  unfold val
  have hU := one1074_pos'
  rw [div_eq_div_iff hU.ne' (by norm_num)]
  exact_mod_cast pi_fv

theorem c180_fv : c180.fv = 180 * (one1074 : Int) := by decide +kernel
theorem c180_finite : c180.isFinite = true := by decide +kernel
theorem c180_pos : 0 < c180.fv := by decide +kernel
theorem c180_val : c180.val = 180 := by
  unfold val
  rw [c180_fv]
  have hU := one1074_pos'
  push_cast
  field_simp

theorem pi_close : |pi.val - Real.pi| ≤ 1 / 2 ^ 52 := by
  have h1 := Real.pi_gt_d20
  have h2 := Real.pi_lt_d20
  rw [pi_val, abs_le]
  constructor <;> norm_num at * <;> linarith

/-- The conversion to radians, without overflow. -/
theorem radians_spec {d : F64} (hd : Below 990 d) :
    (mul d pi).isFinite = true ∧ (radians d).isFinite = true
      ∧ |(radians d).val - d.val * Real.pi / 180| ≤ |d.val| / 2 ^ 53 + 1 / (one1074 : ℝ) := by
  obtain ⟨hf, hb⟩ := hd
  have hK : (1 : ℝ) ≤ 2 ^ 990 := one_le_pow₀ (by norm_num)
  have h4 : two1002.val = 4096 * 2 ^ 990 := by
    rw [two1002_val]
    have : (1002 : Nat) = 12 + 990 := rfl
    rw [this, pow_add]
    norm_num only
  have hη := tiny_le_one
  have hη0 : 0 ≤ 1 / (one1074 : ℝ) := (one_div_pos.mpr one1074_pos').le
  have hp : |pi.val| ≤ 4 := by rw [pi_val, abs_of_pos (by norm_num)]; norm_num
  have hdp : |d.val * pi.val| ≤ |d.val| * 4 := by
    rw [abs_mul]; exact mul_le_mul_of_nonneg_left hp (abs_nonneg _)
  have f1 : (mul d pi).isFinite = true := by
    apply mul_finite_of hf pi_finite two1002_finite
    rw [h4]
    refine hdp.trans (le_trans ?_ (le_abs_self _))
    generalize (2 : ℝ) ^ 990 = K at *
    linarith
  have m1 := mul_val hf pi_finite f1
  rw [div_eq_mul_one_div] at m1
  have hm := abs_sub_abs_le_abs_sub (mul d pi).val (d.val * pi.val)
  have f2 : (radians d).isFinite = true := by
    apply div_finite_of f1 c180_finite c180_pos two1002_finite
    rw [h4, c180_val, abs_div, abs_of_pos (by norm_num : (0 : ℝ) < 180)]
    refine le_trans ?_ (le_abs_self _)
    rw [div_le_iff₀ (by norm_num)]
    generalize (2 : ℝ) ^ 990 = K at *
    generalize (1 : ℝ) / (one1074 : ℝ) = η at *
    linarith
  refine ⟨f1, f2, ?_⟩
  have m2 := div_val f1 c180_finite c180_pos f2
  rw [div_eq_mul_one_div ((2 : ℝ) ^ 52), c180_val] at m2
  have hpi := pi_close
  have hdpi : |d.val * pi.val - d.val * Real.pi| ≤ |d.val| * (1 / 2 ^ 52) := by
    rw [← mul_sub, abs_mul]
    exact mul_le_mul_of_nonneg_left hpi (abs_nonneg _)
  have tri : |(radians d).val - d.val * Real.pi / 180| ≤ |(radians d).val - (mul d pi).val / 180|
      + |(mul d pi).val - d.val * pi.val| / 180 + |d.val * pi.val - d.val * Real.pi| / 180 := by
    have e : (radians d).val - d.val * Real.pi / 180 = ((radians d).val - (mul d pi).val / 180)
      + ((mul d pi).val - d.val * pi.val) / 180 + (d.val * pi.val - d.val * Real.pi) / 180 := by ring
    rw [e]
    refine (abs_add_le _ _).trans ?_
    rw [abs_div, abs_of_pos (by norm_num : (0 : ℝ) < 180)]
    refine add_le_add_left ?_ _
    refine (abs_add_le _ _).trans ?_
    rw [abs_div, abs_of_pos (by norm_num : (0 : ℝ) < 180)]
  have m2' : 2 ^ 53 * |(radians d).val - (mul d pi).val / 180| ≤ |(mul d pi).val| / 180 + 2 ^ 52 * (1 / (one1074 : ℝ)) := by
    rw [abs_div, abs_of_pos (by norm_num : (0 : ℝ) < 180)] at m2
    exact m2
  have d0 := abs_nonneg d.val
  generalize (1 : ℝ) / (one1074 : ℝ) = η at *
  linarith

theorem radians_negate {d : F64} (hd : Below 990 d) : (radians (negate d)).val = - (radians d).val := by
  obtain ⟨f1, f2, _⟩ := radians_spec hd
  have hn : Below 990 (negate d) := ⟨negate_finite hd.1, by rw [negate_val, abs_neg]; exact hd.2⟩
  obtain ⟨g1, g2, _⟩ := radians_spec hn
  have e1 : (mul (negate d) pi).fv = - (mul d pi).fv := by
    rw [mul_fv hn.1 pi_finite, mul_fv hd.1 pi_finite, negate_fv, neg_mul, rfv_neg _ one1074_pos]
  have e2 : (radians (negate d)).fv = - (radians d).fv := by
    have hB : 0 < c180.fv.natAbs := by have := c180_pos; omega
    unfold radians
    rw [(div_fv g1 c180_finite c180_pos).1, (div_fv f1 c180_finite c180_pos).1, e1, neg_mul, rfv_neg _ hB]
  unfold val
  rw [e2]; push_cast; ring

end Affine

end Spoc
