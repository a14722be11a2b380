import Verif.Proofs.Rotation
import Verif.Model.Point

/-!
# Helper lemmas for square roots and distances
-/

namespace Spoc

open Spec

namespace F64

theorem isqrtAux_spec (n : Nat) : ∀ k r : Nat, r * r ≤ n → n < (r + 2 ^ k) * (r + 2 ^ k) →
    isqrtAux n k r * isqrtAux n k r ≤ n ∧ n < (isqrtAux n k r + 1) * (isqrtAux n k r + 1) := by
  intro k
  induction k with
  | zero => intro r h1 h2; exact ⟨h1, h2⟩
  | succ k ih =>
    intro r h1 h2
    unfold isqrtAux
    split
    · next h =>
      refine ih _ h ?_
      rw [pow_succ, mul_two] at h2
      rw [add_assoc]
      exact h2
    · next h => exact ih _ h1 (by omega)

theorem isqrt_spec (n : Nat) : isqrt n * isqrt n ≤ n ∧ n < (isqrt n + 1) * (isqrt n + 1) := by
  refine isqrtAux_spec n _ 0 (by omega) ?_
  rw [zero_add, ← pow_add]
  refine lt_of_lt_of_le (Nat.lt_log2_self (n := n)) ?_
  exact Nat.pow_le_pow_right (by norm_num) (by omega)

/-- Integer part and sticky bit are close to the root. -/
theorem sticky_near (n : Nat) :
    |((2 * isqrt n + if isqrt n * isqrt n = n then 0 else 1 : Nat) : ℝ) - 2 * Real.sqrt n| ≤ 1 := by
  obtain ⟨h1, h2⟩ := isqrt_spec n
  generalize isqrt n = s at *
  have r1 : (s : ℝ) ≤ Real.sqrt n := Real.le_sqrt_of_sq_le (by rw [sq]; exact_mod_cast h1)
  have r2 : Real.sqrt n ≤ s + 1 := by
    rw [Real.sqrt_le_left (by positivity), sq]
    exact_mod_cast h2.le
  split
  · next h =>
    have : Real.sqrt n = s := by
      rw [← h]
      push_cast
      exact Real.sqrt_mul_self (by positivity)
    rw [this]
    push_cast
    simp
  · push_cast
    rw [abs_le]
    constructor <;> linarith

theorem fixMag_infMag : fixMag infMag = 2 ^ 1024 * one1074 := by decide +kernel

theorem one1074_ge : (2 : ℝ) ^ 106 ≤ (one1074 : ℝ) := by
  have h : 2 ^ 106 ≤ one1074 := Nat.pow_le_pow_right (by norm_num) (by norm_num)
  exact_mod_cast h

/-- Finite doubles are below 2^1024. -/
theorem val_lt {x : F64} (hx : x.isFinite = true) : |x.val| ≤ 2 ^ 1024 := by
  rw [abs_val, div_le_iff₀ one1074_pos']
  have h1 : x.fv.natAbs ≤ 2 ^ 1024 * one1074 := by
    rw [fv_natAbs, ← fixMag_infMag]
    exact fixMag_le_iff.mpr (isFinite_iff.mp hx).le
  have h2 : |x.fv| ≤ ((2 ^ 1024 * one1074 : Nat) : Int) := by
    rw [Int.abs_eq_natAbs]
    exact_mod_cast h1
  have h3 : ((|x.fv| : ℤ) : ℝ) ≤ (((2 ^ 1024 * one1074 : Nat) : Int) : ℝ) := Int.cast_le.mpr h2
  rw [Int.cast_natCast, Nat.cast_mul, Nat.cast_pow, Nat.cast_ofNat] at h3
  exact h3

theorem pow512 : (2 : ℝ) ^ 512 + 1 ≤ 2 ^ 1002 := by
  have h1 : (2 : ℝ) ^ 513 ≤ 2 ^ 1002 := pow_le_pow_right₀ (by norm_num) (by norm_num)
  have h2 : (1 : ℝ) ≤ 2 ^ 512 := one_le_pow₀ (by norm_num)
  have h3 : (2 : ℝ) ^ 513 = 2 ^ 512 * 2 := pow_succ _ _
  rw [h3] at h1
  generalize (2 : ℝ) ^ 512 = V at *
  generalize (2 : ℝ) ^ 1002 = W at *
  linarith only [h1, h2]

/-- Rounding near a root. -/
theorem near_root {f A r : ℝ} (h1 : 2 ^ 53 * |f * 2 - A| ≤ A) (h2 : |A - 2 * r| ≤ 1) (h3 : 2 ^ 53 ≤ r) : 2 ^ 52 * |f - r| ≤ r := by
  have h4 := abs_le.mp h2
  have h5 : |f * 2 - 2 * r| ≤ |f * 2 - A| + |A - 2 * r| := abs_sub_le _ _ _
  have h6 : |f * 2 - 2 * r| = 2 * |f - r| := by
    rw [show f * 2 - 2 * r = 2 * (f - r) by ring, abs_mul, abs_two]
  rw [h6] at h5
  linarith [h4.2]

theorem natAbs_pow_mul (k u : Nat) : ((2 : Int) ^ k * (u : Int)).natAbs = 2 ^ k * u := by
  rw [Int.natAbs_mul, Int.natAbs_pow, Int.natAbs_natCast]
  rfl

theorem cast_err {f : Int} {A : Nat} (h : 2 ^ 53 * |f * ((2 : Nat) : Int) - (A : Int)| ≤ (A : Int)) :
    (2 : ℝ) ^ 53 * |(f : ℝ) * 2 - A| ≤ A := by exact_mod_cast h

theorem scale_le {A r U V W : ℝ} (h1 : A ≤ 2 * (r * U) + 1) (h2 : r ≤ V) (h3 : V + 1 ≤ W) (h4 : 1 ≤ U) : A ≤ W * U * 2 := by
  have h5 := mul_le_mul_of_nonneg_right h2 (zero_le_one.trans h4)
  have h6 := mul_le_mul_of_nonneg_right h3 (zero_le_one.trans h4)
  linarith

/-- The root is correct up to one part in 2^52. -/
theorem sqrt_val {x : F64} (hx : x.isFinite = true) (h0 : 0 ≤ x.fv) :
    (sqrt x).isFinite = true ∧ 2 ^ 52 * |(sqrt x).val - Real.sqrt x.val| ≤ Real.sqrt x.val := by
  have hU := one1074_pos'
  by_cases hm : x.mag = 0
  · have e : sqrt x = x := by
      unfold sqrt
      rw [not_nan_of_finite hx, if_neg (by simp), if_pos hm]
    have e0 : x.val = 0 := by unfold val; rw [fv_eq_zero.mpr hm, Int.cast_zero, zero_div]
    rw [e, e0, Real.sqrt_zero, sub_zero, abs_zero, mul_zero]
    exact ⟨hx, le_refl _⟩
  · have hn : x.neg = false := (fv_pos.mp (lt_of_le_of_ne h0 (fun h => hm (fv_eq_zero.mp h.symm)))).1
    have hfv : x.fv = (fixMag x.mag : Int) := by unfold fv; rw [hn]; rfl
    obtain ⟨n, hnd⟩ : ∃ n, n = fixMag x.mag * one1074 := ⟨_, rfl⟩
    obtain ⟨A, hA⟩ : ∃ A, A = 2 * isqrt n + (if isqrt n * isqrt n = n then 0 else 1) := ⟨_, rfl⟩
    have e : sqrt x = mk' false (roundMag A 2) := by
      rw [hA, hnd]
      unfold sqrt
      rw [not_nan_of_finite hx, if_neg (by simp), if_neg hm, hn, if_neg (by simp), isInf_eq_false_of_finite hx, if_neg (by simp)]
    have hst := sticky_near n
    rw [← hA] at hst
    -- the root in units
    have hroot : Real.sqrt n = Real.sqrt x.val * (one1074 : ℝ) := by
      have : (n : ℝ) = x.val * ((one1074 : ℝ) * (one1074 : ℝ)) := by
        unfold val
        rw [hfv, hnd, Int.cast_natCast, Nat.cast_mul]
        field_simp
      rw [this, Real.sqrt_mul' _ (mul_self_nonneg _), Real.sqrt_mul_self hU.le]
    have hbig : (2 : ℝ) ^ 53 ≤ Real.sqrt n := by
      apply Real.le_sqrt_of_sq_le
      have h1 : 1 ≤ fixMag x.mag := by
        have := fixMag_eq_zero.not.mpr hm
        omega
      have h2 : (1 : ℝ) ≤ fixMag x.mag := by exact_mod_cast h1
      rw [hnd, Nat.cast_mul]
      calc ((2 : ℝ) ^ 53) ^ 2 = 1 * 2 ^ 106 := by norm_num
        _ ≤ _ := mul_le_mul h2 one1074_ge (pow_nonneg (by norm_num) _) (Nat.cast_nonneg _)
    have hx512 : Real.sqrt x.val ≤ 2 ^ 512 := by
      rw [Real.sqrt_le_left (by positivity), ← pow_mul]
      exact le_trans (le_abs_self _) (val_lt hx)
    have hAle : (A : ℝ) ≤ 2 * Real.sqrt n + 1 := by linarith only [(abs_le.mp hst).2]
    have hfin : roundMag A 2 < infMag := by
      have hw := two1002_finite
      refine lt_of_le_of_lt (roundMag_le_of (by norm_num) (isFinite_iff.mp hw).le ?_) (isFinite_iff.mp hw)
      rw [← fv_natAbs, two1002_fv]
      have e1 := natAbs_pow_mul 1002 one1074
      rw [e1]
      clear e1
      have h512 := pow512
      have hU1 : (1 : ℝ) ≤ (one1074 : ℝ) := le_trans (one_le_pow₀ (by norm_num)) one1074_ge
      have : (A : ℝ) ≤ ((2 ^ 1002 * one1074 * 2 : Nat) : ℝ) := by
        rw [Nat.cast_mul, Nat.cast_mul, Nat.cast_pow, Nat.cast_ofNat]
        rw [hroot] at hAle
        exact scale_le hAle hx512 h512 hU1
      exact_mod_cast this
    have hmag : (sqrt x).mag = roundMag A 2 := by rw [e, mag_mk' _ (roundMag_lt63 _ _)]
    refine ⟨isFinite_iff.mpr (by rw [hmag]; exact hfin), ?_⟩
    have herr := (rfv_err (A : Int) (B := 2) (by norm_num) (by rw [Int.natAbs_natCast]; exact hfin)).2 (Or.inl (by
      have h1 : (2 : ℝ) ^ 53 ≤ A := by linarith only [(abs_le.mp hst).1, hbig]
      have h2 : (2 : Nat) ^ 53 ≤ A := by exact_mod_cast h1
      rw [abs_of_nonneg (Int.natCast_nonneg A)]
      have h3 : ((2 ^ 53 : Nat) : Int) ≤ A := by exact_mod_cast h2
      exact h3))
    have hsv : (sqrt x).fv = rfv A 2 := by
      have hs : (sqrt x).neg = false := by rw [e, neg_mk' _ (roundMag_lt63 _ _)]
      unfold fv rfv
      rw [hs, hmag, Int.natAbs_natCast, if_neg (by simp), if_neg (by omega)]
    rw [← hsv, abs_of_nonneg (Int.natCast_nonneg A)] at herr
    have key := near_root (cast_err herr) hst hbig
    rw [hroot] at key
    have e2 : ((sqrt x).fv : ℝ) - Real.sqrt x.val * (one1074 : ℝ) = ((sqrt x).val - Real.sqrt x.val) * (one1074 : ℝ) := by
      rw [sub_mul]
      congr 1
      unfold val
      rw [div_mul_cancel₀ _ hU.ne']
    rw [e2, abs_mul, abs_of_pos hU, ← mul_assoc] at key
    exact le_of_mul_le_mul_right key hU

/-- The square of a rounded difference, rounded. -/
theorem square_err {a a' m e : ℝ} (he : 0 ≤ e) (h1 : 2 ^ 53 * |a' - a| ≤ |a|) (h2 : 2 ^ 53 * |m - a' * a'| ≤ |a' * a'| + 2 ^ 52 * e) :
    |m - a ^ 2| ≤ a ^ 2 / 2 ^ 51 + e := by
  have q1 : |a' - a| ≤ |a| / 2 ^ 53 := by rw [le_div_iff₀ (by norm_num)]; linarith
  have q2 : |a' + a| ≤ (2 + 1 / 2 ^ 53) * |a| := by
    have : a' + a = (a' - a) + 2 * a := by ring
    rw [this]
    refine (abs_add_le _ _).trans ?_
    rw [abs_mul, abs_two]
    linarith
  have q3 : |a' * a' - a ^ 2| ≤ (1 / 2 ^ 52 + 1 / 2 ^ 106) * a ^ 2 := by
    have : a' * a' - a ^ 2 = (a' - a) * (a' + a) := by ring
    rw [this, abs_mul]
    refine (mul_le_mul q1 q2 (abs_nonneg _) (by positivity)).trans ?_
    rw [← sq_abs a]
    apply le_of_eq
    ring
  have q4 : |a' * a'| ≤ 3 / 2 * a ^ 2 := by
    have h := abs_sub_abs_le_abs_sub (a' * a') (a ^ 2)
    rw [abs_of_nonneg (sq_nonneg a)] at h
    nlinarith [sq_nonneg a]
  have q5 : |m - a' * a'| ≤ (3 / 2 * a ^ 2 + 2 ^ 52 * e) / 2 ^ 53 := by
    rw [le_div_iff₀ (by norm_num)]; linarith
  have q6 := abs_sub_le m (a' * a') (a ^ 2)
  have := sq_nonneg a
  norm_num at *
  linarith

/-- The sum of three squares, with two roundings. -/
theorem sum_err {S1 S2 S3 m1 m2 m3 s1 s2 e : ℝ} (he : 0 ≤ e) (p1 : 0 ≤ S1) (p2 : 0 ≤ S2) (p3 : 0 ≤ S3)
    (h1 : |m1 - S1| ≤ S1 / 2 ^ 51 + e) (h2 : |m2 - S2| ≤ S2 / 2 ^ 51 + e) (h3 : |m3 - S3| ≤ S3 / 2 ^ 51 + e)
    (h4 : 2 ^ 53 * |s1 - (m1 + m2)| ≤ |m1 + m2|) (h5 : 2 ^ 53 * |s2 - (s1 + m3)| ≤ |s1 + m3|) :
    |s2 - (S1 + S2 + S3)| ≤ (S1 + S2 + S3) / 2 ^ 50 + 4 * e := by
  have a12 : |m1 + m2 - (S1 + S2)| ≤ (S1 + S2) / 2 ^ 51 + 2 * e := by
    have : m1 + m2 - (S1 + S2) = (m1 - S1) + (m2 - S2) := by ring
    rw [this]
    refine (abs_add_le _ _).trans ?_
    rw [add_div]
    linarith
  have b12 : |m1 + m2| ≤ (S1 + S2) * (1 + 1 / 2 ^ 51) + 2 * e := by
    have h := abs_sub_abs_le_abs_sub (m1 + m2) (S1 + S2)
    rw [abs_of_nonneg (add_nonneg p1 p2)] at h
    linarith
  have c1 : |s1 - (m1 + m2)| ≤ ((S1 + S2) * (1 + 1 / 2 ^ 51) + 2 * e) / 2 ^ 53 := by
    rw [le_div_iff₀ (by norm_num)]; linarith
  have d1 : |s1 + m3 - (S1 + S2 + S3)| ≤ (S1 + S2 + S3) / 2 ^ 51 + 3 * e + ((S1 + S2) * (1 + 1 / 2 ^ 51) + 2 * e) / 2 ^ 53 := by
    have : s1 + m3 - (S1 + S2 + S3) = (s1 - (m1 + m2)) + (m1 + m2 - (S1 + S2)) + (m3 - S3) := by ring
    rw [this]
    refine (abs_add_le _ _).trans ?_
    have := abs_add_le (s1 - (m1 + m2)) (m1 + m2 - (S1 + S2))
    rw [add_div (S1 + S2) S3]
    linarith
  have e1 : |s1 + m3| ≤ (S1 + S2 + S3) + ((S1 + S2 + S3) / 2 ^ 51 + 3 * e + ((S1 + S2) * (1 + 1 / 2 ^ 51) + 2 * e) / 2 ^ 53) := by
    have h := abs_sub_abs_le_abs_sub (s1 + m3) (S1 + S2 + S3)
    rw [abs_of_nonneg (add_nonneg (add_nonneg p1 p2) p3)] at h
    linarith
  have f1 := abs_sub_le s2 (s1 + m3) (S1 + S2 + S3)
  norm_num at *
  linarith

/-- Roots of numbers that are close. -/
theorem root_err {q D f r : ℝ} (hq : 0 ≤ q) (hD : 0 ≤ D) (hf : 0 ≤ f) (h : |q ^ 2 - D ^ 2| ≤ D ^ 2 / 2 ^ 50 + 4 * f ^ 2)
    (hr : 2 ^ 52 * |r - q| ≤ q) : |r - D| ≤ D / 2 ^ 49 + 4 * f := by
  have key : |q - D| ≤ D / 2 ^ 50 + 2 * f := by
    by_contra hc
    rw [not_le] at hc
    have e : q ^ 2 - D ^ 2 = (q - D) * (q + D) := by ring
    rw [e, abs_mul, abs_of_nonneg (add_nonneg hq hD)] at h
    have h1 : |q - D| ≤ q + D := by
      rw [abs_le]; constructor <;> linarith
    have h2 : 0 < |q - D| := lt_of_le_of_lt (by positivity) hc
    have h3 : (D / 2 ^ 50 + 2 * f) * (q + D) < |q - D| * (q + D) := mul_lt_mul_of_pos_right hc (by linarith)
    have h4 : D / 2 ^ 50 * D ≤ D / 2 ^ 50 * (q + D) := mul_le_mul_of_nonneg_left (by linarith) (by positivity)
    have h6 : 2 * f ≤ q + D := by
      have : 0 ≤ D / 2 ^ 50 := by positivity
      linarith
    have h5 : 2 * f * (2 * f) ≤ 2 * f * (q + D) := mul_le_mul_of_nonneg_left h6 (by positivity)
    have h7 : D / 2 ^ 50 * D = D ^ 2 / 2 ^ 50 := by ring
    nlinarith
  have h1 := abs_sub_le r q D
  have h2 := (abs_le.mp key).2
  norm_num at *
  linarith

/-- Magnitudes in the sum. -/
theorem square_size {a a' m e N : ℝ} (he : 0 ≤ e) (he1 : e ≤ N) (h1 : 2 ^ 53 * |a' - a| ≤ |a|)
    (h2 : 2 ^ 53 * |m - a' * a'| ≤ |a' * a'| + 2 ^ 52 * e) (hN : a ^ 2 ≤ 4 * N) : |m| ≤ 6 * N := by
  have h := square_err he h1 h2
  have h3 := abs_sub_abs_le_abs_sub m (a ^ 2)
  rw [abs_of_nonneg (sq_nonneg a)] at h3
  have : 0 ≤ a ^ 2 := sq_nonneg a
  norm_num at *
  linarith

theorem sum_size {a b s M : ℝ} (h : 2 ^ 53 * |s - (a + b)| ≤ |a + b|) (hM : |a + b| ≤ M) : |s| ≤ 2 * M := by
  have h3 := abs_sub_abs_le_abs_sub s (a + b)
  norm_num at *
  linarith [abs_nonneg (a + b)]

theorem pow490 : 64 * ((2 : ℝ) ^ 490) ^ 2 ≤ 2 ^ 1002 := by
  have h1 : (64 : ℝ) = 2 ^ 6 := by norm_num
  rw [h1, ← pow_mul, ← pow_add]
  exact pow_le_pow_right₀ (by norm_num) (by norm_num)

theorem inv_le_one : (0 : ℝ) ≤ 1 / (one1074 : ℝ) ∧ 1 / (one1074 : ℝ) ≤ 1 := by
  have h := one1074_ge
  have h1 : (1 : ℝ) ≤ 2 ^ 106 := one_le_pow₀ (by norm_num)
  exact ⟨div_nonneg zero_le_one one1074_pos'.le, (div_le_one one1074_pos').mpr (h1.trans h)⟩

/-- One difference, squared. -/
theorem square_diff {x y : F64} (hx : Below 490 x) (hy : Below 490 y) :
    let d := sub x y
    (mul d d).isFinite = true ∧ |(mul d d).val - (x.val - y.val) ^ 2| ≤ (x.val - y.val) ^ 2 / 2 ^ 51 + 1 / (one1074 : ℝ)
      ∧ |(mul d d).val| ≤ 6 * ((2 : ℝ) ^ 490) ^ 2 ∧ 0 ≤ (mul d d).fv := by
  intro d
  obtain ⟨e0, e1⟩ := inv_le_one
  have hV : (1 : ℝ) ≤ 2 ^ 490 := one_le_pow₀ (by norm_num)
  have hW := pow490
  have hw : |two1002.val| = 2 ^ 1002 := by rw [two1002_val, abs_of_nonneg (pow_nonneg (by norm_num) _)]
  obtain ⟨fx, bx⟩ := hx
  obtain ⟨fy, b_y⟩ := hy
  have ha : |x.val - y.val| ≤ 2 * 2 ^ 490 := by
    refine (abs_sub _ _).trans ?_
    generalize (2 : ℝ) ^ 490 = V at *
    linarith only [bx, b_y]
  have hd : d.isFinite = true := by
    refine sub_finite_of fx fy two1002_finite ?_
    rw [hw]
    generalize (2 : ℝ) ^ 490 = V at *
    generalize (2 : ℝ) ^ 1002 = W at *
    nlinarith only [ha, hW, hV]
  have hd1 := sub_val fx fy hd
  have hsq : (x.val - y.val) ^ 2 ≤ 4 * ((2 : ℝ) ^ 490) ^ 2 := by
    rw [← sq_abs]
    generalize (2 : ℝ) ^ 490 = V at *
    nlinarith only [ha, hV, abs_nonneg (x.val - y.val)]
  have hd2 : |d.val| ≤ 3 * 2 ^ 490 := by
    have h3 := abs_sub_abs_le_abs_sub d.val (x.val - y.val)
    have h4 : |d.val - (x.val - y.val)| ≤ |x.val - y.val| / 2 ^ 53 := by
      rw [le_div_iff₀ (by norm_num)]
      linarith only [hd1]
    have h5 : |x.val - y.val| / 2 ^ 53 ≤ |x.val - y.val| / 2 := div_le_div_of_nonneg_left (abs_nonneg _) (by norm_num) (by norm_num)
    generalize (2 : ℝ) ^ 490 = V at *
    linarith only [h3, h4, h5, ha]
  have hm : (mul d d).isFinite = true := by
    refine mul_finite_of hd hd two1002_finite ?_
    rw [hw, abs_mul]
    generalize (2 : ℝ) ^ 490 = V at *
    generalize (2 : ℝ) ^ 1002 = W at *
    nlinarith only [hd2, hW, hV, abs_nonneg d.val]
  have hm1 := mul_val hd hd hm
  have e2 : (2 : ℝ) ^ 52 / (one1074 : ℝ) = 2 ^ 52 * (1 / (one1074 : ℝ)) := by rw [mul_one_div]
  rw [e2] at hm1
  refine ⟨hm, square_err e0 hd1 hm1, square_size e0 (e1.trans (one_le_pow₀ hV)) hd1 hm1 hsq, ?_⟩
  rw [mul_fv hd hd]
  exact rfv_nonneg (mul_self_nonneg _)

theorem sq_root_inv : Real.sqrt (1 / (one1074 : ℝ)) = 1 / 2 ^ 537 := by
  have h : (one1074 : ℝ) = (2 ^ 537) ^ 2 := by
    rw [← pow_mul]
    unfold one1074
    rw [Nat.cast_pow, Nat.cast_ofNat]
  rw [h, Real.sqrt_div zero_le_one, Real.sqrt_one, Real.sqrt_sq (pow_nonneg (by norm_num) _)]

theorem four_root : 4 * (1 / (2 : ℝ) ^ 537) = 1 / 2 ^ 535 := by
  rw [show 537 = 535 + 2 from rfl, pow_add]
  generalize (2 : ℝ) ^ 535 = V
  field_simp
  norm_num

/-- The computed distance. -/
theorem distance_val {p q : Pt F64} (h : Below 490 p.x ∧ Below 490 p.y ∧ Below 490 p.z) (h' : Below 490 q.x ∧ Below 490 q.y ∧ Below 490 q.z) :
    (Pt.distance p q).isFinite = true ∧ |(Pt.distance p q).val - dist3 p q| ≤ dist3 p q / 2 ^ 49 + 1 / 2 ^ 535 := by
  obtain ⟨f1, e1, s1, n1⟩ := square_diff h.1 h'.1
  obtain ⟨f2, e2, s2, n2⟩ := square_diff h.2.1 h'.2.1
  obtain ⟨f3, e3, s3, n3⟩ := square_diff h.2.2 h'.2.2
  obtain ⟨i0, i1⟩ := inv_le_one
  have hdist : Pt.distance p q = sqrt (add (add (mul (sub p.x q.x) (sub p.x q.x)) (mul (sub p.y q.y) (sub p.y q.y)))
    (mul (sub p.z q.z) (sub p.z q.z))) := rfl
  rw [hdist]
  clear hdist
  unfold dist3
  generalize mul (sub p.x q.x) (sub p.x q.x) = m1 at *
  generalize mul (sub p.y q.y) (sub p.y q.y) = m2 at *
  generalize mul (sub p.z q.z) (sub p.z q.z) = m3 at *
  have hW := pow490
  have hw : |two1002.val| = 2 ^ 1002 := by rw [two1002_val, abs_of_nonneg (pow_nonneg (by norm_num) _)]
  have hV : (0 : ℝ) ≤ ((2 : ℝ) ^ 490) ^ 2 := sq_nonneg _
  have b1 : |m1.val + m2.val| ≤ 12 * ((2 : ℝ) ^ 490) ^ 2 := by
    refine (abs_add_le _ _).trans ?_
    linarith only [s1, s2]
  have g1 : (add m1 m2).isFinite = true := by
    refine add_finite_of f1 f2 two1002_finite ?_
    rw [hw]
    generalize ((2 : ℝ) ^ 490) ^ 2 = V at *
    generalize (2 : ℝ) ^ 1002 = W at *
    linarith only [b1, hW, hV]
  have a1 := add_val f1 f2 g1
  have c1 := sum_size a1 b1
  have b2 : |(add m1 m2).val + m3.val| ≤ 30 * ((2 : ℝ) ^ 490) ^ 2 := by
    refine (abs_add_le _ _).trans ?_
    linarith only [c1, s3]
  have g2 : (add (add m1 m2) m3).isFinite = true := by
    refine add_finite_of g1 f3 two1002_finite ?_
    rw [hw]
    generalize ((2 : ℝ) ^ 490) ^ 2 = V at *
    generalize (2 : ℝ) ^ 1002 = W at *
    linarith only [b2, hW, hV]
  have a2 := add_val g1 f3 g2
  have tot := sum_err i0 (sq_nonneg _) (sq_nonneg _) (sq_nonneg _) e1 e2 e3 a1 a2
  have hn : 0 ≤ (add (add m1 m2) m3).fv := by
    rw [add_fv g1 f3, add_fv f1 f2]
    exact rfv_nonneg (add_nonneg (rfv_nonneg (add_nonneg n1 n2)) n3)
  obtain ⟨r1, r2⟩ := sqrt_val g2 hn
  refine ⟨r1, ?_⟩
  have hs : 0 ≤ (add (add m1 m2) m3).val := div_nonneg (Int.cast_nonneg hn) one1074_pos'.le
  generalize add (add m1 m2) m3 = t at *
  have hS : 0 ≤ (p.x.val - q.x.val) ^ 2 + (p.y.val - q.y.val) ^ 2 + (p.z.val - q.z.val) ^ 2 :=
    add_nonneg (add_nonneg (sq_nonneg _) (sq_nonneg _)) (sq_nonneg _)
  generalize (p.x.val - q.x.val) ^ 2 + (p.y.val - q.y.val) ^ 2 + (p.z.val - q.z.val) ^ 2 = S at *
  have := root_err (r := (sqrt t).val) (Real.sqrt_nonneg t.val) (Real.sqrt_nonneg S) (Real.sqrt_nonneg (1 / (one1074 : ℝ)))
    (by rw [Real.sq_sqrt hs, Real.sq_sqrt hS, Real.sq_sqrt i0]; exact tot) r2
  rw [sq_root_inv, four_root] at this
  exact this

end F64

end Spoc
