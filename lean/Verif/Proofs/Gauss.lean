import Verif.Proofs.Distance
import Verif.Proofs.Period
import Mathlib.Analysis.Complex.ExponentialBounds

/-!
# The Gaussian distribution of libstdc++ (C94)
-/

namespace Spoc.Noise

open TestUtils F64 Spec

/-! ## Coordinates -/

/-- 2^-53 -/
def p53 : F64 := ⟨0x3CA0000000000000⟩
/-- 2^-106 -/
def p106 : F64 := ⟨0x3950000000000000⟩

theorem p53_facts : p53.isFinite = true ∧ 0 < p53.fv ∧ p53.fv * 9007199254740992 = one.fv := by decide +kernel
theorem p106_facts : p106.isFinite = true ∧ 0 < p106.fv ∧ p106.fv * 9007199254740992 = p53.fv := by decide +kernel
theorem one_facts : one.isFinite = true ∧ 0 < one.fv := by decide +kernel
theorem two_facts : (ofNat 2).isFinite = true ∧ (ofNat 2).fv = 2 * one.fv := by decide +kernel

theorem p53_pow : p53.fv = ((2 ^ 1021 : Nat) : Int) := by decide +kernel
theorem one_pow' : one.fv = ((2 ^ 1074 : Nat) : Int) := by decide +kernel

/-- Doubles from 1/4 on are multiples of 2^-54. -/
theorem quarter_dvd {a : F64} (h : one.fv ≤ 4 * a.fv) : p53.fv ∣ 2 * a.fv := by
  have h0 := one_facts.2
  have e : a.fv = (fixMag a.mag : Int) := by
    have := fv_natAbs a
    omega
  rw [e] at h ⊢
  rw [one_pow'] at h
  rw [p53_pow]
  obtain ⟨k, n, hm, hn, hk⟩ := mag_dec a.mag
  rw [hm, fixMag_enc hn.le hk] at h ⊢
  have h' : 2 ^ 1074 ≤ 4 * (n * 2 ^ k) := by exact_mod_cast h
  have hk2 : 1020 ≤ k := by
    by_contra hlt
    have h1 : 2 ^ k ≤ 2 ^ 1019 := Nat.pow_le_pow_right (by norm_num) (by omega)
    have h2 : n * 2 ^ k ≤ n * 2 ^ 1019 := Nat.mul_le_mul_left n h1
    have h3 : n * 2 ^ 1019 < 2 ^ 53 * 2 ^ 1019 := Nat.mul_lt_mul_of_pos_right hn (Nat.two_pow_pos 1019)
    have h4 : 4 * (2 ^ 53 * 2 ^ 1019) = 2 ^ 1074 := by
      rw [← pow_add, show (4 : Nat) = 2 ^ 2 from rfl, ← pow_add]
    generalize 2 ^ 1074 = A at *
    generalize 2 ^ 53 * 2 ^ 1019 = B at *
    generalize n * 2 ^ 1019 = C at *
    omega
  obtain ⟨j, rfl⟩ : ∃ j, k = 1020 + j := ⟨k - 1020, by omega⟩
  have : (2 : Nat) ^ 1021 ∣ 2 * (n * 2 ^ (1020 + j)) := by
    refine ⟨n * 2 ^ j, ?_⟩
    rw [pow_add, show (1021 : Nat) = 1020 + 1 from rfl, pow_add]
    ring
  exact_mod_cast this

/-- A coordinate of the point that the polar method draws. -/
def coord (g : Nat) : F64 := sub (mul (ofNat 2) (canonical g).1) one

theorem coord_spec {g : Nat} (hg : State g) :
    (coord g).isFinite = true ∧ -one.fv ≤ (coord g).fv ∧ (coord g).fv ≤ one.fv
      ∧ ((coord g).fv = 0 ∨ p53.fv ≤ (coord g).fv ∨ (coord g).fv ≤ -p53.fv) := by
  obtain ⟨-, ⟨af, a0, a1⟩, -⟩ := canonical_range hg
  obtain ⟨pf, pp, pe⟩ := p53_facts
  obtain ⟨of, op⟩ := one_facts
  obtain ⟨tf, te⟩ := two_facts
  unfold coord
  have hd := @quarter_dvd (canonical g).1
  generalize (canonical g).1 = a at *
  have hm : (mul (ofNat 2) a).fv = 2 * a.fv := by
    obtain ⟨y, hy, e⟩ := twice tf (m := a) (by omega) a0
    rw [mul_fv tf af, te, one_fv, mul_assoc, mul_comm (one1074 : Int), ← mul_assoc, ← e]
    exact rfv_exact hy one1074_pos
  have mf : (mul (ofNat 2) a).isFinite = true := finite_of_fv_le tf (by omega)
  have hs := sub_fv mf of
  rw [hm] at hs
  have lo : -one.fv ≤ (sub (mul (ofNat 2) a) one).fv := by
    rw [hs, ← negate_fv]
    apply le_rfv (not_nan_of_finite (negate_finite of)) (by norm_num)
    rw [negate_fv, Nat.cast_one, mul_one]
    omega
  have hi : (sub (mul (ofNat 2) a) one).fv ≤ one.fv := by
    rw [hs]
    apply rfv_le (not_nan_of_finite of) (by norm_num)
    rw [Nat.cast_one, mul_one]
    omega
  refine ⟨finite_of_fv_le of (by omega), lo, hi, ?_⟩
  rw [hs]
  have cases : 2 * a.fv - one.fv = 0 ∨ p53.fv ≤ 2 * a.fv - one.fv ∨ 2 * a.fv - one.fv ≤ -p53.fv := by
    by_cases hq : one.fv ≤ 4 * a.fv
    · have d1 : p53.fv ∣ 2 * a.fv - one.fv := Int.dvd_sub (hd hq) ⟨_, pe.symm⟩
      rcases lt_trichotomy (2 * a.fv - one.fv) 0 with h | h | h
      · have := Int.le_of_dvd (by omega) (Int.dvd_neg.mpr d1)
        omega
      · exact Or.inl h
      · have := Int.le_of_dvd h d1
        omega
    · omega
  rcases cases with h | h | h
  · rw [h]
    exact Or.inl (rfv_zero (by norm_num))
  · right; left
    apply le_rfv (not_nan_of_finite pf) (by norm_num)
    rw [Nat.cast_one, mul_one]
    exact h
  · right; right
    rw [← negate_fv]
    apply rfv_le (not_nan_of_finite (negate_finite pf)) (by norm_num)
    rw [negate_fv, Nat.cast_one, mul_one]
    exact h

/-! ## Squares -/

theorem square_le {X D E U : Int} (hX : D ≤ X ∨ X ≤ -D) (hD : 0 ≤ D) (h : E * U = D * D) : E * U ≤ X * X := by
  rw [h]
  rcases hX with h1 | h1
  · exact mul_self_le_mul_self hD h1
  · have := mul_self_le_mul_self hD (show D ≤ -X by omega)
    rwa [neg_mul_neg] at this

/-- The square of a coordinate. -/
theorem square_spec {x : F64} (hf : x.isFinite = true) (h1 : -one.fv ≤ x.fv) (h2 : x.fv ≤ one.fv)
    (h3 : x.fv = 0 ∨ p53.fv ≤ x.fv ∨ x.fv ≤ -p53.fv) :
    (mul x x).isFinite = true ∧ 0 ≤ (mul x x).fv ∧ (mul x x).fv ≤ one.fv ∧ (x.fv = 0 → (mul x x).fv = 0)
      ∧ (x.fv ≠ 0 → p106.fv ≤ (mul x x).fv) := by
  obtain ⟨pf, pp, pe⟩ := p106_facts
  obtain ⟨-, qp, qe⟩ := p53_facts
  obtain ⟨of, op⟩ := one_facts
  have hs := mul_fv hf hf
  have nn : 0 ≤ (mul x x).fv := by rw [hs]; exact rfv_nonneg (mul_self_nonneg _)
  have hi : (mul x x).fv ≤ one.fv := by
    rw [hs]
    apply rfv_le (not_nan_of_finite of) one1074_pos
    rw [← one_fv]
    have : |x.fv| * |x.fv| ≤ one.fv * one.fv := mul_self_le_mul_self (abs_nonneg _) (abs_le.mpr ⟨h1, h2⟩)
    rwa [abs_mul_abs_self] at this
  refine ⟨finite_of_fv_le of (by omega), nn, hi, fun h => ?_, fun h => ?_⟩
  · rw [hs, h, mul_zero]
    exact rfv_zero one1074_pos
  · rw [hs]
    apply le_rfv (not_nan_of_finite pf) one1074_pos
    rw [← one_fv]
    refine square_le (h3.resolve_left h) qp.le ?_
    rw [← qe, ← pe]
    ring

/-- What the polar method hands over: a point of the disk, not its centre, and the square of its distance from there. -/
structure Disk (x y r : F64) : Prop where
  fx : x.isFinite = true
  fy : y.isFinite = true
  fr : r.isFinite = true
  small : r.fv ≤ one.fv
  large : p106.fv ≤ r.fv
  sx : (mul x x).isFinite = true ∧ 0 ≤ (mul x x).fv ∧ (mul x x).fv ≤ r.fv
  sy : (mul y y).isFinite = true ∧ 0 ≤ (mul y y).fv ∧ (mul y y).fv ≤ r.fv

theorem disk {g h : Nat} (hg : State g) (hh : State h)
    (hacc : (gt (add (mul (coord g) (coord g)) (mul (coord h) (coord h))) one
      || feq (add (mul (coord g) (coord g)) (mul (coord h) (coord h))) zero) = false) :
    Disk (coord g) (coord h) (add (mul (coord g) (coord g)) (mul (coord h) (coord h))) := by
  obtain ⟨xf, x1, x2, x3⟩ := coord_spec hg
  obtain ⟨yf, y1, y2, y3⟩ := coord_spec hh
  obtain ⟨xsf, xs0, xs1, xsz, xsn⟩ := square_spec xf x1 x2 x3
  obtain ⟨ysf, ys0, ys1, ysz, ysn⟩ := square_spec yf y1 y2 y3
  generalize coord g = x at *
  generalize coord h = y at *
  obtain ⟨of, op⟩ := one_facts
  obtain ⟨tf, te⟩ := two_facts
  have hs := add_fv xsf ysf
  have key : ∀ {z : F64} {A : Int}, z.isFinite = true → 0 ≤ A → z.fv ≤ A → z.fv ≤ rfv A 1 := by
    intro z A hz hA h
    apply le_rfv (not_nan_of_finite hz) (by norm_num)
    rwa [Nat.cast_one, mul_one]
  have hx : (mul x x).fv ≤ (add (mul x x) (mul y y)).fv := by rw [hs]; exact key xsf (by omega) (by omega)
  have hy : (mul y y).fv ≤ (add (mul x x) (mul y y)).fv := by rw [hs]; exact key ysf (by omega) (by omega)
  have hi : (add (mul x x) (mul y y)).fv ≤ (ofNat 2).fv := by
    rw [hs]
    apply rfv_le (not_nan_of_finite tf) (by norm_num)
    rw [Nat.cast_one, mul_one]
    omega
  have rf : (add (mul x x) (mul y y)).isFinite = true := finite_of_fv_le tf (by omega)
  rw [Bool.or_eq_false_iff] at hacc
  have h1 : (add (mul x x) (mul y y)).fv ≤ one.fv := by
    by_contra hlt
    have : gt (add (mul x x) (mul y y)) one = true := gt_iff.mpr ⟨not_nan_of_finite rf, not_nan_of_finite of, by omega⟩
    rw [this] at hacc
    exact absurd hacc.1 (by simp)
  have h2 : (add (mul x x) (mul y y)).fv ≠ 0 := by
    intro h0
    have : feq (add (mul x x) (mul y y)) zero = true :=
      feq_iff.mpr ⟨not_nan_of_finite rf, by decide +kernel, by rw [zero_fv]; exact h0⟩
    rw [this] at hacc
    exact absurd hacc.2 (by simp)
  refine ⟨xf, yf, rf, h1, ?_, ⟨xsf, xs0, hx⟩, ⟨ysf, ys0, hy⟩⟩
  by_cases hx0 : x.fv = 0
  · by_cases hy0 : y.fv = 0
    · exfalso
      apply h2
      rw [hs, xsz hx0, ysz hy0, add_zero]
      exact rfv_zero (by norm_num)
    · exact (ysn hy0).trans hy
  · exact (xsn hx0).trans hx

/-! ## The loop -/

/-- Is the pair of coordinates rejected? -/
def rejects (g : Nat) : Bool :=
  gt (add (mul (coord g) (coord g)) (mul (coord (next (next g))) (coord (next (next g))))) one
    || feq (add (mul (coord g) (coord g)) (mul (coord (next (next g))) (coord (next (next g))))) zero

theorem polar_succ (n g : Nat) : polar (n + 1) g = if rejects g = true then polar n (next^[4] g) else
    (coord g, coord (next (next g)), add (mul (coord g) (coord g)) (mul (coord (next (next g))) (coord (next (next g)))), next^[4] g) := by
  have e1 : canonical g = ((canonical g).1, next (next g)) := by rw [canonical_fraction]
  have e3 : next^[4] g = next (next (next (next g))) := rfl
  have e2 : canonical (next (next g)) = ((canonical (next (next g))).1, next^[4] g) := by rw [e3, canonical_fraction]
  unfold rejects coord
  generalize (canonical g).1 = a at *
  generalize (canonical (next (next g))).1 = b at *
  rw [polar, e1]
  dsimp only
  rw [e2]

theorem polar_spec : ∀ (n : Nat) {g : Nat}, State g → (∃ k < n, rejects (next^[4 * k] g) = false) →
    ∃ x y r g', polar n g = (x, y, r, g') ∧ Disk x y r ∧ State g'
  | 0, _, _, h => by
    obtain ⟨k, hk, -⟩ := h
    omega
  | n + 1, g, hg, h => by
    rw [polar_succ]
    have s4 := iterate_state hg 4
    by_cases hr : rejects g = true
    · rw [if_pos hr]
      apply polar_spec n s4
      obtain ⟨k, hk, he⟩ := h
      cases k with
      | zero =>
        rw [Nat.mul_zero, Function.iterate_zero_apply, hr] at he
        exact absurd he (by simp)
      | succ k =>
        refine ⟨k, by omega, ?_⟩
        rwa [← Function.iterate_add_apply, show 4 * k + 4 = 4 * (k + 1) by ring]
    · rw [if_neg hr]
      exact ⟨_, _, _, _, rfl, disk hg (next_state (next_state hg)) (by simpa [rejects] using hr), s4⟩

theorem accepted_one : rejects 1 = false ∧ rejects (next 1) = false := by decide +kernel

/-- The loop of the Gaussian distribution ends, whatever the state of the engine. -/
theorem polar_ends {g : Nat} (hg : State g) : ∃ x y r g', polar 2147483646 g = (x, y, r, g') ∧ Disk x y r ∧ State g' := by
  refine polar_spec _ hg ?_
  obtain ⟨k, hk, h⟩ := reach_four hg (t := 1) ⟨by norm_num, by norm_num⟩
  refine ⟨k, hk, ?_⟩
  rcases h with h | h <;> rw [h]
  · exact accepted_one.1
  · exact accepted_one.2

/-! ## The size of the numbers -/

/-- A logarithm of doubles, with an error of at most 1/4, and not positive below 1. -/
def LogOk (log : F64 → F64) : Prop :=
  ∀ r : F64, r.isFinite = true → 1 / 2 ^ 106 ≤ r.val → r.val ≤ 1 →
    (log r).isFinite = true ∧ (log r).val ≤ 0 ∧ |(log r).val - Real.log r.val| ≤ 1 / 4

theorem log_bound {r l : ℝ} (h1 : 1 / 2 ^ 106 ≤ r) (h : |l - Real.log r| ≤ 1 / 4) : -74 ≤ l := by
  have h2 : Real.log (1 / 2 ^ 106) ≤ Real.log r := Real.log_le_log (by norm_num) h1
  rw [Real.log_div (by norm_num) (by norm_num), Real.log_one, Real.log_pow] at h2
  have h3 := Real.log_two_lt_d9
  have h4 := (abs_le.mp h).1
  push_cast at h2
  linarith only [h2, h3, h4]

theorem tiny_bound : 0 < 1 / (one1074 : ℝ) ∧ 1 / (one1074 : ℝ) ≤ 1 / 2 ^ 200 := by
  refine ⟨div_pos one_pos one1074_pos', ?_⟩
  rw [div_le_div_iff₀ one1074_pos' (by norm_num), one_mul, one_mul]
  unfold one1074
  rw [Nat.cast_pow, Nat.cast_ofNat]
  exact pow_le_pow_right₀ (by norm_num) (by norm_num)

/-- A coordinate is at most the distance, up to rounding. -/
theorem coordinate_le {y yy r e : ℝ} (he' : e ≤ 1 / 2 ^ 200) (hr : 1 / 2 ^ 106 ≤ r) (h : yy ≤ r)
    (hm : 2 ^ 53 * |yy - y * y| ≤ |y * y| + 2 ^ 52 * e) : y ^ 2 ≤ r * (1 + 1 / 2 ^ 50) := by
  rw [abs_mul_self] at hm
  have h1 := neg_abs_le (yy - y * y)
  norm_num at *
  nlinarith only [h1, hm, h, hr, he']

theorem radicand {n r q e : ℝ} (hn : 0 ≤ n) (hn' : n ≤ 149) (hr0 : 0 < r) (hr1 : r ≤ 1) (he' : e ≤ 1 / 2 ^ 200)
    (hq : 2 ^ 53 * |q - n / r| ≤ |n / r| + 2 ^ 52 * e) : q ≤ 150 / r := by
  have h0 : 0 ≤ n / r := div_nonneg hn hr0.le
  rw [abs_of_nonneg h0] at hq
  have h1 := le_abs_self (q - n / r)
  have h2 : n / r ≤ 149 / r := div_le_div_of_nonneg_right hn' hr0.le
  have h3 : 1 ≤ 1 / r := by rw [le_div_iff₀ hr0, one_mul]; exact hr1
  have e1 : 149 / r = 149 * (1 / r) := by ring
  have e2 : 150 / r = 150 * (1 / r) := by ring
  rw [e2]
  rw [e1] at h2
  generalize 1 / r = w at *
  generalize n / r = t at *
  norm_num at *
  linarith only [h1, h2, h3, hq, he', h0]

/-- The factor times a coordinate. -/
theorem deviation {y r q s v e : ℝ} (hr0 : 0 < r) (hy : y ^ 2 ≤ r * (1 + 1 / 2 ^ 50)) (hq0 : 0 ≤ q) (hq : q ≤ 150 / r)
    (hs : 2 ^ 52 * |s - Real.sqrt q| ≤ Real.sqrt q) (he' : e ≤ 1 / 2 ^ 200)
    (hv : 2 ^ 53 * |v - y * s| ≤ |y * s| + 2 ^ 52 * e) : |v| ≤ 62 / 5 := by
  have hs0 := Real.sqrt_nonneg q
  have hss := Real.sq_sqrt hq0
  generalize Real.sqrt q = t at *
  have hst : |s| ≤ t * (1 + 1 / 2 ^ 52) := by
    have h1 : |s| ≤ |s - t| + |t| := by
      have := abs_add_le (s - t) t
      rwa [sub_add_cancel] at this
    rw [abs_of_nonneg hs0] at h1
    norm_num at *
    linarith only [h1, hs]
  have h2 : s ^ 2 ≤ q * (1 + 1 / 2 ^ 50) := by
    rw [← sq_abs]
    have h3 : |s| ^ 2 ≤ (t * (1 + 1 / 2 ^ 52)) ^ 2 := pow_le_pow_left₀ (abs_nonneg _) hst 2
    rw [mul_pow, hss] at h3
    refine h3.trans (mul_le_mul_of_nonneg_left (by norm_num) hq0)
  have h4 : (y * s) ^ 2 ≤ (123 / 10) ^ 2 := by
    rw [mul_pow]
    have h5 : y ^ 2 * s ^ 2 ≤ (r * (1 + 1 / 2 ^ 50)) * (150 / r * (1 + 1 / 2 ^ 50)) :=
      mul_le_mul hy (h2.trans (mul_le_mul_of_nonneg_right hq (by norm_num))) (sq_nonneg _)
        (mul_nonneg hr0.le (by norm_num))
    have e1 : (r * (1 + 1 / 2 ^ 50)) * (150 / r * (1 + 1 / 2 ^ 50)) = 150 * (1 + 1 / 2 ^ 50) ^ 2 := by
      field_simp
    rw [e1] at h5
    refine h5.trans (by norm_num)
  have h6 : |y * s| ≤ 123 / 10 := abs_le_of_sq_le_sq h4 (by norm_num)
  have h7 : |v| ≤ |v - y * s| + |y * s| := by
    have := abs_add_le (v - y * s) (y * s)
    rwa [sub_add_cancel] at this
  norm_num at *
  linarith only [h6, h7, hv, he']

theorem val_facts : one.val = 1 ∧ p106.val = 1 / 2 ^ 106 := by
  have h1 : one.val = 1 := by
    unfold val
    rw [one_fv, Int.cast_natCast]
    exact div_self one1074_pos'.ne'
  refine ⟨h1, ?_⟩
  have e : (p106.fv * 9007199254740992 * 9007199254740992 : Int) = one.fv := by rw [p106_facts.2.2, p53_facts.2.2]
  have e' : p106.val * 9007199254740992 * 9007199254740992 = one.val := by
    unfold val
    rw [← e]
    push_cast
    ring
  rw [h1] at e'
  rw [eq_div_iff (by norm_num)]
  norm_num
  linarith only [e']

theorem small_two1002 {x : ℝ} (h : |x| ≤ 2 ^ 200) : |x| ≤ |two1002.val| := by
  rw [two1002_val, abs_of_nonneg (pow_nonneg (by norm_num : (0 : ℝ) ≤ 2) 1002)]
  exact h.trans (pow_le_pow_right₀ (by norm_num) (by norm_num))

theorem double_log {n l e : ℝ} (l0 : l ≤ 0) (l2 : -74 ≤ l) (he : e ≤ 1 / 2 ^ 200) (h : 2 ^ 53 * |n - -2 * l| ≤ |-2 * l| + 2 ^ 52 * e) :
    n ≤ 149 := by
  rw [abs_of_nonneg (show 0 ≤ -2 * l by linarith only [l0])] at h
  have := le_abs_self (n - -2 * l)
  norm_num at *
  linarith only [this, h, l2, he]

theorem quotient_small {n r : ℝ} (hn : n ≤ 149) (h : 1 / 2 ^ 106 ≤ r) : n ≤ 2 ^ 200 * r := by
  norm_num at *
  linarith only [hn, h]

theorem scaled_real {p v m e : ℝ} (hp : |v * m| ≤ 62 / 5 * m) (pv : 2 ^ 53 * |p - v * m| ≤ |v * m| + 2 ^ 52 * e) (m1 : e ≤ m) (m0 : 0 ≤ m) :
    |p| ≤ 13 * m := by
  have tri : |p| ≤ |p - v * m| + |v * m| := by
    have := abs_add_le (p - v * m) (v * m)
    rwa [sub_add_cancel] at this
  norm_num at *
  linarith only [tri, hp, pv, m1, m0]

/-- The factor of the polar method. -/
theorem factor_spec {log : F64 → F64} (hl : LogOk log) {r : F64} (rf : r.isFinite = true) (h1 : 1 / 2 ^ 106 ≤ r.val) (h2 : r.val ≤ 1) :
    (div (mul (negate (ofNat 2)) (log r)) r).isFinite = true ∧ 0 ≤ (div (mul (negate (ofNat 2)) (log r)) r).fv
      ∧ (div (mul (negate (ofNat 2)) (log r)) r).val ≤ 150 / r.val := by
  obtain ⟨lf, l0, l1⟩ := hl r rf h1 h2
  have l2 := log_bound h1 l1
  have tf := two_facts.1
  have tv : (ofNat 2).val = 2 := by
    have := (small_ofNat (n := 2) (by norm_num)).2
    rw [this]; norm_num
  have nf := negate_finite tf
  have hr0 : 0 < r.val := lt_of_lt_of_le (by norm_num) h1
  have rp : 0 < r.fv := by
    unfold val at hr0
    rw [div_pos_iff_of_pos_right one1074_pos'] at hr0
    exact_mod_cast hr0
  have l0' : (log r).fv ≤ 0 := by
    unfold val at l0
    rw [div_le_iff₀ one1074_pos', zero_mul] at l0
    exact_mod_cast l0
  have t0' : (negate (ofNat 2)).fv ≤ 0 := by
    rw [negate_fv, two_facts.2]
    have := one_facts.2
    omega
  generalize log r = l at *
  have pe : (negate (ofNat 2)).val * l.val = -2 * l.val := by rw [negate_val, tv]
  have mf : (mul (negate (ofNat 2)) l).isFinite = true := by
    refine mul_finite_of nf lf two1002_finite (small_two1002 ?_)
    rw [pe, abs_le]
    constructor <;> norm_num <;> linarith only [l0, l2]
  have m0 : 0 ≤ (mul (negate (ofNat 2)) l).fv := by
    rw [mul_fv nf lf]
    exact rfv_nonneg (mul_nonneg_of_nonpos_of_nonpos t0' l0')
  have m0' := val_zero_le.mpr m0
  have mv := mul_val nf lf mf
  rw [pe] at mv
  obtain ⟨e0, e1⟩ := tiny_bound
  have ee : 2 ^ 52 / (one1074 : ℝ) = 2 ^ 52 * (1 / (one1074 : ℝ)) := by ring
  rw [ee] at mv
  generalize mul (negate (ofNat 2)) l = n at *
  have hn : n.val ≤ 149 := double_log l0 l2 e1 mv
  have qf : (div n r).isFinite = true := by
    refine div_finite_of mf rf rp two1002_finite (small_two1002 ?_)
    rw [abs_of_nonneg (div_nonneg m0' hr0.le), div_le_iff₀ hr0]
    exact quotient_small hn h1
  have q0 : 0 ≤ (div n r).fv := by
    rw [(div_fv mf rf rp).1]
    exact rfv_nonneg (mul_nonneg m0 (Int.natCast_nonneg _))
  refine ⟨qf, q0, ?_⟩
  have dv := div_val mf rf rp qf
  rw [ee] at dv
  exact radicand m0' hn hr0 h2 e1 dv

/-- The numbers that the polar method delivers are at most 12.4. -/
theorem scaled_coordinate {y r s : F64} (yf : y.isFinite = true) (ysf : (mul y y).isFinite = true) (hyr : (mul y y).fv ≤ r.fv)
    (h1 : 1 / 2 ^ 106 ≤ r.val) {q : F64} (qf : q.isFinite = true) (q0 : 0 ≤ q.fv) (hq : q.val ≤ 150 / r.val) (hs : s = sqrt q) :
    (mul y s).isFinite = true ∧ |(mul y s).val| ≤ 62 / 5 := by
  obtain ⟨sf, sv⟩ := sqrt_val qf q0
  rw [← hs] at sf sv
  obtain ⟨e0, e1⟩ := tiny_bound
  have ee : 2 ^ 52 / (one1074 : ℝ) = 2 ^ 52 * (1 / (one1074 : ℝ)) := by ring
  have hr0 : 0 < r.val := lt_of_lt_of_le (by norm_num) h1
  have q0' := val_zero_le.mpr q0
  have yv := mul_val yf yf ysf
  rw [ee] at yv
  have hy2 := coordinate_le e1 h1 (val_le_of_fv hyr) yv
  -- the same estimate without the rounding of the product shows that it does not overflow
  have h3 : |y.val * s.val| ≤ 62 / 5 :=
    deviation (v := y.val * s.val) (e := 0) hr0 hy2 q0' hq sv (by norm_num) (by rw [sub_self, abs_zero, mul_zero, mul_zero, add_zero]; exact abs_nonneg _)
  have vf : (mul y s).isFinite = true := by
    refine mul_finite_of yf sf two1002_finite (small_two1002 (h3.trans (by norm_num)))
  have vv := mul_val yf sf vf
  rw [ee] at vv
  exact ⟨vf, deviation hr0 hy2 q0' hq sv e1 vv⟩

/-- A number of the standard distribution. -/
def Standard (v : F64) : Prop := v.isFinite = true ∧ |v.val| ≤ 62 / 5

/-- The state of the engine and the saved numbers. -/
def SavedOk (o : Option F64) : Prop := ∀ v, o = some v → Standard v

theorem add_zero_fv {x : F64} (hx : x.isFinite = true) : (add x zero).isFinite = true ∧ (add x zero).val = x.val := by
  have zf : zero.isFinite = true := by decide +kernel
  have e : (add x zero).fv = x.fv := by
    rw [add_fv hx zf, zero_fv, add_zero]
    have := rfv_exact (not_nan_of_finite hx) (B := 1) (by norm_num)
    rwa [Nat.cast_one, mul_one] at this
  exact ⟨finite_of_fv_le hx (by rw [e]), by unfold val; rw [e]⟩

/-- A deviation: not negative and far from the largest double. -/
def Deviation (m : F64) : Prop := Spec.Below 990 m ∧ 0 ≤ m.val

theorem pow_990_1002 : 62 / 5 * (2 : ℝ) ^ 990 ≤ 2 ^ 1002 := by
  rw [show (1002 : Nat) = 990 + 12 from rfl, pow_add]
  generalize hX : (2 : ℝ) ^ 990 = X
  have h0 : 0 ≤ X := hX ▸ pow_nonneg (by norm_num) _
  linarith only [h0]

theorem scaled {v m : F64} (hv : Standard v) (hm : Deviation m) (hne : fne m zero = true) :
    (add (mul v m) zero).isFinite = true ∧ |(add (mul v m) zero).val| ≤ 13 * m.val := by
  obtain ⟨vf, vb⟩ := hv
  obtain ⟨⟨mf, mb⟩, m0⟩ := hm
  rw [abs_of_nonneg m0] at mb
  have hp : |v.val * m.val| ≤ 62 / 5 * m.val := by
    rw [abs_mul, abs_of_nonneg m0]
    exact mul_le_mul_of_nonneg_right vb m0
  have pf : (mul v m).isFinite = true := by
    refine mul_finite_of vf mf two1002_finite ?_
    rw [two1002_val, abs_of_nonneg (pow_nonneg (by norm_num : (0 : ℝ) ≤ 2) 1002)]
    have := pow_990_1002
    generalize (2 : ℝ) ^ 990 = X at *
    generalize (2 : ℝ) ^ 1002 = Y at *
    linarith only [this, hp, mb]
  obtain ⟨af, av⟩ := add_zero_fv pf
  refine ⟨af, ?_⟩
  rw [av]
  have pv := mul_val vf mf pf
  have ee : 2 ^ 52 / (one1074 : ℝ) = 2 ^ 52 * (1 / (one1074 : ℝ)) := by ring
  rw [ee] at pv
  have m1 : 1 / (one1074 : ℝ) ≤ m.val := by
    have hmf : 0 ≤ m.fv := val_zero_le.mp m0
    have hmn : m.fv ≠ 0 := by
      intro h
      have : feq m zero = true := feq_iff.mpr ⟨not_nan_of_finite mf, by decide +kernel, by rw [zero_fv]; exact h⟩
      unfold fne at hne
      rw [this] at hne
      exact absurd hne (by simp)
    unfold val
    apply div_le_div_of_nonneg_right _ one1074_pos'.le
    have : (1 : Int) ≤ m.fv := by omega
    exact_mod_cast this
  exact scaled_real hp pv m1 m0

theorem normal_none (log : F64 → F64) (m : F64) {g g' : Nat} {x y r : F64} (h : polar 2147483646 g = (x, y, r, g')) :
    normal log m none g = (add (mul (mul y (sqrt (div (mul (negate (ofNat 2)) (log r)) r))) m) zero,
        some (mul x (sqrt (div (mul (negate (ofNat 2)) (log r)) r))), g') := by
  have e : normal log m none g = scale log m (polar 2147483646 g) := rfl
  rw [e, h]
  rfl

/-- One call of the distribution. -/
theorem normal_spec {log : F64 → F64} (hl : LogOk log) {m : F64} (hm : Deviation m) (hne : fne m zero = true) {o : Option F64}
    (ho : SavedOk o) {g : Nat} (hg : State g) :
    ((normal log m o g).1.isFinite = true ∧ |(normal log m o g).1.val| ≤ 13 * m.val) ∧ SavedOk (normal log m o g).2.1
      ∧ State (normal log m o g).2.2 := by
  cases o with
  | some v =>
    unfold normal
    exact ⟨scaled (ho v rfl) hm hne, fun _ h => by simp at h, hg⟩
  | none =>
    obtain ⟨x, y, r, g', e, hd, hg'⟩ := polar_ends hg
    have h1 : 1 / 2 ^ 106 ≤ r.val := by rw [← val_facts.2]; exact val_le_of_fv hd.large
    have h2 : r.val ≤ 1 := by rw [← val_facts.1]; exact val_le_of_fv hd.small
    obtain ⟨qf, q0, hq⟩ := factor_spec hl hd.fr h1 h2
    have hx := scaled_coordinate hd.fx hd.sx.1 hd.sx.2.2 h1 qf q0 hq rfl
    have hy := scaled_coordinate hd.fy hd.sy.1 hd.sy.2.2 h1 qf q0 hq rfl
    rw [normal_none log m e]
    generalize sqrt (div (mul (negate (ofNat 2)) (log r)) r) = s at *
    refine ⟨scaled hy hm hne, fun v h => ?_, hg'⟩
    dsimp only at h
    rw [← Option.some.inj h]
    exact hx

end Spoc.Noise
