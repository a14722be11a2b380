import Verif.Proofs.Gauss

/-!
# The random numbers of the tests (C115)
-/

namespace Spoc.TestUtils

open F64 Spec Noise

/-! ## Integers -/

theorem uniformInt_succ (a b : Int) (n g : Nat) : uniformInt a b (n + 1) g =
    if next g - 1 < ((b - a).toNat + 1) * (2147483645 / ((b - a).toNat + 1)) then
      (a + ((next g - 1) / (2147483645 / ((b - a).toNat + 1)) : Nat), next g) else uniformInt a b n (next g) := by
  rw [uniformInt]

/-- If a number is accepted within `n` rounds, then the result is in the range, and further rounds would not be made. -/
theorem uniformInt_of {a b : Int} (hab : a ≤ b) : ∀ (n g : Nat), State g →
    (∃ k < n, next^[k + 1] g - 1 < ((b - a).toNat + 1) * (2147483645 / ((b - a).toNat + 1))) →
    a ≤ (uniformInt a b n g).1 ∧ (uniformInt a b n g).1 ≤ b ∧ State (uniformInt a b n g).2
      ∧ ∀ m, n ≤ m → uniformInt a b m g = uniformInt a b n g
  | 0, _, _, h => by obtain ⟨k, hk, _⟩ := h; omega
  | n + 1, g, hg, h => by
    by_cases ha : next g - 1 < ((b - a).toNat + 1) * (2147483645 / ((b - a).toNat + 1))
    · have e : ∀ m, n + 1 ≤ m → uniformInt a b m g = (a + ((next g - 1) / (2147483645 / ((b - a).toNat + 1)) : Nat), next g) := by
        intro m hm
        obtain ⟨j, rfl⟩ : ∃ j, m = j + 1 := ⟨m - 1, by omega⟩
        rw [uniformInt_succ, if_pos ha]
      rw [e (n + 1) (le_refl _)]
      have hlt : (next g - 1) / (2147483645 / ((b - a).toNat + 1)) < (b - a).toNat + 1 :=
        Nat.div_lt_of_lt_mul (by rw [Nat.mul_comm]; exact ha)
      refine ⟨?_, ?_, next_state hg, fun m hm => e m hm⟩
      · dsimp only
        generalize (next g - 1) / (2147483645 / ((b - a).toNat + 1)) = q at *
        omega
      · dsimp only
        generalize (next g - 1) / (2147483645 / ((b - a).toNat + 1)) = q at *
        omega
    · have e : ∀ m, n + 1 ≤ m → uniformInt a b m g = uniformInt a b (m - 1) (next g) := by
        intro m hm
        obtain ⟨j, rfl⟩ : ∃ j, m = j + 1 := ⟨m - 1, by omega⟩
        rw [uniformInt_succ, if_neg ha]
        rfl
      obtain ⟨k, hk, hk'⟩ := h
      have hk0 : k ≠ 0 := by
        rintro rfl
        exact ha hk'
      obtain ⟨j, rfl⟩ : ∃ j, k = j + 1 := ⟨k - 1, by omega⟩
      obtain ⟨h1, h2, h3, h4⟩ := uniformInt_of hab n (next g) (next_state hg) ⟨j, by omega, by
        rw [Function.iterate_succ_apply] at hk'
        exact hk'⟩
      rw [e (n + 1) (le_refl _)]
      refine ⟨h1, h2, h3, fun m hm => ?_⟩
      rw [e m hm]
      exact h4 _ (by omega)

theorem period_eq : period = 2147483646 := rfl

/-- The loop of `std::uniform_int_distribution` ends, and the result is in the range. -/
theorem uniformInt_spec {a b : Int} (hab : a ≤ b) (hr : b - a < 2147483645) {g : Nat} (hg : State g) :
    a ≤ (uniformInt a b period g).1 ∧ (uniformInt a b period g).1 ≤ b ∧ State (uniformInt a b period g).2
      ∧ ∀ m, period ≤ m → uniformInt a b m g = uniformInt a b period g := by
  apply uniformInt_of hab _ _ hg
  have h1 : 1 ≤ 2147483645 / ((b - a).toNat + 1) := by
    rw [Nat.le_div_iff_mul_le (by omega)]
    omega
  have hpos : 0 < ((b - a).toNat + 1) * (2147483645 / ((b - a).toNat + 1)) := Nat.mul_pos (by omega) (by omega)
  generalize ((b - a).toNat + 1) * (2147483645 / ((b - a).toNat + 1)) = t at *
  obtain ⟨j, hj, e⟩ := reach (next_state hg) (t := 1) ⟨by norm_num, by norm_num⟩
  refine ⟨j, by rw [period_eq]; exact hj, ?_⟩
  rw [Function.iterate_succ_apply, e]
  exact hpos

/-! ## Real numbers between 0 and 1 -/

/-- `generate_canonical` never delivers zero. -/
theorem canonical_large {g : Nat} (h : State g) : p106.fv ≤ (canonical g).1.fv := by
  rw [canonical_fraction]
  dsimp only
  have s1 := next_state h
  have s2 := next_state s1
  by_cases hone : next (next g) = 1
  · have e1 : next g = 1407677000 := by
      have := next_inverse (next g) s1.2
      rw [hone] at this
      omega
    rw [hone, e1]
    decide +kernel
  · have b : Upto (fraction (ofNat 0) (ofNat 1)) (fraction (ofNat (next g - 1)) (ofNat (next (next g) - 1))) := by
      obtain ⟨af, -⟩ := small_ofNat (n := next g - 1) (by have := s1.2; omega)
      obtain ⟨bf, -⟩ := small_ofNat (n := next (next g) - 1) (by have := s2.2; omega)
      obtain ⟨rf, -⟩ := small_ofNat (n := 2147483646) (by norm_num)
      have of : one.isFinite = true := by decide +kernel
      have hub1 : Upto (ofNat (next g - 1)) (ofNat 2147483646) := upto_ofNat rf (by have := s1.2; omega)
      have hub2 : Upto (ofNat (next (next g) - 1)) (ofNat 2147483646) := upto_ofNat rf (by have := s2.2; omega)
      have k1 : (mul (ofNat 2147483646) one).isFinite = true := by decide +kernel
      have k3 : (mul (ofNat 2147483646) (ofNat 2147483646)).isFinite = true := by decide +kernel
      have k2 : (add (mul (ofNat 2147483646) one) (mul (ofNat 2147483646) (ofNat 2147483646))).isFinite = true := by decide +kernel
      have m1 := upto_mul rf of k1 hub1 (upto_self of (by decide +kernel))
      have m2 := upto_mul rf rf k3 hub2 (upto_self rf (ofNat_nonneg _))
      have m3 := upto_add k1 k3 k2 m1 m2
      have m4 := (canonical_range h).2.1.1
      rw [canonical_fraction] at m4
      dsimp only at m4
      have l1 : Upto (ofNat 0) (ofNat (next g - 1)) := upto_ofNat af (Nat.zero_le _)
      have l2 : Upto (ofNat 1) (ofNat (next (next g) - 1)) := upto_ofNat bf (by have := s2.1; omega)
      exact fraction_upto af bf l1 l2 m1.1 m2.1 m3.1 m4
    have k : p106.fv ≤ (fraction (ofNat 0) (ofNat 1)).fv := by decide +kernel
    obtain ⟨-, -, b⟩ := b
    generalize fraction (ofNat (next g - 1)) (ofNat (next (next g) - 1)) = x at *
    generalize fraction (ofNat 0) (ofNat 1) = y at *
    exact Int.le_trans k b

theorem sub_one_zero : sub one zero = one := by decide +kernel

theorem unit_fv {c : F64} (hc : c.isFinite = true) : (add (mul c (sub one zero)) zero).fv = c.fv := by
  have of : one.isFinite = true := by decide +kernel
  have zf : zero.isFinite = true := by decide +kernel
  have e : (mul c one).fv = c.fv := by
    rw [mul_fv hc of, one_fv]
    exact rfv_exact (not_nan_of_finite hc) one1074_pos
  have ef : (mul c one).isFinite = true := finite_of_fv_le hc (by rw [e])
  rw [sub_one_zero, add_fv ef zf, zero_fv, add_zero, e]
  have := rfv_exact (not_nan_of_finite hc) (B := 1) (by norm_num)
  rw [Nat.cast_one, mul_one] at this
  exact this

/-- `std::uniform_real_distribution<double> u; u (g)` -/
theorem unit_range {g : Nat} (h : State g) : State (uniformReal zero one g).2 ∧ (uniformReal zero one g).1.isFinite = true
    ∧ p106.fv ≤ (uniformReal zero one g).1.fv ∧ (uniformReal zero one g).1.fv < one.fv := by
  obtain ⟨hs, hc, hl⟩ := canonical_range h
  have hb := canonical_large h
  have e : uniformReal zero one g = (add (mul (canonical g).1 (sub one zero)) zero, (canonical g).2) := by
    unfold uniformReal
    generalize canonical g = c
    rfl
  rw [e]
  dsimp only
  have ef := unit_fv hc.1
  generalize add (mul (canonical g).1 (sub one zero)) zero = x at *
  generalize (canonical g).1 = c at *
  exact ⟨hs, finite_of_fv_le hc.1 (by rw [ef]), by rw [ef]; exact hb, by rw [ef]; exact hl⟩

/-! ## `about_equal` -/

theorem half_near {m U N : ℕ} (hU : 0 < U) (e : N = (2 * m + U) / (2 * U)) : |(N : ℝ) - m / U| ≤ 1 / 2 := by
  have h1 : N * (2 * U) ≤ 2 * m + U := by rw [e]; exact Nat.div_mul_le_self _ _
  have h2 : 2 * m + U < (N + 1) * (2 * U) := by
    rw [e, Nat.add_mul, Nat.one_mul]
    exact Nat.lt_div_mul_add (Nat.mul_pos (by norm_num) hU)
  have h1' : (N : ℝ) * (2 * U) ≤ 2 * m + U := by exact_mod_cast h1
  have h2' : (2 : ℝ) * m + U < (N + 1) * (2 * U) := by exact_mod_cast h2
  have hU' : (0 : ℝ) < U := by exact_mod_cast hU
  have e1 : (N : ℝ) - m / U = (N * U - m) / U := by field_simp
  rw [e1, abs_div, abs_of_pos hU', div_le_iff₀ hU', abs_le]
  constructor <;> linarith only [h1', h2']

/-- `std::round` of a moderate number is an integer that differs from it by at most 1/2. -/
theorem round_spec {x : F64} (hf : x.isFinite = true) (hb : |x.val| ≤ 2 ^ 40) :
    ∃ n : Int, (round x).isFinite = true ∧ (round x).fv = n * one1074 ∧ |(n : ℝ) - x.val| ≤ 1 / 2 ∧ n.natAbs < 2 ^ 53 := by
  have hU := one1074_pos
  have key : ∀ N : ℕ, N = (2 * fixMag x.mag + one1074) / (2 * one1074) →
      |((if x.neg then -(N : Int) else (N : Int) : Int) : ℝ) - x.val| ≤ 1 / 2 := by
    intro N e
    have h := half_near hU e
    unfold val fv
    cases x.neg with
    | true =>
      simp only [if_true]
      push_cast
      rw [show -(N : ℝ) - -(fixMag x.mag : ℝ) / one1074 = -((N : ℝ) - fixMag x.mag / one1074) by ring, abs_neg]
      exact h
    | false =>
      simp only [Bool.false_eq_true, if_false]
      push_cast
      exact h
  have key' := key _ rfl
  have hn : (if x.neg then -(((2 * fixMag x.mag + one1074) / (2 * one1074) : ℕ) : Int) else (((2 * fixMag x.mag + one1074) / (2 * one1074) : ℕ) : Int)).natAbs
      < 2 ^ 53 := by
    generalize (if x.neg then -(((2 * fixMag x.mag + one1074) / (2 * one1074) : ℕ) : Int)
      else (((2 * fixMag x.mag + one1074) / (2 * one1074) : ℕ) : Int)) = n at *
    have a := abs_le.mp key'
    have b := abs_le.mp hb
    have c1 : (n : ℝ) ≤ 2 ^ 41 := by
      have : (2 : ℝ) ^ 40 + 1 / 2 ≤ 2 ^ 41 := by norm_num
      linarith only [a.2, b.2, this]
    have c2 : -(2 : ℝ) ^ 41 ≤ n := by
      have : (2 : ℝ) ^ 40 + 1 / 2 ≤ 2 ^ 41 := by norm_num
      linarith only [a.1, b.1, this]
    have d1 : n ≤ 2 ^ 41 := by exact_mod_cast c1
    have d2 : -(2 ^ 41) ≤ n := by exact_mod_cast c2
    omega
  have e : (round x).fv = (if x.neg then -(((2 * fixMag x.mag + one1074) / (2 * one1074) : ℕ) : Int)
      else (((2 * fixMag x.mag + one1074) / (2 * one1074) : ℕ) : Int)) * one1074 := by
    rw [← ofInt_fv hn]
    unfold F64.round ofInt
    rw [if_neg (by rw [not_nan_of_finite hf]; simp), if_neg (by unfold isFinite at hf; unfold isInf; simp at hf ⊢; omega)]
    dsimp only
    rw [rnd_fv _ _ (by norm_num), rnd_fv _ _ (by norm_num)]
    generalize (2 * fixMag x.mag + one1074) / (2 * one1074) = N
    cases x.neg with
    | true =>
      simp only [if_true]
      rw [Int.neg_mul]
    | false => simp only [Bool.false_eq_true, if_false]
  refine ⟨_, ?_, e, key', hn⟩
  apply finite_of_fv_le (ofInt_finite hn)
  rw [e, ofInt_fv hn]

theorem toInt32_exact {x : F64} {n : Int} (hf : x.isFinite = true) (h : x.fv = n * one1074) (h1 : -(2 ^ 31) ≤ n) (h2 : n < 2 ^ 31) :
    toInt32 x = .ok n := by
  have e : x.trunc = n := by
    unfold trunc
    rw [h]
    exact Int.mul_tdiv_cancel _ (by have := one1074_pos; omega)
  unfold toInt32
  rw [if_pos hf, e, if_pos ⟨h1, h2⟩]

theorem thousand : (ofNat 1000).isFinite = true ∧ (ofNat 1000).val = 1000 := by
  have := small_ofNat (n := 1000) (by norm_num)
  exact ⟨this.1, by rw [this.2]; norm_num⟩

theorem scaled_error {m v e : ℝ} (hv : |v * 1000| ≤ 2 ^ 31) (he : e ≤ 1 / 2 ^ 20) (h : 2 ^ 53 * |m - v * 1000| ≤ |v * 1000| + e) :
    |m - v * 1000| ≤ 1 / 2 ^ 21 ∧ |m| ≤ 2 ^ 40 := by
  have h1 : |m - v * 1000| ≤ 1 / 2 ^ 21 := by
    have : (2 : ℝ) ^ 31 + 1 / 2 ^ 20 ≤ 2 ^ 53 * (1 / 2 ^ 21) := by norm_num
    linarith only [h, hv, he, this]
  refine ⟨h1, ?_⟩
  have a := abs_le.mp h1
  have b := abs_le.mp hv
  have : (2 : ℝ) ^ 31 + 1 / 2 ^ 21 ≤ 2 ^ 40 := by norm_num
  rw [abs_le]
  constructor <;> linarith only [a.1, a.2, b.1, b.2, this]

/-- A number in thousandths. -/
theorem thousandths {x : F64} (hf : x.isFinite = true) (hb : |x.val| ≤ 2000000) :
    ∃ n : Int, toInt32 (round (mul x (ofNat 1000))) = .ok n ∧ |(n : ℝ) - x.val * 1000| ≤ 1 / 2 + 1 / 2 ^ 21 := by
  obtain ⟨tf, tv⟩ := thousand
  have hv : |x.val * 1000| ≤ 2 ^ 31 := by
    rw [abs_mul]
    have : |(1000 : ℝ)| = 1000 := by norm_num
    rw [this]
    have : (2000000 : ℝ) * 1000 ≤ 2 ^ 31 := by norm_num
    linarith only [hb, this]
  have mf : (mul x (ofNat 1000)).isFinite = true := by
    refine mul_finite_of hf tf two1002_finite (small_two1002 ?_)
    rw [tv]
    exact hv.trans (by norm_num)
  have mv := mul_val hf tf mf
  rw [tv] at mv
  obtain ⟨h1, h2⟩ := scaled_error hv tiny52 mv
  obtain ⟨n, rf, re, rn, -⟩ := round_spec mf h2
  generalize (mul x (ofNat 1000)).val = m at *
  have hn : |(n : ℝ) - x.val * 1000| ≤ 1 / 2 + 1 / 2 ^ 21 := by
    have := abs_add_le ((n : ℝ) - m) (m - x.val * 1000)
    rw [show (n : ℝ) - m + (m - x.val * 1000) = n - x.val * 1000 by ring] at this
    linarith only [this, rn, h1]
  have hv2 : |x.val * 1000| ≤ 2000000 * 1000 := by
    rw [abs_mul]
    have : |(1000 : ℝ)| = 1000 := by norm_num
    rw [this]
    linarith only [hb]
  have a := abs_le.mp hn
  have b := abs_le.mp hv2
  have c1 : (n : ℝ) < 2 ^ 31 := by
    have : (2000000 : ℝ) * 1000 + 1 / 2 + 1 / 2 ^ 21 < 2 ^ 31 := by norm_num
    linarith only [a.2, b.2, this]
  have c2 : -(2 : ℝ) ^ 31 ≤ n := by
    have : (2000000 : ℝ) * 1000 + 1 / 2 + 1 / 2 ^ 21 < 2 ^ 31 := by norm_num
    linarith only [a.1, b.1, this]
  exact ⟨n, toInt32_exact rf re (by exact_mod_cast c2) (by exact_mod_cast c1), hn⟩

end Spoc.TestUtils
