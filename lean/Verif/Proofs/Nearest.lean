import Verif.Spec.Nearest
import Verif.Proofs.TextIo
import Verif.Proofs.F64Err

/-!
# Decimal numbers and the nearest doubles
-/

namespace Spoc.F64

theorem dist_q {a b B : Nat} (hB : 0 < B) : ((dist (a * B) b : ℕ) : ℚ) = |(a : ℚ) - b / B| * B := by
  have hBq : (0 : ℚ) < B := by exact_mod_cast hB
  rw [← abs_of_pos hBq, ← abs_mul, abs_of_pos hBq, sub_mul, div_mul_cancel₀ _ hBq.ne']
  unfold dist
  rcases Nat.le_total (a * B) b with h | h
  · rw [Nat.sub_eq_zero_of_le h, Nat.zero_add, Nat.cast_sub h, Nat.cast_mul, abs_sub_comm, abs_of_nonneg]
    have : ((a * B : ℕ) : ℚ) ≤ b := by exact_mod_cast h
    rw [Nat.cast_mul] at this
    linarith
  · rw [Nat.sub_eq_zero_of_le h, Nat.add_zero, Nat.cast_sub h, Nat.cast_mul, abs_of_nonneg]
    have : (b : ℚ) ≤ ((a * B : ℕ) : ℚ) := by exact_mod_cast h
    rw [Nat.cast_mul] at this
    linarith

/-- The rounded magnitude is a nearest one. -/
theorem roundMag_nearest (A : Nat) {B m : Nat} (hB : 0 < B) (hm : m ≤ infMag) :
    |(fixMag (roundMag A B) : ℚ) - A / B| ≤ |(fixMag m : ℚ) - A / B| := by
  have hBq : (0 : ℚ) < B := by exact_mod_cast hB
  rw [roundMag_eq]
  rcases Nat.le_total (roundRaw A B) infMag with h | h
  · rw [Nat.min_eq_left h]
    have := (roundRaw_nearest A hB m).1
    have : ((dist (fixMag (roundRaw A B) * B) A : ℕ) : ℚ) ≤ (dist (fixMag m * B) A : ℕ) := by exact_mod_cast this
    rw [dist_q hB, dist_q hB] at this
    exact le_of_mul_le_mul_right this hBq
  · rw [Nat.min_eq_right h]
    rcases h.eq_or_lt with h | h
    · have := (roundRaw_nearest A hB m).1
      have : ((dist (fixMag (roundRaw A B) * B) A : ℕ) : ℚ) ≤ (dist (fixMag m * B) A : ℕ) := by exact_mod_cast this
      rw [dist_q hB, dist_q hB, ← h] at this
      exact le_of_mul_le_mul_right this hBq
    · have hA : fixMag infMag * B ≤ A := by
        by_contra hc
        have := roundRaw_mono (A1 := A) (B1 := B) (A2 := fixMag infMag * B) (B2 := B) hB hB (Nat.mul_le_mul_right _ (by omega))
        rw [roundRaw_exact infMag hB] at this
        omega
      have hA : (fixMag infMag : ℚ) ≤ A / B := by
        rw [le_div_iff₀ hBq]; exact_mod_cast hA
      have hf : (fixMag m : ℚ) ≤ fixMag infMag := by exact_mod_cast fixMag_strictMono.monotone hm
      generalize (fixMag infMag : ℚ) = i at *
      generalize (fixMag m : ℚ) = j at *
      rw [abs_of_nonpos (by linarith), abs_of_nonpos (by linarith)]
      linarith

theorem val_mk' (s : Bool) {m : Nat} (hm : m < 2 ^ 63) :
    (mk' s m).val = (if s then -1 else 1) * ((fixMag m : ℝ) / (one1074 : ℝ)) := by
  unfold val fv
  rw [mag_mk' s hm, neg_mk' s hm]
  generalize (one1074 : ℝ) = U
  cases s
  · simp
  · simp [neg_div]

theorem val_eq (x : F64) : x.val = (if x.neg then -1 else 1) * ((fixMag x.mag : ℝ) / (one1074 : ℝ)) := by
  conv_lhs => rw [← mk'_eta x]
  exact val_mk' _ (mag_lt x)

theorem val_zero {x : F64} : x.val = 0 ↔ x.mag = 0 := by
  unfold val
  rw [div_eq_zero_iff, or_iff_left one1074_pos'.ne', Int.cast_eq_zero, fv_eq_zero]

end Spoc.F64

namespace Spoc.Text

open Spec

theorem scaled_r (m : Nat) (k : ℤ) :
    (F64.scaledNum 10 m k : ℝ) / (F64.scaledDen 10 k : ℕ) / (F64.one1074 : ℝ) = m * 10 ^ k := by
  have := congrArg (fun q : ℚ => (q : ℝ)) (scaled_q m k)
  have hU := F64.one1074_pos'
  generalize hUU : F64.one1074 = U at *
  generalize F64.scaledNum 10 m k = a at *
  generalize F64.scaledDen 10 k = b at *
  simp only [Rat.cast_div, Rat.cast_natCast, Rat.cast_mul, Rat.cast_zpow, Rat.cast_ofNat] at this
  rw [this, mul_div_assoc, div_self hU.ne', mul_one]

theorem roundMag_real (m : Nat) (k : ℤ) {M : Nat} (hM : M ≤ F64.infMag) :
    |(F64.fixMag (F64.roundMag (F64.scaledNum 10 m k) (F64.scaledDen 10 k)) : ℝ) / (F64.one1074 : ℝ) - m * 10 ^ k|
      ≤ |(F64.fixMag M : ℝ) / (F64.one1074 : ℝ) - m * 10 ^ k| := by
  have h := F64.roundMag_nearest (F64.scaledNum 10 m k) (scaledDen_pos k) hM
  have h : ((|(F64.fixMag (F64.roundMag (F64.scaledNum 10 m k) (F64.scaledDen 10 k)) : ℚ)
      - (F64.scaledNum 10 m k : ℚ) / (F64.scaledDen 10 k : ℕ)| : ℚ) : ℝ)
      ≤ ((|(F64.fixMag M : ℚ) - (F64.scaledNum 10 m k : ℚ) / (F64.scaledDen 10 k : ℕ)| : ℚ) : ℝ) := Rat.cast_le.mpr h
  rw [← scaled_r]
  have hU := F64.one1074_pos'
  generalize (F64.one1074 : ℝ) = U at *
  generalize F64.roundMag (F64.scaledNum 10 m k) (F64.scaledDen 10 k) = r at *
  generalize F64.scaledNum 10 m k = a at *
  generalize F64.scaledDen 10 k = b at *
  rw [← sub_div, ← sub_div, abs_div, abs_div]
  refine div_le_div_of_nonneg_right ?_ (abs_nonneg _)
  rw [Rat.cast_abs, Rat.cast_abs] at h
  simpa using h

/-- A number with sign `s` is at least as far from a number with the other sign. -/
theorem abs_sign {s t : Bool} {a b c : ℝ} (hb : 0 ≤ b) (hc : 0 ≤ c) (h : |a - c| ≤ |b - c|) :
    |(if s then -1 else 1) * a - (if s then -1 else 1) * c| ≤ |(if t then -1 else 1) * b - (if s then -1 else 1) * c| := by
  have e : |b - c| ≤ |b + c| := by
    rw [abs_of_nonneg (add_nonneg hb hc), abs_le]; constructor <;> linarith
  have f1 : |-1 * a - -1 * c| = |a - c| := by
    rw [show -1 * a - -1 * c = -(a - c) by ring, abs_neg]
  have f2 : |-1 * b - -1 * c| = |b - c| := by
    rw [show -1 * b - -1 * c = -(b - c) by ring, abs_neg]
  have f3 : |-1 * b - c| = |b + c| := by
    rw [show -1 * b - c = -(b + c) by ring, abs_neg]
  have f4 : |b - -1 * c| = |b + c| := by congr 1; ring
  cases s <;> cases t <;> simp only [Bool.false_eq_true, if_false, if_true, one_mul] <;>
    first | (rw [f1, f2]; exact h) | (rw [f1, f4]; exact h.trans e) | (rw [f3]; exact h.trans e) | exact h

theorem val_nonneg (m : Nat) : (0 : ℝ) ≤ (F64.fixMag m : ℝ) / (F64.one1074 : ℝ) :=
  div_nonneg (Nat.cast_nonneg _) F64.one1074_pos'.le

theorem dec_nonneg (m : Nat) (k : ℤ) : (0 : ℝ) ≤ m * 10 ^ k :=
  mul_nonneg (Nat.cast_nonneg _) (zpow_nonneg (by norm_num) _)

/-- Reading a numeral gives a nearest double. -/
theorem ofScaled_nearest (neg : Bool) (m : Nat) (k : ℤ) :
    Nearest (F64.ofScaled neg 10 m k) ((if neg then -1 else 1) * m * 10 ^ k) := by
  refine ⟨F64.rnd_not_nan _ _ _, ?_⟩
  intro z hz
  have hz := F64.isNaN_eq_false.mp hz
  rw [mul_assoc]
  rcases Nat.eq_zero_or_pos m with rfl | hm
  · have : (F64.ofScaled neg 10 0 k).val = 0 := by
      rw [F64.val_zero]
      unfold F64.ofScaled F64.rnd
      have : F64.scaledNum 10 0 k = 0 := by unfold F64.scaledNum; rw [Nat.zero_mul, Nat.zero_mul]
      rw [this, if_pos (by split <;> rfl)]
      exact F64.mag_mk' _ (by norm_num)
    rw [this, Nat.cast_zero, zero_mul, mul_zero, sub_zero, abs_zero]
    exact abs_nonneg _
  · rw [ofScaled_eq neg hm, F64.val_mk' _ (F64.roundMag_lt63 _ _), F64.val_eq z]
    exact abs_sign (val_nonneg _) (dec_nonneg _ _) (roundMag_real m k hz)

theorem ofScaled_value (n : Numeral) : Nearest (F64.ofScaled n.negative 10 n.mantissa n.exponent) n.value :=
  ofScaled_nearest _ _ _

/-- Numbers that are no powers of two are centred between their neighbours. -/
theorem centred_of_not_power {x : F64} (h0 : x.mag ≠ 0) (h : ¬ PowerOfTwo x) : F64.Centred x.mag := by
  refine F64.centred_of (by omega) ?_
  by_contra hc
  push Not at hc
  obtain ⟨h1, h2⟩ := hc
  refine h ⟨(52 + (x.mag / 2 ^ 52 - 1) : Nat) - (1074 : Nat), ?_⟩
  have e : F64.fixMag x.mag = 2 ^ (52 + (x.mag / 2 ^ 52 - 1)) := by
    unfold F64.fixMag
    rw [if_neg (by omega), h1, Nat.add_zero, pow_add]
  rw [F64.val_eq, abs_mul, e, zpow_sub₀ (by norm_num), zpow_natCast, zpow_natCast]
  have s1 : |(if x.neg = true then (-1 : ℝ) else 1)| = 1 := by cases x.neg <;> simp
  have s2 : (F64.one1074 : ℝ) = (2 : ℝ) ^ (1074 : ℕ) := by
    unfold F64.one1074
    exact Nat.cast_pow 2 1074
  rw [s1, one_mul, s2, Nat.cast_pow, abs_of_nonneg (div_nonneg (pow_nonneg (by norm_num) _) (pow_nonneg (by norm_num) _))]
  rfl

/-- The two descriptions of numbers that survive printing. -/
theorem shows_of_digits {P : Nat} {x : F64} (h : Digits P x) : x.mag = 0 ∨ Shows P x.mag := by
  by_cases h0 : x.mag = 0
  · exact Or.inl h0
  right
  obtain ⟨hf, m, j, hm, h⟩ := h
  have hfm : x.mag < F64.infMag := by simpa [F64.isFinite] using hf
  have hU := F64.one1074_pos'
  refine ⟨m.natAbs, j, by rw [Int.abs_eq_natAbs] at hm; exact_mod_cast hm, ?_⟩
  have habs : |x.val| = (F64.fixMag x.mag : ℝ) / (F64.one1074 : ℝ) := by
    rw [F64.val_eq, abs_mul, abs_of_nonneg (val_nonneg _)]
    cases x.neg <;> simp
  have hm' : |(m : ℝ) * 10 ^ j| = (m.natAbs : ℝ) * 10 ^ j := by
    rw [abs_mul, abs_of_nonneg (zpow_nonneg (by norm_num : (0 : ℝ) ≤ 10) j), Nat.cast_natAbs, Int.cast_abs]
  rcases h with h | ⟨hp, hn, hs⟩
  · left
    have e : (F64.fixMag x.mag : ℝ) / (F64.one1074 : ℝ) = (m.natAbs : ℝ) * 10 ^ j := by rw [← habs, h, hm']
    rw [div_eq_iff hU.ne'] at e
    generalize F64.one1074 = U at *
    have : (((m.natAbs : ℚ) * 10 ^ j * (U : ℕ) : ℚ) : ℝ) = ((F64.fixMag x.mag : ℚ) : ℝ) := by
      push_cast
      exact e.symm
    exact_mod_cast this
  · right
    refine ⟨centred_of_not_power h0 hp, ?_⟩
    by_contra hc
    set M := F64.roundMag (F64.scaledNum 10 m.natAbs j) (F64.scaledDen 10 j) with hM
    have hMi : M ≤ F64.infMag := F64.roundMag_le _ _
    have hM63 : M < 2 ^ 63 := F64.roundMag_lt63 _ _
    have near := roundMag_real m.natAbs j hfm.le
    rw [← hM] at near
    have hq : (m : ℝ) * 10 ^ j = (if decide (m < 0) then -1 else 1) * ((m.natAbs : ℝ) * 10 ^ j) := by
      rw [← mul_assoc]
      congr 1
      rw [Nat.cast_natAbs, Int.cast_abs]
      by_cases hm0 : m < 0
      · simp only [hm0, decide_true, if_true]
        rw [abs_of_neg (by exact_mod_cast hm0)]; ring
      · simp only [hm0, decide_false, Bool.false_eq_true, if_false]
        rw [abs_of_nonneg (by exact_mod_cast not_lt.mp hm0)]; ring
    have ne : (F64.mk' (decide (m < 0)) M).val ≠ x.val := by
      intro e
      have := congrArg abs e
      rw [F64.val_mk' _ hM63, abs_mul, abs_of_nonneg (val_nonneg _), habs] at this
      have s1 : |(if decide (m < 0) = true then (-1 : ℝ) else 1)| = 1 := by cases decide (m < 0) <;> simp
      rw [s1, one_mul, div_left_inj' hU.ne', Nat.cast_inj, F64.fixMag_inj] at this
      exact hc this
    have := hs (F64.mk' (decide (m < 0)) M) (by rw [F64.isNaN_eq_false, F64.mag_mk' _ hM63]; exact hMi) ne
    rw [F64.val_mk' _ hM63, F64.val_eq x, hq] at this
    exact absurd this (not_lt.mpr (abs_sign (val_nonneg _) (dec_nonneg _ _) near))

/-- A way to show that a positive number is strictly nearest to `m * 10 ^ k`: the middles to its neighbours are farther away. -/
theorem strictlyNearest_of {M m : Nat} {k : ℤ} (hM : 1 ≤ M) (hi : M ≤ F64.infMag)
    (h1 : (F64.fixMag (M - 1) + F64.fixMag M) * F64.scaledDen 10 k < 2 * F64.scaledNum 10 m k)
    (h2 : 2 * F64.scaledNum 10 m k < (F64.fixMag M + F64.fixMag (M + 1)) * F64.scaledDen 10 k) :
    StrictlyNearest (F64.mk' false M) (m * 10 ^ k) := by
  have hM63 : M < 2 ^ 63 := lt_of_le_of_lt hi F64.infMag_lt
  refine ⟨by rw [F64.isNaN_eq_false, F64.mag_mk' _ hM63]; exact hi, ?_⟩
  intro z hz hne
  have hU := F64.one1074_pos'
  have hD : (0 : ℝ) < (F64.scaledDen 10 k : ℕ) := Nat.cast_pos.mpr (scaledDen_pos k)
  have h1 : ((F64.fixMag (M - 1) : ℝ) + F64.fixMag M) * (F64.scaledDen 10 k : ℕ) < 2 * (F64.scaledNum 10 m k : ℕ) := by
    exact_mod_cast h1
  have h2 : 2 * ((F64.scaledNum 10 m k : ℕ) : ℝ) < ((F64.fixMag M : ℝ) + F64.fixMag (M + 1)) * (F64.scaledDen 10 k : ℕ) := by
    exact_mod_cast h2
  rw [F64.val_mk' _ hM63, F64.val_eq z] at hne ⊢
  simp only [Bool.false_eq_true, if_false, one_mul] at hne ⊢
  have hq : (F64.scaledNum 10 m k : ℝ) = m * 10 ^ k * (F64.one1074 : ℝ) * (F64.scaledDen 10 k : ℕ) := by
    rw [← scaled_r m k]
    generalize (F64.one1074 : ℝ) = U at *
    field_simp
  rw [hq, ← mul_assoc, mul_lt_mul_iff_left₀ hD] at h2
  rw [hq, ← mul_assoc, mul_lt_mul_iff_left₀ hD] at h1
  have hzm : F64.fixMag z.mag ≤ F64.fixMag (M - 1) ∨ z.mag = M ∨ F64.fixMag (M + 1) ≤ F64.fixMag z.mag := by
    rcases lt_trichotomy z.mag M with h | h | h
    · exact Or.inl (F64.fixMag_strictMono.monotone (by omega))
    · exact Or.inr (Or.inl h)
    · exact Or.inr (Or.inr (F64.fixMag_strictMono.monotone (by omega)))
  have hzm : (F64.fixMag z.mag : ℝ) ≤ F64.fixMag (M - 1) ∨ z.mag = M ∨ (F64.fixMag (M + 1) : ℝ) ≤ F64.fixMag z.mag := by
    exact_mod_cast hzm
  have hlt1 : (F64.fixMag (M - 1) : ℝ) < F64.fixMag M := Nat.cast_lt.mpr (F64.fixMag_strictMono (by omega))
  have hlt2 : (F64.fixMag M : ℝ) < F64.fixMag (M + 1) := Nat.cast_lt.mpr (F64.fixMag_strictMono (by omega))
  have h0 : (0 : ℝ) ≤ F64.fixMag (M - 1) := Nat.cast_nonneg _
  have hz0 : (0 : ℝ) ≤ F64.fixMag z.mag := Nat.cast_nonneg _
  generalize (m : ℝ) * 10 ^ k = q at *
  generalize (F64.one1074 : ℝ) = U at *
  -- multiply by the unit
  have scale : ∀ t : ℝ, |t / U - q| = |t - q * U| / U := by
    intro t
    rw [← abs_of_pos hU, ← abs_div, abs_of_pos hU, sub_div, mul_div_assoc, div_self hU.ne', mul_one]
  have e : (if z.neg = true then (-1 : ℝ) else 1) * ((F64.fixMag z.mag : ℝ) / U)
      = ((if z.neg = true then (-1 : ℝ) else 1) * (F64.fixMag z.mag : ℝ)) / U := by rw [mul_div_assoc]
  rw [e] at hne ⊢
  rw [scale, scale]
  refine div_lt_div_of_pos_right ?_ hU
  have hw : z.mag = M → z.neg = true := by
    intro h
    by_contra hc
    rw [Bool.not_eq_true] at hc
    rw [hc, h] at hne
    simp at hne
  rw [abs_lt]
  cases hzn : z.neg with
  | false =>
    simp only [Bool.false_eq_true, if_false, one_mul]
    rcases hzm with h | h | h
    · rcases le_total ((F64.fixMag z.mag : ℝ)) (q * U) with hc | hc
      · rw [abs_of_nonpos (by linarith)]; constructor <;> linarith
      · rw [abs_of_nonneg (by linarith)]; constructor <;> linarith
    · have := hw h; rw [hzn] at this; simp at this
    · rcases le_total ((F64.fixMag z.mag : ℝ)) (q * U) with hc | hc
      · rw [abs_of_nonpos (by linarith)]; constructor <;> linarith
      · rw [abs_of_nonneg (by linarith)]; constructor <;> linarith
  | true =>
    simp only [if_true]
    rw [abs_of_nonpos (by linarith)]
    constructor <;> linarith

/-- A way to show that a number is no power of two. -/
theorem not_power_of {x : F64} {L : Nat} (h1 : 2 ^ L < F64.fixMag x.mag) (h2 : F64.fixMag x.mag < 2 ^ (L + 1)) : ¬ PowerOfTwo x := by
  rintro ⟨k, hk⟩
  have hU := F64.one1074_pos'
  have s1 : |(if x.neg = true then (-1 : ℝ) else 1)| = 1 := by cases x.neg <;> simp
  have s2 : (F64.one1074 : ℝ) = (2 : ℝ) ^ (1074 : ℤ) := by
    unfold F64.one1074
    rw [Nat.cast_pow]
    exact (zpow_natCast (2 : ℝ) 1074).symm
  rw [F64.val_eq, abs_mul, s1, one_mul, abs_of_nonneg (val_nonneg _), div_eq_iff hU.ne', s2, ← zpow_add₀ (by norm_num)] at hk
  have h1 : ((2 : ℝ)) ^ (L : ℤ) < F64.fixMag x.mag := by rw [zpow_natCast]; exact_mod_cast h1
  have h2 : (F64.fixMag x.mag : ℝ) < (2 : ℝ) ^ ((L + 1 : Nat) : ℤ) := by rw [zpow_natCast]; exact_mod_cast h2
  rw [hk] at h1 h2
  have h1 := (zpow_lt_zpow_iff_right₀ (by norm_num : (1 : ℝ) < 2)).mp h1
  have h2 := (zpow_lt_zpow_iff_right₀ (by norm_num : (1 : ℝ) < 2)).mp h2
  push_cast at h2
  omega

end Spoc.Text
