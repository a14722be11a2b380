import Verif.Proofs.F64Ops
import Verif.Base.TextIo
import Mathlib.Data.Rat.Lemmas
import Mathlib.Algebra.Order.Field.Rat
import Mathlib.Algebra.Order.Field.Power
import Mathlib.Tactic.FieldSimp
import Mathlib.Tactic.GCongr

/-!
# Decimal numbers: rounding to a number of digits, and back
-/

namespace Spoc.F64

/-- The neighbours of a magnitude are equally far from it: it is not a power of two, or it is small. -/
def Centred (M : Nat) : Prop := 1 ≤ M ∧ fixMag (M + 1) + fixMag (M - 1) = 2 * fixMag M

theorem centred_of {M : Nat} (h0 : 1 ≤ M) (h : M % 2 ^ 52 ≠ 0 ∨ M < 2 ^ 53) : Centred M := by
  refine ⟨h0, ?_⟩
  by_cases hs : M < 2 ^ 53
  · have key : ∀ m, m ≤ 2 ^ 53 → fixMag m = m := by
      intro m hm
      have := fixMag_enc (k := 0) (n := m) hm (Or.inl rfl)
      simpa using this
    rw [key _ (by omega), key _ (by omega), key _ (by omega)]; omega
  · have h := h.resolve_right hs
    obtain ⟨k, n, rfl, hn, hk⟩ := mag_dec M
    have hk : 2 ^ 52 ≤ n := hk.resolve_left (by rintro rfl; omega)
    have : 2 ^ 52 + 1 ≤ n := by
      rcases Nat.eq_or_lt_of_le hk with e | e
      · exfalso; apply h; rw [← e]; omega
      · exact e
    have e1 : k * 2 ^ 52 + n + 1 = k * 2 ^ 52 + (n + 1) := by omega
    have e2 : k * 2 ^ 52 + n - 1 = k * 2 ^ 52 + (n - 1) := by omega
    rw [e1, e2, fixMag_enc hn.le (Or.inr hk), fixMag_enc (n := n + 1) hn (Or.inr (by omega)),
      fixMag_enc (n := n - 1) (by omega) (Or.inr (by omega)), ← Nat.add_mul, ← Nat.mul_assoc]
    congr 1; omega

/-- Rounding is symmetric around a centred magnitude. -/
theorem roundRaw_reflect {A A' B M : Nat} (hB : 0 < B) (hc : Centred M) (hM : roundRaw A B = M)
    (hA : A + A' = 2 * (fixMag M * B)) : roundRaw A' B = M := by
  obtain ⟨h1, h2⟩ := hc
  have n1 := roundRaw_nearest A hB (M - 1)
  have n2 := roundRaw_nearest A hB (M + 1)
  have n3 := roundRaw_nearest A' hB M
  rw [hM] at n1 n2
  have hf : fixMag (M + 1) * B + fixMag (M - 1) * B = 2 * (fixMag M * B) := by rw [← Nat.add_mul, h2]; ring
  have l1 : fixMag (M - 1) * B < fixMag M * B := Nat.mul_lt_mul_of_pos_right (fixMag_strictMono (by omega)) hB
  generalize hR : roundRaw A' B = R at n3
  have n4 : ∀ m, dist (fixMag R * B) A' ≤ dist (fixMag m * B) A' := by
    intro m
    have := (roundRaw_nearest A' hB m).1
    rwa [hR] at this
  rcases Nat.lt_trichotomy R M with h | h | h
  · have l2 : fixMag R * B ≤ fixMag (M - 1) * B := Nat.mul_le_mul_right _ (fixMag_strictMono.monotone (by omega))
    have n4 := n4 (M - 1)
    have hR1 : R = M - 1 ∨ fixMag R * B < fixMag (M - 1) * B := by
      rcases Nat.lt_or_ge R (M - 1) with h' | h'
      · exact Or.inr (Nat.mul_lt_mul_of_pos_right (fixMag_strictMono h') hB)
      · left; omega
    simp only [dist] at *
    generalize fixMag (M - 1) * B = a at *
    generalize fixMag M * B = b at *
    generalize fixMag (M + 1) * B = c at *
    generalize fixMag R * B = r at *
    omega
  · exact h
  · have l2 : fixMag (M + 1) * B ≤ fixMag R * B := Nat.mul_le_mul_right _ (fixMag_strictMono.monotone (by omega))
    have n4 := n4 (M + 1)
    have hR1 : R = M + 1 ∨ fixMag (M + 1) * B < fixMag R * B := by
      rcases Nat.lt_or_ge (M + 1) R with h' | h'
      · exact Or.inr (Nat.mul_lt_mul_of_pos_right (fixMag_strictMono h') hB)
      · left; omega
    simp only [dist] at *
    generalize fixMag (M - 1) * B = a at *
    generalize fixMag M * B = b at *
    generalize fixMag (M + 1) * B = c at *
    generalize fixMag R * B = r at *
    omega

/-- The quotient as a rational number. -/
theorem roundMag_mono_q {A1 B1 A2 B2 : Nat} (h1 : 0 < B1) (h2 : 0 < B2) (h : (A1 : ℚ) / B1 ≤ A2 / B2) :
    roundMag A1 B1 ≤ roundMag A2 B2 := by
  refine roundMag_mono h1 h2 ?_
  rw [div_le_div_iff₀ (by exact_mod_cast h1) (by exact_mod_cast h2)] at h
  exact_mod_cast h

theorem roundMag_congr_q {A1 B1 A2 B2 : Nat} (h1 : 0 < B1) (h2 : 0 < B2) (h : (A1 : ℚ) / B1 = A2 / B2) :
    roundMag A1 B1 = roundMag A2 B2 :=
  le_antisymm (roundMag_mono_q h1 h2 h.le) (roundMag_mono_q h2 h1 h.ge)

/-- If `q` rounds to a centred magnitude, then so does everything that is no farther away from it. -/
theorem roundMag_near {A B C D M : Nat} (hB : 0 < B) (hD : 0 < D) (hc : Centred M) (hi : M < infMag)
    (hM : roundMag A B = M) (h : |(C : ℚ) / D - fixMag M| ≤ |(A : ℚ) / B - fixMag M|) : roundMag C D = M := by
  have hraw : roundRaw A B = M := by
    rw [roundMag_eq] at hM
    rcases Nat.le_total (roundRaw A B) infMag with h | h
    · rwa [Nat.min_eq_left h] at hM
    · rw [Nat.min_eq_right h] at hM; omega
  have hBq : (0 : ℚ) < B := by exact_mod_cast hB
  -- the reflected point
  have hle : A ≤ 2 * (fixMag M * B) := by
    have n1 := (roundRaw_nearest A hB (M - 1)).1
    have n2 := (roundRaw_nearest A hB (M + 1)).1
    rw [hraw] at n1 n2
    obtain ⟨h1, h2⟩ := hc
    have hf : fixMag (M + 1) * B + fixMag (M - 1) * B = 2 * (fixMag M * B) := by rw [← Nat.add_mul, h2]; ring
    have l1 : fixMag (M - 1) * B < fixMag M * B := Nat.mul_lt_mul_of_pos_right (fixMag_strictMono (by omega)) hB
    simp only [dist] at *
    generalize fixMag (M - 1) * B = a at *
    generalize fixMag M * B = b at *
    generalize fixMag (M + 1) * B = c at *
    omega
  obtain ⟨A', hA'⟩ : ∃ A', A + A' = 2 * (fixMag M * B) := ⟨2 * (fixMag M * B) - A, by omega⟩
  have hraw' := roundRaw_reflect hB hc hraw hA'
  have hM' : roundMag A' B = M := by rw [roundMag_eq, hraw', Nat.min_eq_left hi.le]
  have eq' : (A' : ℚ) / B = 2 * fixMag M - (A : ℚ) / B := by
    have : (A : ℚ) + A' = 2 * (fixMag M * B) := by exact_mod_cast hA'
    rw [eq_sub_iff_add_eq, ← add_div, add_comm, this, ← mul_assoc, mul_div_assoc, div_self hBq.ne', mul_one]
  have eM : roundMag (fixMag M * 1) 1 = M := roundMag_exact one_pos hi.le
  have key : min ((A : ℚ) / B) (A' / B) ≤ (C : ℚ) / D ∧ (C : ℚ) / D ≤ max ((A : ℚ) / B) (A' / B) := by
    rw [eq']
    generalize (A : ℚ) / B = a at *
    generalize (C : ℚ) / D = c at *
    generalize (fixMag M : ℚ) = m at *
    rcases le_total a m with ha | ha
    · rw [abs_of_nonpos (by linarith : a - m ≤ 0), abs_le] at h
      rw [min_eq_left (by linarith), max_eq_right (by linarith)]
      constructor <;> linarith [h.1, h.2]
    · rw [abs_of_nonneg (by linarith : 0 ≤ a - m), abs_le] at h
      rw [min_eq_right (by linarith), max_eq_left (by linarith)]
      constructor <;> linarith [h.1, h.2]
  apply le_antisymm
  · rcases le_total ((A : ℚ) / B) (A' / B) with h | h
    · rw [max_eq_right h] at key; exact (roundMag_mono_q hD hB key.2).trans hM'.le
    · rw [max_eq_left h] at key; exact (roundMag_mono_q hD hB key.2).trans hM.le
  · rcases le_total ((A : ℚ) / B) (A' / B) with h | h
    · rw [min_eq_left h] at key; exact hM.ge.trans (roundMag_mono_q hB hD key.1)
    · rw [min_eq_right h] at key; exact hM'.ge.trans (roundMag_mono_q hB hD key.1)

/-- Half-even division gives a nearest integer. -/
theorem divHE_half (A : Nat) {B : Nat} (hB : 0 < B) : |(A : ℚ) / B - divHE A B| ≤ 1 / 2 := by
  obtain ⟨h1, h2, -, -⟩ := divHE_spec A hB
  have hBq : (0 : ℚ) < B := by exact_mod_cast hB
  have h1 : 2 * ((divHE A B : ℚ) * B) ≤ 2 * A + B := by exact_mod_cast h1
  have h2 : 2 * (A : ℚ) ≤ 2 * ((divHE A B : ℚ) * B) + B := by exact_mod_cast h2
  have e : (A : ℚ) / B * B = A := div_mul_cancel₀ _ hBq.ne'
  generalize (A : ℚ) / B = a at *
  rw [abs_le]
  constructor <;> nlinarith

/-- An integer within one half is a nearest one. -/
theorem nearest_int {a : ℚ} {n : ℤ} (h : |a - n| ≤ 1 / 2) (i : ℤ) : |a - n| ≤ |a - i| := by
  by_cases e : i = n
  · rw [e]
  · have h1 : (1 : ℚ) ≤ |(n : ℚ) - i| := by
      rw [← Int.cast_sub, ← Int.cast_abs]
      exact_mod_cast Int.one_le_abs (sub_ne_zero.mpr (Ne.symm e))
    have h2 : |(n : ℚ) - i| ≤ |a - i| + |a - n| := by
      have := abs_sub_le (n : ℚ) a i
      rw [abs_sub_comm (n : ℚ) a] at this; linarith
    linarith

end Spoc.F64

namespace Spoc.Text

open F64

theorem showNat_bounds {n : Nat} (h : 0 < n) : 10 ^ ((showNat n).length - 1) ≤ n ∧ n < 10 ^ (showNat n).length := by
  have hpos : 0 < (showNat n).length := Nat.length_toDigits_pos
  constructor
  · by_cases h1 : (showNat n).length = 1
    · rw [h1]; simp; omega
    · have := (Nat.length_toDigits_le_iff (b := 10) (n := n) (k := (showNat n).length - 1) (by norm_num) (by omega)).not
      have h2 : ¬ (showNat n).length ≤ (showNat n).length - 1 := by omega
      exact Nat.le_of_not_lt (this.mp h2)
  · exact (Nat.length_toDigits_le_iff (by norm_num) hpos).mp (le_refl _)

theorem decExp_spec {A B : Nat} (hA : 0 < A) (hB : 0 < B) :
    (10 : ℚ) ^ decExp A B ≤ A / B ∧ (A : ℚ) / B < 10 ^ (decExp A B + 1) := by
  have hBq : (0 : ℚ) < B := by exact_mod_cast hB
  have hAq : (0 : ℚ) < A := by exact_mod_cast hA
  unfold decExp
  by_cases h : B ≤ A
  · rw [if_pos h]
    have hq : 0 < A / B := Nat.div_pos h hB
    obtain ⟨h1, h2⟩ := showNat_bounds hq
    have hpos : 0 < (showNat (A / B)).length := Nat.length_toDigits_pos
    generalize (showNat (A / B)).length = l at *
    constructor
    · rw [show ((l : ℤ) - 1) = ((l - 1 : ℕ) : ℤ) by omega, zpow_natCast, le_div_iff₀ hBq]
      have := (Nat.le_div_iff_mul_le hB).mp h1
      exact_mod_cast this
    · rw [show ((l : ℤ) - 1 + 1) = ((l : ℕ) : ℤ) by omega, zpow_natCast, div_lt_iff₀ hBq]
      have := (Nat.div_lt_iff_lt_mul hB).mp h2
      exact_mod_cast this
  · rw [if_neg h]
    have h : A < B := Nat.not_le.mp h
    have hq : 0 < (B - 1) / A := Nat.div_pos (by omega) hA
    obtain ⟨h1, h2⟩ := showNat_bounds hq
    have hpos : 0 < (showNat ((B - 1) / A)).length := Nat.length_toDigits_pos
    generalize (showNat ((B - 1) / A)).length = l at *
    constructor
    · rw [zpow_neg, zpow_natCast, le_div_iff₀ hBq, inv_mul_le_iff₀ (by positivity)]
      have := (Nat.div_lt_iff_lt_mul hA).mp h2
      have : B ≤ 10 ^ l * A := by omega
      exact_mod_cast this
    · rw [show (-(l : ℤ) + 1) = -((l - 1 : ℕ) : ℤ) by omega, zpow_neg, zpow_natCast, div_lt_iff₀ hBq, lt_inv_mul_iff₀ (by positivity)]
      have := (Nat.le_div_iff_mul_le hA).mp h1
      have : 10 ^ (l - 1) * A < B := by omega
      exact_mod_cast this

/-- The exact power of ten as a quotient of naturals. -/
theorem zpow_split (k : ℤ) : (10 : ℚ) ^ k = ((10 ^ k.toNat : ℕ) : ℚ) / ((10 ^ (-k).toNat : ℕ) : ℚ) := by
  rcases le_total 0 k with h | h
  · obtain ⟨n, rfl⟩ := Int.eq_ofNat_of_zero_le h
    have : (-(n : ℤ)).toNat = 0 := by omega
    simp [this]
  · obtain ⟨n, hn⟩ := Int.eq_ofNat_of_zero_le (show 0 ≤ -k by omega)
    obtain rfl : k = -(n : ℤ) := by omega
    have : (-(n : ℤ)).toNat = 0 := by omega
    simp [this]

/-- The value that `decRound` describes. -/
def decValue (P : Nat) (r : Nat × ℤ) : ℚ := r.1 * (10 : ℚ) ^ (r.2 - (P - 1 : Nat))

/-- `decRound` gives `P` digits, and no decimal number with `P` digits is nearer. -/
theorem decRound_spec {P A B : Nat} (hP : 0 < P) (hA : 0 < A) (hB : 0 < B) :
    10 ^ (P - 1) ≤ (decRound P A B).1 ∧ (decRound P A B).1 < 10 ^ P
    ∧ ∀ (m : Nat) (j : ℤ), m < 10 ^ P →
      |(A : ℚ) / B - decValue P (decRound P A B)| ≤ |(A : ℚ) / B - m * (10 : ℚ) ^ j| := by
  obtain ⟨h1, h2⟩ := decExp_spec hA hB
  have hBq : (0 : ℚ) < B := by exact_mod_cast hB
  generalize hX : decExp A B = X at *
  generalize hk : X - ((P - 1 : Nat) : ℤ) = k
  have hkX : X = k + ((P - 1 : Nat) : ℤ) := by omega
  generalize hN : divHE (A * 10 ^ (-k).toNat) (B * 10 ^ k.toNat) = N
  have t0 : (0 : ℚ) < 10 ^ k := by positivity
  have hD : 0 < B * 10 ^ k.toNat := Nat.mul_pos hB (by positivity)
  have hhalf : |(A : ℚ) / B / 10 ^ k - N| ≤ 1 / 2 := by
    have := divHE_half (A * 10 ^ (-k).toNat) hD
    rw [hN] at this
    have e : (((A * 10 ^ (-k).toNat : ℕ)) : ℚ) / ((B * 10 ^ k.toNat : ℕ) : ℚ) = (A : ℚ) / B / 10 ^ k := by
      rw [zpow_split]; push_cast; field_simp
    rwa [e] at this
  generalize hq : (A : ℚ) / B = q at *
  have eX : (10 : ℚ) ^ X = 10 ^ (P - 1) * 10 ^ k := by
    rw [hkX, zpow_add₀ (by norm_num), zpow_natCast, mul_comm]
  have eX1 : (10 : ℚ) ^ (X + 1) = 10 ^ P * 10 ^ k := by
    rw [zpow_add₀ (by norm_num), eX, zpow_one]
    obtain ⟨p, rfl⟩ : ∃ p, P = p + 1 := ⟨P - 1, by omega⟩
    simp only [Nat.add_sub_cancel, pow_succ]; ring
  have b1 : (10 : ℚ) ^ (P - 1) ≤ q / 10 ^ k := by rw [le_div_iff₀ t0, ← eX]; exact h1
  have b2 : q / 10 ^ k < (10 : ℚ) ^ P := by rw [div_lt_iff₀ t0, ← eX1]; exact h2
  have n1 : 10 ^ (P - 1) ≤ N := by
    have h := abs_le.mp hhalf
    have : ((10 ^ (P - 1) : ℕ) : ℚ) < (N + 1 : ℕ) := by push_cast; linarith [h.2]
    have := Nat.cast_lt.mp this
    omega
  have n2 : N ≤ 10 ^ P := by
    have h := abs_le.mp hhalf
    have : ((N : ℕ) : ℚ) < (10 ^ P + 1 : ℕ) := by push_cast; linarith [h.1]
    have := Nat.cast_lt.mp this
    omega
  have val : decValue P (decRound P A B) = N * 10 ^ k ∧ 10 ^ (P - 1) ≤ (decRound P A B).1 ∧ (decRound P A B).1 < 10 ^ P := by
    unfold decRound
    simp only [hX, hk, hN]
    by_cases e : N = 10 ^ P
    · rw [if_pos e]
      refine ⟨?_, le_refl _, Nat.pow_lt_pow_right (by norm_num) (by omega)⟩
      simp only [decValue]
      rw [show X + 1 - ((P - 1 : Nat) : ℤ) = k + 1 by omega, e, zpow_add₀ (by norm_num), zpow_one]
      obtain ⟨p, rfl⟩ : ∃ p, P = p + 1 := ⟨P - 1, by omega⟩
      push_cast
      simp only [pow_succ]; ring
    · rw [if_neg e]
      refine ⟨?_, n1, by simp only; omega⟩
      simp only [decValue, hk]
  refine ⟨val.2.1, val.2.2, ?_⟩
  rw [val.1]
  -- the nearest multiple of `10 ^ k`
  have near : ∀ i : ℤ, |q - N * 10 ^ k| ≤ |q - i * 10 ^ k| := by
    intro i
    have h := nearest_int (n := (N : ℤ)) (by exact_mod_cast hhalf) i
    have e : ∀ t : ℚ, |q - t * 10 ^ k| = |q / 10 ^ k - t| * 10 ^ k := by
      intro t
      have : q - t * 10 ^ k = (q / 10 ^ k - t) * 10 ^ k := by rw [sub_mul, div_mul_cancel₀ _ t0.ne']
      rw [this, abs_mul, abs_of_pos t0]
    rw [e, e]
    exact mul_le_mul_of_nonneg_right (by exact_mod_cast h) t0.le
  intro m j hm
  rcases le_or_gt k j with hkj | hkj
  · obtain ⟨d, hd⟩ := Int.eq_ofNat_of_zero_le (show 0 ≤ j - k by omega)
    have : j = k + (d : ℤ) := by omega
    have := near ((m : ℤ) * 10 ^ d)
    rw [‹j = k + (d : ℤ)›, zpow_add₀ (by norm_num), zpow_natCast]
    push_cast at this
    rw [show (m : ℚ) * (10 ^ k * 10 ^ d) = m * 10 ^ d * 10 ^ k by ring]
    exact this
  · have h3 : (m : ℚ) * 10 ^ j ≤ 10 ^ X := by
      have hm' : (m : ℚ) ≤ 10 ^ P := by exact_mod_cast hm.le
      have hj : (10 : ℚ) ^ j ≤ 10 ^ (k - 1) := zpow_le_zpow_right₀ (by norm_num) (by omega)
      calc (m : ℚ) * 10 ^ j ≤ 10 ^ P * 10 ^ (k - 1) := by gcongr
        _ = 10 ^ X := by
          rw [← zpow_natCast, ← zpow_add₀ (by norm_num)]; congr 1; omega
    have h4 := near ((10 : ℤ) ^ (P - 1))
    push_cast at h4
    rw [← eX] at h4
    calc |q - N * 10 ^ k| ≤ |q - 10 ^ X| := h4
      _ = q - 10 ^ X := abs_of_nonneg (by linarith)
      _ ≤ q - m * 10 ^ j := by linarith
      _ ≤ |q - m * 10 ^ j| := le_abs_self _

end Spoc.Text
