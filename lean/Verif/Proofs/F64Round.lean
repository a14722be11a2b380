import Verif.Base.F64
import Mathlib.Tactic.Ring
import Mathlib.Tactic.Linarith
import Mathlib.Tactic.Positivity
import Mathlib.Algebra.Order.Ring.Nat
import Mathlib.Data.Nat.Log
import Mathlib.Algebra.Order.Group.Nat

/-!
# Correctness of rounding on magnitudes

`roundMag` is monotone, exact on representable values, and returns the nearest double with ties to even.
-/

namespace Spoc.F64

theorem divHE_spec (a : Nat) {b : Nat} (hb : 0 < b) :
    2 * (divHE a b * b) ≤ 2 * a + b ∧ 2 * a ≤ 2 * (divHE a b * b) + b ∧
    (2 * (divHE a b * b) = 2 * a + b → divHE a b % 2 = 0) ∧
    (2 * a = 2 * (divHE a b * b) + b → divHE a b % 2 = 0) := by
  have h := Nat.div_add_mod a b
  have hr := Nat.mod_lt a hb
  have e1 : (a / b + 1) * b = b * (a / b) + b := by ring
  have e0 : a / b * b = b * (a / b) := by ring
  simp only [divHE]
  split_ifs with h1 h2 h3
  · rw [e0]; omega
  · rw [e1]; omega
  · rw [e0]; omega
  · rw [e1]; omega

theorem divHE_mono {a1 b1 a2 b2 : Nat} (h1 : 0 < b1) (h2 : 0 < b2) (h : a1 * b2 ≤ a2 * b1) :
    divHE a1 b1 ≤ divHE a2 b2 := by
  by_contra hc
  push Not at hc
  obtain ⟨p1, _, p3, _⟩ := divHE_spec a1 h1
  obtain ⟨_, q2, _, q4⟩ := divHE_spec a2 h2
  generalize divHE a1 b1 = n1 at *
  generalize divHE a2 b2 = n2 at *
  -- `(2 n1 - 1) b1 ≤ 2 a1` and `2 a2 ≤ (2 n2 + 1) b2`
  have r1 : 2 * (n1 * b1) * b2 ≤ (2 * a1 + b1) * b2 := Nat.mul_le_mul_right _ p1
  have r2 : 2 * a2 * b1 ≤ (2 * (n2 * b2) + b2) * b1 := Nat.mul_le_mul_right _ q2
  have hbb : 0 < b1 * b2 := Nat.mul_pos h1 h2
  have e : (n2 + 1) * (b1 * b2) ≤ n1 * (b1 * b2) := Nat.mul_le_mul_right _ hc
  have t1 : 2 * (n1 * (b1 * b2)) ≤ 2 * (a1 * b2) + b1 * b2 := by nlinarith
  have t2 : 2 * (a2 * b1) ≤ 2 * (n2 * (b1 * b2)) + b1 * b2 := by nlinarith
  have e' : n2 * (b1 * b2) + b1 * b2 ≤ n1 * (b1 * b2) := by nlinarith
  have eqn : n1 * (b1 * b2) = (n2 + 1) * (b1 * b2) := by nlinarith
  have en : n1 = n2 + 1 := Nat.eq_of_mul_eq_mul_right hbb eqn
  have tie1 : 2 * (n1 * b1) = 2 * a1 + b1 := by
    apply Nat.eq_of_mul_eq_mul_right h2
    nlinarith
  have tie2 : 2 * a2 = 2 * (n2 * b2) + b2 := by
    apply Nat.eq_of_mul_eq_mul_right h1
    nlinarith
  have := p3 tie1
  have := q4 tie2
  omega

theorem divHE_mul (n : Nat) {b : Nat} (hb : 0 < b) : divHE (n * b) b = n := by
  simp [divHE, Nat.mul_mod_left, Nat.mul_div_cancel _ hb, hb]

theorem dropBits_spec {q : Nat} (h : 2 ^ 53 ≤ q) :
    1 ≤ dropBits q ∧ 2 ^ (52 + dropBits q) ≤ q ∧ q < 2 ^ (53 + dropBits q) := by
  have hq0 : q ≠ 0 := by intro h0; rw [h0] at h; norm_num at h
  have hl : 53 ≤ q.log2 := (Nat.le_log2 hq0).mpr h
  have hd : dropBits q = q.log2 - 52 := by
    unfold dropBits; rw [if_neg (Nat.not_lt.mpr h)]
  rw [hd]
  have e1 : 52 + (q.log2 - 52) = q.log2 := by omega
  have e2 : 53 + (q.log2 - 52) = q.log2 + 1 := by omega
  rw [e1, e2]
  refine ⟨by omega, Nat.log2_self_le hq0, ?_⟩
  exact (Nat.log2_lt hq0).mp (Nat.lt_succ_self _)

theorem dropBits_small {q : Nat} (h : q < 2 ^ 53) : dropBits q = 0 := by
  unfold dropBits; rw [if_pos h]

theorem dropBits_lt (q : Nat) : q < 2 ^ (53 + dropBits q) := by
  by_cases h : q < 2 ^ 53
  · rw [dropBits_small h]; exact h
  · exact (dropBits_spec (Nat.not_lt.mp h)).2.2

theorem dropBits_mono {q1 q2 : Nat} (h : q1 ≤ q2) : dropBits q1 ≤ dropBits q2 := by
  by_cases h1 : q1 < 2 ^ 53
  · rw [dropBits_small h1]; exact Nat.zero_le _
  · have a := dropBits_spec (Nat.not_lt.mp h1)
    have b := dropBits_lt q2
    have : 2 ^ (52 + dropBits q1) < 2 ^ (53 + dropBits q2) := lt_of_le_of_lt (a.2.1.trans h) b
    have := (Nat.pow_lt_pow_iff_right (by norm_num : 1 < 2)).mp this
    omega

/-- `roundMag` before clamping to infinity. -/
def roundRaw (A B : Nat) : Nat :=
  dropBits (A / B) * 2 ^ 52 + divHE A (B * 2 ^ dropBits (A / B))

theorem roundMag_eq (A B : Nat) : roundMag A B = min (roundRaw A B) infMag := rfl

/-- The 53-bit significand produced by rounding. -/
theorem signif_bounds (A : Nat) {B : Nat} (hB : 0 < B) :
    divHE A (B * 2 ^ dropBits (A / B)) ≤ 2 ^ 53 ∧
    (dropBits (A / B) = 0 ∨ 2 ^ 52 ≤ divHE A (B * 2 ^ dropBits (A / B))) := by
  set k := dropBits (A / B) with hk
  have hpos : 0 < B * 2 ^ k := Nat.mul_pos hB (by positivity)
  constructor
  · have h1 : A / B < 2 ^ (53 + k) := dropBits_lt _
    have h2 : A < B * 2 ^ (53 + k) := by
      rw [Nat.mul_comm]; exact (Nat.div_lt_iff_lt_mul hB).mp h1
    calc divHE A (B * 2 ^ k) ≤ divHE (2 ^ 53 * (B * 2 ^ k)) (B * 2 ^ k) := by
          apply divHE_mono hpos hpos
          apply Nat.mul_le_mul_right
          calc A ≤ B * 2 ^ (53 + k) := h2.le
            _ = 2 ^ 53 * (B * 2 ^ k) := by rw [pow_add]; ring
      _ = 2 ^ 53 := divHE_mul _ hpos
  · by_cases hq : A / B < 2 ^ 53
    · left; rw [hk]; exact dropBits_small hq
    · right
      have h1 := (dropBits_spec (Nat.not_lt.mp hq)).2.1
      rw [← hk] at h1
      have h2 : B * 2 ^ (52 + k) ≤ A := by
        have := (Nat.le_div_iff_mul_le hB).mp h1
        rw [Nat.mul_comm]; exact this
      calc 2 ^ 52 = divHE (2 ^ 52 * (B * 2 ^ k)) (B * 2 ^ k) := (divHE_mul _ hpos).symm
        _ ≤ divHE A (B * 2 ^ k) := by
          apply divHE_mono hpos hpos
          apply Nat.mul_le_mul_right
          calc 2 ^ 52 * (B * 2 ^ k) = B * 2 ^ (52 + k) := by rw [pow_add]; ring
            _ ≤ A := h2

theorem roundRaw_mono {A1 B1 A2 B2 : Nat} (h1 : 0 < B1) (h2 : 0 < B2)
    (h : A1 * B2 ≤ A2 * B1) : roundRaw A1 B1 ≤ roundRaw A2 B2 := by
  have hq : A1 / B1 ≤ A2 / B2 := by
    rw [Nat.le_div_iff_mul_le h2]
    have := Nat.div_mul_le_self A1 B1
    have e : A1 / B1 * B2 * B1 ≤ A2 * B1 := by
      calc A1 / B1 * B2 * B1 = A1 / B1 * B1 * B2 := by ring
        _ ≤ A1 * B2 := Nat.mul_le_mul_right _ this
        _ ≤ _ := h
    exact Nat.le_of_mul_le_mul_right e h1
  have hk := dropBits_mono hq
  unfold roundRaw
  rcases Nat.lt_or_eq_of_le hk with hlt | heq
  · have b1 := (signif_bounds A1 h1).1
    have b2 := (signif_bounds A2 h2).2
    have b3 : 2 ^ 52 ≤ divHE A2 (B2 * 2 ^ dropBits (A2 / B2)) := by
      rcases b2 with b2 | b2
      · omega
      · exact b2
    have : (dropBits (A1 / B1) + 1) * 2 ^ 52 ≤ dropBits (A2 / B2) * 2 ^ 52 :=
      Nat.mul_le_mul_right _ hlt
    omega
  · rw [heq]
    apply Nat.add_le_add_left
    apply divHE_mono
    · exact Nat.mul_pos h1 (by positivity)
    · exact Nat.mul_pos h2 (by positivity)
    · calc A1 * (B2 * 2 ^ dropBits (A2 / B2)) = A1 * B2 * 2 ^ dropBits (A2 / B2) := by ring
        _ ≤ A2 * B1 * 2 ^ dropBits (A2 / B2) := Nat.mul_le_mul_right _ h
        _ = _ := by ring

theorem roundMag_mono {A1 B1 A2 B2 : Nat} (h1 : 0 < B1) (h2 : 0 < B2)
    (h : A1 * B2 ≤ A2 * B1) : roundMag A1 B1 ≤ roundMag A2 B2 := by
  rw [roundMag_eq, roundMag_eq]
  exact min_le_min_right _ (roundRaw_mono h1 h2 h)

theorem roundMag_le (A B : Nat) : roundMag A B ≤ infMag := by
  rw [roundMag_eq]; exact min_le_right _ _

/-! ## Magnitude patterns and their values -/

theorem fixMag_enc {k n : Nat} (hn : n ≤ 2 ^ 53) (hk : k = 0 ∨ 2 ^ 52 ≤ n) :
    fixMag (k * 2 ^ 52 + n) = n * 2 ^ k := by
  unfold fixMag
  by_cases h0 : k * 2 ^ 52 + n < 2 ^ 52
  · rw [if_pos h0]
    have : k = 0 := by
      rcases hk with h | h
      · exact h
      · omega
    subst this; simp
  · rw [if_neg h0]
    by_cases hlt : n < 2 ^ 53
    · have hn52 : 2 ^ 52 ≤ n := by
        rcases hk with h | h
        · subst h; omega
        · exact h
      have e1 : (k * 2 ^ 52 + n) / 2 ^ 52 = k + 1 := by omega
      have e2 : (k * 2 ^ 52 + n) % 2 ^ 52 = n - 2 ^ 52 := by omega
      rw [e1, e2, Nat.add_sub_cancel, Nat.add_sub_cancel' hn52]
    · have hn' : n = 2 ^ 53 := by omega
      have e1 : (k * 2 ^ 52 + n) / 2 ^ 52 = k + 2 := by omega
      have e2 : (k * 2 ^ 52 + n) % 2 ^ 52 = 0 := by omega
      rw [e1, e2, hn', Nat.add_zero, show k + 2 - 1 = k + 1 from rfl, pow_succ 2 k]
      ring

/-- Every pattern is `k * 2^52 + n` with a significand `n` below 2^53. -/
theorem mag_dec (m : Nat) : ∃ k n, m = k * 2 ^ 52 + n ∧ n < 2 ^ 53 ∧ (k = 0 ∨ 2 ^ 52 ≤ n) := by
  by_cases h : m < 2 ^ 52
  · exact ⟨0, m, by omega, by omega, Or.inl rfl⟩
  · refine ⟨m / 2 ^ 52 - 1, m % 2 ^ 52 + 2 ^ 52, ?_, ?_, Or.inr ?_⟩ <;> omega

theorem fixMag_succ_lt (m : Nat) : fixMag m < fixMag (m + 1) := by
  obtain ⟨k, n, rfl, hn, hk⟩ := mag_dec m
  rw [fixMag_enc hn.le hk, Nat.add_assoc, fixMag_enc (k := k) (n := n + 1) hn (hk.imp id (by omega))]
  exact Nat.mul_lt_mul_of_pos_right (Nat.lt_succ_self n) (by positivity)

theorem fixMag_strictMono : StrictMono fixMag := strictMono_nat_of_lt_succ fixMag_succ_lt

@[simp] theorem fixMag_zero : fixMag 0 = 0 := rfl

theorem fixMag_lt_iff {a b : Nat} : fixMag a < fixMag b ↔ a < b := fixMag_strictMono.lt_iff_lt
theorem fixMag_le_iff {a b : Nat} : fixMag a ≤ fixMag b ↔ a ≤ b := fixMag_strictMono.le_iff_le
theorem fixMag_inj {a b : Nat} : fixMag a = fixMag b ↔ a = b := fixMag_strictMono.injective.eq_iff
theorem fixMag_eq_zero {a : Nat} : fixMag a = 0 ↔ a = 0 := by
  rw [← fixMag_zero, fixMag_inj]; simp

theorem fixMag_roundRaw (A : Nat) {B : Nat} (hB : 0 < B) :
    fixMag (roundRaw A B) =
      divHE A (B * 2 ^ dropBits (A / B)) * 2 ^ dropBits (A / B) := by
  obtain ⟨h1, h2⟩ := signif_bounds A hB
  exact fixMag_enc h1 h2

theorem roundRaw_exact (m : Nat) {B : Nat} (hB : 0 < B) : roundRaw (fixMag m * B) B = m := by
  obtain ⟨k, n, rfl, hn, hk⟩ := mag_dec m
  rw [fixMag_enc hn.le hk]
  have hd : dropBits (n * 2 ^ k * B / B) = k := by
    rw [Nat.mul_div_cancel _ hB]
    rcases hk with rfl | hk
    · rw [pow_zero, Nat.mul_one]; exact dropBits_small hn
    · rcases Nat.eq_zero_or_pos k with rfl | hkp
      · rw [pow_zero, Nat.mul_one]; exact dropBits_small hn
      · have h53 : 2 ^ 53 ≤ n * 2 ^ k := by
          calc 2 ^ 53 = 2 ^ 52 * 2 ^ 1 := by norm_num
            _ ≤ n * 2 ^ k := Nat.mul_le_mul hk (Nat.pow_le_pow_right (by norm_num) hkp)
        obtain ⟨_, b, c⟩ := dropBits_spec h53
        have hlo : 2 ^ (52 + k) ≤ n * 2 ^ k := by rw [pow_add]; exact Nat.mul_le_mul_right _ hk
        have hhi : n * 2 ^ k < 2 ^ (53 + k) := by
          rw [pow_add]; exact Nat.mul_lt_mul_of_pos_right hn (by positivity)
        have i1 := (Nat.pow_lt_pow_iff_right (by norm_num : 1 < 2)).mp (lt_of_le_of_lt hlo c)
        have i2 := (Nat.pow_lt_pow_iff_right (by norm_num : 1 < 2)).mp (lt_of_le_of_lt b hhi)
        omega
  unfold roundRaw
  rw [hd, show n * 2 ^ k * B = n * (B * 2 ^ k) by ring, divHE_mul _ (Nat.mul_pos hB (by positivity))]

theorem roundMag_exact {m B : Nat} (hB : 0 < B) (hm : m ≤ infMag) :
    roundMag (fixMag m * B) B = m := by
  rw [roundMag_eq, roundRaw_exact m hB]; exact min_eq_left hm

theorem roundMag_zero {B : Nat} (hB : 0 < B) : roundMag 0 B = 0 := by
  have := roundMag_exact (m := 0) hB (Nat.zero_le _)
  simpa using this

/-- A representable value below the exact value stays below the rounded value. -/
theorem le_roundMag {m A B : Nat} (hB : 0 < B) (hm : m ≤ infMag) (h : fixMag m * B ≤ A) :
    m ≤ roundMag A B := by
  rw [← roundMag_exact hB hm]
  exact roundMag_mono hB hB (Nat.mul_le_mul_right _ h)

/-- A representable value above the exact value stays above the rounded value. -/
theorem roundMag_le_of {m A B : Nat} (hB : 0 < B) (hm : m ≤ infMag) (h : A ≤ fixMag m * B) :
    roundMag A B ≤ m := by
  rw [← roundMag_exact hB hm]
  exact roundMag_mono hB hB (Nat.mul_le_mul_right _ h)

/-- Distance of two naturals. -/
def dist (a b : Nat) : Nat := (a - b) + (b - a)

/-- Rounding returns a nearest representable value. -/
theorem roundRaw_nearest (A : Nat) {B : Nat} (hB : 0 < B) (m : Nat) :
    dist (fixMag (roundRaw A B) * B) A ≤ dist (fixMag m * B) A ∧
    (dist (fixMag (roundRaw A B) * B) A = dist (fixMag m * B) A → m ≠ roundRaw A B →
      roundRaw A B % 2 = 0) := by
  set k := dropBits (A / B) with hk
  set n := divHE A (B * 2 ^ k) with hn
  have hpos : 0 < B * 2 ^ k := Nat.mul_pos hB (by positivity)
  obtain ⟨p1, p2, p3, p4⟩ := divHE_spec A hpos
  rw [← hn] at p1 p2 p3 p4
  obtain ⟨b1, b2⟩ := signif_bounds A hB
  rw [← hk, ← hn] at b1 b2
  have hraw : roundRaw A B = k * 2 ^ 52 + n := rfl
  have hval : fixMag (roundRaw A B) = n * 2 ^ k := fixMag_roundRaw A hB
  have hpar : roundRaw A B % 2 = n % 2 := by rw [hraw]; omega
  have hvB : fixMag (roundRaw A B) * B = n * (B * 2 ^ k) := by rw [hval]; ring
  rw [hpar, hvB]
  generalize hU : B * 2 ^ k = U at *
  rcases lt_trichotomy m (roundRaw A B) with hlt | heq | hgt
  · -- candidate below
    by_cases hcase : k = 0 ∨ 2 ^ 52 < n
    · have hn1 : 1 ≤ n := by
        rcases hcase with h | h
        · rw [hraw, h] at hlt; omega
        · have : 0 < 2 ^ 52 := by norm_num
          omega
      have hpred : fixMag (roundRaw A B - 1) = (n - 1) * 2 ^ k := by
        have : roundRaw A B - 1 = k * 2 ^ 52 + (n - 1) := by rw [hraw]; omega
        rw [this]
        apply fixMag_enc (by omega)
        rcases hcase with h | h
        · exact Or.inl h
        · exact Or.inr (by omega)
      have hmle : fixMag m * B ≤ (n - 1) * U := by
        have : fixMag m ≤ fixMag (roundRaw A B - 1) := fixMag_le_iff.mpr (by omega)
        calc fixMag m * B ≤ (n - 1) * 2 ^ k * B := by
              rw [← hpred]; exact Nat.mul_le_mul_right _ this
          _ = (n - 1) * U := by rw [← hU]; ring
      have hnU : n * U = (n - 1) * U + U := by
        calc n * U = (n - 1 + 1) * U := by rw [Nat.sub_add_cancel hn1]
          _ = _ := by ring
      unfold dist
      generalize fixMag m * B = V at *
      generalize n * U = W at *
      generalize (n - 1) * U = W1 at *
      constructor
      · omega
      · intro he _
        have : 2 * W = 2 * A + U := by omega
        exact p3 this
    · -- significand 2^52 with larger exponent: the exact value is not below it
      push Not at hcase
      obtain ⟨hk0, hn52⟩ := hcase
      have hn' : n = 2 ^ 52 := by
        rcases b2 with h | h
        · exact absurd h hk0
        · omega
      refine ⟨?_, fun _ _ => by rw [hn']; norm_num⟩
      have hq : ¬ A / B < 2 ^ 53 := by
        intro h
        exact hk0 (by rw [hk]; exact dropBits_small h)
      have h1 := (dropBits_spec (Nat.not_lt.mp hq)).2.1
      rw [← hk] at h1
      have hA : n * U ≤ A := by
        have h2 : B * 2 ^ (52 + k) ≤ A := by
          have := (Nat.le_div_iff_mul_le hB).mp h1
          rw [Nat.mul_comm]; exact this
        calc n * U = B * 2 ^ (52 + k) := by rw [hn', ← hU, pow_add]; ring
          _ ≤ A := h2
      have hmle : fixMag m * B ≤ n * U := by
        rw [← hvB]; exact Nat.mul_le_mul_right _ (fixMag_le_iff.mpr hlt.le)
      unfold dist; omega
  · subst heq
    rw [hvB]
    exact ⟨le_rfl, fun _ h => absurd rfl h⟩
  · -- candidate above
    have hsucc : (n + 1) * 2 ^ k ≤ fixMag (roundRaw A B + 1) := by
      rcases Nat.lt_or_ge n (2 ^ 53) with h | h
      · have : roundRaw A B + 1 = k * 2 ^ 52 + (n + 1) := by rw [hraw]; omega
        rw [this, fixMag_enc (by omega) (b2.imp id (by omega))]
      · have hn' : n = 2 ^ 53 := by omega
        have : roundRaw A B + 1 = (k + 1) * 2 ^ 52 + (2 ^ 52 + 1) := by rw [hraw, hn']; ring
        rw [this, fixMag_enc (by norm_num) (Or.inr (by norm_num)), hn', pow_succ 2 k]
        nlinarith [Nat.pow_pos (n := k) (show 0 < 2 by norm_num)]
    have hmge : (n + 1) * U ≤ fixMag m * B := by
      calc (n + 1) * U = (n + 1) * 2 ^ k * B := by rw [← hU]; ring
        _ ≤ fixMag m * B := Nat.mul_le_mul_right _ (hsucc.trans (fixMag_le_iff.mpr hgt))
    have hnU : (n + 1) * U = n * U + U := by ring
    rw [hnU] at hmge
    unfold dist
    generalize fixMag m * B = V at *
    generalize n * U = W at *
    constructor
    · omega
    · intro he _
      have : 2 * A = 2 * W + U := by omega
      exact p4 this

end Spoc.F64
