import Verif.Model.Utils
import Verif.Proofs.F64Err

/-!
# Helper lemmas for quantisation
-/

namespace Spoc

namespace F64

/-- A number with at most 53 significant bits that does not overflow is not rounded. -/
theorem roundRaw_dyadic {m e : Nat} (hm : m < 2 ^ 53) : fixMag (roundRaw (m * 2 ^ e) 1) = m * 2 ^ e := by
  rw [fixMag_roundRaw _ (by norm_num : 0 < 1)]
  simp only [Nat.div_one, Nat.one_mul]
  set A := m * 2 ^ e with hA
  have hk : dropBits A ≤ e := by
    by_cases h : A < 2 ^ 53
    · rw [dropBits_small h]; exact Nat.zero_le _
    · obtain ⟨_, h2, _⟩ := dropBits_spec (Nat.not_lt.mp h)
      by_contra hc
      have h3 : 2 ^ (53 + e) ≤ 2 ^ (52 + dropBits A) := Nat.pow_le_pow_right (by norm_num) (by omega)
      have h4 : A < 2 ^ (53 + e) := by
        rw [hA, pow_add]; exact Nat.mul_lt_mul_of_pos_right hm (by positivity)
      omega
  obtain ⟨d, hd⟩ := Nat.exists_eq_add_of_le hk
  have hA2 : A = m * 2 ^ d * 2 ^ dropBits A := by
    rw [Nat.mul_assoc, ← pow_add, Nat.add_comm d, ← hd]
  have e1 : divHE A (2 ^ dropBits A) = m * 2 ^ d := by
    have h5 := divHE_mul (m * 2 ^ d) (b := 2 ^ dropBits A) (by positivity)
    rwa [← hA2] at h5
  rw [e1, ← hA2]

theorem rfv_dyadic {m : Int} {e : Nat} {y : F64} (hy : y.isFinite = true) (hm : m.natAbs < 2 ^ 53)
    (ho : m.natAbs * 2 ^ e ≤ y.fv.natAbs) : rfv (m * 2 ^ e) 1 = m * 2 ^ e := by
  have hn : (m * 2 ^ e : Int).natAbs = m.natAbs * 2 ^ e := by
    rw [Int.natAbs_mul, Int.natAbs_pow]; rfl
  have h1 : roundMag (m.natAbs * 2 ^ e) 1 ≤ y.mag := by
    apply roundMag_le_of (by norm_num) (isFinite_iff.mp hy).le
    rw [Nat.mul_one, ← fv_natAbs]; exact ho
  have h2 : roundMag (m.natAbs * 2 ^ e) 1 < infMag := lt_of_le_of_lt h1 (isFinite_iff.mp hy)
  have h3 : fixMag (roundMag (m.natAbs * 2 ^ e) 1) = m.natAbs * 2 ^ e := by
    rw [roundMag_eq_raw h2, roundRaw_dyadic hm]
  unfold rfv
  rw [hn, h3]
  have hp : (0 : Int) < 2 ^ e := by positivity
  split
  · rename_i h
    have : m < 0 := by
      by_contra hc
      have := mul_nonneg (Int.not_lt.mp hc) hp.le
      omega
    push_cast
    rw [abs_of_neg this]; ring
  · rename_i h
    have : 0 ≤ m := by
      by_contra hc
      have := mul_neg_of_neg_of_pos (Int.not_le.mp hc) hp
      omega
    push_cast
    rw [abs_of_nonneg this]

theorem cast_two_pow (e : Nat) : ((2 ^ e : Nat) : Int) = 2 ^ e := by push_cast; rfl

theorem two_pow_le {a b : Nat} (h : a ≤ b) : 2 ^ a ≤ 2 ^ b := Nat.pow_le_pow_right (by norm_num) h

theorem le_one1074 (a : Nat) (h : a ≤ 1074) : 2 ^ a ≤ one1074 := two_pow_le h

theorem one1074_eq : (one1074 : Int) = 2 ^ 1074 := cast_two_pow 1074

theorem natAbs_two_pow (e : Nat) : (2 ^ e : Int).natAbs = 2 ^ e := by rw [Int.natAbs_pow]; rfl

/-- Small integers are represented exactly. -/
theorem ofInt_fv {n : Int} (hn : n.natAbs < 2 ^ 53) : (ofInt n).fv = n * one1074 := by
  unfold ofInt
  rw [rnd_fv _ _ (by norm_num), one1074_eq]
  apply rfv_dyadic two64_finite hn
  have h1 : two64.fv.natAbs = 2 ^ 64 * 2 ^ 1074 := by
    rw [two64_fv, one1074_eq, Int.natAbs_mul, natAbs_two_pow, natAbs_two_pow]
  rw [h1]
  exact Nat.mul_le_mul_right _ (by omega)

theorem finite_of_fv_le {x y : F64} (hy : y.isFinite = true) (h : x.fv.natAbs ≤ y.fv.natAbs) :
    x.isFinite = true := by
  rw [fv_natAbs, fv_natAbs, fixMag_le_iff] at h
  rw [isFinite_iff] at *; omega

theorem ofInt_finite {n : Int} (hn : n.natAbs < 2 ^ 53) : (ofInt n).isFinite = true := by
  apply finite_of_fv_le two64_finite
  rw [ofInt_fv hn, two64_fv, Int.natAbs_mul, Int.natAbs_mul]
  apply Nat.mul_le_mul_right
  have : (2 ^ 64 : Int).natAbs = 2 ^ 64 := by rfl
  omega

theorem ofInt_val {n : Int} (hn : n.natAbs < 2 ^ 53) : (ofInt n).val = n := by
  unfold val
  rw [ofInt_fv hn]
  have hU := one1074_pos'
  push_cast
  field_simp

/-- An integer multiple, the integer given exactly. -/
theorem mul_ofInt_fv {n : Int} {p : F64} (hn : n.natAbs < 2 ^ 53) (hp : p.isFinite = true) :
    (mul (ofInt n) p).fv = rfv (n * p.fv) 1 := by
  rw [mul_fv (ofInt_finite hn) hp, ofInt_fv hn]
  have hpos := one1074_pos
  generalize one1074 = U at *
  have h1 : n * (U : Int) * p.fv * ((1 : Nat) : Int) = n * p.fv * (U : Int) := by push_cast; ring
  apply le_antisymm
  · exact rfv_mono hpos (by norm_num) h1.le
  · exact rfv_mono (by norm_num) hpos h1.ge

/-- Such a product has no underflow error. -/
theorem mul_ofInt_val {n : Int} {p : F64} (hn : n.natAbs < 2 ^ 53) (hp : p.isFinite = true)
    (hf : (mul (ofInt n) p).isFinite = true) :
    2 ^ 53 * |(mul (ofInt n) p).val - n * p.val| ≤ |n * p.val| := by
  have e := mul_ofInt_fv hn hp
  have h1 := roundMag_of_finite e hf
  have h2 := (rfv_err (n * p.fv) (B := 1) (by norm_num) h1).2 (Or.inr rfl)
  unfold val
  rw [e]
  set r := rfv (n * p.fv) 1
  rw [Nat.cast_one, mul_one] at h2
  have h3 : (2 : ℝ) ^ 53 * |(r : ℝ) - n * p.fv| ≤ |(n : ℝ) * p.fv| := by exact_mod_cast h2
  have hU := one1074_pos'
  generalize (one1074 : ℝ) = U at *
  have e1 : (r : ℝ) / U - n * ((p.fv : ℝ) / U) = (r - n * p.fv) / U := by ring
  have e2 : n * ((p.fv : ℝ) / U) = n * p.fv / U := by ring
  rw [e1, e2, abs_div, abs_div, abs_of_pos hU, ← mul_div_assoc]
  exact div_le_div_of_nonneg_right h3 hU.le

theorem val_lt_iff {x y : F64} : x.val < y.val ↔ x.fv < y.fv := by
  unfold val
  rw [div_lt_div_iff_of_pos_right one1074_pos']
  exact_mod_cast Iff.rfl

theorem val_le_iff {x y : F64} : x.val ≤ y.val ↔ x.fv ≤ y.fv := by
  unfold val
  rw [div_le_div_iff_of_pos_right one1074_pos']
  exact_mod_cast Iff.rfl

/-- `trunc` removes the fractional part. -/
theorem trunc_val_nonneg {x : F64} (h : 0 ≤ x.fv) : (x.trunc : ℝ) ≤ x.val ∧ x.val < x.trunc + 1 := by
  have hone : (0 : Int) < one1074 := by exact_mod_cast one1074_pos
  have hU := one1074_pos'
  unfold trunc val
  rw [Int.tdiv_eq_ediv_of_nonneg h, le_div_iff₀ hU, div_lt_iff₀ hU]
  constructor
  · exact_mod_cast Int.ediv_mul_le x.fv (by omega)
  · exact_mod_cast Int.lt_ediv_add_one_mul_self x.fv hone

theorem trunc_neg_eq {x y : F64} (h : x.fv = - y.fv) : x.trunc = - y.trunc := by
  unfold trunc; rw [h, Int.neg_tdiv]


theorem trunc_abs (x : F64) : |(x.trunc : ℝ)| ≤ |x.val| ∧ |x.val| < |(x.trunc : ℝ)| + 1
    ∧ (0 ≤ x.fv → 0 ≤ x.trunc) ∧ (x.fv ≤ 0 → x.trunc ≤ 0) := by
  by_cases h : 0 ≤ x.fv
  · have h1 := trunc_val_nonneg h
    have h2 := trunc_nonneg h
    have h3 : (0 : ℝ) ≤ (x.trunc : ℝ) := by exact_mod_cast h2
    have h4 : 0 ≤ x.val := h3.trans h1.1
    rw [abs_of_nonneg h3, abs_of_nonneg h4]
    refine ⟨h1.1, h1.2, fun _ => h2, fun h5 => ?_⟩
    have : x.fv = 0 := by omega
    unfold trunc; rw [this]; simp
  · have e := trunc_neg_eq (x := negate x) (y := x) (negate_fv x)
    have h0 : 0 ≤ (negate x).fv := by rw [negate_fv]; omega
    have h1 := trunc_val_nonneg h0
    have h2 := trunc_nonneg h0
    rw [e] at h1 h2
    rw [negate_val] at h1
    push_cast at h1
    have h3 : (x.trunc : ℝ) ≤ 0 := by
      have : x.trunc ≤ 0 := by omega
      exact_mod_cast this
    have h4 : x.val ≤ 0 := by linarith
    rw [abs_of_nonpos h3, abs_of_nonpos h4]
    exact ⟨h1.1, h1.2, fun h5 => absurd h5 h, fun _ => by omega⟩

theorem val_nonneg {x : F64} : 0 ≤ x.val ↔ 0 ≤ x.fv := by
  unfold val
  rw [le_div_iff₀ one1074_pos', zero_mul]
  exact_mod_cast Iff.rfl

theorem val_nonpos {x : F64} : x.val ≤ 0 ↔ x.fv ≤ 0 := by
  unfold val
  rw [div_le_iff₀ one1074_pos', zero_mul]
  exact_mod_cast Iff.rfl

theorem val_pos {x : F64} : 0 < x.val ↔ 0 < x.fv := by
  unfold val
  rw [lt_div_iff₀ one1074_pos', zero_mul]
  exact_mod_cast Iff.rfl

theorem rfv_nonpos {A : Int} {B : Nat} (hB : 0 < B) (hA : A ≤ 0) : rfv A B ≤ 0 := by
  have h1 := rfv_nonneg (A := -A) (B := B) (by omega)
  rw [rfv_neg _ hB] at h1; omega

end F64

namespace Utils

open F64

/-- The cast of quantisation. -/
theorem quantize1_eq (p x : F64) : quantize1 p x =
    if (div x p).isFinite = true ∧ -(2 ^ 31) ≤ (div x p).trunc ∧ (div x p).trunc < 2 ^ 31
    then .ok (mul (ofInt (div x p).trunc) p) else .ub "double out of range of int" := by
  unfold quantize1 toInt32
  by_cases h1 : (div x p).isFinite = true
  · by_cases h2 : -(2 ^ 31) ≤ (div x p).trunc ∧ (div x p).trunc < 2 ^ 31
    · rw [if_pos h1, if_pos h2, if_pos ⟨h1, h2⟩]; rfl
    · rw [if_pos h1, if_neg h2, if_neg (fun h => h2 h.2)]; rfl
  · rw [if_neg h1, if_neg (fun h => h1 h.1)]; rfl

theorem div_le_int {p x : F64} (hp : p.isFinite = true) (hx : x.isFinite = true) (hpos : 0 < p.fv) {k : Int}
    (hk : k.natAbs < 2 ^ 53) (h : x.fv ≤ k * p.fv) : (div x p).fv ≤ k * one1074 := by
  rw [(div_fv hx hp hpos).1, ← ofInt_fv hk]
  apply rfv_le (not_nan_of_finite (ofInt_finite hk)) (by omega)
  rw [ofInt_fv hk]
  have : (p.fv.natAbs : Int) = p.fv := by omega
  rw [this]
  calc x.fv * (one1074 : Int) ≤ k * p.fv * one1074 := mul_le_mul_of_nonneg_right h (Int.natCast_nonneg _)
    _ = k * one1074 * p.fv := by ring

theorem int_le_div {p x : F64} (hp : p.isFinite = true) (hx : x.isFinite = true) (hpos : 0 < p.fv) {k : Int}
    (hk : k.natAbs < 2 ^ 53) (h : k * p.fv ≤ x.fv) : k * one1074 ≤ (div x p).fv := by
  rw [(div_fv hx hp hpos).1, ← ofInt_fv hk]
  apply le_rfv (not_nan_of_finite (ofInt_finite hk)) (by omega)
  rw [ofInt_fv hk]
  have : (p.fv.natAbs : Int) = p.fv := by omega
  rw [this]
  calc k * one1074 * p.fv = k * p.fv * one1074 := by ring
    _ ≤ x.fv * (one1074 : Int) := mul_le_mul_of_nonneg_right h (Int.natCast_nonneg _)

theorem tdiv_le {a k U : Int} (hU : 0 < U) (h : a ≤ k * U) : a.tdiv U ≤ k := by
  rcases le_or_gt 0 a with h0 | h0
  · rw [Int.tdiv_eq_ediv_of_nonneg h0]
    exact Int.ediv_le_of_le_mul hU h
  · have e : a.tdiv U = -((-a) / U) := by
      rw [← Int.tdiv_eq_ediv_of_nonneg (by omega : 0 ≤ -a), Int.neg_tdiv, neg_neg]
    rw [e]
    have : -k * U ≤ -a := by linarith [neg_mul k U]
    have := Int.le_ediv_of_mul_le hU this
    omega

theorem le_tdiv {a k U : Int} (hU : 0 < U) (h : k * U ≤ a) : k ≤ a.tdiv U := by
  have h1 := tdiv_le (a := -a) (k := -k) hU (by linarith [neg_mul k U])
  rw [Int.neg_tdiv] at h1
  omega

/-- Inside the range of `int` the quotient is finite and its integer part fits. -/
theorem quotient_fits {p x : F64} (hp : p.isFinite = true) (hx : x.isFinite = true) (hpos : 0 < p.fv)
    (h1 : -(2 ^ 31) * p.fv ≤ x.fv) (h2 : x.fv ≤ (2 ^ 31 - 1) * p.fv) :
    (div x p).isFinite = true ∧ -(2 ^ 31) ≤ (div x p).trunc ∧ (div x p).trunc < 2 ^ 31 := by
  have hone : (0 : Int) < one1074 := by exact_mod_cast one1074_pos
  have a := int_le_div hp hx hpos (k := -(2 ^ 31)) (by norm_num) h1
  have b := div_le_int hp hx hpos (k := 2 ^ 31 - 1) (by norm_num) h2
  refine ⟨?_, ?_, ?_⟩
  · apply finite_of_fv_le two64_finite
    rw [two64_fv]
    generalize (one1074 : Int) = U at *
    omega
  · unfold trunc
    exact le_tdiv hone a
  · unfold trunc
    have := tdiv_le hone b
    omega

theorem tdiv_abs_mul_le (a U : Int) : |a.tdiv U * U| ≤ |a| := by
  rw [Int.abs_eq_natAbs, Int.abs_eq_natAbs, Int.natAbs_mul, Int.natAbs_tdiv]
  exact_mod_cast Nat.div_mul_le_self _ _

/-- The multiple computed by quantisation is at most twice the coordinate. -/
theorem multiple_le {p x : F64} (hp : p.isFinite = true) (hx : x.isFinite = true) (hpos : 0 < p.fv)
    (hf : (div x p).isFinite = true) : |(div x p).trunc * p.fv| ≤ 2 * |x.fv| := by
  have e := (div_fv hx hp hpos).1
  have h2 := (rfv_err (x.fv * one1074) (B := p.fv.natAbs) (by omega) (roundMag_of_finite e hf)).1
  rw [← e] at h2
  have hP : (p.fv.natAbs : Int) = p.fv := by omega
  rw [hP] at h2
  have h3 : |(div x p).trunc * (one1074 : Int)| ≤ |(div x p).fv| := tdiv_abs_mul_le _ _
  have hU : (2 : Int) ≤ one1074 := by
    exact_mod_cast le_one1074 1 (by norm_num)
  generalize (div x p).trunc = n at *
  generalize (div x p).fv = q at *
  generalize (one1074 : Int) = U at *
  generalize p.fv = P at *
  generalize x.fv = X at *
  by_cases hn : n = 0
  · rw [hn, zero_mul, abs_zero]; positivity
  · have n1 : 1 ≤ |n| := Int.one_le_abs hn
    rw [abs_mul, abs_of_pos (by omega : 0 < U)] at h3
    rw [abs_mul, abs_of_pos hpos]
    have h4 : |q| * P - |X| * U ≤ |q * P - X * U| := by
      have := abs_sub_abs_le_abs_sub (q * P) (X * U)
      rw [abs_mul, abs_mul, abs_of_pos hpos, abs_of_pos (by omega : 0 < U)] at this
      exact this
    rw [abs_mul, abs_of_pos (by omega : 0 < U)] at h2
    have h5 : |n| * U * P ≤ |q| * P := mul_le_mul_of_nonneg_right h3 hpos.le
    have h6 : P ≤ |n| * P := by nlinarith
    have h7 : 2 * (|n| * P) ≤ |n| * U * P := by nlinarith [mul_pos (by omega : 0 < |n|) hpos]
    have h8 : 2 * |X| ≤ |X| * U := by nlinarith [abs_nonneg X]
    -- U * (|n| P) ≤ U * 2 |X|
    have h9 : U * (|n| * P) ≤ U * (2 * |X|) := by
      have e1 : U * (|n| * P) = |n| * U * P := by ring
      have e2 : U * (2 * |X|) = 2 * (|X| * U) := by ring
      rw [e1, e2]
      omega
    exact le_of_mul_le_mul_left h9 (by omega)

/-- Quantisation does not overflow, unless the coordinate is more than half of the largest double. -/
theorem quantize1_finite {p x y : F64} (hp : p.isFinite = true) (hx : x.isFinite = true) (hpos : 0 < p.fv)
    (hb : 2 * |x.fv| ≤ maxVal.fv) (hy : quantize1 p x = .ok y) : y.isFinite = true := by
  rw [quantize1_eq] at hy
  split at hy
  swap
  · simp at hy
  rename_i hq
  obtain ⟨qf, t1, t2⟩ := hq
  simp only [Res.ok.injEq] at hy
  subst hy
  apply finite_of_fv_le maxVal_finite
  rw [mul_ofInt_fv (by omega) hp]
  apply rfv_finite maxVal_finite (by norm_num)
  rw [Nat.cast_one, mul_one]
  exact ((multiple_le hp hx hpos qf).trans hb).trans (le_abs_self _)

/-- The accuracy of one quantisation. -/
theorem quantize1_accuracy {p x y : F64} (hp : p.isFinite = true) (hx : x.isFinite = true) (hpos : 0 < p.fv)
    (hy : quantize1 p x = .ok y) (hf : y.isFinite = true) :
    (0 ≤ x.fv → 0 ≤ y.fv) ∧ (x.fv ≤ 0 → y.fv ≤ 0)
      ∧ |y.val| ≤ |x.val| + p.val / 2 ^ 20 ∧ |x.val| < |y.val| + p.val + p.val / 2 ^ 20
      ∧ ∃ n : Int, -(2 ^ 31) ≤ n ∧ n < 2 ^ 31 ∧ 2 ^ 53 * |y.val - n * p.val| ≤ |n * p.val| := by
  rw [quantize1_eq] at hy
  split at hy
  swap
  · simp at hy
  rename_i hq
  obtain ⟨qf, t1, t2⟩ := hq
  simp only [Res.ok.injEq] at hy
  subst hy
  obtain ⟨a1, a2, a3, a4⟩ := trunc_abs (div x p)
  have hn : (div x p).trunc.natAbs < 2 ^ 53 := by omega
  have hm := mul_ofInt_val hn hp hf
  have hd := div_val hx hp hpos qf
  have efv := (div_fv hx hp hpos).1
  have emul := mul_ofInt_fv hn hp
  set q := div x p with hqdef
  set n := q.trunc with hndef
  have hP : 0 < p.val := val_pos.mpr hpos
  have hq0 : 0 ≤ x.fv → 0 ≤ q.fv := fun h => by
    rw [efv]; exact rfv_nonneg (mul_nonneg h (Int.natCast_nonneg _))
  have hq1 : x.fv ≤ 0 → q.fv ≤ 0 := fun h => by
    rw [efv]; exact rfv_nonpos (by omega) (mul_nonpos_of_nonpos_of_nonneg h (Int.natCast_nonneg _))
  refine ⟨fun h => ?_, fun h => ?_, ?_, ?_, n, t1, t2, hm⟩
  · rw [emul]; exact rfv_nonneg (mul_nonneg (a3 (hq0 h)) hpos.le)
  · rw [emul]; exact rfv_nonpos (by norm_num) (mul_nonpos_of_nonpos_of_nonneg (a4 (hq1 h)) hpos.le)
  all_goals
    have hU : (2 : ℝ) ^ 52 / (one1074 : ℝ) ≤ 1 := by
      rw [div_le_one one1074_pos']
      have := le_one1074 52 (by norm_num)
      exact_mod_cast this
    have hN : |(n : ℝ)| ≤ 2 ^ 31 := by
      have : |n| ≤ 2 ^ 31 := abs_le.mpr ⟨t1, by omega⟩
      exact_mod_cast this
    generalize (2 : ℝ) ^ 52 / (one1074 : ℝ) = ε at *
    -- absolute values
    have e1 : |x.val / p.val| * p.val = |x.val| := by
      rw [abs_div, abs_of_pos hP]; field_simp
    have e2 : |(n : ℝ) * p.val| = |(n : ℝ)| * p.val := by rw [abs_mul, abs_of_pos hP]
    have d1 : 2 ^ 53 * (|q.val| - |x.val / p.val|) ≤ |x.val / p.val| + ε :=
      le_trans (mul_le_mul_of_nonneg_left (abs_sub_abs_le_abs_sub _ _) (by norm_num)) hd
    have d2 : 2 ^ 53 * (|x.val / p.val| - |q.val|) ≤ |x.val / p.val| + ε := by
      refine le_trans (mul_le_mul_of_nonneg_left (abs_sub_abs_le_abs_sub _ _) (by norm_num)) ?_
      rw [abs_sub_comm]; exact hd
    have m1 : 2 ^ 53 * (|(mul (ofInt n) p).val| - |(n : ℝ)| * p.val) ≤ |(n : ℝ)| * p.val := by
      rw [← e2]
      exact le_trans (mul_le_mul_of_nonneg_left (abs_sub_abs_le_abs_sub _ _) (by norm_num)) hm
    have m2 : 2 ^ 53 * (|(n : ℝ)| * p.val - |(mul (ofInt n) p).val|) ≤ |(n : ℝ)| * p.val := by
      rw [← e2]
      refine le_trans (mul_le_mul_of_nonneg_left (abs_sub_abs_le_abs_sub _ _) (by norm_num)) ?_
      rw [abs_sub_comm]; exact hm
    -- multiply everything by the precision
    have d1' := mul_le_mul_of_nonneg_right d1 hP.le
    have d2' := mul_le_mul_of_nonneg_right d2 hP.le
    have a1' := mul_le_mul_of_nonneg_right a1 hP.le
    have a2' := mul_lt_mul_of_pos_right a2 hP
    have hN' := mul_le_mul_of_nonneg_right hN hP.le
    have hU' := mul_le_mul_of_nonneg_right hU hP.le
    have x0 := abs_nonneg x.val
    rw [add_mul, one_mul] at a2'
    rw [add_mul, e1, mul_assoc, sub_mul, e1] at d1' d2'
    generalize |(mul (ofInt n) p).val| = Y at *
    generalize |(n : ℝ)| * p.val = N at *
    generalize |q.val| * p.val = Q at *
    generalize |x.val| = X at *
    generalize ε * p.val = E at *
    generalize p.val = P at *
    rw [one_mul] at hU'
    linarith

/-- A double is an integer with at most 53 bits times a power of two. -/
theorem fv_dyadic (x : F64) : ∃ (m : Int) (e : Nat), x.fv = m * 2 ^ e ∧ m.natAbs < 2 ^ 53 := by
  obtain ⟨k, n, e, hn, hk⟩ := mag_dec x.mag
  have h := fixMag_enc hn.le hk
  unfold fv
  rw [e, h]
  cases x.neg
  · exact ⟨n, k, by simp, by simpa using hn⟩
  · exact ⟨-n, k, by simp, by simpa using hn⟩

theorem rfv_scale (A : Int) {B c : Nat} (hB : 0 < B) (hc : 0 < c) : rfv (A * c) (B * c) = rfv A B := by
  have h : A * (c : Int) * (B : Int) = A * ((B * c : Nat) : Int) := by push_cast; ring
  apply le_antisymm
  · exact rfv_mono (Nat.mul_pos hB hc) hB h.le
  · exact rfv_mono hB (Nat.mul_pos hB hc) h.ge

/-- If the precision is a power of two, the integer part of the quotient is computed exactly. -/
theorem trunc_pow_two {p x : F64} {j : Nat} (hp : p.isFinite = true) (hx : x.isFinite = true) (hj : p.fv = 2 ^ j)
    (hf : (div x p).isFinite = true) : (div x p).trunc = x.fv.tdiv p.fv := by
  have hpos : 0 < p.fv := by rw [hj]; positivity
  have e := (div_fv hx hp hpos).1
  have hn : p.fv.natAbs = 2 ^ j := by rw [hj, natAbs_two_pow]
  rw [hn] at e
  have hr := roundMag_of_finite e hf
  obtain ⟨m, a, ex, hm⟩ := fv_dyadic x
  unfold trunc
  rw [hj]
  by_cases hjs : j ≤ 1074
  · -- the quotient is an integer number of units
    obtain ⟨d, hd⟩ := Nat.exists_eq_add_of_le hjs
    have hU : (one1074 : Int) = 2 ^ d * ((2 ^ j : Nat) : Int) := by
      rw [one1074_eq, hd, pow_add, cast_two_pow]; ring
    have e1 : rfv (x.fv * one1074) (2 ^ j) = rfv (x.fv * 2 ^ d) 1 := by
      rw [hU, ← mul_assoc]
      have := rfv_scale (x.fv * 2 ^ d) (B := 1) (c := 2 ^ j) (by norm_num) (by positivity)
      rwa [Nat.one_mul] at this
    have e2 : x.fv * 2 ^ d = m * 2 ^ (a + d) := by rw [ex, pow_add]; ring
    have e3 : rfv (x.fv * 2 ^ d) 1 = x.fv * 2 ^ d := by
      have hfin := hr
      rw [e1] at e
      have hr' := roundMag_of_finite e hf
      rw [e2] at hr' ⊢
      have hn2 : (m * 2 ^ (a + d) : Int).natAbs = m.natAbs * 2 ^ (a + d) := by
        rw [Int.natAbs_mul, natAbs_two_pow]
      rw [hn2] at hr'
      refine rfv_dyadic hf hm ?_
      rw [e, e2]
      have h3 : fixMag (roundMag (m.natAbs * 2 ^ (a + d)) 1) = m.natAbs * 2 ^ (a + d) := by
        rw [roundMag_eq_raw hr', roundRaw_dyadic hm]
      unfold rfv
      rw [hn2, h3]
      split
      · rw [Int.natAbs_neg, Int.natAbs_natCast]
      · rw [Int.natAbs_natCast]
    rw [e, e1, e3, hU, cast_two_pow, mul_comm (2 ^ d : Int), Int.mul_tdiv_mul_of_pos_left]
    positivity
  · -- large precision: either exact or far below 1
    obtain ⟨d, hd⟩ := Nat.exists_eq_add_of_le (Nat.le_of_not_le hjs)
    have e1 : rfv (x.fv * one1074) (2 ^ j) = rfv x.fv (2 ^ d) := by
      have := rfv_scale x.fv (B := 2 ^ d) (c := 2 ^ 1074) (by positivity) (Nat.two_pow_pos _)
      rw [cast_two_pow, ← pow_add, Nat.add_comm d, ← hd, ← one1074_eq] at this
      exact this
    rw [e1] at e
    by_cases ha : d ≤ a
    · obtain ⟨c, hc⟩ := Nat.exists_eq_add_of_le ha
      have e2 : x.fv = m * 2 ^ c * ((2 ^ d : Nat) : Int) := by
        rw [ex, hc, pow_add, cast_two_pow]; ring
      have e3 : rfv x.fv (2 ^ d) = rfv (m * 2 ^ c) 1 := by
        rw [e2]
        have := rfv_scale (m * 2 ^ c) (B := 1) (c := 2 ^ d) (by norm_num) (by positivity)
        rwa [Nat.one_mul] at this
      have e4 : rfv (m * 2 ^ c) 1 = m * 2 ^ c := by
        refine rfv_dyadic hx hm ?_
        rw [ex, Int.natAbs_mul, natAbs_two_pow]
        exact Nat.mul_le_mul_left _ (two_pow_le (by omega))
      rw [e, e3, e4, e2, hd, cast_two_pow, one1074_eq, pow_add, Int.mul_tdiv_mul_of_pos_left]
      positivity
    · have hsmall : x.fv.natAbs ≤ 2 ^ (52 + d) := by
        rw [ex, Int.natAbs_mul, natAbs_two_pow]
        calc m.natAbs * 2 ^ a ≤ 2 ^ 53 * 2 ^ a := Nat.mul_le_mul_right _ (by omega)
          _ = 2 ^ (53 + a) := by rw [pow_add]
          _ ≤ 2 ^ (52 + d) := two_pow_le (by omega)
      have h0 : x.fv.tdiv (2 ^ j) = 0 := by
        apply Int.natAbs_eq_zero.mp
        rw [Int.natAbs_tdiv, natAbs_two_pow]
        apply Nat.div_eq_of_lt
        apply lt_of_le_of_lt hsmall
        exact Nat.pow_lt_pow_right (by norm_num) (by omega)
      have h1 : (div x p).fv.natAbs ≤ 2 ^ 52 := by
        have hmin : (⟨0x0010000000000000⟩ : F64).fv = 2 ^ 52 := by decide +kernel
        have h2 := rfv_finite (y := ⟨0x0010000000000000⟩) (by decide +kernel) (A := x.fv) (B := 2 ^ d)
          (by positivity) (by
            rw [hmin, Int.abs_eq_natAbs, cast_two_pow, abs_of_pos (by norm_num), ← pow_add]
            exact_mod_cast hsmall)
        rw [hmin, ← e] at h2
        exact h2
      rw [h0]
      apply Int.natAbs_eq_zero.mp
      rw [Int.natAbs_tdiv, Int.natAbs_natCast]
      apply Nat.div_eq_of_lt
      have h3 := le_one1074 53 (by norm_num)
      omega

end Utils

end Spoc
