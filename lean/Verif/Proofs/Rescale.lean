import Verif.Proofs.Rotation
import Verif.Model.Extent

/-!
# Helper lemmas for rescaling to the integer grid
-/

namespace Spoc

open Spec

namespace Extent

open F64

theorem maxValue_fv : maxValue.fv = 2 ^ 62 * (one1074 : Int) := by decide +kernel
theorem maxValue_finite : maxValue.isFinite = true := by decide +kernel
theorem maxValue_pos : 0 < maxValue.fv := by decide +kernel
theorem maxValue_val : maxValue.val = 2 ^ 62 := by
  unfold val
  rw [maxValue_fv]
  have hU := one1074_pos'
  push_cast
  field_simp
  norm_num

/-- Multiplying by 2^62 is exact, without overflow. -/
theorem mul_maxValue {d : F64} (hd : d.isFinite = true) (hf : (mul d maxValue).isFinite = true) :
    (mul d maxValue).fv = d.fv * 2 ^ 62 := by
  have e1 : (mul d maxValue).fv = rfv (d.fv * 2 ^ 62) 1 := by
    rw [mul_fv hd maxValue_finite, maxValue_fv, ← mul_assoc]
    have := Utils.rfv_scale (d.fv * 2 ^ 62) (B := 1) (c := one1074) (by norm_num) one1074_pos
    rwa [Nat.one_mul] at this
  obtain ⟨m, a, ex, hm⟩ := Utils.fv_dyadic d
  have e2 : d.fv * 2 ^ 62 = m * 2 ^ (a + 62) := by rw [ex, pow_add]; ring
  have hr := roundMag_of_finite e1 hf
  rw [e1]
  rw [e2] at hr ⊢
  have hn2 : (m * 2 ^ (a + 62) : Int).natAbs = m.natAbs * 2 ^ (a + 62) := by
    rw [Int.natAbs_mul, natAbs_two_pow]
  rw [hn2] at hr
  refine rfv_dyadic hf hm ?_
  rw [e1, e2]
  have h3 : fixMag (roundMag (m.natAbs * 2 ^ (a + 62)) 1) = m.natAbs * 2 ^ (a + 62) := by
    rw [roundMag_eq_raw hr, roundRaw_dyadic hm]
  unfold rfv
  rw [hn2, h3]
  split
  · rw [Int.natAbs_neg, Int.natAbs_natCast]
  · rw [Int.natAbs_natCast]

theorem two1002_eq900 : two1002.val = 2 ^ 102 * 2 ^ 900 := by
  rw [two1002_val]
  have : (1002 : Nat) = 102 + 900 := rfl
  rw [this, pow_add]

/-- A difference of moderate numbers. -/
theorem sub_below {p m : F64} (hp : Below 900 p) (hm : Below 900 m) :
    (sub p m).isFinite = true ∧ |(sub p m).val| ≤ 4 * 2 ^ 900
      ∧ 2 ^ 53 * |(sub p m).val - (p.val - m.val)| ≤ |p.val - m.val| := by
  have hK : (1 : ℝ) ≤ 2 ^ 900 := one_le_pow₀ (by norm_num)
  have h4 := two1002_eq900
  obtain ⟨pf, pb⟩ := hp
  obtain ⟨mf, mb⟩ := hm
  have hd := abs_sub p.val m.val
  have hf : (sub p m).isFinite = true := by
    apply sub_finite_of pf mf two1002_finite
    rw [h4]
    refine le_trans ?_ (le_abs_self _)
    clear h4
    generalize (2 : ℝ) ^ 900 = K at *
    linarith
  have hv := sub_val pf mf hf
  refine ⟨hf, ?_, hv⟩
  have := abs_sub_abs_le_abs_sub (sub p m).val (p.val - m.val)
  clear h4
  generalize (2 : ℝ) ^ 900 = K at *
  linarith

/-- One coordinate of `rescale`: well defined, at most 2^62, with the value of the quotient. -/
theorem rescale1_spec {p m M : F64} (hp : Below 900 p) (hm : Below 900 m) (hM : Below 900 M) (h1 : m.fv ≤ p.fv)
    (h2 : p.fv ≤ M.fv) (hlt : m.fv < M.fv) :
    ∃ u q, rescale1 p (sub M m) m = .ok u ∧ u.toNat ≤ 2 ^ 62
      ∧ q = div (mul (sub p m) maxValue) (sub M m) ∧ q.isFinite = true ∧ 0 ≤ q.fv ∧ (u.toNat : Int) = q.trunc
      ∧ 2 ^ 53 * |q.val - (sub p m).val * 2 ^ 62 / (sub M m).val|
          ≤ |(sub p m).val * 2 ^ 62 / (sub M m).val| + 2 ^ 52 * (1 / (one1074 : ℝ)) := by
  have hone : (0 : Int) < one1074 := by exact_mod_cast one1074_pos
  obtain ⟨df, db, _⟩ := sub_below hp hm
  obtain ⟨sf, sb, _⟩ := sub_below hM hm
  have hK : (1 : ℝ) ≤ 2 ^ 900 := one_le_pow₀ (by norm_num)
  have h4 := two1002_eq900
  -- signs
  have d0 : 0 ≤ (sub p m).fv := by rw [sub_fv hp.1 hm.1]; exact rfv_nonneg (by omega)
  have s0 : 0 < (sub M m).fv := by
    rw [sub_fv hM.1 hm.1]
    have := le_rfv (y := ⟨1⟩) (by decide) (A := M.fv - m.fv) (B := 1) (by norm_num)
      (by have : (⟨1⟩ : F64).fv = 1 := by decide +kernel
          rw [this]; push_cast; omega)
    have e : (⟨1⟩ : F64).fv = 1 := by decide +kernel
    omega
  have ds : (sub p m).fv ≤ (sub M m).fv := by
    rw [sub_fv hp.1 hm.1, sub_fv hM.1 hm.1]
    exact rfv_mono (by norm_num) (by norm_num) (by omega)
  have tf : (mul (sub p m) maxValue).isFinite = true := by
    apply mul_finite_of df maxValue_finite two1002_finite
    rw [h4, maxValue_val, abs_mul, abs_of_pos (by norm_num : (0 : ℝ) < 2 ^ 62)]
    refine le_trans ?_ (le_abs_self _)
    clear h4
    generalize (2 : ℝ) ^ 900 = K at *
    linarith
  have et := mul_maxValue df tf
  have hk : (2 ^ 62 : Int).natAbs * 1 ≤ 2 ^ 62 := by norm_num
  -- quotient
  have hq : (div (mul (sub p m) maxValue) (sub M m)).fv ≤ 2 ^ 62 * one1074 := by
    rw [(div_fv tf sf s0).1, ← maxValue_fv]
    apply rfv_le (not_nan_of_finite maxValue_finite) (by omega)
    rw [maxValue_fv, et]
    have e : ((sub M m).fv.natAbs : Int) = (sub M m).fv := by omega
    rw [e]
    have := mul_le_mul_of_nonneg_right ds (mul_nonneg (by norm_num) hone.le : (0 : Int) ≤ 2 ^ 62 * one1074)
    calc (sub p m).fv * 2 ^ 62 * (one1074 : Int) = (sub p m).fv * (2 ^ 62 * one1074) := by ring
      _ ≤ (sub M m).fv * (2 ^ 62 * one1074) := this
      _ = 2 ^ 62 * (one1074 : Int) * (sub M m).fv := by ring
  have hq0 : 0 ≤ (div (mul (sub p m) maxValue) (sub M m)).fv := by
    rw [(div_fv tf sf s0).1, et]
    exact rfv_nonneg (mul_nonneg (mul_nonneg d0 (by norm_num)) hone.le)
  have qf : (div (mul (sub p m) maxValue) (sub M m)).isFinite = true := by
    apply finite_of_fv_le maxValue_finite
    rw [maxValue_fv]; omega
  have ht : (div (mul (sub p m) maxValue) (sub M m)).trunc ≤ 2 ^ 62 := by
    unfold trunc; exact Utils.tdiv_le hone hq
  have ht0 := trunc_nonneg hq0
  refine ⟨UInt64.ofNat (div (mul (sub p m) maxValue) (sub M m)).trunc.toNat, _, ?_, ?_, rfl, qf, hq0, ?_, ?_⟩
  · unfold rescale1 toU64
    rw [if_pos qf, if_pos ⟨ht0, by omega⟩]
  · rw [UInt64.toNat_ofNat']
    have : (div (mul (sub p m) maxValue) (sub M m)).trunc.toNat % 2 ^ 64
        = (div (mul (sub p m) maxValue) (sub M m)).trunc.toNat := Nat.mod_eq_of_lt (by omega)
    rw [this]; omega
  · rw [UInt64.toNat_ofNat']
    have : (div (mul (sub p m) maxValue) (sub M m)).trunc.toNat % 2 ^ 64
        = (div (mul (sub p m) maxValue) (sub M m)).trunc.toNat := Nat.mod_eq_of_lt (by omega)
    rw [this]; omega
  · have hv := div_val tf sf s0 qf
    have etv : (mul (sub p m) maxValue).val = (sub p m).val * 2 ^ 62 := by
      unfold val; rw [et]; push_cast; ring
    rw [etv, div_eq_mul_one_div ((2 : ℝ) ^ 52)] at hv
    exact hv

/-- Conversion of an integer up to 2^62. -/
theorem ofNat_spec {n : Nat} (hn : n ≤ 2 ^ 62) :
    (F64.ofNat n).isFinite = true ∧ 0 ≤ (F64.ofNat n).fv ∧ (F64.ofNat n).fv ≤ maxValue.fv
      ∧ 2 ^ 53 * |(F64.ofNat n).val - n| ≤ n := by
  have hone : (0 : Int) < one1074 := by exact_mod_cast one1074_pos
  have e : (F64.ofNat n).fv = rfv (n * (one1074 : Int)) 1 := by
    unfold F64.ofNat ofInt; rw [rnd_fv _ _ (by norm_num)]
  have hle : (F64.ofNat n).fv ≤ maxValue.fv := by
    rw [e]
    apply rfv_le (not_nan_of_finite maxValue_finite) (by norm_num)
    rw [maxValue_fv, Nat.cast_one, mul_one]
    exact mul_le_mul_of_nonneg_right (by exact_mod_cast hn) hone.le
  have h0 : 0 ≤ (F64.ofNat n).fv := by
    rw [e]; exact rfv_nonneg (mul_nonneg (Int.natCast_nonneg _) hone.le)
  have hf : (F64.ofNat n).isFinite = true := by
    apply finite_of_fv_le maxValue_finite
    have := maxValue_pos
    omega
  refine ⟨hf, h0, hle, ?_⟩
  have h1 := roundMag_of_finite e hf
  have h2 := (rfv_err (n * (one1074 : Int)) (B := 1) (by norm_num) h1).2 (Or.inr rfl)
  rw [← e, Nat.cast_one, mul_one] at h2
  have h3 : (2 : ℝ) ^ 53 * |((F64.ofNat n).fv : ℝ) - n * (one1074 : ℝ)| ≤ |(n : ℝ) * (one1074 : ℝ)| := by
    exact_mod_cast h2
  unfold val
  have hU := one1074_pos'
  generalize (one1074 : ℝ) = U at *
  rw [abs_of_nonneg (by positivity : (0 : ℝ) ≤ (n : ℝ) * U)] at h3
  have e1 : ((F64.ofNat n).fv : ℝ) / U - n = ((F64.ofNat n).fv - n * U) / U := by field_simp
  rw [e1, abs_div, abs_of_pos hU, ← mul_div_assoc, div_le_iff₀ hU]
  exact h3

/-- Rounding errors of a round trip, in real numbers. -/
theorem roundtrip_arith {p m M d s q n w x1 x2 r η : ℝ} (hη : 0 ≤ η) (hη1 : η ≤ 1)
    (hd0 : 0 ≤ d) (hds : d ≤ s) (hs0 : 0 < s) (hmp : m ≤ p) (hpM : p ≤ M)
    (hd : 2 ^ 53 * |d - (p - m)| ≤ |p - m|)
    (hs : 2 ^ 53 * |s - (M - m)| ≤ |M - m|)
    (hq : 2 ^ 53 * |q - d * 2 ^ 62 / s| ≤ |d * 2 ^ 62 / s| + 2 ^ 52 * η)
    (hn1 : n ≤ q) (hn2 : q < n + 1) (hn0 : 0 ≤ n)
    (hw : 2 ^ 53 * |w - n| ≤ n)
    (h1 : 2 ^ 53 * |x1 - w * s| ≤ |w * s| + 2 ^ 52 * η)
    (h2 : 2 ^ 53 * |x2 - x1 / 2 ^ 62| ≤ |x1 / 2 ^ 62| + 2 ^ 52 * η)
    (hr : 2 ^ 53 * |r - (x2 + m)| ≤ |x2 + m|) :
    |r - p| ≤ (M - m) / 2 ^ 49 + |p| / 2 ^ 52 + 4 * η := by
  rw [abs_of_nonneg (by linarith : 0 ≤ p - m)] at hd
  rw [abs_of_nonneg (by linarith : 0 ≤ M - m)] at hs
  -- everything in units of the extent
  have hqs : 2 ^ 53 * |q * s - d * 2 ^ 62| ≤ d * 2 ^ 62 + 2 ^ 52 * (η * s) := by
    have e1 : |d * 2 ^ 62 / s| * s = d * 2 ^ 62 := by
      rw [abs_of_nonneg (by positivity)]; field_simp
    have e2 : |q - d * 2 ^ 62 / s| * s = |q * s - d * 2 ^ 62| := by
      rw [← abs_of_pos hs0, ← abs_mul, abs_of_pos hs0]
      congr 1
      field_simp
    have := mul_le_mul_of_nonneg_right hq hs0.le
    rw [add_mul, mul_assoc, e1, e2, mul_assoc] at this
    exact this
  have hws : 2 ^ 53 * |w * s - n * s| ≤ n * s := by
    have e2 : |w - n| * s = |w * s - n * s| := by
      rw [← abs_of_pos hs0, ← abs_mul, abs_of_pos hs0]
      congr 1
      ring
    have := mul_le_mul_of_nonneg_right hw hs0.le
    rw [mul_assoc, e2] at this
    exact this
  have hn1' := mul_le_mul_of_nonneg_right hn1 hs0.le
  have hn2' := mul_lt_mul_of_pos_right hn2 hs0
  have hns : 0 ≤ n * s := mul_nonneg hn0 hs0.le
  have hηs : η * s ≤ s := by nlinarith
  have hηs0 : 0 ≤ η * s := mul_nonneg hη hs0.le
  rw [add_mul, one_mul] at hn2'
  generalize q * s = Q at *
  generalize n * s = N at *
  generalize w * s = W at *
  generalize η * s = H at *
  obtain ⟨a1, a2⟩ := abs_le.mp (show |d - (p - m)| ≤ (p - m) / 2 ^ 53 by rw [le_div_iff₀ (by norm_num)]; linarith)
  obtain ⟨s1, s2⟩ := abs_le.mp (show |s - (M - m)| ≤ (M - m) / 2 ^ 53 by rw [le_div_iff₀ (by norm_num)]; linarith)
  obtain ⟨b1, b2⟩ := abs_le.mp (show |Q - d * 2 ^ 62| ≤ (d * 2 ^ 62 + 2 ^ 52 * H) / 2 ^ 53 by
    rw [le_div_iff₀ (by norm_num)]; linarith)
  obtain ⟨c1, c2⟩ := abs_le.mp (show |W - N| ≤ N / 2 ^ 53 by rw [le_div_iff₀ (by norm_num)]; linarith)
  have hW0 : 0 ≤ W := by linarith
  rw [abs_of_nonneg hW0] at h1
  obtain ⟨e1, e2⟩ := abs_le.mp (show |x1 - W| ≤ (W + 2 ^ 52 * η) / 2 ^ 53 by rw [le_div_iff₀ (by norm_num)]; linarith)
  have hx1 : |x1 / 2 ^ 62| ≤ (W + (W + 2 ^ 52 * η) / 2 ^ 53) / 2 ^ 62 := by
    rw [abs_div, abs_of_pos (by norm_num : (0 : ℝ) < 2 ^ 62), div_le_div_iff_of_pos_right (by norm_num), abs_le]
    constructor <;> linarith
  obtain ⟨f1, f2⟩ := abs_le.mp (show |x2 - x1 / 2 ^ 62| ≤ ((W + (W + 2 ^ 52 * η) / 2 ^ 53) / 2 ^ 62 + 2 ^ 52 * η) / 2 ^ 53 by
    rw [le_div_iff₀ (by norm_num)]; linarith)
  -- the sum
  have hsum : |x2 + m - p| ≤ (M - m) / 2 ^ 50 + 2 * η := by
    rw [abs_le]
    constructor <;> linarith
  have hxm : |x2 + m| ≤ |p| + ((M - m) / 2 ^ 50 + 2 * η) := by
    have := abs_sub_abs_le_abs_sub (x2 + m) p
    linarith
  have tri : |r - p| ≤ |r - (x2 + m)| + |x2 + m - p| := by
    have e : r - p = (r - (x2 + m)) + (x2 + m - p) := by ring
    rw [e]; exact abs_add_le _ _
  have p0 := abs_nonneg p
  linarith

/-- Overflow cannot happen when the integer is restored. -/
theorem restore1_spec {s m : F64} (hsf : s.isFinite = true) (hsb : |s.val| ≤ 4 * 2 ^ 900)
    (hm : Below 900 m) (u : UInt64) (hu : u.toNat ≤ 2 ^ 62) :
    let w := F64.ofNat u.toNat
    let x1 := mul w s
    let x2 := div x1 maxValue
    (restore1 u s m).isFinite = true
      ∧ 2 ^ 53 * |x1.val - w.val * s.val| ≤ |w.val * s.val| + 2 ^ 52 * (1 / (one1074 : ℝ))
      ∧ 2 ^ 53 * |x2.val - x1.val / 2 ^ 62| ≤ |x1.val / 2 ^ 62| + 2 ^ 52 * (1 / (one1074 : ℝ))
      ∧ 2 ^ 53 * |(restore1 u s m).val - (x2.val + m.val)| ≤ |x2.val + m.val| := by
  intro w x1 x2
  obtain ⟨wf, w0, wm, _⟩ := ofNat_spec hu
  have hK : (1 : ℝ) ≤ 2 ^ 900 := one_le_pow₀ (by norm_num)
  have h4 := two1002_eq900
  have hη := Affine.tiny_le_one
  have wv : |w.val| ≤ 2 ^ 62 := by
    rw [abs_of_nonneg (val_nonneg.mpr w0), ← maxValue_val]
    exact val_le_iff.mpr wm
  have hws : |w.val * s.val| ≤ 2 ^ 62 * (4 * 2 ^ 900) := by
    rw [abs_mul]
    exact mul_le_mul wv hsb (abs_nonneg _) (by norm_num)
  have x1f : x1.isFinite = true := by
    apply mul_finite_of wf hsf two1002_finite
    rw [h4]
    refine hws.trans (le_trans ?_ (le_abs_self _))
    clear h4
    generalize (2 : ℝ) ^ 900 = K at *
    linarith
  have hx1 := mul_val wf hsf x1f
  rw [div_eq_mul_one_div ((2 : ℝ) ^ 52)] at hx1
  have hx1b : |x1.val| ≤ 2 ^ 62 * (8 * 2 ^ 900) := by
    have := abs_sub_abs_le_abs_sub x1.val (w.val * s.val)
    clear h4
    show |(mul w s).val| ≤ _
    generalize (2 : ℝ) ^ 900 = K at *
    generalize (1 : ℝ) / (one1074 : ℝ) = η at *
    linarith
  have hdiv : |x1.val / 2 ^ 62| ≤ 8 * 2 ^ 900 := by
    rw [abs_div, abs_of_pos (by norm_num : (0 : ℝ) < 2 ^ 62), div_le_iff₀ (by norm_num)]
    clear h4
    generalize (2 : ℝ) ^ 900 = K at *
    linarith
  have x2f : x2.isFinite = true := by
    apply div_finite_of x1f maxValue_finite maxValue_pos two1002_finite
    rw [h4, maxValue_val]
    refine hdiv.trans (le_trans ?_ (le_abs_self _))
    clear h4
    generalize (2 : ℝ) ^ 900 = K at *
    linarith
  have hx2 := div_val x1f maxValue_finite maxValue_pos x2f
  rw [div_eq_mul_one_div ((2 : ℝ) ^ 52), maxValue_val] at hx2
  have hx2b : |x2.val| ≤ 16 * 2 ^ 900 := by
    have := abs_sub_abs_le_abs_sub x2.val (x1.val / 2 ^ 62)
    clear h4
    show |(div x1 maxValue).val| ≤ _
    generalize (2 : ℝ) ^ 900 = K at *
    generalize (1 : ℝ) / (one1074 : ℝ) = η at *
    linarith
  have rf : (restore1 u s m).isFinite = true := by
    apply add_finite_of x2f hm.1 two1002_finite
    rw [h4]
    refine (abs_add_le _ _).trans (le_trans ?_ (le_abs_self _))
    have := hm.2
    clear h4
    show |x2.val| + _ ≤ _
    generalize (2 : ℝ) ^ 900 = K at *
    linarith
  exact ⟨rf, hx1, hx2, add_val x2f hm.1 rf⟩

/-- A round trip of one coordinate. -/
theorem roundtrip1 {p m M : F64} (hp : Below 900 p) (hm : Below 900 m) (hM : Below 900 M) (h1 : m.fv ≤ p.fv)
    (h2 : p.fv ≤ M.fv) (hlt : m.fv < M.fv) :
    ∃ u, rescale1 p (sub M m) m = .ok u ∧ u.toNat ≤ 2 ^ 62 ∧ (restore1 u (sub M m) m).isFinite = true
      ∧ |(restore1 u (sub M m) m).val - p.val|
          ≤ (M.val - m.val) / 2 ^ 49 + |p.val| / 2 ^ 52 + 4 * (1 / (one1074 : ℝ)) := by
  obtain ⟨u, q, e, hu, hq, qf, q0, hn, hqv⟩ := rescale1_spec hp hm hM h1 h2 hlt
  obtain ⟨df, db, dv⟩ := sub_below hp hm
  obtain ⟨sf, sb, sv⟩ := sub_below hM hm
  have d0 : 0 ≤ (sub p m).fv := by rw [sub_fv hp.1 hm.1]; exact rfv_nonneg (by omega)
  have s0 : 0 < (sub M m).fv := by
    rw [sub_fv hM.1 hm.1]
    have e1 : (⟨1⟩ : F64).fv = 1 := by decide +kernel
    have := le_rfv (y := ⟨1⟩) (by decide) (A := M.fv - m.fv) (B := 1) (by norm_num)
      (by rw [e1]; push_cast; omega)
    omega
  have ds : (sub p m).fv ≤ (sub M m).fv := by
    rw [sub_fv hp.1 hm.1, sub_fv hM.1 hm.1]
    exact rfv_mono (by norm_num) (by norm_num) (by omega)
  obtain ⟨rf, r1, r2, r3⟩ := restore1_spec sf sb hm u hu
  obtain ⟨_, _, _, wv⟩ := ofNat_spec hu
  obtain ⟨t1, t2⟩ := trunc_val_nonneg q0
  rw [← hn] at t1 t2
  refine ⟨u, e, hu, rf, ?_⟩
  exact roundtrip_arith (one_div_pos.mpr one1074_pos').le Affine.tiny_le_one (val_nonneg.mpr d0) (val_le_iff.mpr ds)
    (val_pos.mpr s0) (val_le_iff.mpr h1) (val_le_iff.mpr h2) dv sv hqv (by exact_mod_cast t1) (by exact_mod_cast t2)
    (by positivity) wv r1 r2 r3

end Extent

end Spoc
