import Verif.Proofs.Quantize
import Verif.Proofs.ResList
import Verif.Props.Geometry
import Verif.Spec.Quantize

/-!
# C38: quantisation
-/

namespace Spoc.Props

open Spec F64 Utils

/-- 0.01 as a double -/
def hundredth : F64 := ⟨0x3f847ae147ae147b⟩

theorem quantize1_ok {p x : F64} (hp : p.isFinite = true) (hpos : 0 < p.fv) (hx : Quantisable p x) :
    ∃ y, quantize1 p x = .ok y ∧ Quantised p x y := by
  obtain ⟨h1, h2, h3, h4⟩ := hx
  have hq := quotient_fits hp h1 hpos h2 h3
  have e := quantize1_eq p x
  rw [if_pos hq] at e
  have hf := quantize1_finite hp h1 hpos h4 e
  obtain ⟨a1, a2, a3, a4, n, _, _, a5⟩ := quantize1_accuracy hp h1 hpos e hf
  exact ⟨_, e, hf, a1, a2, a3, a4, n, a5⟩

theorem quantizePt_ok {p : F64} (hp : p.isFinite = true) (hpos : 0 < p.fv) {q : Pt F64}
    (hq : Quantisable p q.x ∧ Quantisable p q.y ∧ Quantisable p q.z) :
    ∃ r, quantizePt p q = .ok r ∧ OnPoint (Quantised p) q r := by
  obtain ⟨x, ex, hx⟩ := quantize1_ok hp hpos hq.1
  obtain ⟨y, ey, hy⟩ := quantize1_ok hp hpos hq.2.1
  obtain ⟨z, ez, hz⟩ := quantize1_ok hp hpos hq.2.2
  exact ⟨⟨x, y, z⟩, by simp [quantizePt, ex, ey, ez], hx, hy, hz⟩

/-- **C38** (partial: coordinates must fit the 32-bit integer, and the claims hold up to a millionth of a step).
For every positive precision, quantising a cloud of coordinates in range succeeds; every point keeps
everything but its coordinates, and these move towards zero by at most one step, up to rounding. -/
theorem c38_quantise_partial {α : Type} [HasXYZ α] (b : Build) (ps : List α) (precision : F64)
    (hp : precision.isFinite = true) (hpos : 0 < precision.fv)
    (hin : ∀ a ∈ ps, Quantisable precision (pt a).x ∧ Quantisable precision (pt a).y ∧ Quantisable precision (pt a).z) :
    ∃ qs, quantize b ps precision = .ok qs ∧ qs.length = ps.length
      ∧ ∀ (i : Nat) (a : α), ps[i]? = some a → ∃ r, qs[i]? = some (withPt a r) ∧ OnPoint (Quantised precision) (pt a) r := by
  have hne : F64.fne precision F64.zero = true := by
    unfold fne feq
    rw [zero_fv]
    have : precision.fv ≠ 0 := by omega
    simp [this]
  have hall : ∀ a ∈ ps, ∃ c, (do
      let q ← quantizePt precision (pt a)
      (Res.ok (withPt a q) : Res α)) = .ok c := by
    intro a ha
    obtain ⟨r, er, _⟩ := quantizePt_ok hp hpos (hin a ha)
    exact ⟨withPt a r, by rw [er]; rfl⟩
  obtain ⟨qs, hqs⟩ := mapM_ok_of hall
  refine ⟨qs, ?_, mapM_length hqs, ?_⟩
  · unfold quantize
    rw [hne]
    cases b <;> simpa [require] using hqs
  · intro i a hi
    obtain ⟨c, hc2, hc1⟩ := mapM_get hqs hi
    obtain ⟨r, er, hr⟩ := quantizePt_ok hp hpos (hin a (List.mem_of_getElem? hi))
    rw [er] at hc1
    refine ⟨r, ?_, hr⟩
    rw [hc2]
    exact congrArg some (Res.ok.inj hc1).symm

example : Quantisable hundredth (num 123) ∧ hundredth.isFinite = true ∧ 0 < hundredth.fv := by
  unfold Quantisable; decide +kernel

/-- The full claim is false: a coordinate of 2^31 steps or more makes the conversion to `int` undefined. -/
theorem c38_out_of_range {p x : F64} (hp : p.isFinite = true) (hpos : 0 < p.fv) (hx : x.isFinite = true)
    (h : 2 ^ 31 * p.fv ≤ x.fv ∨ x.fv ≤ -(2 ^ 31 + 1) * p.fv) :
    quantize1 p x = .ub "double out of range of int" := by
  have hone : (0 : Int) < one1074 := by exact_mod_cast one1074_pos
  rw [quantize1_eq, if_neg]
  rintro ⟨_, t1, t2⟩
  unfold trunc at t1 t2
  rcases h with h | h
  · have := le_tdiv hone (int_le_div hp hx hpos (k := 2 ^ 31) (by norm_num) h)
    omega
  · have := tdiv_le hone (div_le_int hp hx hpos (k := -(2 ^ 31 + 1)) (by norm_num) h)
    omega

/-- A northing of 4500 km, to be quantised to a millimetre. -/
example : let p : F64 := ⟨0x3f50624dd2f1a9fc⟩
    p.isFinite = true ∧ 0 < p.fv ∧ 2 ^ 31 * p.fv ≤ (num 4500000).fv := by decide +kernel

/-- Precision zero is rejected by the library function in a debug build only; the division then gives an
infinity or NaN, whose conversion is undefined. -/
theorem c38_zero_precision (x : F64) (hx : x.isFinite = true) :
    quantize1 F64.zero x = .ub "double out of range of int" := by
  rw [quantize1_eq, if_neg]
  rintro ⟨h, _⟩
  have e1 : F64.zero.isNaN = false := by decide
  have e2 : F64.zero.isInf = false := by decide
  have e3 : F64.zero.mag = 0 := by decide
  unfold div at h
  rw [not_nan_of_finite hx, isInf_eq_false_of_finite hx, e1, e2, e3] at h
  simp only [Bool.or_self, Bool.false_eq_true, if_false, if_true] at h
  split at h
  · revert h; decide
  · rw [inf_not_finite] at h; simp at h

example : (num 5).isFinite = true := by decide +kernel

/-- The full claim is false: quantising is not idempotent.  With precision 0.01 the coordinate 0.295 becomes 0.29, and
0.29 becomes 0.28. -/
theorem c38_not_idempotent :
    quantize1 hundredth ⟨0x3fd2e147ae147ae1⟩ = .ok ⟨0x3fd28f5c28f5c28f⟩
      ∧ quantize1 hundredth ⟨0x3fd28f5c28f5c28f⟩ = .ok ⟨0x3fd1eb851eb851ec⟩ := by
  decide +kernel

/-- The full claim is false: with precision 0.01 the coordinate 0.35 moves away from zero. -/
theorem c38_away_from_zero :
    ∃ y, quantize1 hundredth ⟨0x3fd6666666666666⟩ = .ok y ∧ (⟨0x3fd6666666666666⟩ : F64).fv < y.fv :=
  ⟨⟨0x3fd6666666666667⟩, by decide +kernel⟩

/-- The full claim is false: with precision 0.01 the coordinate 0.59 moves by a full step. -/
theorem c38_full_step :
    ∃ y, quantize1 hundredth ⟨0x3fe2e147ae147ae1⟩ = .ok y
      ∧ hundredth.fv ≤ (⟨0x3fe2e147ae147ae1⟩ : F64).fv - y.fv :=
  ⟨⟨0x3fe28f5c28f5c28f⟩, by decide +kernel⟩

theorem quantize1_trunc {p x y : F64} (h : quantize1 p x = .ok y) :
    ∃ n : Int, n = (div x p).trunc ∧ -(2 ^ 31) ≤ n ∧ n < 2 ^ 31 ∧ (div x p).isFinite = true
      ∧ y = mul (ofInt n) p := by
  rw [quantize1_eq] at h
  split at h
  · rename_i hq
    exact ⟨_, rfl, hq.2.1, hq.2.2, hq.1, (Res.ok.inj h).symm⟩
  · simp at h

/-- A multiple that is represented exactly is a fixed point of quantisation. -/
theorem quantize1_fixed {p : F64} {n : Int} (hp : p.isFinite = true) (hpos : 0 < p.fv) (h1 : -(2 ^ 31) ≤ n)
    (h2 : n < 2 ^ 31) (hf : (mul (ofInt n) p).isFinite = true) (he : (mul (ofInt n) p).fv = n * p.fv) :
    quantize1 p (mul (ofInt n) p) = .ok (mul (ofInt n) p) := by
  have hn : n.natAbs < 2 ^ 53 := by omega
  have hone : (0 : Int) < one1074 := by exact_mod_cast one1074_pos
  have e1 : (div (mul (ofInt n) p) p).fv = n * one1074 := by
    apply le_antisymm
    · exact div_le_int hp hf hpos hn he.le
    · exact int_le_div hp hf hpos hn he.ge
  have e2 : (div (mul (ofInt n) p) p).trunc = n := by
    unfold trunc
    apply le_antisymm
    · exact tdiv_le hone e1.le
    · exact le_tdiv hone e1.ge
  have e3 : (div (mul (ofInt n) p) p).isFinite = true := by
    apply finite_of_fv_le (ofInt_finite hn)
    rw [e1, ofInt_fv hn]
  rw [quantize1_eq, e2, if_pos ⟨e3, h1, h2⟩]

/-- **C38**, idempotence, for precisions with at most 22 significant bits (partial: not for every precision). -/
theorem c38_idempotent_partial {p x y : F64} (hp : p.isFinite = true) (hpos : 0 < p.fv)
    (hx : x.isFinite = true) (hb : 2 * |x.fv| ≤ maxVal.fv) {m e : Nat} (hm : m < 2 ^ 22) (hpm : p.fv = m * 2 ^ e)
    (h : quantize1 p x = .ok y) : quantize1 p y = .ok y := by
  have hf := quantize1_finite hp hx hpos hb h
  obtain ⟨n, hn, h1, h2, hq, rfl⟩ := quantize1_trunc h
  apply quantize1_fixed hp hpos h1 h2 hf
  have hn' : n.natAbs < 2 ^ 53 := by omega
  rw [mul_ofInt_fv hn' hp, hpm, ← mul_assoc]
  have hM := multiple_le hp hx hpos hq
  rw [← hn] at hM
  apply rfv_dyadic maxVal_finite
  · rw [Int.natAbs_mul, Int.natAbs_natCast]
    calc n.natAbs * m ≤ 2 ^ 31 * m := Nat.mul_le_mul_right _ (by omega)
      _ < 2 ^ 53 := by omega
  · have h3 : (n * (m : Int)).natAbs * 2 ^ e = (n * p.fv).natAbs := by
      rw [hpm, ← mul_assoc, Int.natAbs_mul (n * (m : Int)) (2 ^ e), natAbs_two_pow]
    rw [h3]
    have h4 := hM.trans hb
    have h5 := le_abs_self maxVal.fv
    rw [Int.abs_eq_natAbs] at h4 h5
    omega

/-- Half a metre, and a coordinate. -/
example : let p : F64 := ⟨0x3fe0000000000000⟩
    p.isFinite = true ∧ p.fv = (1 : Nat) * 2 ^ 1073 ∧ quantize1 p (num 7) = .ok (num 7) := by decide +kernel

/-- **C38** in full, for precisions that are powers of two (partial: not for every precision): the coordinate moves
towards zero by less than a step to a multiple of the step, and quantising again changes nothing. -/
theorem c38_power_of_two_partial {p x : F64} (hp : p.isFinite = true) {j : Nat} (hj : p.fv = 2 ^ j)
    (hx : Quantisable p x) :
    ∃ y, quantize1 p x = .ok y ∧ y.fv = x.fv.tdiv p.fv * p.fv
      ∧ |y.fv| ≤ |x.fv| ∧ |x.fv - y.fv| < p.fv ∧ (0 ≤ x.fv → 0 ≤ y.fv) ∧ (x.fv ≤ 0 → y.fv ≤ 0)
      ∧ quantize1 p y = .ok y := by
  have hpos : 0 < p.fv := by rw [hj]; positivity
  obtain ⟨y, e, hq⟩ := quantize1_ok hp hpos hx
  obtain ⟨h1, h2, h3, h4⟩ := hx
  obtain ⟨n, hn, t1, t2, qf, rfl⟩ := quantize1_trunc e
  have hn' : n.natAbs < 2 ^ 53 := by omega
  have ht := trunc_pow_two hp h1 hj qf
  rw [← hn] at ht
  have hle : |n * p.fv| ≤ |x.fv| := by rw [ht]; exact tdiv_abs_mul_le _ _
  have ev : (mul (ofInt n) p).fv = n * p.fv := by
    rw [mul_ofInt_fv hn' hp, hj]
    apply rfv_dyadic h1 hn'
    rw [hj, Int.abs_eq_natAbs, Int.abs_eq_natAbs, Int.natAbs_mul, natAbs_two_pow] at hle
    omega
  refine ⟨_, e, by rw [ev, ht], by rw [ev]; exact hle, ?_, hq.2.1, hq.2.2.1, ?_⟩
  · rw [ev, ht]
    have e3 : x.fv - x.fv.tdiv p.fv * p.fv = x.fv.tmod p.fv := by
      have := Int.tmod_add_tdiv_mul x.fv p.fv
      omega
    rw [e3]
    have h5 := Int.tmod_lt_of_pos x.fv hpos
    have h6 := Int.lt_tmod_of_pos x.fv hpos
    rw [abs_lt]
    exact ⟨h6, h5⟩
  · exact quantize1_fixed hp hpos t1 t2 hq.1 ev

example : let p : F64 := ⟨0x3f90000000000000⟩
    p.isFinite = true ∧ p.fv = 2 ^ 1068 ∧ Quantisable p (num (-123)) := by
  unfold Quantisable; decide +kernel

end Spoc.Props
