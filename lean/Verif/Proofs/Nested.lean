import Verif.Proofs.Quantize
import Verif.Proofs.Accept
import Verif.Proofs.VoxelNear
import Verif.Proofs.Subsampling

/-!
# Grids whose cells are a power of two larger
-/

namespace Spoc.F64

theorem dropBits_eq {q d : Nat} (h1 : 2 ^ (52 + d) ≤ q) (h2 : q < 2 ^ (53 + d)) : dropBits q = d := by
  rcases Nat.eq_zero_or_pos d with rfl | hd
  · exact dropBits_small h2
  · have h3 : 2 ^ 53 ≤ q := le_trans (Nat.pow_le_pow_right (by norm_num) (by omega)) h1
    obtain ⟨-, a, b⟩ := dropBits_spec h3
    have x1 := (Nat.pow_lt_pow_iff_right (by norm_num : 1 < 2)).mp (lt_of_le_of_lt a h2)
    have x2 := (Nat.pow_lt_pow_iff_right (by norm_num : 1 < 2)).mp (lt_of_le_of_lt h1 b)
    omega

/-- Above the subnormal numbers the rounding of a quotient does not change if the divisor is multiplied by a power of two. -/
theorem roundRaw_scale (A k : Nat) {B : Nat} (hB : 0 < B) (h : 2 ^ 52 ≤ A / (B * 2 ^ k)) :
    fixMag (roundRaw A B) = fixMag (roundRaw A (B * 2 ^ k)) * 2 ^ k := by
  have hB' : 0 < B * 2 ^ k := Nat.mul_pos hB (by positivity)
  have e : A / (B * 2 ^ k) = A / B / 2 ^ k := (Nat.div_div_eq_div_mul _ _ _).symm
  have hd : dropBits (A / B) = dropBits (A / (B * 2 ^ k)) + k := by
    rw [e] at h ⊢
    generalize A / B = Q at *
    have hlow : 2 ^ (52 + dropBits (Q / 2 ^ k)) ≤ Q / 2 ^ k := by
      by_cases hs : Q / 2 ^ k < 2 ^ 53
      · rw [dropBits_small hs]; exact h
      · exact (dropBits_spec (Nat.not_lt.mp hs)).2.1
    have hhigh := dropBits_lt (Q / 2 ^ k)
    generalize dropBits (Q / 2 ^ k) = d at *
    apply dropBits_eq
    · rw [← Nat.add_assoc, pow_add _ _ k]
      exact (Nat.le_div_iff_mul_le (by positivity)).mp hlow
    · rw [← Nat.add_assoc, pow_add _ _ k]
      exact (Nat.div_lt_iff_lt_mul (by positivity)).mp hhigh
  rw [fixMag_roundRaw A hB, fixMag_roundRaw A hB', hd]
  generalize dropBits (A / (B * 2 ^ k)) = d
  rw [Nat.pow_add, Nat.mul_comm (2 ^ d), ← Nat.mul_assoc, ← Nat.mul_assoc, Nat.mul_right_comm _ _ (2 ^ k)]

theorem roundRaw_below (A : Nat) {B j : Nat} (hB : 0 < B) (h : A / B < 2 ^ (52 + j)) : fixMag (roundRaw A B) ≤ 2 ^ (52 + j) := by
  have e : fixMag (j * 2 ^ 52 + 2 ^ 52) = 2 ^ (52 + j) := by
    rw [fixMag_enc (by norm_num) (.inr (le_refl _)), ← pow_add]
  rw [← e, fixMag_le_iff]
  have := roundRaw_exact (j * 2 ^ 52 + 2 ^ 52) hB
  rw [← this]
  apply roundRaw_mono hB hB
  apply Nat.mul_le_mul_right
  rw [e]
  exact ((Nat.div_lt_iff_lt_mul hB).mp h).le

theorem quotient_scale (A k : Nat) {B U : Nat} (hB : 0 < B) (hU : 2 ^ 52 < U) :
    fixMag (roundRaw A (B * 2 ^ k)) / U = fixMag (roundRaw A B) / U / 2 ^ k := by
  have hB' : 0 < B * 2 ^ k := Nat.mul_pos hB (by positivity)
  have hk : 0 < 2 ^ k := by positivity
  rw [Nat.div_div_eq_div_mul]
  by_cases h : 2 ^ 52 ≤ A / (B * 2 ^ k)
  · rw [roundRaw_scale A k hB h, Nat.mul_div_mul_right _ _ hk]
  · have h := Nat.lt_of_not_le h
    have a := roundRaw_below A (j := 0) hB' h
    have b := roundRaw_below A (B := B) (j := k) hB (by
      rw [← Nat.div_div_eq_div_mul] at h
      rw [pow_add]
      exact (Nat.div_lt_iff_lt_mul hk).mp h)
    rw [Nat.div_eq_of_lt (lt_of_le_of_lt a hU), Nat.div_eq_of_lt]
    refine lt_of_le_of_lt b ?_
    rw [pow_add]
    exact Nat.mul_lt_mul_of_pos_right hU hk

/-- The integer part of the quotient by a divisor that is `2 ^ k` times as large. -/
theorem trunc_scale {x r h : F64} {k : Nat} (hx : x.isFinite = true) (hr : r.isFinite = true) (hh : h.isFinite = true) (hpos : 0 < h.fv)
    (h0 : 0 ≤ x.fv) (e : r.fv = h.fv * 2 ^ k) (hf : (div x h).isFinite = true) :
    (div x r).isFinite = true ∧ (div x r).trunc = (div x h).trunc / 2 ^ k := by
  have hposr : 0 < r.fv := by rw [e]; positivity
  have e1 := (div_fv hx hh hpos).1
  have e2 := (div_fv hx hr hposr).1
  have hn : r.fv.natAbs = h.fv.natAbs * 2 ^ k := by rw [e, Int.natAbs_mul, natAbs_two_pow]
  have hB : 0 < h.fv.natAbs := by omega
  have hB' : 0 < h.fv.natAbs * 2 ^ k := Nat.mul_pos hB (by positivity)
  rw [hn] at e2
  have hA : 0 ≤ x.fv * (one1074 : Int) := mul_nonneg h0 (Int.natCast_nonneg _)
  have hle : rfv (x.fv * one1074) (h.fv.natAbs * 2 ^ k) ≤ rfv (x.fv * one1074) h.fv.natAbs := by
    apply rfv_mono hB' hB
    apply mul_le_mul_of_nonneg_left _ hA
    exact_mod_cast Nat.le_mul_of_pos_right _ (by positivity)
  have hf' : (div x r).isFinite = true := by
    refine finite_of_fv_le hf ?_
    rw [e1, e2]
    have := rfv_nonneg (A := x.fv * one1074) (B := h.fv.natAbs * 2 ^ k) hA
    omega
  refine ⟨hf', ?_⟩
  have r1 := roundMag_eq_raw (roundMag_of_finite e1 hf)
  have r2 := roundMag_eq_raw (roundMag_of_finite e2 hf')
  unfold trunc
  rw [e1, e2]
  unfold rfv
  rw [if_neg (not_lt.mpr hA), if_neg (not_lt.mpr hA), r1, r2]
  generalize (x.fv * (one1074 : Int)).natAbs = A at *
  generalize h.fv.natAbs = B at *
  have hU : 2 ^ 52 < one1074 := lt_of_lt_of_le (by norm_num) (le_one1074 53 (by norm_num))
  have key := quotient_scale A k hB hU
  rw [← Int.ofNat_tdiv, ← Int.ofNat_tdiv, key, Int.natCast_ediv, Nat.cast_pow, Nat.cast_two]

end Spoc.F64

namespace Spoc.Subsampling

/-- A coarser relation keeps part of what a finer one keeps. -/
theorem dedupe_coarser {fine coarse : Nat → Nat → Bool} (himp : ∀ i j, fine i j = true → coarse i j = true)
    (htrans : ∀ i j k, coarse i j = true → coarse j k = true → coarse i k = true) (l : List Nat) :
    (dedupe coarse l []).Sublist (dedupe fine l []) := by
  induction l using List.reverseRecOn with
  | nil => exact List.Sublist.refl _
  | append_singleton l x ih =>
    rw [dedupe_concat, dedupe_concat]
    by_cases h2 : (dedupe fine l []).any (fun i => fine i x) = true
    · obtain ⟨i, hi, hix⟩ := List.any_eq_true.mp h2
      have h1 : (dedupe coarse l []).any (fun i => coarse i x) = true := by
        rw [List.any_eq_true]
        rcases dedupe_covers (dup := coarse) l ((dedupe_sublist l).subset hi) with h | ⟨j, hj, hji⟩
        · exact ⟨i, h, himp i x hix⟩
        · exact ⟨j, hj, htrans j i x hji (himp i x hix)⟩
      rw [if_pos h1, if_pos h2]
      exact ih
    · rw [if_neg h2]
      split
      · exact ih.trans (List.sublist_append_left _ _)
      · exact ih.append (List.Sublist.refl _)

end Spoc.Subsampling
