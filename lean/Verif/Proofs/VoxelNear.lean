import Verif.Proofs.Voxel

/-!
# Relative rounding errors and neighbouring voxels
-/

namespace Spoc

namespace F64

/-- Relative error of rounding, outside the subnormal range or for integers. -/
theorem roundRaw_rel (A : Nat) {B : Nat} (hB : 0 < B) (h : B = 1 ∨ 2 ^ 52 * B ≤ A) :
    2 ^ 53 * (fixMag (roundRaw A B) * B) ≤ (2 ^ 53 + 1) * A
      ∧ (2 ^ 53 - 1) * A ≤ 2 ^ 53 * (fixMag (roundRaw A B) * B) := by
  rw [fixMag_roundRaw A hB]
  set k := dropBits (A / B) with hk
  have hpos : 0 < B * 2 ^ k := by positivity
  obtain ⟨d1, d2, _⟩ := divHE_spec A hpos
  set d := divHE A (B * 2 ^ k) with hd
  have e : d * 2 ^ k * B = d * (B * 2 ^ k) := by ring
  rw [e]
  by_cases hq : 2 ^ 52 * (B * 2 ^ k) ≤ A
  · constructor <;> omega
  · -- only possible without dropped bits and B = 1
    have hk0 : k = 0 := by
      by_contra hne
      have hge : 2 ^ 53 ≤ A / B := by
        by_contra hlt
        exact hne (by rw [hk, dropBits_small (by omega)])
      have := (dropBits_spec hge).2.1
      rw [← hk] at this
      apply hq
      calc 2 ^ 52 * (B * 2 ^ k) = 2 ^ (52 + k) * B := by rw [pow_add]; ring
        _ ≤ A / B * B := Nat.mul_le_mul_right _ this
        _ ≤ A := Nat.div_mul_le_self _ _
    rw [hk0] at hq d1 d2 hd ⊢
    simp only [pow_zero, Nat.mul_one] at hq d1 d2 hd ⊢
    rcases h with rfl | h
    · have : divHE (A * 1) 1 = A := divHE_mul A (by norm_num)
      rw [Nat.mul_one] at this
      rw [hd, this]
      omega
    · exact absurd h hq

theorem roundMag_le_raw (A B : Nat) : fixMag (roundMag A B) ≤ fixMag (roundRaw A B) := by
  rw [roundMag_eq]; exact fixMag_le_iff.mpr (min_le_left _ _)

theorem roundMag_eq_raw {A B : Nat} (h : roundMag A B < infMag) : roundMag A B = roundRaw A B := by
  rw [roundMag_eq] at h ⊢; omega

theorem rfv_of_nonneg {A : Int} (hA : 0 ≤ A) (B : Nat) : rfv A B = (fixMag (roundMag A.natAbs B) : Int) := by
  unfold rfv; rw [if_neg (by omega)]

/-- Subtraction of a smaller number, upper bound. -/
theorem sub_upper {p m : F64} (hp : p.isFinite = true) (hm : m.isFinite = true) (h : m.fv ≤ p.fv) :
    2 ^ 53 * (sub p m).fv ≤ (2 ^ 53 + 1) * (p.fv - m.fv) := by
  rw [sub_fv hp hm, rfv_of_nonneg (by omega)]
  have h1 := (roundRaw_rel (p.fv - m.fv).natAbs (B := 1) (by norm_num) (Or.inl rfl)).1
  have h2 := roundMag_le_raw (p.fv - m.fv).natAbs 1
  omega

/-- Subtraction of a smaller number, lower bound; without overflow. -/
theorem sub_lower {p m : F64} (hp : p.isFinite = true) (hm : m.isFinite = true) (h : m.fv ≤ p.fv)
    (hf : (sub p m).isFinite = true) : (2 ^ 53 - 1) * (p.fv - m.fv) ≤ 2 ^ 53 * (sub p m).fv := by
  have hfv := sub_fv hp hm
  rw [rfv_of_nonneg (by omega)] at hfv
  have h1 := (roundRaw_rel (p.fv - m.fv).natAbs (B := 1) (by norm_num) (Or.inl rfl)).2
  have h2 : roundMag (p.fv - m.fv).natAbs 1 < infMag := by
    have h3 := isFinite_iff.mp hf
    rw [← fixMag_lt_iff] at h3 ⊢
    rw [← fv_natAbs] at h3
    omega
  rw [roundMag_eq_raw h2] at hfv
  rw [hfv]
  omega

/-- Division of a non-negative number by a positive number, if the quotient is at least 1: upper bound. -/
theorem div_upper {x r : F64} (hx : x.isFinite = true) (hr : r.isFinite = true) (hpos : 0 < r.fv)
    (h : r.fv ≤ x.fv) : 2 ^ 53 * ((div x r).fv * r.fv) ≤ (2 ^ 53 + 1) * (x.fv * one1074) := by
  obtain ⟨e, _⟩ := div_fv hx hr hpos
  have hone : (2 ^ 52 : Int) ≤ one1074 := by decide +kernel
  have hA : 0 ≤ x.fv * (one1074 : Int) := mul_nonneg (by omega) (Int.natCast_nonneg _)
  rw [e, rfv_of_nonneg hA]
  have hB : 0 < r.fv.natAbs := by omega
  have hc : 2 ^ 52 * r.fv.natAbs ≤ (x.fv * (one1074 : Int)).natAbs := by
    have : 2 ^ 52 * r.fv ≤ x.fv * one1074 := by nlinarith
    omega
  have h1 := (roundRaw_rel (x.fv * (one1074 : Int)).natAbs hB (Or.inr hc)).1
  have h2 := roundMag_le_raw (x.fv * (one1074 : Int)).natAbs r.fv.natAbs
  have h3 := Nat.mul_le_mul_right r.fv.natAbs h2
  have h4 : (r.fv.natAbs : Int) = r.fv := by omega
  have h5 : ((x.fv * (one1074 : Int)).natAbs : Int) = x.fv * one1074 := by omega
  have h6 : (2 ^ 53 * (fixMag (roundMag (x.fv * (one1074 : Int)).natAbs r.fv.natAbs) * r.fv.natAbs) : Int)
      ≤ (2 ^ 53 + 1) * ((x.fv * (one1074 : Int)).natAbs : Int) := by
    have : 2 ^ 53 * (fixMag (roundMag (x.fv * (one1074 : Int)).natAbs r.fv.natAbs) * r.fv.natAbs)
        ≤ (2 ^ 53 + 1) * (x.fv * (one1074 : Int)).natAbs := by omega
    exact_mod_cast this
  rw [h4, h5] at h6
  exact h6

/-- Division of a non-negative number by a positive number, if the quotient is at least 1: lower bound. -/
theorem div_lower {x r : F64} (hx : x.isFinite = true) (hr : r.isFinite = true) (hpos : 0 < r.fv)
    (h : r.fv ≤ x.fv) (hf : (div x r).isFinite = true) :
    (2 ^ 53 - 1) * (x.fv * one1074) ≤ 2 ^ 53 * ((div x r).fv * r.fv) := by
  obtain ⟨e, _⟩ := div_fv hx hr hpos
  have hone : (2 ^ 52 : Int) ≤ one1074 := by decide +kernel
  have hA : 0 ≤ x.fv * (one1074 : Int) := mul_nonneg (by omega) (Int.natCast_nonneg _)
  rw [rfv_of_nonneg hA] at e
  have hB : 0 < r.fv.natAbs := by omega
  have hc : 2 ^ 52 * r.fv.natAbs ≤ (x.fv * (one1074 : Int)).natAbs := by
    have : 2 ^ 52 * r.fv ≤ x.fv * one1074 := by nlinarith
    omega
  have h1 := (roundRaw_rel (x.fv * (one1074 : Int)).natAbs hB (Or.inr hc)).2
  have h2 : roundMag (x.fv * (one1074 : Int)).natAbs r.fv.natAbs < infMag := by
    have h3 := isFinite_iff.mp hf
    rw [← fixMag_lt_iff] at h3 ⊢
    rw [← fv_natAbs] at h3
    omega
  rw [roundMag_eq_raw h2] at e
  rw [e]
  have h4 : (r.fv.natAbs : Int) = r.fv := by omega
  have h5 : ((x.fv * (one1074 : Int)).natAbs : Int) = x.fv * one1074 := by omega
  have h6 : ((2 ^ 53 - 1) * ((x.fv * (one1074 : Int)).natAbs : Int))
      ≤ (2 ^ 53 * (fixMag (roundRaw (x.fv * (one1074 : Int)).natAbs r.fv.natAbs) * r.fv.natAbs) : Int) := by
    have h7 : (2 ^ 53 - 1) * (x.fv * (one1074 : Int)).natAbs
        ≤ 2 ^ 53 * (fixMag (roundRaw (x.fv * (one1074 : Int)).natAbs r.fv.natAbs) * r.fv.natAbs) := h1
    have h8 : ((2 ^ 53 - 1 : Nat) : Int) = 2 ^ 53 - 1 := by norm_num
    calc ((2 ^ 53 - 1) * ((x.fv * (one1074 : Int)).natAbs : Int))
        = (((2 ^ 53 - 1) * (x.fv * (one1074 : Int)).natAbs : Nat) : Int) := by
          rw [Nat.cast_mul, h8]
      _ ≤ _ := by exact_mod_cast h7
  rw [h4, h5] at h6
  exact h6

end F64

namespace Voxel

open F64

theorem near_arith {d e K E G R : Int} (hA : (K + 2 * R) * 2 ^ 53 ≤ (2 ^ 53 + 1) * d)
    (hB : (2 ^ 53 - 1) * e < (K + R) * 2 ^ 53) (dU : 2 ^ 53 * d ≤ (2 ^ 53 + 1) * (E + G))
    (eL : (2 ^ 53 - 1) * E ≤ 2 ^ 53 * e) (hK : K ≤ 2 ^ 31 * R)
    (hG : 2 ^ 19 * G ≤ (2 ^ 19 - 1) * R) (hE : 0 ≤ E) : False := by
  omega

/-- Two coordinates that differ by at most (1 - 2^-19) of the resolution get indexes that differ by at most 1, as
long as the indexes stay below 2^31. -/
theorem index_near {p q m r : F64} (hp : p.isFinite = true) (hq : q.isFinite = true) (hm : m.isFinite = true)
    (hr : r.isFinite = true) (hpos : 0 < r.fv) (hmp : m.fv ≤ p.fv) (hpq : p.fv ≤ q.fv)
    (hnear : 2 ^ 19 * (q.fv - p.fv) ≤ (2 ^ 19 - 1) * r.fv) {u v : UInt64}
    (hu : index1 p m r = .ok u) (hv : index1 q m r = .ok v) (hsmall : u.toNat < 2 ^ 31) :
    v.toNat ≤ u.toNat + 1 := by
  by_contra hc
  have hc' : u.toNat + 2 ≤ v.toNat := by omega
  have tu := toU64_toNat hu
  have tv := toU64_toNat hv
  have hfin : ∀ {x : F64} {w : UInt64}, x.toU64 = .ok w → x.isFinite = true := by
    intro x w hx; unfold toU64 at hx
    by_contra hn
    rw [if_neg hn] at hx; simp at hx
  have fu := hfin hu
  have fv' := hfin hv
  obtain ⟨nP, zP⟩ := quot_spec hp hm hr hpos hmp
  obtain ⟨nQ, zQ⟩ := quot_spec hq hm hr hpos (hmp.trans hpq)
  have hone : (0 : Int) < one1074 := by exact_mod_cast one1074_pos
  -- the differences are finite
  have hsfin : ∀ {x : F64}, x.isFinite = true → (div (sub x m) r).isFinite = true → (sub x m).isFinite = true := by
    intro x hx hd
    by_contra hn
    rw [eq_inf_of_not_finite (sub_not_nan hx hm) (by simpa using hn), div_inf _ hr hpos, inf_not_finite] at hd
    simp at hd
  have su := hsfin hp fu
  have sv := hsfin hq fv'
  set P := (div (sub p m) r).fv with hP
  set Q := (div (sub q m) r).fv with hQ
  -- truncation
  have hPk : P < (u.toNat + 1) * one1074 := by
    rw [tu]; unfold trunc
    rw [Int.tdiv_eq_ediv_of_nonneg zP]
    have := Int.lt_ediv_add_one_mul_self P hone
    exact this
  have hQk : ((u.toNat : Int) + 2) * one1074 ≤ Q := by
    have h1 : (v.toNat : Int) * one1074 ≤ Q := by
      rw [tv]; unfold trunc
      rw [Int.tdiv_eq_ediv_of_nonneg zQ]
      exact Int.ediv_mul_le _ (by omega)
    have h2 : ((u.toNat : Int) + 2) ≤ v.toNat := by omega
    exact (mul_le_mul_of_nonneg_right h2 hone.le).trans h1
  set k : Int := (u.toNat : Int) with hk
  have hk0 : 0 ≤ k := by omega
  have hk31 : k < 2 ^ 31 := by omega
  set d := (sub q m).fv with hd
  set e := (sub p m).fv with he
  have d0 : 0 ≤ d := by rw [hd, sub_fv hq hm]; exact rfv_nonneg (by omega)
  have e0 : 0 ≤ e := by rw [he, sub_fv hp hm]; exact rfv_nonneg (by omega)
  have dU := sub_upper hq hm (hmp.trans hpq)
  have eL := sub_lower hp hm hmp su
  rw [← hd] at dU
  rw [← he] at eL
  set R := r.fv with hR
  -- the larger one
  have hd1 : R ≤ d := by
    by_contra hlt
    have hlt' : d < R := by omega
    have : Q ≤ one1074 := by
      rw [hQ]
      have h1 := div_mono (x := sub q m) (y := r) (not_nan_of_finite sv) (not_nan_of_finite hr) hr hpos (by omega)
      have h2 : (div r r).fv = one1074 := by
        rw [(div_fv hr hr hpos).1]
        have h3 := rfv_exact (x := one) (by decide) (B := r.fv.natAbs) (by omega)
        rw [one_fv] at h3
        rw [← h3]
        congr 1
        rw [mul_comm]
        congr 1
        omega
      omega
    nlinarith
  have Qu := div_upper sv hr hpos hd1
  have hA : (k + 2) * R * 2 ^ 53 ≤ (2 ^ 53 + 1) * d := by
    have h1 : 2 ^ 53 * ((k + 2) * one1074 * R) ≤ 2 ^ 53 * (Q * R) := by
      have := mul_le_mul_of_nonneg_right hQk hpos.le
      linarith
    have h2 : one1074 * ((k + 2) * R * 2 ^ 53) ≤ one1074 * ((2 ^ 53 + 1) * d) := by
      calc (one1074 : Int) * ((k + 2) * R * 2 ^ 53) = 2 ^ 53 * ((k + 2) * one1074 * R) := by ring
        _ ≤ 2 ^ 53 * (Q * R) := h1
        _ ≤ (2 ^ 53 + 1) * (d * one1074) := Qu
        _ = one1074 * ((2 ^ 53 + 1) * d) := by ring
    exact le_of_mul_le_mul_left h2 hone
  -- the smaller one
  have hB : (2 ^ 53 - 1) * e < (k + 1) * R * 2 ^ 53 := by
    by_cases he1 : R ≤ e
    · have Pl := div_lower su hr hpos he1 fu
      have h1 : 2 ^ 53 * (P * R) < 2 ^ 53 * ((k + 1) * one1074 * R) := by
        have := mul_lt_mul_of_pos_right hPk hpos
        linarith
      have h2 : one1074 * ((2 ^ 53 - 1) * e) < one1074 * ((k + 1) * R * 2 ^ 53) := by
        calc (one1074 : Int) * ((2 ^ 53 - 1) * e) = (2 ^ 53 - 1) * (e * one1074) := by ring
          _ ≤ 2 ^ 53 * (P * R) := Pl
          _ < 2 ^ 53 * ((k + 1) * one1074 * R) := h1
          _ = one1074 * ((k + 1) * R * 2 ^ 53) := by ring
      exact lt_of_mul_lt_mul_left h2 hone.le
    · have : e < R := by omega
      have : R ≤ (k + 1) * R := by nlinarith
      nlinarith
  -- everything is linear in `k * R`
  have hKR : k * R ≤ 2 ^ 31 * R := mul_le_mul_of_nonneg_right hk31.le hpos.le
  have e1 : (k + 2) * R = k * R + 2 * R := by ring
  have e2 : (k + 1) * R = k * R + R := by ring
  rw [e1] at hA
  rw [e2] at hB
  have hq' : q.fv - m.fv = (p.fv - m.fv) + (q.fv - p.fv) := by ring
  rw [hq'] at dU
  exact near_arith hA hB dU eL hKR hnear (by omega)

end Voxel

end Spoc
