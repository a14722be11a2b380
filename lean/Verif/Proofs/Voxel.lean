import Verif.Model.Voxel
import Verif.Proofs.Geometry
import Verif.Proofs.ResList

/-!
# Helper lemmas for voxel indexes
-/

namespace Spoc

namespace F64

/-- 2^64 -/
def two64 : F64 := ⟨0x43F0000000000000⟩

theorem two64_fv : two64.fv = 2 ^ 64 * (one1074 : Int) := by decide +kernel
theorem two64_finite : two64.isFinite = true := by decide +kernel

theorem inf_fv (s : Bool) : (inf s).fv = if s then -(fixMag infMag : Int) else (fixMag infMag : Int) := by
  unfold fv inf; rw [neg_mk' _ infMag_lt, mag_mk' _ infMag_lt]

theorem inf_not_nan (s : Bool) : (inf s).isNaN = false := by cases s <;> decide +kernel
theorem inf_not_finite (s : Bool) : (inf s).isFinite = false := by cases s <;> decide +kernel

theorem fv_bounds {x : F64} (h : x.isNaN = false) :
    x.fv ≤ (fixMag infMag : Int) ∧ -(fixMag infMag : Int) ≤ x.fv := by
  have h1 := isNaN_eq_false.mp h
  have h2 : fixMag x.mag ≤ fixMag infMag := fixMag_le_iff.mpr h1
  have h3 := fv_natAbs x
  omega

theorem eq_inf_of_not_finite {x : F64} (h : x.isNaN = false) (hf : x.isFinite = false) : x = inf x.neg := by
  have h1 := isNaN_eq_false.mp h
  have h2 : x.mag = infMag := by
    have : ¬ x.mag < infMag := by simpa [isFinite] using hf
    omega
  rw [ext_iff']
  unfold inf
  rw [neg_mk' _ infMag_lt, mag_mk' _ infMag_lt]
  exact ⟨rfl, h2⟩

theorem inf_isInf (s : Bool) : (inf s).isInf = true := by cases s <;> decide +kernel

theorem div_inf (s : Bool) {r : F64} (hr : r.isFinite = true) (hpos : 0 < r.fv) : div (inf s) r = inf s := by
  have := (fv_pos.mp hpos).1
  have hneg : (inf s).neg = s := by unfold inf; rw [neg_mk' _ infMag_lt]
  simp [div, inf_not_nan, not_nan_of_finite hr, inf_isInf, isInf_eq_false_of_finite hr, this, hneg]

/-- Division by a positive finite number is monotone, also for infinite dividends. -/
theorem div_mono {x y r : F64} (hx : x.isNaN = false) (hy : y.isNaN = false) (hr : r.isFinite = true)
    (hpos : 0 < r.fv) (h : x.fv ≤ y.fv) : (div x r).fv ≤ (div y r).fv := by
  have hB : 0 < r.fv.natAbs := by omega
  by_cases fx : x.isFinite = true
  · by_cases fy : y.isFinite = true
    · rw [(div_fv fx hr hpos).1, (div_fv fy hr hpos).1]
      apply rfv_mono hB hB
      have h1 : (0 : Int) ≤ one1074 := Int.natCast_nonneg _
      have h2 : (0 : Int) ≤ (r.fv.natAbs : Int) := Int.natCast_nonneg _
      exact mul_le_mul_of_nonneg_right (mul_le_mul_of_nonneg_right h h1) h2
    · have e := eq_inf_of_not_finite hy (by simpa using fy)
      cases hs : y.neg
      · rw [hs] at e
        rw [e, div_inf _ hr hpos, inf_fv]
        exact (fv_bounds (div_fv fx hr hpos).2).1
      · rw [hs] at e
        have := (finite_fv_lt fx).2
        rw [← e] at this
        omega
  · have e := eq_inf_of_not_finite hx (by simpa using fx)
    have hyd : (div y r).isNaN = false := by
      by_cases fy : y.isFinite = true
      · exact (div_fv fy hr hpos).2
      · rw [eq_inf_of_not_finite hy (by simpa using fy), div_inf _ hr hpos]; exact inf_not_nan _
    cases hs : x.neg
    · rw [hs] at e
      have hy2 : y.isFinite = false := by
        by_contra hc
        have := (finite_fv_lt (x := y) (by simpa using hc)).1
        rw [← e] at this
        omega
      have e2 := eq_inf_of_not_finite hy hy2
      have e3 : y.neg = false := by
        cases hs2 : y.neg
        · rfl
        · rw [hs2] at e2
          rw [e, e2, inf_fv, inf_fv] at h
          have : 0 < fixMag infMag := Nat.pos_of_ne_zero (fun e => by
            have := fixMag_eq_zero.mp e; revert this; decide)
          simp at h; omega
      rw [e, e2, e3]
    · rw [hs] at e
      rw [e, div_inf _ hr hpos, inf_fv]
      exact (fv_bounds hyd).2

theorem div_not_nan {x r : F64} (hx : x.isNaN = false) (hr : r.isFinite = true) (hpos : 0 < r.fv) :
    (div x r).isNaN = false := by
  by_cases fx : x.isFinite = true
  · exact (div_fv fx hr hpos).2
  · rw [eq_inf_of_not_finite hx (by simpa using fx), div_inf _ hr hpos]; exact inf_not_nan _

theorem div_zero_fv {x r : F64} (hx : x.fv = 0) (hf : x.isFinite = true) (hr : r.isFinite = true) (hpos : 0 < r.fv) :
    (div x r).fv = 0 := by
  rw [(div_fv hf hr hpos).1, hx, Int.zero_mul, rfv_zero (by omega)]

theorem finite_of_fv_zero {x : F64} (h : x.fv = 0) : x.isFinite = true := by
  rw [isFinite_iff, fv_eq_zero.mp h]; decide

/-- When the conversion to `size_t` is defined, and its value. -/
theorem toU64_spec {x : F64} (hx : x.isNaN = false) (h0 : 0 ≤ x.fv) :
    (x.toU64 = .ok (UInt64.ofNat x.trunc.toNat) ∧ x.trunc < 2 ^ 64 ∧ lt x two64 = true)
      ∨ (x.toU64 = .ub "double out of range of uint64_t" ∧ lt x two64 = false) := by
  have hone : (0 : Int) < one1074 := by exact_mod_cast one1074_pos
  by_cases hl : lt x two64 = true
  · left
    have h1 := (lt_iff.mp hl).2.2
    have hfin : x.isFinite = true := by
      by_contra hc
      have e := eq_inf_of_not_finite hx (by simpa using hc)
      have h2 := (finite_fv_lt two64_finite).1
      cases hs : x.neg
      · rw [hs] at e; rw [← e] at h2; omega
      · rw [hs] at e
        have h3 := (finite_fv_lt (x := zero) (by decide)).2
        rw [← e, zero_fv] at h3; omega
    have ht : x.trunc < 2 ^ 64 := by
      unfold trunc
      rw [Int.tdiv_eq_ediv_of_nonneg h0]
      rw [two64_fv] at h1
      exact Int.ediv_lt_of_lt_mul hone h1
    refine ⟨?_, ht, hl⟩
    unfold toU64
    rw [if_pos hfin, if_pos ⟨trunc_nonneg h0, ht⟩]
  · right
    have hl' : lt x two64 = false := by simpa using hl
    refine ⟨?_, hl'⟩
    have h1 := (lt_eq_false hx (not_nan_of_finite two64_finite)).mp hl'
    unfold toU64
    split
    · rw [if_neg]
      rintro ⟨_, h2⟩
      unfold trunc at h2
      rw [Int.tdiv_eq_ediv_of_nonneg h0] at h2
      rw [two64_fv] at h1
      have := Int.le_ediv_of_mul_le hone h1
      omega
    · rfl

theorem toU64_toNat {x : F64} {u : UInt64} (h : x.toU64 = .ok u) : (u.toNat : Int) = x.trunc := by
  unfold toU64 at h
  split at h
  · split at h
    · rename_i h2
      have e := Res.ok.inj h
      rw [← e, UInt64.toNat_ofNat', Nat.mod_eq_of_lt (by omega)]
      omega
    · simp at h
  · simp at h

end F64

namespace Voxel

open F64

/-- What is needed to talk about the quotient of `get_voxel_index` in one coordinate. -/
theorem quot_spec {p m r : F64} (hp : p.isFinite = true) (hm : m.isFinite = true) (hr : r.isFinite = true)
    (hpos : 0 < r.fv) (h : m.fv ≤ p.fv) :
    (div (sub p m) r).isNaN = false ∧ 0 ≤ (div (sub p m) r).fv := by
  have hs := sub_not_nan hp hm
  have h0 : 0 ≤ (sub p m).fv := by rw [sub_fv hp hm]; exact rfv_nonneg (by omega)
  refine ⟨div_not_nan hs hr hpos, ?_⟩
  have := div_mono (x := zero) (y := sub p m) (by decide) hs hr hpos (by rw [zero_fv]; exact h0)
  rwa [div_zero_fv zero_fv (by decide) hr hpos] at this

theorem quot_mono {p q m r : F64} (hp : p.isFinite = true) (hq : q.isFinite = true) (hm : m.isFinite = true)
    (hr : r.isFinite = true) (hpos : 0 < r.fv) (h : p.fv ≤ q.fv) :
    (div (sub p m) r).fv ≤ (div (sub q m) r).fv := by
  apply div_mono (sub_not_nan hp hm) (sub_not_nan hq hm) hr hpos
  rw [sub_fv hp hm, sub_fv hq hm]
  exact rfv_mono (by norm_num) (by norm_num) (by omega)

end Voxel

end Spoc
