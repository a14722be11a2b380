import Verif.Proofs.F64Round

/-!
# Doubles: patterns, comparison, monotone arithmetic
-/

namespace Spoc.F64

theorem infMag_lt : infMag < 2 ^ 63 := by decide

theorem mag_lt (x : F64) : x.mag < 2 ^ 63 := Nat.mod_lt _ (by norm_num)

theorem mag_mk' (s : Bool) {m : Nat} (h : m < 2 ^ 63) : (mk' s m).mag = m := by
  unfold mk' mag
  cases s <;> simp [UInt64.toNat_ofNat'] <;> omega

theorem neg_mk' (s : Bool) {m : Nat} (h : m < 2 ^ 63) : (mk' s m).neg = s := by
  unfold mk' neg
  cases s <;> simp [UInt64.toNat_ofNat'] <;> omega

theorem mk'_eta (x : F64) : mk' x.neg x.mag = x := by
  obtain ⟨b⟩ := x
  unfold mk' neg mag
  congr 1
  apply UInt64.toNat_inj.mp
  have := b.toNat_lt
  rw [UInt64.toNat_ofNat']
  simp only [decide_eq_true_eq]
  split <;> omega

theorem ext_iff' {x y : F64} : x = y ↔ x.neg = y.neg ∧ x.mag = y.mag := by
  constructor
  · rintro rfl; simp
  · rintro ⟨h1, h2⟩; rw [← mk'_eta x, ← mk'_eta y, h1, h2]

theorem isNaN_eq_false {x : F64} : x.isNaN = false ↔ x.mag ≤ infMag := by
  simp [isNaN]

theorem isFinite_iff {x : F64} : x.isFinite = true ↔ x.mag < infMag := by
  simp [isFinite]

theorem not_nan_of_finite {x : F64} (h : x.isFinite = true) : x.isNaN = false := by
  rw [isNaN_eq_false]; exact (isFinite_iff.mp h).le

theorem isInf_eq_false_of_finite {x : F64} (h : x.isFinite = true) : x.isInf = false := by
  have := isFinite_iff.mp h
  simp [isInf]; omega

/-! ## comparison -/

theorem lt_iff {x y : F64} : lt x y = true ↔ x.isNaN = false ∧ y.isNaN = false ∧ x.fv < y.fv := by
  simp [lt, and_assoc]

theorem le_iff {x y : F64} : le x y = true ↔ x.isNaN = false ∧ y.isNaN = false ∧ x.fv ≤ y.fv := by
  simp [le, and_assoc]

theorem feq_iff {x y : F64} : feq x y = true ↔ x.isNaN = false ∧ y.isNaN = false ∧ x.fv = y.fv := by
  simp [feq, and_assoc]

theorem lt_eq_false {x y : F64} (hx : x.isNaN = false) (hy : y.isNaN = false) :
    lt x y = false ↔ y.fv ≤ x.fv := by
  simp [lt, hx, hy]

theorem fv_eq_zero {x : F64} : x.fv = 0 ↔ x.mag = 0 := by
  unfold fv
  split <;> simp [fixMag_eq_zero]

/-- Two non-NaN doubles with the same value have the same pattern unless they are zeros. -/
theorem eq_of_fv_eq {x y : F64} (h : x.fv = y.fv) (h0 : x.fv ≠ 0) : x = y := by
  have hx0 : x.mag ≠ 0 := fun h' => h0 (fv_eq_zero.mpr h')
  have hy0 : y.mag ≠ 0 := fun h' => h0 (by rw [h]; exact fv_eq_zero.mpr h')
  have px : 0 < fixMag x.mag := Nat.pos_of_ne_zero (fun e => hx0 (fixMag_eq_zero.mp e))
  have py : 0 < fixMag y.mag := Nat.pos_of_ne_zero (fun e => hy0 (fixMag_eq_zero.mp e))
  rw [ext_iff']
  unfold fv at h
  cases hx : x.neg <;> cases hy : y.neg <;> simp only [hx, hy] at h ⊢
  · simp at h; exact ⟨trivial, fixMag_inj.mp h⟩
  · simp at h; omega
  · simp at h; omega
  · simp at h; exact ⟨trivial, fixMag_inj.mp h⟩

/-! ## rounding of signed exact values -/

/-- Value of the double nearest to `A / B` units. -/
def rfv (A : Int) (B : Nat) : Int :=
  if A < 0 then - (fixMag (roundMag A.natAbs B) : Int) else (fixMag (roundMag A.natAbs B) : Int)

theorem roundMag_lt63 (A B : Nat) : roundMag A B < 2 ^ 63 :=
  lt_of_le_of_lt (roundMag_le A B) infMag_lt

theorem rnd_fv (z : Bool) (A : Int) {B : Nat} (hB : 0 < B) : (rnd z A B).fv = rfv A B := by
  unfold rnd
  split
  · next h =>
    subst h
    simp [rfv, fv, mag_mk', roundMag_zero hB]
  · next h =>
    have hm := roundMag_lt63 A.natAbs B
    unfold rfv fv
    rw [mag_mk' _ hm, neg_mk' _ hm]
    simp

theorem rnd_not_nan (z : Bool) (A : Int) (B : Nat) : (rnd z A B).isNaN = false := by
  rw [isNaN_eq_false]
  unfold rnd
  split
  · rw [mag_mk' _ (by norm_num)]; exact Nat.zero_le _
  · rw [mag_mk' _ (roundMag_lt63 _ _)]; exact roundMag_le _ _

theorem natAbs_mul_le {a b : Int} (ha : 0 ≤ a) (h : a ≤ b) : a.natAbs ≤ b.natAbs := by omega

theorem rfv_mono {A1 A2 : Int} {B1 B2 : Nat} (h1 : 0 < B1) (h2 : 0 < B2)
    (h : A1 * B2 ≤ A2 * B1) : rfv A1 B1 ≤ rfv A2 B2 := by
  unfold rfv
  have p1 : (0 : Int) < B1 := by exact_mod_cast h1
  have p2 : (0 : Int) < B2 := by exact_mod_cast h2
  by_cases n1 : A1 < 0 <;> by_cases n2 : A2 < 0
  · rw [if_pos n1, if_pos n2]
    apply Int.neg_le_neg
    have : A2.natAbs * B1 ≤ A1.natAbs * B2 := by
      have e1 : (A1.natAbs : Int) = -A1 := by omega
      have e2 : (A2.natAbs : Int) = -A2 := by omega
      zify; rw [← Int.natCast_natAbs, ← Int.natCast_natAbs, e1, e2]; linarith
    exact_mod_cast fixMag_le_iff.mpr (roundMag_mono h2 h1 this)
  · rw [if_pos n1, if_neg n2]
    have : (0 : Int) ≤ fixMag (roundMag A1.natAbs B1) := Int.natCast_nonneg _
    have : (0 : Int) ≤ fixMag (roundMag A2.natAbs B2) := Int.natCast_nonneg _
    omega
  · exfalso
    push Not at n1
    have : A2 * B1 < 0 := mul_neg_of_neg_of_pos n2 p1
    have : 0 ≤ A1 * B2 := mul_nonneg n1 p2.le
    omega
  · rw [if_neg n1, if_neg n2]
    push Not at n1 n2
    have : A1.natAbs * B2 ≤ A2.natAbs * B1 := by
      have e1 : (A1.natAbs : Int) = A1 := by omega
      have e2 : (A2.natAbs : Int) = A2 := by omega
      zify; rw [← Int.natCast_natAbs, ← Int.natCast_natAbs, e1, e2]; exact h
    exact_mod_cast fixMag_le_iff.mpr (roundMag_mono h1 h2 this)

theorem rfv_exact {x : F64} (hx : x.isNaN = false) {B : Nat} (hB : 0 < B) :
    rfv (x.fv * B) B = x.fv := by
  have pB : (0 : Int) < B := by exact_mod_cast hB
  have hm := isNaN_eq_false.mp hx
  unfold rfv
  have habs : (x.fv * B).natAbs = fixMag x.mag * B := by
    rw [Int.natAbs_mul]
    congr 1
    unfold fv; split <;> simp
  rw [habs, roundMag_exact hB hm]
  unfold fv
  cases hs : x.neg
  · simp only [Bool.false_eq_true, if_false]
    rw [if_neg]
    have : (0 : Int) ≤ fixMag x.mag := Int.natCast_nonneg _
    nlinarith
  · simp only [if_true]
    rcases Nat.eq_zero_or_pos (fixMag x.mag) with h0 | hpos
    · simp [h0]
    · rw [if_pos]
      have : (0 : Int) < fixMag x.mag := by exact_mod_cast hpos
      nlinarith

theorem rfv_zero {B : Nat} (hB : 0 < B) : rfv 0 B = 0 := by
  simp [rfv, roundMag_zero hB]

theorem rfv_nonneg {A : Int} {B : Nat} (hA : 0 ≤ A) : 0 ≤ rfv A B := by
  unfold rfv; rw [if_neg (by omega)]; exact Int.natCast_nonneg _

theorem rfv_neg (A : Int) {B : Nat} (hB : 0 < B) : rfv (-A) B = - rfv A B := by
  rcases lt_trichotomy A 0 with h | h | h
  · unfold rfv; rw [if_neg (by omega), if_pos h]; simp
  · subst h; simp [rfv_zero hB]
  · unfold rfv; rw [if_pos (by omega), if_neg (by omega)]; simp

/-- A double `y` below the exact value is below the rounded value. -/
theorem le_rfv {y : F64} (hy : y.isNaN = false) {A : Int} {B : Nat} (hB : 0 < B)
    (h : y.fv * B ≤ A) : y.fv ≤ rfv A B := by
  rw [← rfv_exact hy hB]
  apply rfv_mono hB hB
  have pB : (0 : Int) < B := by exact_mod_cast hB
  nlinarith

theorem rfv_le {y : F64} (hy : y.isNaN = false) {A : Int} {B : Nat} (hB : 0 < B)
    (h : A ≤ y.fv * B) : rfv A B ≤ y.fv := by
  rw [← rfv_exact hy hB]
  apply rfv_mono hB hB
  have pB : (0 : Int) < B := by exact_mod_cast hB
  nlinarith

/-! ## arithmetic on finite operands -/

theorem negate_mag (x : F64) : (negate x).mag = x.mag := mag_mk' _ (mag_lt x)
theorem negate_neg (x : F64) : (negate x).neg = !x.neg := neg_mk' _ (mag_lt x)
theorem negate_fv (x : F64) : (negate x).fv = - x.fv := by
  unfold fv; rw [negate_mag, negate_neg]; cases x.neg <;> simp
theorem negate_finite {x : F64} (h : x.isFinite = true) : (negate x).isFinite = true := by
  rw [isFinite_iff] at *; rw [negate_mag]; exact h

theorem add_finite {x y : F64} (hx : x.isFinite = true) (hy : y.isFinite = true) :
    add x y = rnd (x.neg && y.neg) (x.fv + y.fv) 1 := by
  simp [add, not_nan_of_finite hx, not_nan_of_finite hy, isInf_eq_false_of_finite hx,
    isInf_eq_false_of_finite hy]

theorem add_fv {x y : F64} (hx : x.isFinite = true) (hy : y.isFinite = true) :
    (add x y).fv = rfv (x.fv + y.fv) 1 := by
  rw [add_finite hx hy, rnd_fv _ _ (by norm_num)]

theorem add_not_nan {x y : F64} (hx : x.isFinite = true) (hy : y.isFinite = true) :
    (add x y).isNaN = false := by
  rw [add_finite hx hy]; exact rnd_not_nan _ _ _

theorem sub_fv {x y : F64} (hx : x.isFinite = true) (hy : y.isFinite = true) :
    (sub x y).fv = rfv (x.fv - y.fv) 1 := by
  unfold sub; rw [add_fv hx (negate_finite hy), negate_fv, sub_eq_add_neg]

theorem sub_not_nan {x y : F64} (hx : x.isFinite = true) (hy : y.isFinite = true) :
    (sub x y).isNaN = false := add_not_nan hx (negate_finite hy)

theorem mul_finite {x y : F64} (hx : x.isFinite = true) (hy : y.isFinite = true) :
    mul x y = rnd (x.neg != y.neg) (x.fv * y.fv) one1074 := by
  simp [mul, not_nan_of_finite hx, not_nan_of_finite hy, isInf_eq_false_of_finite hx,
    isInf_eq_false_of_finite hy]

theorem one1074_pos : 0 < one1074 := Nat.two_pow_pos 1074

theorem mul_fv {x y : F64} (hx : x.isFinite = true) (hy : y.isFinite = true) :
    (mul x y).fv = rfv (x.fv * y.fv) one1074 := by
  rw [mul_finite hx hy, rnd_fv _ _ one1074_pos]

theorem mul_not_nan {x y : F64} (hx : x.isFinite = true) (hy : y.isFinite = true) :
    (mul x y).isNaN = false := by
  rw [mul_finite hx hy]; exact rnd_not_nan _ _ _

theorem fv_natAbs (x : F64) : x.fv.natAbs = fixMag x.mag := by
  unfold fv; split <;> simp

theorem fv_pos {x : F64} : 0 < x.fv ↔ x.neg = false ∧ x.mag ≠ 0 := by
  unfold fv
  have := @fixMag_eq_zero x.mag
  cases x.neg
  · simp; omega
  · simp

/-- Division by a finite positive double. -/
theorem div_fv {x y : F64} (hx : x.isFinite = true) (hy : y.isFinite = true) (hpos : 0 < y.fv) :
    (div x y).fv = rfv (x.fv * one1074) y.fv.natAbs ∧ (div x y).isNaN = false := by
  obtain ⟨hn, hm⟩ := fv_pos.mp hpos
  have hB : 0 < fixMag y.mag := Nat.pos_of_ne_zero (fun e => hm (fixMag_eq_zero.mp e))
  have hd : div x y = rnd x.neg (x.fv * one1074) (fixMag y.mag) := by
    simp only [div, not_nan_of_finite hx, not_nan_of_finite hy, isInf_eq_false_of_finite hx,
      isInf_eq_false_of_finite hy, hm, hn, Bool.or_self, Bool.false_eq_true, if_false]
    cases hxn : x.neg <;> simp [fv, hxn]
  rw [hd, fv_natAbs]
  exact ⟨rnd_fv _ _ hB, rnd_not_nan _ _ _⟩

theorem one_fv : one.fv = one1074 := by
  decide +kernel

theorem zero_fv : zero.fv = 0 := by decide +kernel

/-! ## truncation -/

theorem trunc_mono {x y : F64} (hx : 0 ≤ x.fv) (h : x.fv ≤ y.fv) : x.trunc ≤ y.trunc := by
  unfold trunc
  rw [Int.tdiv_eq_ediv_of_nonneg hx, Int.tdiv_eq_ediv_of_nonneg (hx.trans h)]
  exact Int.ediv_le_ediv (by exact_mod_cast one1074_pos) h

theorem trunc_nonneg {x : F64} (hx : 0 ≤ x.fv) : 0 ≤ x.trunc := by
  unfold trunc
  exact Int.tdiv_nonneg hx (by positivity)

end Spoc.F64
