import Verif.Proofs.Rotation
import Verif.Props.Geometry

/-!
# C37: rotations are rigid, up to rounding

The library's `sin` and `cos` are parameters that err by at most `ε`.
-/

namespace Spoc.Props

open Spec F64 Spoc.Affine

/-- The coordinates of the points. -/
def BelowPt (k : Nat) (p : Pt F64) : Prop := Below k p.x ∧ Below k p.y ∧ Below k p.z

theorem across_below {k : Nat} {p : Pt F64} (h : BelowPt k p) (a : Axis3) :
    Below k (a.across p).1 ∧ Below k (a.across p).2 := by
  cases a
  · exact ⟨h.2.1, h.2.2⟩
  · exact ⟨h.1, h.2.2⟩
  · exact ⟨h.1, h.2.1⟩

theorem rotate_across (a : Axis3) (t : Trig) (d : F64) (p : Pt F64) :
    a.across (a.rotate t d p) =
      (F64.sub (F64.mul (a.across p).1 (t.cos (radians d))) (F64.mul (a.across p).2 (t.sin (radians d))),
       F64.add (F64.mul (a.across p).1 (t.sin (radians d))) (F64.mul (a.across p).2 (t.cos (radians d)))) := by
  cases a <;> rfl

/-- **C37**, axis: a rotation does not change the coordinate along its axis at all. -/
theorem c37_axis (a : Axis3) (t : Trig) (degrees : F64) (p : Pt F64) :
    a.along (a.rotate t degrees p) = a.along p := by
  cases a <;> rfl

/-- **C37** (partial: up to rounding).  The computed point is the exactly rotated point, up to the error of the
library functions and of three roundings. -/
theorem c37_exact_rotation_partial (a : Axis3) (t : Trig) {ε : ℝ} (hε : ε ≤ 1 / 2 ^ 10) (ht : AccurateTrig t ε)
    (degrees : F64) (hd : Below 990 degrees) (p : Pt F64) (hp : BelowPt 1000 p) :
    let θ := (radians degrees).val
    let q := a.rotate t degrees p
    (a.across q).1.isFinite = true ∧ (a.across q).2.isFinite = true
      ∧ |(a.across q).1.val - ((a.across p).1.val * Real.cos θ - (a.across p).2.val * Real.sin θ)|
          ≤ tolerance ε (size a p)
      ∧ |(a.across q).2.val - ((a.across p).1.val * Real.sin θ + (a.across p).2.val * Real.cos θ)|
          ≤ tolerance ε (size a p) := by
  intro θ q
  obtain ⟨h1, h2, h3, h4⟩ := ht _ (radians_spec hd).2.1
  obtain ⟨b1, b2⟩ := across_below hp a
  have := plane hε b1 b2 h2 h1 (Real.abs_cos_le_one θ) (Real.abs_sin_le_one θ) h4 h3
  show (a.across (a.rotate t degrees p)).1.isFinite = true ∧ _
  simp only [q, rotate_across]
  exact this

/-- **C37** (partial: up to rounding): the distance to the axis is kept. -/
theorem c37_axis_distance_partial (a : Axis3) (t : Trig) {ε : ℝ} (hε : ε ≤ 1 / 2 ^ 10) (ht : AccurateTrig t ε)
    (degrees : F64) (hd : Below 990 degrees) (p : Pt F64) (hp : BelowPt 1000 p) :
    |axisDist a (a.rotate t degrees p) - axisDist a p| ≤ 2 * tolerance ε (size a p) := by
  obtain ⟨_, _, h1, h2⟩ := c37_exact_rotation_partial a t hε ht degrees hd p hp
  have := rotated_length (w := 0) (Real.cos_sq_add_sin_sq (radians degrees).val) h1 h2
  unfold axisDist
  simpa using this

/-- The squared distance, by axis. -/
theorem dist3_eq (a : Axis3) (p q : Pt F64) : dist3 p q = Real.sqrt
    (((a.across p).1.val - (a.across q).1.val) ^ 2 + ((a.across p).2.val - (a.across q).2.val) ^ 2
      + ((a.along p).val - (a.along q).val) ^ 2) := by
  unfold dist3
  congr 1
  cases a <;> simp only [Axis3.across, Axis3.along] <;> ring

/-- **C37** (partial: up to rounding): the distances between points are kept. -/
theorem c37_distance_partial (a : Axis3) (t : Trig) {ε : ℝ} (hε : ε ≤ 1 / 2 ^ 10) (ht : AccurateTrig t ε)
    (degrees : F64) (hd : Below 990 degrees) (p q : Pt F64) (hp : BelowPt 1000 p)
    (hq : BelowPt 1000 q) :
    |dist3 (a.rotate t degrees p) (a.rotate t degrees q) - dist3 p q|
      ≤ 2 * (tolerance ε (size a p) + tolerance ε (size a q)) := by
  obtain ⟨_, _, p1, p2⟩ := c37_exact_rotation_partial a t hε ht degrees hd p hp
  obtain ⟨_, _, q1, q2⟩ := c37_exact_rotation_partial a t hε ht degrees hd q hq
  rw [dist3_eq a, dist3_eq a, c37_axis, c37_axis]
  have hc := Real.cos_sq_add_sin_sq (radians degrees).val
  set C := Real.cos (radians degrees).val
  set S := Real.sin (radians degrees).val
  apply rotated_length (C := C) (S := S) hc
  · refine le_trans (le_of_eq_of_le ?_ (abs_sub _ _)) (add_le_add p1 q1)
    congr 1; ring
  · refine le_trans (le_of_eq_of_le ?_ (abs_sub _ _)) (add_le_add p2 q2)
    congr 1; ring

/-- The angle: the radians used are those of the given degrees, up to rounding. -/
theorem c37_angle_partial (degrees : F64) (hd : Below 990 degrees) :
    |(radians degrees).val - degrees.val * Real.pi / 180| ≤ |degrees.val| / 2 ^ 53 + 1 / (one1074 : ℝ) :=
  (radians_spec hd).2.2

theorem back_arith {a b a' b' a'' b'' C S E E' κ t M : ℝ} (h1 : C ^ 2 + S ^ 2 = 1) (hC : |C| ≤ 1) (hS : |S| ≤ 1)
    (ha : |a' - (a * C - b * S)| ≤ E) (hb : |b' - (a * S + b * C)| ≤ E)
    (ha' : |a'' - (a' * C + b' * S)| ≤ E') (hb' : |b'' - (-(a' * S) + b' * C)| ≤ E')
    (hE : E = κ * M + t) (hE' : E' ≤ κ * (2 * M + 2 * E) + t) (hκ : κ ≤ 1 / 2 ^ 9) (ht : 0 ≤ t)
    (hE0 : 0 ≤ E) : |a'' - a| ≤ 5 * E ∧ |b'' - b| ≤ 5 * E := by
  have key : ∀ {u v U V : ℝ}, |u| ≤ E → |v| ≤ E → |U| ≤ 1 → |V| ≤ 1 → |u * U + v * V| ≤ 2 * E := by
    intro u v U V hu hv hU hV
    refine (abs_add_le _ _).trans ?_
    rw [abs_mul, abs_mul]
    have e1 : |u| * |U| ≤ E * 1 := mul_le_mul hu hU (abs_nonneg _) hE0
    have e2 : |v| * |V| ≤ E * 1 := mul_le_mul hv hV (abs_nonneg _) hE0
    linarith
  have hκE : κ * E ≤ 1 / 2 ^ 9 * E := mul_le_mul_of_nonneg_right hκ hE0
  have hb2 : E' ≤ 2 * E + 2 * (1 / 2 ^ 9 * E) := by nlinarith
  constructor
  · have e : a'' - a = (a'' - (a' * C + b' * S)) + ((a' - (a * C - b * S)) * C + (b' - (a * S + b * C)) * S) := by
      have : a * (C ^ 2 + S ^ 2) = a := by rw [h1, mul_one]
      linear_combination this
    rw [e]
    refine (abs_add_le _ _).trans ?_
    have := key ha hb hC hS
    linarith
  · have e : b'' - b = (b'' - (-(a' * S) + b' * C)) + ((a' - (a * C - b * S)) * (-S) + (b' - (a * S + b * C)) * C) := by
      have : b * (C ^ 2 + S ^ 2) = b := by rw [h1, mul_one]
      linear_combination this
    rw [e]
    refine (abs_add_le _ _).trans ?_
    have := key ha hb (U := -S) (V := C) (by rw [abs_neg]; exact hS) hC
    linarith

/-- **C37** (partial: up to rounding): rotating back by the negative angle restores the point. -/
theorem c37_rotate_back_partial (a : Axis3) (t : Trig) {ε : ℝ} (hε : ε ≤ 1 / 2 ^ 10) (hε0 : 0 ≤ ε)
    (ht : AccurateTrig t ε) (degrees : F64) (hd : Below 990 degrees) (p : Pt F64) (hp : BelowPt 990 p) :
    let q := a.rotate t (F64.negate degrees) (a.rotate t degrees p)
    a.along q = a.along p
      ∧ |(a.across q).1.val - (a.across p).1.val| ≤ 5 * tolerance ε (size a p)
      ∧ |(a.across q).2.val - (a.across p).2.val| ≤ 5 * tolerance ε (size a p) := by
  intro q
  refine ⟨by simp only [q, c37_axis], ?_⟩
  have hK : (1 : ℝ) ≤ 2 ^ 990 := one_le_pow₀ (by norm_num)
  have h10 : (2 : ℝ) ^ 1000 = 1024 * 2 ^ 990 := by
    have : (1000 : Nat) = 10 + 990 := rfl
    rw [this, pow_add]
    norm_num only
  have up : ∀ {x : F64}, Below 990 x → Below 1000 x := by
    rintro x ⟨h1, h2⟩
    refine ⟨h1, ?_⟩
    rw [h10]
    clear h10
    generalize (2 : ℝ) ^ 990 = K at *
    linarith
  have hp' : BelowPt 1000 p := ⟨up hp.1, up hp.2.1, up hp.2.2⟩
  have hn : Below 990 (F64.negate degrees) := ⟨negate_finite hd.1, by rw [negate_val, abs_neg]; exact hd.2⟩
  obtain ⟨f1, f2, e1, e2⟩ := c37_exact_rotation_partial a t hε ht degrees hd p hp'
  obtain ⟨b1, b2⟩ := across_below hp a
  have hC := Real.abs_cos_le_one (radians degrees).val
  have hS := Real.abs_sin_le_one (radians degrees).val
  have hcs := Real.cos_sq_add_sin_sq (radians degrees).val
  have hU := one1074_pos'
  have ht0 : 0 ≤ 16 / (one1074 : ℝ) := by positivity
  have ht1 : 16 / (one1074 : ℝ) ≤ 16 := by
    have := tiny_le_one
    have e : 16 / (one1074 : ℝ) = 16 * (1 / (one1074 : ℝ)) := by rw [mul_one_div]
    rw [e]; linarith
  have hM0 : 0 ≤ size a p := add_nonneg (abs_nonneg _) (abs_nonneg _)
  have hE0 : 0 ≤ tolerance ε (size a p) := by unfold tolerance; positivity
  have hκ : ε + 1 / 2 ^ 50 ≤ 1 / 2 ^ 9 := by linarith
  -- the rotated point
  have hx1 : |(a.across (a.rotate t degrees p)).1.val| ≤ size a p + tolerance ε (size a p) := by
    have h1 := abs_sub_abs_le_abs_sub (a.across (a.rotate t degrees p)).1.val
      ((a.across p).1.val * Real.cos (radians degrees).val - (a.across p).2.val * Real.sin (radians degrees).val)
    have h2 := abs_sub ((a.across p).1.val * Real.cos (radians degrees).val)
      ((a.across p).2.val * Real.sin (radians degrees).val)
    rw [abs_mul, abs_mul] at h2
    have h3 := mul_le_mul_of_nonneg_left hC (abs_nonneg (a.across p).1.val)
    have h4 := mul_le_mul_of_nonneg_left hS (abs_nonneg (a.across p).2.val)
    unfold size at *
    linarith
  have hx2 : |(a.across (a.rotate t degrees p)).2.val| ≤ size a p + tolerance ε (size a p) := by
    have h1 := abs_sub_abs_le_abs_sub (a.across (a.rotate t degrees p)).2.val
      ((a.across p).1.val * Real.sin (radians degrees).val + (a.across p).2.val * Real.cos (radians degrees).val)
    have h2 := abs_add_le ((a.across p).1.val * Real.sin (radians degrees).val)
      ((a.across p).2.val * Real.cos (radians degrees).val)
    rw [abs_mul, abs_mul] at h2
    have h3 := mul_le_mul_of_nonneg_left hS (abs_nonneg (a.across p).1.val)
    have h4 := mul_le_mul_of_nonneg_left hC (abs_nonneg (a.across p).2.val)
    unfold size at *
    linarith
  have hbig : size a p + tolerance ε (size a p) ≤ 2 ^ 1000 := by
    have h1 : size a p ≤ 2 * 2 ^ 990 := by
      unfold size
      have h3 := b1.2
      have h4 := b2.2
      clear h10 hK
      generalize (2 : ℝ) ^ 990 = K at *
      linarith
    have h2 : (ε + 1 / 2 ^ 50) * size a p ≤ 1 / 2 ^ 9 * size a p := mul_le_mul_of_nonneg_right hκ hM0
    unfold tolerance
    rw [h10]
    clear h10
    generalize (2 : ℝ) ^ 990 = K at *
    linarith
  have hq' : BelowPt 1000 (a.rotate t degrees p) := by
    have g1 : Below 1000 (a.across (a.rotate t degrees p)).1 := ⟨f1, hx1.trans hbig⟩
    have g2 : Below 1000 (a.across (a.rotate t degrees p)).2 := ⟨f2, hx2.trans hbig⟩
    cases a
    · exact ⟨hp'.1, g1, g2⟩
    · exact ⟨g1, hp'.2.1, g2⟩
    · exact ⟨g1, g2, hp'.2.2⟩
  obtain ⟨_, _, e3, e4⟩ := c37_exact_rotation_partial a t hε ht (F64.negate degrees) hn _ hq'
  rw [radians_negate hd, Real.cos_neg, Real.sin_neg] at e3 e4
  have hE' : tolerance ε (size a (a.rotate t degrees p)) ≤
      (ε + 1 / 2 ^ 50) * (2 * size a p + 2 * tolerance ε (size a p)) + 16 / (one1074 : ℝ) := by
    rw [tolerance]
    have : size a (a.rotate t degrees p) ≤ 2 * size a p + 2 * tolerance ε (size a p) := by
      rw [size]; linarith
    have := mul_le_mul_of_nonneg_left this (by positivity : 0 ≤ ε + 1 / 2 ^ 50)
    linarith
  refine back_arith (κ := ε + 1 / 2 ^ 50) (t := 16 / (one1074 : ℝ)) (M := size a p) hcs hC hS e1 e2 ?_ ?_ rfl hE' hκ ht0 hE0
  · refine le_of_eq_of_le ?_ e3
    congr 1; ring
  · refine le_of_eq_of_le ?_ e4
    congr 1; ring

/-- A table of sines and cosines with three decimal digits: an example of library functions. -/
noncomputable def tableTrig : Trig where
  sin r := F64.mul (F64.ofInt ⌊Real.sin r.val * 4096⌋) ⟨0x3F30000000000000⟩
  cos r := F64.mul (F64.ofInt ⌊Real.cos r.val * 4096⌋) ⟨0x3F30000000000000⟩

theorem table_close {v : ℝ} (hv : |v| ≤ 1) :
    (F64.mul (F64.ofInt ⌊v * 4096⌋) ⟨0x3F30000000000000⟩).isFinite = true
      ∧ |(F64.mul (F64.ofInt ⌊v * 4096⌋) ⟨0x3F30000000000000⟩).val - v| ≤ 1 / 2 ^ 10 := by
  have hc : (⟨0x3F30000000000000⟩ : F64).isFinite = true := by decide +kernel
  have hcv : (⟨0x3F30000000000000⟩ : F64).val = 1 / 4096 := by
    have h : (⟨0x3F30000000000000⟩ : F64).fv * 4096 = 1 * (one1074 : Int) := by decide +kernel
    unfold val
    rw [div_eq_div_iff one1074_pos'.ne' (by norm_num)]
    exact_mod_cast h
  obtain ⟨v1, v2⟩ := abs_le.mp hv
  have l1 := Int.floor_le (v * 4096)
  have l2 := Int.lt_floor_add_one (v * 4096)
  have n1 : -4096 ≤ ⌊v * 4096⌋ := Int.le_floor.mpr (by push_cast; linarith)
  have n2 : ⌊v * 4096⌋ ≤ 4096 := by
    have : (⌊v * 4096⌋ : ℝ) ≤ 4096 := by linarith
    exact_mod_cast this
  set n := ⌊v * 4096⌋
  have hn : n.natAbs < 2 ^ 53 := by omega
  have hN : |(n : ℝ)| ≤ 4096 := by
    have : |n| ≤ 4096 := abs_le.mpr ⟨n1, n2⟩
    exact_mod_cast this
  have hp : |(n : ℝ) * (1 / 4096)| ≤ 1 := by
    rw [abs_mul, abs_of_pos (by norm_num : (0 : ℝ) < 1 / 4096)]; linarith
  have hone : F64.one.val = 1 := by
    unfold val; rw [one_fv]; push_cast; exact div_self one1074_pos'.ne'
  have hf : (F64.mul (F64.ofInt n) ⟨0x3F30000000000000⟩).isFinite = true := by
    apply mul_finite_of (ofInt_finite hn) hc (w := F64.one) (by decide)
    rw [ofInt_val hn, hcv, hone, abs_one]
    exact hp
  refine ⟨hf, ?_⟩
  have hm := mul_ofInt_val hn hc hf
  rw [hcv] at hm
  have h3 : |(n : ℝ) * (1 / 4096) - v| ≤ 1 / 4096 := by
    rw [abs_le]; constructor <;> linarith
  have e : (F64.mul (F64.ofInt n) ⟨0x3F30000000000000⟩).val - v
      = ((F64.mul (F64.ofInt n) ⟨0x3F30000000000000⟩).val - n * (1 / 4096)) + (n * (1 / 4096) - v) := by ring
  rw [e]
  refine (abs_add_le _ _).trans ?_
  linarith

/-- The hypotheses of the theorems can be met. -/
example : AccurateTrig tableTrig (1 / 2 ^ 10) ∧ Below 990 (num 30) := by
  refine ⟨fun r _ => ?_, ?_, ?_⟩
  · have h1 := table_close (Real.abs_sin_le_one r.val)
    have h2 := table_close (Real.abs_cos_le_one r.val)
    exact ⟨h1.1, h2.1, h1.2, h2.2⟩
  · decide +kernel
  · have : (num 30).val = 30 := by
      have := ofInt_val (n := 30) (by norm_num)
      exact_mod_cast this
    rw [this, abs_of_pos (by norm_num)]
    calc (30 : ℝ) ≤ 2 ^ 5 := by norm_num
      _ ≤ 2 ^ 990 := pow_le_pow_right₀ (by norm_num) (by norm_num)

end Spoc.Props
