import Verif.Props.TestUtils
import Verif.Props.Gauss

/-!
# C115: `get_noisy_gaussian_point_cloud`
-/

namespace Spoc.Props

open TestUtils F64 Spec Noise

/-- The cosine and the sine of the library: at most 1 in magnitude on the numbers from -7 to 7. -/
def CosOk (f : F64 → F64) : Prop := ∀ y : F64, y.isFinite = true → |y.val| ≤ 7 → (f y).isFinite = true ∧ |(f y).val| ≤ 1

theorem product_real {p v m e K : ℝ} (hK : K ≤ 13) (hp : |m * v| ≤ K * m) (pv : 2 ^ 53 * |p - m * v| ≤ |m * v| + 2 ^ 52 * e) (m1 : e ≤ m)
    (m0 : 0 ≤ m) : |p| ≤ (K + 1) * m := by
  have tri : |p| ≤ |p - m * v| + |m * v| := by
    have := abs_add_le (p - m * v) (m * v)
    rwa [sub_add_cancel] at this
  have k : K * m ≤ 13 * m := mul_le_mul_of_nonneg_right hK m0
  have e1 : (K + 1) * m = K * m + m := by ring
  rw [e1]
  generalize K * m = q at *
  norm_num at *
  linarith only [tri, hp, pv, m1, m0, k]

theorem pow_990 : 13 * (2 : ℝ) ^ 990 ≤ 2 ^ 1002 := by
  rw [show (1002 : Nat) = 990 + 12 from rfl, pow_add]
  generalize hX : (2 : ℝ) ^ 990 = X
  have h0 : 0 ≤ X := hX ▸ pow_nonneg (by norm_num) _
  linarith only [h0]

/-- A deviation times a number. -/
theorem product_bound {m v : F64} (hm : Deviation m) (vf : v.isFinite = true) {K : ℝ} (hK : K ≤ 13) (hv : |v.val| ≤ K) :
    (mul m v).isFinite = true ∧ |(mul m v).val| ≤ (K + 1) * m.val := by
  obtain ⟨⟨mf, mb⟩, m0⟩ := hm
  rw [abs_of_nonneg m0] at mb
  have K0 : 0 ≤ K := (abs_nonneg _).trans hv
  have hp : |m.val * v.val| ≤ K * m.val := by
    rw [abs_mul, abs_of_nonneg m0, mul_comm]
    exact mul_le_mul_of_nonneg_right hv m0
  have pf : (mul m v).isFinite = true := by
    refine mul_finite_of mf vf two1002_finite ?_
    rw [two1002_val, abs_of_nonneg (pow_nonneg (by norm_num : (0 : ℝ) ≤ 2) 1002)]
    have := pow_990
    have k : K * m.val ≤ 13 * m.val := mul_le_mul_of_nonneg_right hK m0
    generalize (2 : ℝ) ^ 990 = X at *
    generalize (2 : ℝ) ^ 1002 = Y at *
    linarith only [this, hp, mb, k]
  refine ⟨pf, ?_⟩
  by_cases hz : m.fv = 0
  · have e1 : (mul m v).fv = 0 := by
      rw [mul_fv mf vf, hz, zero_mul]
      exact rfv_zero one1074_pos
    have e2 : (mul m v).val = 0 := by unfold val; rw [e1, Int.cast_zero, zero_div]
    rw [e2, abs_zero]
    exact mul_nonneg (by linarith only [K0]) m0
  · have pv := mul_val mf vf pf
    have ee : 2 ^ 52 / (one1074 : ℝ) = 2 ^ 52 * (1 / (one1074 : ℝ)) := by ring
    rw [ee] at pv
    have m1 : 1 / (one1074 : ℝ) ≤ m.val := by
      have hmf : 0 ≤ m.fv := val_zero_le.mp m0
      unfold val
      apply div_le_div_of_nonneg_right _ one1074_pos'.le
      have : (1 : Int) ≤ m.fv := by omega
      exact_mod_cast this
    exact product_real hK hp pv m1 m0

theorem sqrt_real {s q : ℝ} (hq : q ≤ 149) (h : 2 ^ 52 * |s - Real.sqrt q| ≤ Real.sqrt q) : |s| ≤ 61 / 5 + 1 / 10 := by
  have h1 : Real.sqrt q ≤ 61 / 5 + 1 / 20 := by
    rw [Real.sqrt_le_left (by norm_num)]
    refine hq.trans (by norm_num)
  have tri : |s| ≤ |s - Real.sqrt q| + |Real.sqrt q| := by
    have := abs_add_le (s - Real.sqrt q) (Real.sqrt q)
    rwa [sub_add_cancel] at this
  rw [abs_of_nonneg (Real.sqrt_nonneg q)] at tri
  norm_num at *
  linarith only [tri, h, h1]

/-- The distance from the centre, without the radius. -/
theorem distance_spec {log : F64 → F64} (hl : LogOk log) {u : F64} (uf : u.isFinite = true) (h1 : 1 / 2 ^ 106 ≤ u.val) (h2 : u.val ≤ 1) :
    (sqrt (mul (negate (ofNat 2)) (log u))).isFinite = true ∧ |(sqrt (mul (negate (ofNat 2)) (log u))).val| ≤ 61 / 5 + 1 / 10 := by
  obtain ⟨lf, l0, l1⟩ := hl u uf h1 h2
  have l2 := log_bound h1 l1
  have tf := two_facts.1
  have tv : (ofNat 2).val = 2 := by
    have := (small_ofNat (n := 2) (by norm_num)).2
    rw [this]; norm_num
  have nf := negate_finite tf
  have l0' : (log u).fv ≤ 0 := by
    unfold val at l0
    rw [div_le_iff₀ one1074_pos', zero_mul] at l0
    exact_mod_cast l0
  have t0' : (negate (ofNat 2)).fv ≤ 0 := by
    rw [negate_fv, two_facts.2]
    have := one_facts.2
    omega
  generalize log u = l at *
  have pe : (negate (ofNat 2)).val * l.val = -2 * l.val := by rw [negate_val, tv]
  have mf : (mul (negate (ofNat 2)) l).isFinite = true := by
    refine mul_finite_of nf lf two1002_finite (small_two1002 ?_)
    rw [pe, abs_le]
    constructor <;> norm_num <;> linarith only [l0, l2]
  have m0 : 0 ≤ (mul (negate (ofNat 2)) l).fv := by
    rw [mul_fv nf lf]
    exact rfv_nonneg (mul_nonneg_of_nonpos_of_nonpos t0' l0')
  have mv := mul_val nf lf mf
  rw [pe] at mv
  obtain ⟨e0, e1⟩ := tiny_bound
  have ee : 2 ^ 52 / (one1074 : ℝ) = 2 ^ 52 * (1 / (one1074 : ℝ)) := by ring
  rw [ee] at mv
  generalize mul (negate (ofNat 2)) l = n at *
  have hn : n.val ≤ 149 := double_log l0 l2 e1 mv
  obtain ⟨sf, sv⟩ := sqrt_val mf m0
  exact ⟨sf, sqrt_real hn sv⟩

theorem pi2_facts : pi2.isFinite = true ∧ 0 ≤ pi2.fv ∧ pi2.fv ≤ 7 * one1074 := by decide +kernel

theorem angle_spec {f : F64 → F64} (hf : CosOk f) {u : F64} (uf : u.isFinite = true) (h : |u.val| ≤ 1) :
    (f (mul pi2 u)).isFinite = true ∧ |(f (mul pi2 u)).val| ≤ 1 := by
  obtain ⟨pf, p0, p7⟩ := pi2_facts
  have p7' : |pi2.val| ≤ 7 := by
    rw [abs_of_nonneg (val_zero_le.mpr p0)]
    unfold val
    rw [div_le_iff₀ one1074_pos']
    exact_mod_cast p7
  generalize pi2 = p at *
  have hU := one1074_pos'
  have k : (mul p u).fv.natAbs ≤ p.fv.natAbs := by
    rw [mul_fv pf uf]
    apply rfv_finite pf one1074_pos
    have h1 : |(u.fv : ℝ)| ≤ one1074 := by
      unfold val at h
      rwa [abs_div, abs_of_pos hU, div_le_one hU] at h
    have h2 : |(p.fv : ℝ) * u.fv| ≤ |(p.fv : ℝ)| * one1074 := by
      rw [abs_mul]
      exact mul_le_mul_of_nonneg_left h1 (abs_nonneg _)
    exact_mod_cast h2
  apply hf _ (finite_of_fv_le pf k)
  refine le_trans ?_ p7'
  unfold val
  rw [abs_div, abs_div, abs_of_pos hU]
  apply div_le_div_of_nonneg_right _ hU.le
  have : |(mul p u).fv| ≤ |p.fv| := by rw [Int.abs_eq_natAbs, Int.abs_eq_natAbs]; exact_mod_cast k
  exact_mod_cast this

/-- A coordinate in the plane. -/
theorem planar {a c : F64} (af : a.isFinite = true) (cf : c.isFinite = true) (h : |c.val| ≤ 1) :
    (mul a c).isFinite = true ∧ |(mul a c).val| ≤ |a.val| := by
  have hU := one1074_pos'
  have k : (mul a c).fv.natAbs ≤ a.fv.natAbs := by
    rw [mul_fv af cf]
    apply rfv_finite af one1074_pos
    have h1 : |(c.fv : ℝ)| ≤ one1074 := by
      unfold val at h
      rwa [abs_div, abs_of_pos hU, div_le_one hU] at h
    have h2 : |(a.fv : ℝ) * c.fv| ≤ |(a.fv : ℝ)| * one1074 := by
      rw [abs_mul]
      exact mul_le_mul_of_nonneg_left h1 (abs_nonneg _)
    exact_mod_cast h2
  refine ⟨finite_of_fv_le af k, ?_⟩
  unfold val
  rw [abs_div, abs_div, abs_of_pos hU]
  apply div_le_div_of_nonneg_right _ hU.le
  have : |(mul a c).fv| ≤ |a.fv| := by rw [Int.abs_eq_natAbs, Int.abs_eq_natAbs]; exact_mod_cast k
  exact_mod_cast this

/-- **C115**: `get_noisy_gaussian_point_cloud` delivers as many points as asked for, the loop of the distribution ends, and no coordinate is
infinite or NaN: the horizontal ones are at most 14 radii, the vertical one is at most 14 deviations.  (The logarithm is never taken of zero.) -/
theorem c115_gauss_cloud {log cos sin : F64 → F64} (hl : LogOk log) (hc : CosOk cos) (hsn : CosOk sin) (n s : Nat) {radius dev : F64}
    (hr : Deviation radius) (hd : Deviation dev) :
    (gaussCloud log cos sin n radius dev s).length = n ∧ ∀ p ∈ gaussCloud log cos sin n radius dev s,
      (p.x.isFinite = true ∧ |p.x.val| ≤ 14 * radius.val) ∧ (p.y.isFinite = true ∧ |p.y.val| ≤ 14 * radius.val)
        ∧ (p.z.isFinite = true ∧ |p.z.val| ≤ 14 * dev.val) := by
  have key : ∀ (n : Nat) {o : Option F64} {g : Nat}, SavedOk o → State g → (gaussLoop log cos sin radius dev n o g).length = n
      ∧ ∀ p ∈ gaussLoop log cos sin radius dev n o g,
        (p.x.isFinite = true ∧ |p.x.val| ≤ 14 * radius.val) ∧ (p.y.isFinite = true ∧ |p.y.val| ≤ 14 * radius.val)
          ∧ (p.z.isFinite = true ∧ |p.z.val| ≤ 14 * dev.val) := by
    intro n
    induction n with
    | zero => intro o g _ _; exact ⟨rfl, by intro p hp; simp [gaussLoop] at hp⟩
    | succ n ih =>
      intro o g ho hg
      obtain ⟨s1, uf, u1, u2⟩ := unit_range hg
      rw [gaussLoop]
      generalize uniformReal zero one g = r1 at *
      obtain ⟨u, g1⟩ := r1
      dsimp only at *
      obtain ⟨s2, vf, v1, v2⟩ := unit_range s1
      generalize uniformReal zero one g1 = r2 at *
      obtain ⟨v, g2⟩ := r2
      dsimp only at *
      obtain ⟨⟨zf, zb⟩, ho', s3⟩ := normal_spec hl one_deviation (by decide +kernel) ho s2
      generalize normal log one o g2 = r3 at *
      obtain ⟨z, o', g3⟩ := r3
      dsimp only at *
      obtain ⟨e1, e2⟩ := ih ho' s3
      refine ⟨by simp [e1], fun p hp => ?_⟩
      rcases List.mem_cons.mp hp with rfl | hp
      · have hu1 : 1 / 2 ^ 106 ≤ u.val := by rw [← val_facts.2]; exact val_le_of_fv u1
        have hu2 : u.val ≤ 1 := by rw [← val_facts.1]; exact val_le_of_fv u2.le
        have hv2 : |v.val| ≤ 1 := by
          have p0 : 0 ≤ v.fv := by
            have := p106_facts.2.1
            generalize p106.fv = t at *
            omega
          rw [abs_of_nonneg (val_zero_le.mpr p0), ← val_facts.1]
          exact val_le_of_fv v2.le
        obtain ⟨df, db⟩ := distance_spec hl uf hu1 hu2
        obtain ⟨af, ab⟩ := product_bound hr df (by norm_num) db
        generalize mul radius (sqrt (mul (negate (ofNat 2)) (log u))) = a at *
        have ab' : |a.val| ≤ 14 * radius.val := by
          have := hr.2
          linarith only [ab, this]
        obtain ⟨c1, c2⟩ := angle_spec hc vf hv2
        obtain ⟨d1, d2⟩ := angle_spec hsn vf hv2
        obtain ⟨x1, x2⟩ := planar af c1 c2
        obtain ⟨y1, y2⟩ := planar af d1 d2
        have hz13 : |z.val| ≤ 13 := by
          rw [val_facts.1] at zb
          linarith only [zb]
        obtain ⟨z1, z2⟩ := product_bound hd zf (le_refl _) hz13
        exact ⟨⟨x1, x2.trans ab'⟩, ⟨y1, y2.trans ab'⟩, z1, by norm_num at z2; exact z2⟩
      · exact e2 p hp
  exact key n (fun v h => by simp at h) (seed_state s)

/-- Functions and numbers that meet the hypotheses exist. -/
example : (∃ log, LogOk log) ∧ (∃ cos, CosOk cos) ∧ Deviation one := by
  refine ⟨exists_log, ⟨fun _ => one, fun y _ _ => ⟨one_val'.1, ?_⟩⟩, one_deviation⟩
  rw [one_val'.2]
  norm_num

end Spoc.Props
