import Verif.Model.Noise
import Verif.Proofs.ExtentArea
import Verif.Proofs.Quantize
import Verif.Proofs.Rotation

/-!
# Lemmas on the random numbers of libstdc++
-/

namespace Spoc.Noise

open F64 TestUtils

/-- The states of the engine. -/
def State (g : Nat) : Prop := 0 < g ∧ g < 2147483647

theorem seed_state (s : Nat) : State (seed s) := by
  unfold seed State
  split
  · omega
  · have := Nat.mod_lt s (show 0 < 2147483647 by norm_num)
    omega

/-- The engine can be run backwards. -/
theorem next_inverse (g : Nat) (h : g < 2147483647) : next g * 1407677000 % 2147483647 = g := by
  unfold next
  rw [Nat.mod_mul_mod, Nat.mul_assoc, show 16807 * 1407677000 = 1 + 11017 * 2147483647 by norm_num, Nat.mul_add,
    Nat.mul_one, ← Nat.mul_assoc, Nat.add_mul_mod_self_right, Nat.mod_eq_of_lt h]

theorem next_state {g : Nat} (h : State g) : State (next g) := by
  refine ⟨Nat.pos_of_ne_zero fun e => ?_, Nat.mod_lt _ (by norm_num)⟩
  have := next_inverse g h.2
  rw [e] at this
  have := h.1
  omega

/-- The largest number is drawn after one single other number. -/
theorem before_largest {g : Nat} (h : State g) (e : next g = 2147483646) : g = 739806647 := by
  have := next_inverse g h.2
  rw [e] at this
  rw [← this]

theorem ofNat_fv' (n : Nat) : (ofNat n).fv = rfv (n * (one1074 : Int)) 1 := by
  unfold ofNat ofInt; rw [rnd_fv _ _ (by norm_num)]

theorem ofNat_mono {m n : Nat} (h : m ≤ n) : (ofNat m).fv ≤ (ofNat n).fv := by
  rw [ofNat_fv', ofNat_fv']
  refine rfv_mono (by norm_num) (by norm_num) ?_
  have h1 : (m : Int) ≤ n := by exact_mod_cast h
  have h2 : (0 : Int) ≤ one1074 := Int.natCast_nonneg _
  rw [Nat.cast_one, mul_one, mul_one]
  exact mul_le_mul_of_nonneg_right h1 h2

theorem ofNat_nonneg (n : Nat) : 0 ≤ (ofNat n).fv := by
  rw [ofNat_fv']
  exact rfv_nonneg (mul_nonneg (Int.natCast_nonneg _) (Int.natCast_nonneg _))

/-- Finite and between 0 and `y`. -/
def Upto (x y : F64) : Prop := x.isFinite = true ∧ 0 ≤ x.fv ∧ x.fv ≤ y.fv

theorem upto_of {x y : F64} (hy : y.isFinite = true) (h0 : 0 ≤ x.fv) (h : x.fv ≤ y.fv) : Upto x y :=
  ⟨finite_of_fv_le hy (by omega), h0, h⟩

theorem upto_ofNat {m n : Nat} (hn : (ofNat n).isFinite = true) (h : m ≤ n) : Upto (ofNat m) (ofNat n) :=
  upto_of hn (ofNat_nonneg m) (ofNat_mono h)

theorem upto_mul {a b c d : F64} (hc : c.isFinite = true) (hd : d.isFinite = true) (hm : (mul c d).isFinite = true)
    (h1 : Upto a c) (h2 : Upto b d) : Upto (mul a b) (mul c d) :=
  upto_of hm (mul_nonneg' h1.1 h2.1 h1.2.1 h2.2.1) (mul_mono h1.1 h2.1 hc hd h1.2.1 h2.2.1 h1.2.2 h2.2.2)

theorem upto_add {a b c d : F64} (hc : c.isFinite = true) (hd : d.isFinite = true) (hm : (add c d).isFinite = true)
    (h1 : Upto a c) (h2 : Upto b d) : Upto (add a b) (add c d) := by
  refine upto_of hm ?_ ?_
  · rw [add_fv h1.1 h2.1]
    exact rfv_nonneg (add_nonneg h1.2.1 h2.2.1)
  · rw [add_fv h1.1 h2.1, add_fv hc hd]
    refine rfv_mono (by norm_num) (by norm_num) ?_
    have := h1.2.2
    have := h2.2.2
    omega

theorem upto_div {a b c : F64} (hb : b.isFinite = true) (hc : c.isFinite = true) (hpos : 0 < c.fv) (hm : (div b c).isFinite = true)
    (h1 : Upto a b) : Upto (div a c) (div b c) := by
  have hp : 0 < c.fv.natAbs := by omega
  refine upto_of hm ?_ ?_
  · rw [(div_fv h1.1 hc hpos).1]
    exact rfv_nonneg (mul_nonneg h1.2.1 (Int.natCast_nonneg _))
  · rw [(div_fv h1.1 hc hpos).1, (div_fv hb hc hpos).1]
    refine rfv_mono hp hp ?_
    exact mul_le_mul_of_nonneg_right (mul_le_mul_of_nonneg_right h1.2.2 (Int.natCast_nonneg _)) (Int.natCast_nonneg _)

theorem upto_self {x : F64} (h : x.isFinite = true) (h0 : 0 ≤ x.fv) : Upto x x := ⟨h, h0, le_refl _⟩

theorem upto_trans {x y z : F64} (h1 : Upto x y) (h2 : Upto y z) : Upto x z := ⟨h1.1, h1.2.1, h1.2.2.trans h2.2.2⟩

/-- The fraction computed from two numbers. -/
def fraction (a b : F64) : F64 :=
  div (add (mul a one) (mul b (ofNat 2147483646))) (mul (ofNat 2147483646) (ofNat 2147483646))

theorem canonical_fraction (g : Nat) :
    canonical g = (fraction (ofNat (next g - 1)) (ofNat (next (next g) - 1)), next (next g)) := rfl

theorem fraction_upto {a b c d : F64} (hc : c.isFinite = true) (hd : d.isFinite = true) (h1 : Upto a c) (h2 : Upto b d)
    (k1 : (mul c one).isFinite = true) (k2 : (mul d (ofNat 2147483646)).isFinite = true)
    (k3 : (add (mul c one) (mul d (ofNat 2147483646))).isFinite = true) (k4 : (fraction c d).isFinite = true) :
    Upto (fraction a b) (fraction c d) := by
  have r : (ofNat 2147483646).isFinite = true ∧ 0 ≤ (ofNat 2147483646).fv := ⟨by decide +kernel, by decide +kernel⟩
  have o : one.isFinite = true ∧ 0 ≤ one.fv := ⟨by decide +kernel, by decide +kernel⟩
  have rr : (mul (ofNat 2147483646) (ofNat 2147483646)).isFinite = true ∧ 0 < (mul (ofNat 2147483646) (ofNat 2147483646)).fv :=
    ⟨by decide +kernel, by decide +kernel⟩
  unfold fraction at *
  exact upto_div k3 rr.1 rr.2 k4
    (upto_add k1 k2 k3 (upto_mul hc o.1 k1 h1 (upto_self o.1 o.2)) (upto_mul hd r.1 k2 h2 (upto_self r.1 r.2)))

theorem below_one {x y : F64} (h0 : 0 ≤ x.fv) (h : x.fv ≤ y.fv) (h1 : y.fv < one.fv) : Upto x one ∧ x.fv < one.fv :=
  ⟨upto_of (by decide +kernel) h0 (h.trans h1.le), lt_of_le_of_lt h h1⟩

/-- `generate_canonical` delivers numbers between 0 and 1, never 1: the correction in libstdc++ is not needed. -/
theorem canonical_range {g : Nat} (h : State g) :
    State (canonical g).2 ∧ Upto (canonical g).1 one ∧ (canonical g).1.fv < one.fv := by
  rw [canonical_fraction]
  have s1 := next_state h
  have s2 := next_state s1
  refine ⟨s2, ?_⟩
  rcases Nat.lt_or_ge (next (next g)) 2147483646 with hlt | hge
  · have b : Upto (fraction (ofNat (next g - 1)) (ofNat (next (next g) - 1))) (fraction (ofNat 2147483645) (ofNat 2147483644)) := by
      have := s1.2
      exact fraction_upto (by decide +kernel) (by decide +kernel) (upto_ofNat (by decide +kernel) (by omega)) (upto_ofNat (by decide +kernel) (by omega))
        (by decide +kernel) (by decide +kernel) (by decide +kernel) (by decide +kernel)
    have k : (fraction (ofNat 2147483645) (ofNat 2147483644)).fv < one.fv := by decide +kernel
    obtain ⟨-, b0, b1⟩ := b
    generalize fraction (ofNat (next g - 1)) (ofNat (next (next g) - 1)) = x at *
    generalize fraction (ofNat 2147483645) (ofNat 2147483644) = y at *
    exact below_one b0 b1 k
  · have e : next (next g) = 2147483646 := by have := s2.2; omega
    have e1 := before_largest s1 e
    rw [e, e1]
    have k : (fraction (ofNat (739806647 - 1)) (ofNat (2147483646 - 1))).fv < one.fv := by decide +kernel
    have k0 : 0 ≤ (fraction (ofNat (739806647 - 1)) (ofNat (2147483646 - 1))).fv := by decide +kernel
    generalize fraction (ofNat (739806647 - 1)) (ofNat (2147483646 - 1)) = x at *
    exact below_one k0 (Int.le_refl _) k

/-- Twice a double is a double. -/
theorem twice {m w : F64} (hw : w.isFinite = true) (hs : 2 * m.fv ≤ w.fv) (h0 : 0 ≤ m.fv) :
    ∃ y : F64, y.isNaN = false ∧ y.fv = 2 * m.fv := by
  have key : ∃ M, fixMag M = 2 * fixMag m.mag := by
    obtain ⟨k, n, hm, hn, hk⟩ := mag_dec m.mag
    rw [hm, fixMag_enc hn.le hk]
    by_cases h52 : 2 ^ 52 ≤ n
    · refine ⟨(k + 1) * 2 ^ 52 + n, ?_⟩
      rw [fixMag_enc hn.le (Or.inr h52), pow_succ]
      ring
    · have hk0 : k = 0 := by omega
      refine ⟨0 * 2 ^ 52 + 2 * n, ?_⟩
      rw [fixMag_enc (by omega) (Or.inl rfl), hk0]
      ring
  obtain ⟨M, hM⟩ := key
  have hmn : m.fv = fixMag m.mag := by
    have := fv_natAbs m
    omega
  have hwn : (fixMag w.mag : Int) = w.fv.natAbs := by rw [fv_natAbs]
  have hle : M ≤ w.mag := by
    rw [← fixMag_le_iff, hM]
    omega
  have hM2 : M < infMag := lt_of_le_of_lt hle (isFinite_iff.mp hw)
  have hM3 : M < 2 ^ 63 := hM2.trans infMag_lt
  refine ⟨mk' false M, ?_, ?_⟩
  · rw [isNaN_eq_false, mag_mk' _ hM3]; exact hM2.le
  · unfold fv
    rw [neg_mk' _ hM3, mag_mk' _ hM3, hM]
    have := hmn
    unfold fv at this
    rw [this]
    push_cast
    simp

theorem fv_of_val {x y : F64} (h : x.val ≤ y.val) : x.fv ≤ y.fv := by
  unfold val at h
  rw [div_le_div_iff_of_pos_right one1074_pos'] at h
  exact Int.cast_le.mp h

theorem val_zero_le {x : F64} : 0 ≤ x.val ↔ 0 ≤ x.fv := by
  unfold val
  rw [div_nonneg_iff]
  have := one1074_pos'
  constructor
  · rintro (h | h)
    · exact Int.cast_nonneg_iff.mp h.1
    · exact absurd h.2 (not_le.mpr this)
  · intro h
    exact Or.inl ⟨Int.cast_nonneg h, this.le⟩

/-- A magnitude for noise: not negative and far from the largest double. -/
def Magnitude (m : F64) : Prop := Spec.Below 1000 m ∧ 0 ≤ m.val

theorem pow_1000_1002 : 2 * (2 : ℝ) ^ 1000 ≤ 2 ^ 1002 := by
  rw [show (1002 : Nat) = 1000 + 2 from rfl, pow_add]
  generalize hX : (2 : ℝ) ^ 1000 = X
  have h0 : 0 ≤ X := hX ▸ pow_nonneg (by norm_num) _
  linarith only [h0]

/-- The width of the distribution. -/
theorem width {m : F64} (h : Magnitude m) : (sub m (negate m)).isFinite = true ∧ (sub m (negate m)).fv = 2 * m.fv := by
  obtain ⟨⟨hf, hb⟩, h0⟩ := h
  have hn := negate_finite hf
  rw [abs_of_nonneg h0] at hb
  have p2 := pow_1000_1002
  have hv : |m.val + m.val| ≤ |two1002.val| := by
    rw [two1002_val, abs_of_nonneg (add_nonneg h0 h0), abs_of_nonneg (pow_nonneg (by norm_num) _)]
    generalize (2 : ℝ) ^ 1000 = X at *
    generalize (2 : ℝ) ^ 1002 = Y at *
    linarith only [hb, p2]
  have h0' : 0 ≤ m.fv := val_zero_le.mp h0
  have hs : 2 * m.fv ≤ two1002.fv := by
    have hv2 := hv
    unfold val at hv2
    rw [← add_div, abs_div, abs_div, div_le_div_iff_of_pos_right (abs_pos.mpr one1074_pos'.ne')] at hv2
    have hv3 : |m.fv + m.fv| ≤ |two1002.fv| := by exact_mod_cast hv2
    have ht : 0 ≤ two1002.fv := by decide +kernel
    rw [abs_of_nonneg (add_nonneg h0' h0'), abs_of_nonneg ht] at hv3
    omega
  obtain ⟨y, hy, e⟩ := twice two1002_finite hs h0'
  refine ⟨sub_finite_of hf hn two1002_finite (by rw [negate_val, sub_neg_eq_add]; exact hv), ?_⟩
  rw [sub_fv hf hn, negate_fv, ← e, ← rfv_exact hy (B := 1) (by norm_num), e, Nat.cast_one, mul_one]
  congr 1
  ring

/-- `std::uniform_real_distribution` between `-m` and `m`. -/
theorem uniform_range {m : F64} (hm : Magnitude m) {g : Nat} (hg : State g) :
    State (uniformReal (negate m) m g).2 ∧ (uniformReal (negate m) m g).1.isFinite = true
      ∧ (negate m).fv ≤ (uniformReal (negate m) m g).1.fv ∧ (uniformReal (negate m) m g).1.fv ≤ m.fv := by
  obtain ⟨hs, hc, -⟩ := canonical_range hg
  obtain ⟨wf, wv⟩ := width hm
  have hf := hm.1.1
  have hn := negate_finite hf
  have h0 : 0 ≤ m.fv := val_zero_le.mp hm.2
  have e : uniformReal (negate m) m g = (add (mul (canonical g).1 (sub m (negate m))) (negate m), (canonical g).2) := by
    unfold uniformReal
    generalize canonical g = c
    rfl
  rw [e]
  dsimp only
  refine ⟨hs, ?_⟩
  have of : one.isFinite = true := by decide +kernel
  have one_mul : (mul one (sub m (negate m))).fv = (sub m (negate m)).fv := by
    rw [mul_fv of wf, one_fv, mul_comm]
    exact rfv_exact (not_nan_of_finite wf) one1074_pos
  have hmf : (mul one (sub m (negate m))).isFinite = true := finite_of_fv_le wf (by rw [one_mul])
  have b := upto_mul of wf hmf hc (upto_self wf (by omega))
  rw [Upto, one_mul, wv] at b
  obtain ⟨bf, b0, b1⟩ := b
  generalize mul (canonical g).1 (sub m (negate m)) = p at *
  have ef := add_fv bf hn
  have lo : (negate m).fv ≤ (add p (negate m)).fv := by
    rw [ef]
    apply le_rfv (not_nan_of_finite hn) (by norm_num)
    rw [Nat.cast_one, mul_one]
    omega
  have hi : (add p (negate m)).fv ≤ m.fv := by
    rw [ef]
    apply rfv_le (not_nan_of_finite hf) (by norm_num)
    rw [Nat.cast_one, mul_one, negate_fv]
    omega
  refine ⟨finite_of_fv_le hf ?_, lo, hi⟩
  rw [negate_fv] at lo
  generalize (add p (negate m)).fv = a at *
  omega

/-! ## Different states give different numbers -/

/-- The number that `generate_canonical` scales. -/
def drawn (g : Nat) : Nat := (next g - 1) + (next (next g) - 1) * 2147483646

theorem next_injective {g h : Nat} (hg : State g) (hh : State h) (e : next g = next h) : g = h := by
  rw [← next_inverse g hg.2, ← next_inverse h hh.2, e]

theorem drawn_lt {g h : Nat} (hg : State g) (hh : State h) (hlt : next (next g) < next (next h)) :
    drawn g + 1407676999 ≤ drawn h := by
  have s1 := next_state hg
  have s2 := next_state hh
  have t1 := next_state s1
  have t2 := next_state s2
  have i1 := next_inverse _ s1.2
  have i2 := next_inverse _ s2.2
  unfold drawn
  obtain ⟨s1a, s1b⟩ := s1
  obtain ⟨s2a, s2b⟩ := s2
  obtain ⟨t1a, t1b⟩ := t1
  obtain ⟨t2a, t2b⟩ := t2
  generalize next (next g) = g2 at *
  generalize next (next h) = h2 at *
  generalize next g = g1 at *
  generalize next h = h1 at *
  by_cases e : h2 = g2 + 1
  · subst e
    omega
  · omega

theorem drawn_gap {g h : Nat} (hg : State g) (hh : State h) (hne : g ≠ h) :
    (1407676999 : ℝ) ≤ |(drawn g : ℝ) - drawn h| := by
  have key : next (next g) ≠ next (next h) := fun e =>
    hne (next_injective hg hh (next_injective (next_state hg) (next_state hh) e))
  rcases Nat.lt_or_gt_of_ne key with hlt | hlt
  · have h1 : ((drawn g + 1407676999 : Nat) : ℝ) ≤ drawn h := by exact_mod_cast drawn_lt hg hh hlt
    rw [Nat.cast_add, Nat.cast_ofNat] at h1
    rw [abs_sub_comm]
    exact le_trans (by linarith only [h1]) (le_abs_self _)
  · have h1 : ((drawn h + 1407676999 : Nat) : ℝ) ≤ drawn g := by exact_mod_cast drawn_lt hh hg hlt
    rw [Nat.cast_add, Nat.cast_ofNat] at h1
    exact le_trans (by linarith only [h1]) (le_abs_self _)

/-- The errors of the three operations together. -/
theorem three_errors {a b R x s c T : ℝ} (ha : 0 ≤ a ∧ a ≤ 2 ^ 31) (hb : 0 ≤ b ∧ b ≤ 2 ^ 31) (hR : 0 ≤ R ∧ R ≤ 2 ^ 31)
    (hT : 2 ^ 61 ≤ T ∧ T ≤ 2 ^ 62) {e : ℝ} (he : e ≤ 1 / 2 ^ 20) (h1 : 2 ^ 53 * |x - b * R| ≤ |b * R| + e)
    (h2 : 2 ^ 53 * |s - (a + x)| ≤ |a + x|) (h3 : 2 ^ 53 * |c - s / T| ≤ |s / T| + e) : |c * T - (a + b * R)| ≤ 4096 := by
  have hT0 : 0 < T := by linarith only [hT.1, show (0 : ℝ) < 2 ^ 61 by norm_num]
  have hbR : 0 ≤ b * R ∧ b * R ≤ 2 ^ 62 :=
    ⟨mul_nonneg hb.1 hR.1, (mul_le_mul hb.2 hR.2 hR.1 (by norm_num)).trans (by norm_num)⟩
  rw [abs_of_nonneg hbR.1] at h1
  have x1 : |x - b * R| ≤ 513 := by linarith only [h1, hbR.2, he]
  have x2 := abs_le.mp x1
  have ax : |a + x| ≤ 2 ^ 63 := by
    rw [abs_le]; constructor <;> linarith only [x2.1, x2.2, ha.1, ha.2, hbR.1, hbR.2]
  have s1 : |s - (a + x)| ≤ 1024 := by linarith only [h2, ax]
  have s2 := abs_le.mp s1
  have ax2 := abs_le.mp ax
  have sT : |s / T| * T = |s| := by
    rw [abs_div, abs_of_pos hT0, div_mul_cancel₀ _ hT0.ne']
  have sab : |s| ≤ 2 ^ 63 + 1024 := by
    rw [abs_le]; constructor <;> linarith only [s2.1, s2.2, ax2.1, ax2.2]
  have cT : |c - s / T| * T = |c * T - s| := by
    rw [← abs_of_pos hT0, ← abs_mul, abs_of_pos hT0, sub_mul, div_mul_cancel₀ _ hT0.ne']
  have h4 := mul_le_mul_of_nonneg_right h3 hT0.le
  rw [mul_assoc, cT, add_mul, sT] at h4
  have eT : e * T ≤ 2 ^ 42 := by
    by_cases h0 : 0 ≤ e
    · exact (mul_le_mul he hT.2 hT0.le (by norm_num)).trans (by norm_num)
    · have := mul_nonpos_of_nonpos_of_nonneg (not_le.mp h0).le hT0.le
      linarith only [this, show (0 : ℝ) ≤ 2 ^ 42 by norm_num]
  have c1 : |c * T - s| ≤ 1025 := by linarith only [h4, sab, eT]
  have c2 := abs_le.mp c1
  rw [abs_le]
  constructor <;> linarith only [c2.1, c2.2, s2.1, s2.2, x2.1, x2.2]

theorem small_ofNat {n : Nat} (h : n < 2147483647) : (ofNat n).isFinite = true ∧ (ofNat n).val = n := by
  have h1 : ((n : Int)).natAbs < 2 ^ 53 := by rw [Int.natAbs_natCast]; omega
  have := ofInt_val h1
  rw [Int.cast_natCast] at this
  exact ⟨ofInt_finite h1, this⟩

theorem tiny52 : 2 ^ 52 / (one1074 : ℝ) ≤ 1 / 2 ^ 20 := by
  rw [div_le_div_iff₀ one1074_pos' (by norm_num), ← pow_add, one_mul]
  unfold one1074
  rw [Nat.cast_pow, Nat.cast_ofNat]
  exact pow_le_pow_right₀ (by norm_num) (by norm_num)

/-- The square of the range, as computed. -/
theorem square_range : (mul (ofNat 2147483646) (ofNat 2147483646)).isFinite = true ∧ 0 < (mul (ofNat 2147483646) (ofNat 2147483646)).fv
    ∧ 2 ^ 61 ≤ (mul (ofNat 2147483646) (ofNat 2147483646)).val ∧ (mul (ofNat 2147483646) (ofNat 2147483646)).val ≤ 2 ^ 62 := by
  have e1 : 2 ^ 61 * (one1074 : Int) ≤ (mul (ofNat 2147483646) (ofNat 2147483646)).fv := by decide +kernel
  have e2 : (mul (ofNat 2147483646) (ofNat 2147483646)).fv ≤ 2 ^ 62 * (one1074 : Int) := by decide +kernel
  have e3 : 0 < (mul (ofNat 2147483646) (ofNat 2147483646)).fv := by decide +kernel
  have e4 : (mul (ofNat 2147483646) (ofNat 2147483646)).isFinite = true := by decide +kernel
  generalize mul (ofNat 2147483646) (ofNat 2147483646) = T at *
  refine ⟨e4, e3, ?_, ?_⟩
  · unfold val
    rw [le_div_iff₀ one1074_pos']
    exact_mod_cast e1
  · unfold val
    rw [div_le_iff₀ one1074_pos']
    exact_mod_cast e2

theorem canonical_near {g : Nat} (h : State g) :
    |(canonical g).1.val * (mul (ofNat 2147483646) (ofNat 2147483646)).val - drawn g| ≤ 4096 := by
  have hc := (canonical_range h).2.1.1
  rw [canonical_fraction] at *
  dsimp only at *
  have s1 := next_state h
  have s2 := next_state s1
  obtain ⟨af, av⟩ := small_ofNat (n := next g - 1) (by have := s1.2; omega)
  obtain ⟨bf, bv⟩ := small_ofNat (n := next (next g) - 1) (by have := s2.2; omega)
  obtain ⟨rf, rv⟩ := small_ofNat (n := 2147483646) (by norm_num)
  obtain ⟨tf, tp, t1, t2⟩ := square_range
  have of : one.isFinite = true := by decide +kernel
  have hub1 : Upto (ofNat (next g - 1)) (ofNat 2147483646) := upto_ofNat rf (by have := s1.2; omega)
  have hub2 : Upto (ofNat (next (next g) - 1)) (ofNat 2147483646) := upto_ofNat rf (by have := s2.2; omega)
  have hmul := upto_mul rf rf tf hub2 (upto_self rf (ofNat_nonneg _))
  have honefv : (mul (ofNat (next g - 1)) one).fv = (ofNat (next g - 1)).fv := by
    rw [mul_fv af of, one_fv]
    exact rfv_exact (not_nan_of_finite af) one1074_pos
  have honef : (mul (ofNat (next g - 1)) one).isFinite = true := finite_of_fv_le af (by rw [honefv])
  have honev : (mul (ofNat (next g - 1)) one).val = (ofNat (next g - 1)).val := by unfold val; rw [honefv]
  have hsumf : (add (mul (ofNat (next g - 1)) one) (mul (ofNat (next (next g) - 1)) (ofNat 2147483646))).isFinite = true := by
    have k1 : (mul (ofNat 2147483646) one).isFinite = true := by decide +kernel
    have k2 : (add (mul (ofNat 2147483646) one) (mul (ofNat 2147483646) (ofNat 2147483646))).isFinite = true := by decide +kernel
    exact (upto_add k1 tf k2 (upto_mul rf of k1 hub1 (upto_self of (by decide +kernel))) hmul).1
  have v1 := mul_val bf rf hmul.1
  have v2 := add_val honef hmul.1 hsumf
  have v3 := div_val hsumf tf tp (by unfold fraction at hc; exact hc)
  unfold fraction drawn
  rw [honev, av] at v2
  rw [bv, rv] at v1
  have hn1 : ((next g - 1 : Nat) : ℝ) ≤ 2 ^ 31 := by
    have : next g - 1 ≤ 2 ^ 31 := by have := s1.2; omega
    exact_mod_cast this
  have hn2 : ((next (next g) - 1 : Nat) : ℝ) ≤ 2 ^ 31 := by
    have : next (next g) - 1 ≤ 2 ^ 31 := by have := s2.2; omega
    exact_mod_cast this
  rw [Nat.cast_add, Nat.cast_mul]
  exact three_errors ⟨Nat.cast_nonneg _, hn1⟩ ⟨Nat.cast_nonneg _, hn2⟩ ⟨Nat.cast_nonneg _, by norm_num⟩ ⟨t1, t2⟩ tiny52 v1 v2 v3

/-- The numbers of different states are far apart. -/
theorem canonical_gap {g h : Nat} (hg : State g) (hh : State h) (hne : g ≠ h) :
    1 / 2 ^ 33 ≤ |(canonical g).1.val - (canonical h).1.val| := by
  have a := canonical_near hg
  have b := canonical_near hh
  have d := drawn_gap hg hh hne
  obtain ⟨-, -, t1, t2⟩ := square_range
  generalize (mul (ofNat 2147483646) (ofNat 2147483646)).val = T at *
  generalize (canonical g).1.val = x at *
  generalize (canonical h).1.val = y at *
  generalize (drawn g : ℝ) = m at *
  generalize (drawn h : ℝ) = n at *
  have hT0 : 0 < T := by linarith only [t1, show (0 : ℝ) < 2 ^ 61 by norm_num]
  have e : |x - y| * T = |(x * T - m) - (y * T - n) + (m - n)| := by
    rw [← abs_of_pos hT0, ← abs_mul, abs_of_pos hT0]
    congr 1
    ring
  have tri : |m - n| ≤ |(x * T - m) - (y * T - n) + (m - n)| + (|x * T - m| + |y * T - n|) := by
    have h1 : m - n = ((x * T - m) - (y * T - n) + (m - n)) + (-(x * T - m) + (y * T - n)) := by ring
    have h2 := abs_add_le ((x * T - m) - (y * T - n) + (m - n)) (-(x * T - m) + (y * T - n))
    rw [← h1] at h2
    have h3 := abs_add_le (-(x * T - m)) (y * T - n)
    rw [abs_neg] at h3
    linarith only [h2, h3]
  rw [← e] at tri
  have key : 2 ^ 30 ≤ |x - y| * T := by linarith only [tri, a, b, d]
  have k2 : |x - y| * T ≤ |x - y| * 2 ^ 62 := mul_le_mul_of_nonneg_left t2 (abs_nonneg _)
  rw [div_le_iff₀ (by norm_num)]
  linarith only [key, k2]

theorem two_errors {c w m p d e : ℝ} (hm : 0 ≤ m) (hw : w = 2 * m) (hc : 0 ≤ c ∧ c ≤ 1) (he : e ≤ m) (hp : 0 ≤ p ∧ p ≤ w)
    (h1 : 2 ^ 53 * |p - c * w| ≤ |c * w| + e) (h2 : 2 ^ 53 * |d - (p + -m)| ≤ |p + -m|) : 2 ^ 53 * |d - (c * w - m)| ≤ 4 * m := by
  have hcw : |c * w| ≤ 2 * m := by
    rw [abs_of_nonneg (mul_nonneg hc.1 (by rw [hw]; linarith only [hm]))]
    rw [hw]
    have := mul_le_mul_of_nonneg_right hc.2 (show 0 ≤ 2 * m by linarith only [hm])
    linarith only [this]
  have hpm : |p + -m| ≤ m := by
    rw [abs_le]; constructor <;> linarith only [hp.1, hp.2, hw]
  have h3 : |d - (c * w - m)| ≤ |d - (p + -m)| + |p - c * w| := by
    have e1 : d - (c * w - m) = (d - (p + -m)) + (p - c * w) := by ring
    rw [e1]
    exact abs_add_le _ _
  linarith only [h1, h2, h3, hcw, hpm, he]

/-- Not too small. -/
theorem tiny_le {m : F64} (h : 1 / 2 ^ 900 ≤ m.val) : 2 ^ 52 / (one1074 : ℝ) ≤ m.val := by
  refine le_trans ?_ h
  rw [div_le_div_iff₀ one1074_pos' (pow_pos (by norm_num) _), ← pow_add, one_mul]
  unfold one1074
  rw [Nat.cast_pow, Nat.cast_ofNat]
  exact pow_le_pow_right₀ (by norm_num) (by norm_num)

theorem uniform_near {m : F64} (hm : Magnitude m) (hs : 1 / 2 ^ 900 ≤ m.val) {g : Nat} (hg : State g) :
    2 ^ 53 * |(uniformReal (negate m) m g).1.val - ((canonical g).1.val * (2 * m.val) - m.val)| ≤ 4 * m.val := by
  have hd := (uniform_range hm hg).2.1
  obtain ⟨-, hc, -⟩ := canonical_range hg
  obtain ⟨wf, wv⟩ := width hm
  have hf := hm.1.1
  have hn := negate_finite hf
  have e : uniformReal (negate m) m g = (add (mul (canonical g).1 (sub m (negate m))) (negate m), (canonical g).2) := by
    unfold uniformReal
    generalize canonical g = c
    rfl
  rw [e] at hd ⊢
  dsimp only at hd ⊢
  have wval : (sub m (negate m)).val = 2 * m.val := by
    unfold val
    rw [wv, Int.cast_mul, Int.cast_ofNat, mul_div_assoc]
  have of : one.isFinite = true := by decide +kernel
  have one_mul' : (mul one (sub m (negate m))).fv = (sub m (negate m)).fv := by
    rw [mul_fv of wf, one_fv, mul_comm]
    exact rfv_exact (not_nan_of_finite wf) one1074_pos
  have hmf : (mul one (sub m (negate m))).isFinite = true := finite_of_fv_le wf (by rw [one_mul'])
  have h0 : 0 ≤ m.fv := val_zero_le.mp hm.2
  have b := upto_mul of wf hmf hc (upto_self wf (by omega))
  rw [Upto, one_mul'] at b
  obtain ⟨bf, b0, b1⟩ := b
  have v1 := mul_val hc.1 wf bf
  have v2 := add_val bf hn hd
  rw [negate_val] at v2
  have onev : one.val = 1 := by
    unfold val
    rw [one_fv, Int.cast_natCast]
    exact div_self one1074_pos'.ne'
  have c1 : (canonical g).1.val ≤ 1 := by rw [← onev]; exact val_le_of_fv hc.2.2
  have h := two_errors (w := (sub m (negate m)).val) hm.2 wval ⟨val_zero_le.mpr hc.2.1, c1⟩ (tiny_le hs)
    ⟨val_zero_le.mpr b0, val_le_of_fv b1⟩ v1 v2
  rw [wval] at h
  exact h

/-- Different states give different offsets. -/
theorem uniform_differ {m : F64} (hm : Magnitude m) (hs : 1 / 2 ^ 900 ≤ m.val) {g h : Nat} (hg : State g) (hh : State h) (hne : g ≠ h) :
    (uniformReal (negate m) m g).1.val ≠ (uniformReal (negate m) m h).1.val := by
  intro e
  have a := uniform_near hm hs hg
  have b := uniform_near hm hs hh
  have c := canonical_gap hg hh hne
  rw [e] at a
  have hpos : 0 < m.val := lt_of_lt_of_le (div_pos one_pos (pow_pos (by norm_num) _)) hs
  generalize (canonical g).1.val = x at *
  generalize (canonical h).1.val = y at *
  generalize (uniformReal (negate m) m h).1.val = d at *
  generalize m.val = v at *
  have tri : |x * (2 * v) - v - (y * (2 * v) - v)| ≤ |d - (x * (2 * v) - v)| + |d - (y * (2 * v) - v)| := by
    have e1 : x * (2 * v) - v - (y * (2 * v) - v) = -(d - (x * (2 * v) - v)) + (d - (y * (2 * v) - v)) := by ring
    rw [e1]
    have := abs_add_le (-(d - (x * (2 * v) - v))) (d - (y * (2 * v) - v))
    rwa [abs_neg] at this
  have e2 : |x * (2 * v) - v - (y * (2 * v) - v)| = |x - y| * (2 * v) := by
    have : x * (2 * v) - v - (y * (2 * v) - v) = (x - y) * (2 * v) := by ring
    rw [this, abs_mul, abs_of_pos (show 0 < 2 * v by linarith only [hpos])]
  rw [e2] at tri
  have k := mul_le_mul_of_nonneg_right c (show 0 ≤ 2 * v by linarith only [hpos])
  have e3 : (1 : ℝ) / 2 ^ 33 * (2 * v) * 2 ^ 53 = 2 ^ 21 * v := by ring
  have k2 : 2 ^ 21 * v ≤ 8 * v := by
    rw [← e3]
    linarith only [tri, a, b, k]
  linarith only [k2, hpos]

end Spoc.Noise
