import Verif.Proofs.TestUtils
import Verif.Spec.TestUtils
import Verif.Props.Io
import Verif.Props.File
import Verif.Props.Noise

/-!
# C115: the data that the tests generate
-/

namespace Spoc.Props

open TestUtils F64 Spec Io

/-! ## Records and files -/

theorem negOne_eq : negOne = negate one := by decide +kernel

theorem within_one {x : F64} (hf : x.isFinite = true) (h1 : (negate one).fv ≤ x.fv) (h2 : x.fv ≤ one.fv) : Within x (-1) 1 := by
  have a : (negate one).val ≤ x.val := val_le_of_fv h1
  have b : x.val ≤ one.val := val_le_of_fv h2
  rw [negate_val] at a
  rw [Noise.val_facts.1] at a b
  exact ⟨hf, a, b⟩

theorem real_spec {g : Nat} (hg : Noise.State g) : ∃ x g', uniformReal negOne one g = (x, g') ∧ Within x (-1) 1 ∧ Noise.State g' := by
  rw [negOne_eq]
  obtain ⟨h1, h2, h3, h4⟩ := Noise.uniform_range one_magnitude hg
  generalize uniformReal (negate one) one g = r at *
  exact ⟨r.1, r.2, rfl, within_one h2 h3 h4, h1⟩

theorem di_spec {g : Nat} (hg : Noise.State g) : ∃ n g', di g = (n, g') ∧ n ≤ 32768 ∧ Noise.State g' := by
  obtain ⟨h1, h2, h3, -⟩ := uniformInt_spec (a := 0) (b := 32768) (by norm_num) (by norm_num) hg
  unfold di
  generalize uniformInt 0 32768 period g = r at *
  exact ⟨r.1.toNat, r.2, rfl, by omega, h3⟩

theorem extra_spec : ∀ (k : Nat) {g : Nat}, Noise.State g → ∃ es g', randomExtra k g = (es, g') ∧ es.length = k
    ∧ (∀ e ∈ es, e.toNat ≤ 32768) ∧ Noise.State g'
  | 0, g, hg => ⟨[], g, rfl, rfl, by simp, hg⟩
  | k + 1, g, hg => by
    obtain ⟨n, g1, h1, hn, hg1⟩ := di_spec hg
    obtain ⟨es, g2, h2, hl, he, hg2⟩ := extra_spec k hg1
    refine ⟨UInt64.ofNat n :: es, g2, ?_, by simp [hl], ?_, hg2⟩
    · rw [randomExtra, h1]
      dsimp only
      rw [h2]
    · intro e h
      rcases List.mem_cons.mp h with rfl | h
      · rw [UInt64.toNat_ofNat']
        exact (Nat.mod_le _ _).trans hn
      · exact he e h

theorem u16_le {n : Nat} (h : n ≤ 32768) : (UInt16.ofNat n).toNat ≤ 32768 := by
  rw [UInt16.toNat_ofNat']
  exact (Nat.mod_le _ _).trans h

theorem u32_le {n : Nat} (h : n ≤ 32768) : (UInt32.ofNat n).toNat ≤ 32768 := by
  rw [UInt32.toNat_ofNat']
  exact (Nat.mod_le _ _).trans h

theorem record_spec (ef : Nat) (rgb : Bool) {g : Nat} (hg : Noise.State g) : ∃ p g', randomRecord ef rgb g = (p, g')
    ∧ p.x = (uniformReal negOne one g).1 ∧ Generated ef rgb p ∧ Noise.State g' := by
  obtain ⟨x, g1, h1, hx, s1⟩ := real_spec hg
  obtain ⟨y, g2, h2, hy, s2⟩ := real_spec s1
  obtain ⟨z, g3, h3, hz, s3⟩ := real_spec s2
  obtain ⟨c, g4, h4, hc, s4⟩ := di_spec s3
  obtain ⟨p, g5, h5, hp, s5⟩ := di_spec s4
  obtain ⟨i, g6, h6, hi, s6⟩ := di_spec s5
  rw [h1]
  unfold randomRecord
  cases rgb with
  | true =>
    obtain ⟨r, g7, h7, hr, s7⟩ := di_spec s6
    obtain ⟨gr, g8, h8, hgr, s8⟩ := di_spec s7
    obtain ⟨b, g9, h9, hb, s9⟩ := di_spec s8
    obtain ⟨es, g10, h10, hl, he, s10⟩ := extra_spec ef s9
    simp only [h1, h2, h3, h4, h5, h6, h7, h8, h9, h10, if_true]
    exact ⟨_, _, rfl, rfl, ⟨hx, hy, hz, u32_le hc, u32_le hp, u16_le hi, u16_le hr, u16_le hgr, u16_le hb, by simp, hl, he⟩, s10⟩
  | false =>
    obtain ⟨es, g10, h10, hl, he, s10⟩ := extra_spec ef s6
    simp only [h1, h2, h3, h4, h5, h6, h10, Bool.false_eq_true, if_false]
    exact ⟨_, _, rfl, rfl, ⟨hx, hy, hz, u32_le hc, u32_le hp, u16_le hi, u16_le (Nat.zero_le _), u16_le (Nat.zero_le _), u16_le (Nat.zero_le _), fun _ => ⟨rfl, rfl, rfl⟩, hl, he⟩, s10⟩

theorem loop_spec (ef : Nat) (rgb : Bool) : ∀ (n : Nat) {g : Nat}, Noise.State g →
    (randomLoop ef rgb n g).length = n ∧ ∀ p ∈ randomLoop ef rgb n g, Generated ef rgb p
  | 0, _, _ => ⟨rfl, by intro p hp; simp [randomLoop] at hp⟩
  | n + 1, g, hg => by
    obtain ⟨q, g', h, -, hq, hg'⟩ := record_spec ef rgb hg
    obtain ⟨h1, h2⟩ := loop_spec ef rgb n hg'
    rw [randomLoop, h]
    refine ⟨by simp [h1], fun p hp => ?_⟩
    rcases List.mem_cons.mp hp with rfl | hp
    · exact hq
    · exact h2 p hp

/-- **C115**: as many records as asked for, each with the asked number of extra fields, and all values in their ranges, for every seed. -/
theorem c115_records (n ef : Nat) (rgb : Bool) (s : Nat) :
    (randomRecords n ef rgb s).length = n ∧ ∀ p ∈ randomRecords n ef rgb s, Generated ef rgb p :=
  loop_spec ef rgb n (Noise.seed_state s)

/-- **C115**: a file is generated, without an exception, and with at most 123 extra fields it survives being written and read.  (With more
extra fields the reader hangs: C01.) -/
theorem c115_file (n ef : Nat) (rgb : Bool) (s : Nat) (hn : n < 2 ^ 64) (hef : ef ≤ 123) (b : Build) (z : Zlib) :
    ∃ f, randomFile n ef false rgb s = .ok f ∧ f.prs = randomRecords n ef rgb s ∧ f.compressed = false
      ∧ (writeFile b z f).res = .ok () ∧ readFile b z { rest := (writeFile b z f).bytes } = .ok (f, { rest := [] }) := by
  obtain ⟨h1, h2⟩ := c115_records n ef rgb s
  have hu : Uniform (randomRecords n ef rgb s) := fun p hp q hq => by rw [(h2 p hp).count, (h2 q hq).count]
  have he : randomFile n ef false rgb s
      = .ok { major := majorVersion, minor := minorVersion, wkt := [0x57, 0x4B, 0x54], compressed := false, prs := randomRecords n ef rgb s } := by
    unfold randomFile SpocFile.new' SpocFile.new
    rw [if_neg (by rw [(allSame_uniform _).mpr hu]; simp)]
  refine ⟨_, he, rfl, rfl, ?_⟩
  obtain ⟨w1, w2⟩ := c01_uncompressed_roundtrip_partial b z
    { major := majorVersion, minor := minorVersion, wkt := [0x57, 0x4B, 0x54], compressed := false, prs := randomRecords n ef rgb s }
    ⟨rfl, rfl, by simp, hu, fun q hq => by rw [(h2 q hq).count]; omega, by rw [h1]; exact hn⟩ rfl
    (fun q hq => by rw [(h2 q hq).count]; exact hef)
  refine ⟨w1, ?_⟩
  have := w2 []
  rwa [List.append_nil] at this

example : (10 : Nat) < 2 ^ 64 ∧ (8 : Nat) ≤ 123 := by norm_num

/-- **C115**: the seed decides: seeds that are equal modulo 2147483647 give the same records, -/
theorem c115_equal_seeds (n ef : Nat) (rgb : Bool) (s t : Nat) (h : s % 2147483647 = t % 2147483647) :
    randomRecords n ef rgb s = randomRecords n ef rgb t := by
  unfold randomRecords seed
  rw [h]

/-- and seeds that are different and not zero modulo 2147483647 give records of which the first ones already differ. -/
theorem c115_different_seeds (n ef : Nat) (rgb : Bool) (s t : Nat) (h : s % 2147483647 ≠ t % 2147483647) (hs : s % 2147483647 ≠ 0)
    (ht : t % 2147483647 ≠ 0) (hn : 0 < n) : ∃ p q ps qs, randomRecords n ef rgb s = p :: ps ∧ randomRecords n ef rgb t = q :: qs
      ∧ p.x.val ≠ q.x.val := by
  obtain ⟨k, rfl⟩ : ∃ k, n = k + 1 := ⟨n - 1, by omega⟩
  have hne : seed s ≠ seed t := by
    unfold seed
    rw [if_neg hs, if_neg ht]
    exact h
  obtain ⟨p, g, h1, hx, -⟩ := record_spec ef rgb (Noise.seed_state s)
  obtain ⟨q, g', h2, hy, -⟩ := record_spec ef rgb (Noise.seed_state t)
  refine ⟨p, q, _, _, by rw [randomRecords, randomLoop, h1], by rw [randomRecords, randomLoop, h2], ?_⟩
  rw [hx, hy, negOne_eq]
  refine Noise.uniform_differ one_magnitude ?_ (Noise.seed_state s) (Noise.seed_state t) hne
  rw [one_val'.2]
  exact div_le_one_of_le₀ (one_le_pow₀ (by norm_num)) (pow_nonneg (by norm_num) _)

example : (123 % 2147483647 ≠ 124 % 2147483647) ∧ 123 % 2147483647 ≠ 0 ∧ 124 % 2147483647 ≠ 0 := by decide

/-- **C115**: the loop that skips random numbers ends after at most 2147483646 rounds, whatever the range and the state of the engine are:
more rounds would not change anything; and the number is in the range. -/
theorem c115_integers {a b : Int} (hab : a ≤ b) (hr : b - a < 2147483645) (s : Nat) :
    ∃ n g, (∀ m, 2147483646 ≤ m → uniformInt a b m (seed s) = (n, g)) ∧ a ≤ n ∧ n ≤ b := by
  obtain ⟨h1, h2, -, h4⟩ := uniformInt_spec hab hr (Noise.seed_state s)
  refine ⟨(uniformInt a b period (seed s)).1, (uniformInt a b period (seed s)).2, fun m hm => ?_, h1, h2⟩
  rw [h4 m hm]

example : (0 : Int) ≤ 25 ∧ (25 : Int) - 0 < 2147483645 := by norm_num

/-! ## Comparison -/

/-- **C115**: `about_equal` of moderate numbers is defined.  Numbers that it accepts differ by at most a thousandth (and the rounding of the
products), and it accepts numbers that are close to the same multiple of a thousandth. -/
theorem c115_about_equal {a b : F64} (ha : a.isFinite = true) (hb : b.isFinite = true) (ba : |a.val| ≤ 2000000) (bb : |b.val| ≤ 2000000) :
    ∃ t, aboutEqualRes a b = .ok t ∧ (t = true → |a.val - b.val| ≤ 1 / 1000 + 1 / 2 ^ 29)
      ∧ ∀ k : Int, |a.val - k / 1000| ≤ 499 / 1000000 → |b.val - k / 1000| ≤ 499 / 1000000 → t = true := by
  obtain ⟨m, h1, hm⟩ := thousandths ha ba
  obtain ⟨n, h2, hn⟩ := thousandths hb bb
  refine ⟨decide (m = n), by unfold aboutEqualRes; rw [h1, h2]; rfl, ?_, ?_⟩
  · intro h
    have e : m = n := by simpa using h
    subst e
    have c := abs_le.mp hm
    have d := abs_le.mp hn
    have : (1 : ℝ) / 2 ^ 21 * 2 / 1000 ≤ 1 / 2 ^ 29 := by norm_num
    rw [abs_le]
    constructor <;> linarith only [c.1, c.2, d.1, d.2, this]
  · intro k hk1 hk2
    have key : ∀ {j : Int} {v : ℝ}, |(j : ℝ) - v * 1000| ≤ 1 / 2 + 1 / 2 ^ 21 → |v - k / 1000| ≤ 499 / 1000000 → j = k := by
      intro j v hj hv
      have c := abs_le.mp hj
      have d := abs_le.mp hv
      have : (1 : ℝ) / 2 ^ 21 < 1 / 1000 := by norm_num
      have e1 : (j : ℝ) < k + 1 := by linarith only [c.1, c.2, d.1, d.2, this]
      have e2 : (k : ℝ) - 1 < j := by linarith only [c.1, c.2, d.1, d.2, this]
      have e1' : j < k + 1 := by exact_mod_cast e1
      have e2' : k - 1 < j := by exact_mod_cast e2
      omega
    rw [key hm hk1, key hn hk2]
    simp

example : F64.one.isFinite = true ∧ |F64.one.val| ≤ 2000000 ∧ |F64.one.val - (1000 : Int) / 1000| ≤ 499 / 1000000 := by
  refine ⟨one_val'.1, ?_, ?_⟩
  · rw [one_val'.2]; norm_num
  · rw [one_val'.2]; norm_num

/-- **C115**, negation of "values that are equal up to three places are accepted": 0.0005 and its neighbour are not. -/
theorem c115_about_equal_rejects : aboutEqualRes ⟨0x3F40624DD2F1A9FC⟩ ⟨0x3F40624DD2F1A9FB⟩ = .ok false
    ∧ aboutEqualRes ⟨0x3F40624DD2F1A9FC⟩ ⟨0x3F40624DD2F1A9FC⟩ = .ok true := by decide +kernel

/-- **C115**, limit: `about_equal` of numbers from 2147483.648 on is undefined behaviour. -/
theorem c115_about_equal_undefined : (aboutEqualRes (ofNat 2147484) (ofNat 2147484)).isUb = true := by decide +kernel

/-! ## Points and clouds -/

/-- A product with a factor of magnitude at most 1. -/
theorem mul_le_factor {u p : F64} (hu : u.isFinite = true) (hp : p.isFinite = true) (h : |u.val| ≤ 1) :
    (mul u p).isFinite = true ∧ |(mul u p).val| ≤ |p.val| := by
  have hU := one1074_pos'
  have k : (mul u p).fv.natAbs ≤ p.fv.natAbs := by
    rw [mul_fv hu hp]
    apply rfv_finite hp one1074_pos
    have h1 : |(u.fv : ℝ)| ≤ one1074 := by
      unfold val at h
      rwa [abs_div, abs_of_pos hU, div_le_one hU] at h
    have h2 : |(u.fv : ℝ) * p.fv| ≤ |(p.fv : ℝ)| * one1074 := by
      rw [abs_mul, mul_comm |(p.fv : ℝ)|]
      exact mul_le_mul_of_nonneg_right h1 (abs_nonneg _)
    exact_mod_cast h2
  refine ⟨finite_of_fv_le hp k, ?_⟩
  unfold val
  rw [abs_div, abs_div, abs_of_pos hU]
  apply div_le_div_of_nonneg_right _ hU.le
  have : |(mul u p).fv| ≤ |p.fv| := by rw [Int.abs_eq_natAbs, Int.abs_eq_natAbs]; exact_mod_cast k
  exact_mod_cast this

theorem power_fv {k : Nat} (h : k ≤ 1002) : rfv (2 ^ k * (one1074 : Int)) 1 = 2 ^ k * (one1074 : Int) := by
  have e : (2 : Int) ^ k * (one1074 : Int) = 1 * 2 ^ (k + 1074) := by rw [one1074_eq, one_mul, pow_add]
  rw [e]
  apply rfv_dyadic two1002_finite (by decide)
  rw [two1002_fv, Int.natAbs_mul, natAbs_two_pow, one1074_eq, natAbs_two_pow, pow_add, show (1 : Int).natAbs = 1 from rfl, one_mul]
  exact Nat.mul_le_mul_right _ (two_pow_le h)

/-- Powers of two are converted exactly. -/
theorem power_ofNat {k : Nat} (h : k ≤ 1002) : (ofNat (2 ^ k)).isFinite = true ∧ (ofNat (2 ^ k)).fv = 2 ^ k * one1074 := by
  have e : (ofNat (2 ^ k)).fv = 2 ^ k * one1074 := by
    rw [Noise.ofNat_fv', cast_two_pow]
    exact power_fv h
  refine ⟨finite_of_fv_le two1002_finite ?_, e⟩
  rw [e, two1002_fv, Int.natAbs_mul, Int.natAbs_mul, natAbs_two_pow, natAbs_two_pow]
  exact Nat.mul_le_mul_right _ (two_pow_le h)

theorem power_inverse {k : Nat} (h : k ≤ 1002) : (div one (ofNat (2 ^ k))).isFinite = true ∧ (div one (ofNat (2 ^ k))).fv * 2 ^ k = one1074 := by
  obtain ⟨pf, pv⟩ := power_ofNat h
  have of : one.isFinite = true := by decide +kernel
  have hp : 0 < (ofNat (2 ^ k)).fv := by
    rw [pv]
    exact Int.mul_pos (Int.pow_pos (by norm_num)) (by have := one1074_pos; omega)
  have e : (div one (ofNat (2 ^ k))).fv = 2 ^ (1074 - k) := by
    rw [(div_fv of pf hp).1, pv, one_fv, Int.natAbs_mul, natAbs_two_pow, Int.natAbs_natCast]
    rw [Utils.rfv_scale (one1074 : Int) (Nat.two_pow_pos k) one1074_pos]
    have e1 : rfv (1 * 2 ^ (1074 - k) * ((2 ^ k : Nat) : Int)) (1 * 2 ^ k) = 1 * 2 ^ (1074 - k) := by
      rw [Utils.rfv_scale _ (by norm_num) (Nat.two_pow_pos k)]
      apply rfv_dyadic two1002_finite (by decide)
      rw [two1002_fv, Int.natAbs_mul, natAbs_two_pow, Int.natAbs_natCast, show (1 : Int).natAbs = 1 from rfl, one_mul]
      exact (two_pow_le (by omega)).trans (le_trans (le_one1074 1074 (le_refl _)) (Nat.le_mul_of_pos_left _ (Nat.two_pow_pos _)))
    have e2 : (1 * 2 ^ (1074 - k) * ((2 ^ k : Nat) : Int)) = one1074 := by
      rw [one1074_eq, cast_two_pow, one_mul, ← pow_add, Nat.sub_add_cancel (by omega)]
    rw [e2, one_mul ((2 : Nat) ^ k), one_mul ((2 : Int) ^ (1074 - k))] at e1
    exact e1
  refine ⟨finite_of_fv_le of ?_, ?_⟩
  · rw [e, one_fv, natAbs_two_pow, Int.natAbs_natCast]
    exact le_one1074 _ (by omega)
  · rw [e, one1074_eq, ← pow_add, Nat.sub_add_cancel (by omega)]

/-- `std::ldexp` of a number between -1 and 1. -/
theorem ldexp_spec {x : F64} (hx : Within x (-1) 1) {e : Int} (h1 : -1002 ≤ e) (h2 : e ≤ 1002) :
    (ldexp x e).isFinite = true ∧ |(ldexp x e).val| ≤ (2 : ℝ) ^ e := by
  have hU := one1074_pos'
  obtain ⟨xf, x1, x2⟩ := hx
  have hx1 : |x.val| ≤ 1 := abs_le.mpr ⟨x1, x2⟩
  unfold ldexp
  split
  · obtain ⟨pf, pv⟩ := power_inverse (k := (-e).toNat) (by omega)
    obtain ⟨h3, h4⟩ := mul_le_factor xf pf hx1
    refine ⟨h3, h4.trans (le_of_eq ?_)⟩
    have pv' : (div one (ofNat (2 ^ (-e).toNat))).val * 2 ^ (-e).toNat = 1 := by
      unfold val
      have : ((div one (ofNat (2 ^ (-e).toNat))).fv : ℝ) * 2 ^ (-e).toNat = one1074 := by exact_mod_cast pv
      rw [div_mul_eq_mul_div, this, div_self hU.ne']
    have hpos : (0 : ℝ) < 2 ^ (-e).toNat := pow_pos (by norm_num) _
    have ee : (2 : ℝ) ^ e = 1 / 2 ^ (-e).toNat := by
      rw [one_div, ← zpow_natCast, ← zpow_neg, show -((-e).toNat : Int) = e by omega]
    rw [eq_div_of_mul_eq hpos.ne' pv', ee, abs_of_nonneg (div_nonneg (by norm_num) hpos.le)]
  · obtain ⟨pf, pv⟩ := power_ofNat (k := e.toNat) (by omega)
    obtain ⟨h3, h4⟩ := mul_le_factor xf pf hx1
    refine ⟨h3, h4.trans (le_of_eq ?_)⟩
    have pv' : (ofNat (2 ^ e.toNat)).val = 2 ^ e.toNat := by
      unfold val
      have : ((ofNat (2 ^ e.toNat)).fv : ℝ) = 2 ^ e.toNat * one1074 := by exact_mod_cast pv
      rw [this, mul_div_assoc, div_self hU.ne', mul_one]
    have ee : (2 : ℝ) ^ e = 2 ^ e.toNat := by
      rw [← zpow_natCast, show (e.toNat : Int) = e by omega]
    rw [pv', ee, abs_of_nonneg (pow_nonneg (by norm_num) _)]

theorem scaled_spec (second : Bool) {lo hi : Int} (hlo : -1002 ≤ lo) (hle : lo ≤ hi) (hhi : hi ≤ 1002) {g : Nat} (hg : Noise.State g) :
    ∃ x g', randomScaled second lo hi g = (x, g') ∧ (x.isFinite = true ∧ |x.val| ≤ (2 : ℝ) ^ hi) ∧ Noise.State g' := by
  have key : ∀ {x : F64} {e : Int}, Within x (-1) 1 → lo ≤ e → e ≤ hi → (ldexp x e).isFinite = true ∧ |(ldexp x e).val| ≤ (2 : ℝ) ^ hi := by
    intro x e hx h1 h2
    obtain ⟨h3, h4⟩ := ldexp_spec hx (e := e) (by omega) (by omega)
    exact ⟨h3, h4.trans (zpow_le_zpow_right₀ (by norm_num) h2)⟩
  unfold randomScaled
  cases second with
  | true =>
    obtain ⟨h1, h2, h3, -⟩ := uniformInt_spec hle (by omega) hg
    simp only [if_true]
    generalize uniformInt lo hi period g = r at *
    obtain ⟨x, g', e, hx, hg'⟩ := real_spec h3
    obtain ⟨k, g1⟩ := r
    dsimp only at *
    rw [e]
    exact ⟨_, _, rfl, key hx h1 h2, hg'⟩
  | false =>
    obtain ⟨x, g', e, hx, hg'⟩ := real_spec hg
    simp only [Bool.false_eq_true, if_false]
    rw [e]
    dsimp only
    obtain ⟨h1, h2, h3, -⟩ := uniformInt_spec hle (by omega) hg'
    generalize uniformInt lo hi period g' = r at *
    obtain ⟨k, g1⟩ := r
    exact ⟨_, _, rfl, key hx h1 h2, h3⟩

/-- **C115**: `generate_points` delivers as many points as asked for; the coordinates are finite, and their magnitude is at most 2 to the
largest exponent. -/
theorem c115_points (second : Bool) (n : Nat) {lo hi : Int} (hlo : -1002 ≤ lo) (hle : lo ≤ hi) (hhi : hi ≤ 1002) :
    (generatePoints second n lo hi).length = n ∧ ∀ p ∈ generatePoints second n lo hi, ∀ v ∈ [p.x, p.y, p.z],
      v.isFinite = true ∧ |v.val| ≤ (2 : ℝ) ^ hi := by
  have key : ∀ (n : Nat) {g : Nat}, Noise.State g → (pointsLoop second lo hi n g).length = n ∧ ∀ p ∈ pointsLoop second lo hi n g,
      ∀ v ∈ [p.x, p.y, p.z], v.isFinite = true ∧ |v.val| ≤ (2 : ℝ) ^ hi := by
    intro n
    induction n with
    | zero => intro g _; exact ⟨rfl, by intro p hp; simp [pointsLoop] at hp⟩
    | succ n ih =>
      intro g hg
      obtain ⟨x, g1, e1, hx, s1⟩ := scaled_spec second hlo hle hhi hg
      obtain ⟨y, g2, e2, hy, s2⟩ := scaled_spec second hlo hle hhi s1
      obtain ⟨z, g3, e3, hz, s3⟩ := scaled_spec second hlo hle hhi s2
      obtain ⟨h1, h2⟩ := ih s3
      simp only [pointsLoop, e1, e2, e3]
      refine ⟨by simp [h1], fun p hp => ?_⟩
      rcases List.mem_cons.mp hp with rfl | hp
      · intro v hv
        simp only [List.mem_cons, List.not_mem_nil, or_false] at hv
        rcases hv with rfl | rfl | rfl
        · exact hx
        · exact hy
        · exact hz
      · exact h2 p hp
  exact key n (Noise.seed_state 1)

example : (-1002 : Int) ≤ -510 ∧ (-510 : Int) ≤ 512 ∧ (512 : Int) ≤ 1002 := by norm_num

/-- **C115**, limit: which points these are depends on the order in which the compiler evaluates the arguments of `std::ldexp`. -/
theorem c115_points_unspecified : generatePoints true 1 ≠ generatePoints false 1 := by decide +kernel

/-- A generated coordinate of a cloud of noise. -/
theorem noise_spec {ex : F64} (hf : ex.isFinite = true) (h0 : 0 ≤ ex.val) {g : Nat} (hg : Noise.State g) :
    ∃ u g', uniformReal zero one g = (u, g') ∧ Within (mul u ex) 0 ex.val ∧ Noise.State g' := by
  obtain ⟨h1, h2, h3, h4⟩ := unit_range hg
  generalize uniformReal zero one g = r at *
  obtain ⟨u, g'⟩ := r
  dsimp only at *
  have p0 : 0 ≤ u.fv := by
    have := Noise.p106_facts.2.1
    generalize Noise.p106.fv = t at *
    omega
  have u1 : |u.val| ≤ 1 := by
    rw [abs_of_nonneg (Noise.val_zero_le.mpr p0), ← Noise.val_facts.1]
    exact val_le_of_fv h4.le
  obtain ⟨mf, mv⟩ := mul_le_factor h2 hf u1
  rw [abs_of_nonneg h0] at mv
  refine ⟨u, g', rfl, ⟨mf, ?_, (le_abs_self _).trans mv⟩, h1⟩
  rw [Noise.val_zero_le, mul_fv h2 hf]
  exact rfv_nonneg (mul_nonneg p0 (Noise.val_zero_le.mp h0))

/-- **C115**: `get_noisy_point_cloud` delivers as many points as asked for, all of them in the box. -/
theorem c115_cloud (n s : Nat) {ex ey ez : F64} (hx : ex.isFinite = true) (hy : ey.isFinite = true) (hz : ez.isFinite = true)
    (x0 : 0 ≤ ex.val) (y0 : 0 ≤ ey.val) (z0 : 0 ≤ ez.val) :
    (noisyCloud n ex ey ez s).length = n
      ∧ ∀ p ∈ noisyCloud n ex ey ez s, Within p.x 0 ex.val ∧ Within p.y 0 ey.val ∧ Within p.z 0 ez.val := by
  have key : ∀ (n : Nat) {g : Nat}, Noise.State g → (noisyLoop ex ey ez n g).length = n
      ∧ ∀ p ∈ noisyLoop ex ey ez n g, Within p.x 0 ex.val ∧ Within p.y 0 ey.val ∧ Within p.z 0 ez.val := by
    intro n
    induction n with
    | zero => intro g _; exact ⟨rfl, by intro p hp; simp [noisyLoop] at hp⟩
    | succ n ih =>
      intro g hg
      obtain ⟨x, g1, e1, kx, s1⟩ := noise_spec hx x0 hg
      obtain ⟨y, g2, e2, ky, s2⟩ := noise_spec hy y0 s1
      obtain ⟨z, g3, e3, kz, s3⟩ := noise_spec hz z0 s2
      obtain ⟨h1, h2⟩ := ih s3
      simp only [noisyLoop, e1, e2, e3]
      refine ⟨by simp [h1], fun p hp => ?_⟩
      rcases List.mem_cons.mp hp with rfl | hp
      · exact ⟨kx, ky, kz⟩
      · exact h2 p hp
  exact key n (Noise.seed_state s)

example : F64.one.isFinite = true ∧ 0 ≤ F64.one.val := by
  rw [one_val'.2]
  exact ⟨one_val'.1, by norm_num⟩

/-! ## Names of temporary files -/

/-- **C115**: the name of a temporary file is the directory, a slash, and as many small letters as asked for. -/
theorem c115_name (dir : List Char) (clock n : Nat) : ∃ l : List Char, l.length = n ∧ (∀ c ∈ l, 'a' ≤ c ∧ c ≤ 'z')
    ∧ tmpFilename dir clock n = (if dir.getLast? = some '/' ∨ dir = [] then dir else dir ++ ['/']) ++ l := by
  have key : ∀ (n : Nat) {g : Nat}, Noise.State g → (nameLoop n g).length = n ∧ ∀ c ∈ nameLoop n g, 'a' ≤ c ∧ c ≤ 'z' := by
    intro n
    induction n with
    | zero => intro g _; exact ⟨rfl, by intro p hp; simp [nameLoop] at hp⟩
    | succ n ih =>
      intro g hg
      obtain ⟨h1, h2, h3, -⟩ := uniformInt_spec (a := 0) (b := 25) (by norm_num) (by norm_num) hg
      rw [nameLoop]
      generalize uniformInt 0 25 period g = r at *
      obtain ⟨k, g'⟩ := r
      obtain ⟨e1, e2⟩ := ih h3
      refine ⟨by simp [e1], fun c hc => ?_⟩
      rcases List.mem_cons.mp hc with rfl | hc
      · have letters : ∀ j ∈ List.range 26, 'a' ≤ Char.ofNat (97 + j) ∧ Char.ofNat (97 + j) ≤ 'z' := by decide
        exact letters k.toNat (List.mem_range.mpr (by dsimp only at h1 h2; omega))
      · exact e2 c hc
  obtain ⟨h1, h2⟩ := key n (Noise.seed_state (clock % 2 ^ 32))
  exact ⟨_, h1, h2, rfl⟩

/-- **C115**, negation of "Generate a unique filename" (the comment of `generate_tmp_filename`): the name is the same again after 2^32 ticks
of the clock (4.3 seconds if it counts nanoseconds). -/
theorem c115_name_not_unique (dir : List Char) (clock n : Nat) : tmpFilename dir (clock + 2 ^ 32) n = tmpFilename dir clock n := by
  unfold tmpFilename
  rw [Nat.add_mod_right]

end Spoc.Props
