import Verif.Spec.Area
import Verif.Proofs.Distance
import Verif.Proofs.Merge

/-!
# The areas that merge computes
-/

namespace Spoc

open Spec F64

theorem spans_unique {xs : List F64} {lo hi lo' hi' : ℝ} (h : Spans xs lo hi) (h' : Spans xs lo' hi') : lo = lo' ∧ hi = hi' := by
  obtain ⟨⟨a, ha, rfl⟩, ⟨b, hb, rfl⟩, hc⟩ := h
  obtain ⟨⟨a', ha', rfl⟩, ⟨b', hb', rfl⟩, hc'⟩ := h'
  exact ⟨le_antisymm (hc a' ha').1 (hc' a ha).1, le_antisymm (hc' b hb).2 (hc b' hb').2⟩

theorem boxArea_unique {ps : List PointRecord} {A A' : ℝ} (h : BoxArea ps A) (h' : BoxArea ps A') : A = A' := by
  obtain ⟨x0, x1, y0, y1, h1, h2, rfl⟩ := h
  obtain ⟨x0', x1', y0', y1', h1', h2', rfl⟩ := h'
  obtain ⟨rfl, rfl⟩ := spans_unique h1 h1'
  obtain ⟨rfl, rfl⟩ := spans_unique h2 h2'
  rfl

theorem val_le_of_fv {x y : F64} (h : x.fv ≤ y.fv) : x.val ≤ y.val := by
  unfold val
  rw [div_le_div_iff_of_pos_right one1074_pos']
  exact Int.cast_le.mpr h

/-- The extreme values as they are computed. -/
theorem fold_spans {xs : List F64} (hne : xs ≠ []) (hf : ∀ x ∈ xs, x.isFinite = true) :
    Spans xs (foldMin maxVal xs).val (foldMax lowest xs).val := by
  have hn : ∀ x ∈ xs, x.isNaN = false := fun x hx => not_nan_of_finite (hf x hx)
  refine ⟨⟨_, foldMin_attained xs hne hf, rfl⟩, ⟨_, foldMax_attained xs hne hf, rfl⟩, fun x hx => ⟨val_le_of_fv ?_, val_le_of_fv ?_⟩⟩
  · rw [(foldMin_int xs hn).2]
    exact (foldl_min_le _ _).2 _ (List.mem_map_of_mem hx)
  · rw [(foldMax_int xs hn).2]
    exact (foldl_max_ge _ _).2 _ (List.mem_map_of_mem hx)

/-- A rounded product of rounded differences. -/
theorem product_err {a a' b b' m e : ℝ} (h1 : 2 ^ 53 * |a' - a| ≤ |a|) (h3 : 2 ^ 53 * |b' - b| ≤ |b|)
    (h2 : 2 ^ 53 * |m - a' * b'| ≤ |a' * b'| + 2 ^ 52 * e) (he : 0 ≤ e) : |m - a * b| ≤ |a * b| / 2 ^ 51 + e := by
  have q1 : |a' - a| ≤ |a| / 2 ^ 53 := by rw [le_div_iff₀ (by norm_num)]; linarith
  have q2 : |b' - b| ≤ |b| / 2 ^ 53 := by rw [le_div_iff₀ (by norm_num)]; linarith
  have q3 : |b'| ≤ |b| * (1 + 1 / 2 ^ 53) := by
    have h := abs_sub_abs_le_abs_sub b' b
    linarith
  have q4 : |a' * b' - a * b| ≤ |a * b| * (2 / 2 ^ 53 + 1 / 2 ^ 106) := by
    have e1 : a' * b' - a * b = (a' - a) * b' + a * (b' - b) := by ring
    rw [e1]
    refine (abs_add_le _ _).trans ?_
    rw [abs_mul, abs_mul, abs_mul]
    have r1 := mul_le_mul q1 q3 (abs_nonneg _) (by positivity)
    have r2 := mul_le_mul_of_nonneg_left q2 (abs_nonneg a)
    refine (add_le_add r1 r2).trans (le_of_eq ?_)
    ring
  have q5 : |a' * b'| ≤ 3 / 2 * |a * b| := by
    have h := abs_sub_abs_le_abs_sub (a' * b') (a * b)
    have := abs_nonneg (a * b)
    norm_num at *
    linarith
  have q6 : |m - a' * b'| ≤ (3 / 2 * |a * b| + 2 ^ 52 * e) / 2 ^ 53 := by
    rw [le_div_iff₀ (by norm_num)]; linarith
  have q7 := abs_sub_le m (a' * b') (a * b)
  have := abs_nonneg (a * b)
  norm_num at *
  linarith

theorem pow400 : 4096 * ((2 : ℝ) ^ 400) ^ 2 * 2 ^ 40 ≤ 2 ^ 1002 := by
  have h1 : (4096 : ℝ) = 2 ^ 12 := by norm_num
  rw [h1, ← pow_mul, ← pow_add, ← pow_add]
  exact pow_le_pow_right₀ (by norm_num) (by norm_num)

/-- The product of two differences. -/
theorem box_product {x0 x1 y0 y1 : F64} (hx0 : Below 400 x0) (hx1 : Below 400 x1) (hy0 : Below 400 y0) (hy1 : Below 400 y1) :
    (mul (sub x1 x0) (sub y1 y0)).isFinite = true
      ∧ |(mul (sub x1 x0) (sub y1 y0)).val - (x1.val - x0.val) * (y1.val - y0.val)|
          ≤ |(x1.val - x0.val) * (y1.val - y0.val)| / 2 ^ 51 + 1 / (one1074 : ℝ)
      ∧ |(x1.val - x0.val) * (y1.val - y0.val)| ≤ 4 * ((2 : ℝ) ^ 400) ^ 2 := by
  obtain ⟨e0, e1⟩ := inv_le_one
  have hV : (1 : ℝ) ≤ 2 ^ 400 := one_le_pow₀ (by norm_num)
  have hW := pow400
  have hP : (1 : ℝ) ≤ 2 ^ 40 := one_le_pow₀ (by norm_num)
  have hw : |two1002.val| = 2 ^ 1002 := by rw [two1002_val, abs_of_nonneg (pow_nonneg (by norm_num) _)]
  have hW' : 4096 * ((2 : ℝ) ^ 400) ^ 2 ≤ 2 ^ 1002 := by
    refine le_trans ?_ hW
    exact le_mul_of_one_le_right (mul_nonneg (by norm_num) (sq_nonneg _)) hP
  have diff : ∀ {u v : F64}, Below 400 u → Below 400 v → (sub u v).isFinite = true ∧ |u.val - v.val| ≤ 2 * 2 ^ 400
      ∧ |(sub u v).val| ≤ 3 * 2 ^ 400 ∧ 2 ^ 53 * |(sub u v).val - (u.val - v.val)| ≤ |u.val - v.val| := by
    intro u v ⟨fu, bu⟩ ⟨fv, bv⟩
    have ha : |u.val - v.val| ≤ 2 * 2 ^ 400 := by
      refine (abs_sub _ _).trans ?_
      generalize (2 : ℝ) ^ 400 = V at *
      linarith only [bu, bv]
    have hd : (sub u v).isFinite = true := by
      refine sub_finite_of fu fv two1002_finite ?_
      rw [hw]
      generalize (2 : ℝ) ^ 400 = V at *
      generalize (2 : ℝ) ^ 1002 = W at *
      nlinarith only [ha, hW', hV]
    have hd1 := sub_val fu fv hd
    refine ⟨hd, ha, ?_, hd1⟩
    have h3 := abs_sub_abs_le_abs_sub (sub u v).val (u.val - v.val)
    have h4 : |(sub u v).val - (u.val - v.val)| ≤ |u.val - v.val| / 2 ^ 53 := by
      rw [le_div_iff₀ (by norm_num)]
      linarith only [hd1]
    have h5 : |u.val - v.val| / 2 ^ 53 ≤ |u.val - v.val| / 2 := div_le_div_of_nonneg_left (abs_nonneg _) (by norm_num) (by norm_num)
    generalize (2 : ℝ) ^ 400 = V at *
    linarith only [h3, h4, h5, ha]
  obtain ⟨fx, bx, cx, ex⟩ := diff hx1 hx0
  obtain ⟨fy, b_y, cy, ey⟩ := diff hy1 hy0
  have hm : (mul (sub x1 x0) (sub y1 y0)).isFinite = true := by
    refine mul_finite_of fx fy two1002_finite ?_
    rw [hw, abs_mul]
    refine le_trans (mul_le_mul cx cy (abs_nonneg _) (mul_nonneg (by norm_num) (pow_nonneg (by norm_num) _))) ?_
    generalize (2 : ℝ) ^ 400 = V at *
    generalize (2 : ℝ) ^ 1002 = W at *
    nlinarith only [hW', hV]
  have hm1 := mul_val fx fy hm
  have e2 : (2 : ℝ) ^ 52 / (one1074 : ℝ) = 2 ^ 52 * (1 / (one1074 : ℝ)) := by rw [mul_one_div]
  rw [e2] at hm1
  refine ⟨hm, product_err ex ey hm1 e0, ?_⟩
  rw [abs_mul]
  refine (mul_le_mul bx b_y (abs_nonneg _) (mul_nonneg (by norm_num) (pow_nonneg (by norm_num) _))).trans (le_of_eq ?_)
  generalize (2 : ℝ) ^ 400 = V
  ring

/-- Coordinates seen from above that are not too large. -/
def FlatBelow (k : Nat) (ps : List PointRecord) : Prop := ∀ p ∈ ps, Below k p.x ∧ Below k p.y

theorem area_val {ps : List PointRecord} (hne : ps ≠ []) (h : FlatBelow 400 ps) :
    ∃ A, BoxArea ps A ∧ 0 ≤ A ∧ A ≤ 4 * ((2 : ℝ) ^ 400) ^ 2 ∧ (Merge.area (Extent.ofPoints ps)).isFinite = true
      ∧ |(Merge.area (Extent.ofPoints ps)).val - A| ≤ A / 2 ^ 51 + 1 / (one1074 : ℝ) := by
  have hx : ∀ x ∈ ps.map (·.x), Below 400 x := by
    intro x hx; obtain ⟨p, hp, rfl⟩ := List.mem_map.mp hx; exact (h p hp).1
  have hy : ∀ x ∈ ps.map (·.y), Below 400 x := by
    intro x hx; obtain ⟨p, hp, rfl⟩ := List.mem_map.mp hx; exact (h p hp).2
  have nx : ps.map (·.x) ≠ [] := by simpa using hne
  have ny : ps.map (·.y) ≠ [] := by simpa using hne
  have sx := fold_spans nx (fun x hx' => (hx x hx').1)
  have sy := fold_spans ny (fun x hx' => (hy x hx').1)
  have b := box_product (hx _ (foldMin_attained _ nx fun x hx' => (hx x hx').1)) (hx _ (foldMax_attained _ nx fun x hx' => (hx x hx').1))
    (hy _ (foldMin_attained _ ny fun x hx' => (hy x hx').1)) (hy _ (foldMax_attained _ ny fun x hx' => (hy x hx').1))
  have harea : Merge.area (Extent.ofPoints ps) = mul (sub (foldMax lowest (ps.map (·.x))) (foldMin maxVal (ps.map (·.x))))
      (sub (foldMax lowest (ps.map (·.y))) (foldMin maxVal (ps.map (·.y)))) := by
    rw [Extent.ofPoints_eq]
    rfl
  rw [harea]
  clear harea hx hy nx ny
  generalize foldMax lowest (ps.map (·.x)) = x1 at *
  generalize foldMin maxVal (ps.map (·.x)) = x0 at *
  generalize foldMax lowest (ps.map (·.y)) = y1 at *
  generalize foldMin maxVal (ps.map (·.y)) = y0 at *
  have lx : x0.val ≤ x1.val := by
    obtain ⟨⟨a, ha, e⟩, _, hc⟩ := sx
    rw [← e]; exact (hc a ha).2
  have ly : y0.val ≤ y1.val := by
    obtain ⟨⟨a, ha, e⟩, _, hc⟩ := sy
    rw [← e]; exact (hc a ha).2
  have hA : 0 ≤ (x1.val - x0.val) * (y1.val - y0.val) := mul_nonneg (sub_nonneg.mpr lx) (sub_nonneg.mpr ly)
  rw [abs_of_nonneg hA] at b
  exact ⟨_, ⟨_, _, _, _, sx, sy, rfl⟩, hA, b.2.2, b.1, b.2.1⟩

/-! ## Sums and quotients -/

theorem sum_step {S A s a t e N : ℝ} (hN : 0 ≤ N) (hN' : N ≤ 2 ^ 40) (hS : 0 ≤ S) (hA : 0 ≤ A) (he : 0 ≤ e)
    (h1 : |s - S| ≤ S * (N + 4) / 2 ^ 52 + 2 * N * e) (h2 : |a - A| ≤ A / 2 ^ 51 + e) (h3 : 2 ^ 53 * |t - (s + a)| ≤ |s + a|) :
    |t - (S + A)| ≤ (S + A) * (N + 1 + 4) / 2 ^ 52 + 2 * (N + 1) * e := by
  have hP : 0 ≤ S * N := mul_nonneg hS hN
  have hR : 0 ≤ A * N := mul_nonneg hA hN
  have hQ : 0 ≤ N * e := mul_nonneg hN he
  have hP' : S * N ≤ S * 2 ^ 40 := mul_le_mul_of_nonneg_left hN' hS
  have hQ' : N * e ≤ 2 ^ 40 * e := mul_le_mul_of_nonneg_right hN' he
  have e1 : S * (N + 4) = S * N + 4 * S := by ring
  have e2 : (S + A) * (N + 1 + 4) = S * N + A * N + 5 * S + 5 * A := by ring
  have e3 : 2 * N * e = 2 * (N * e) := by ring
  have e4 : 2 * (N + 1) * e = 2 * (N * e) + 2 * e := by ring
  rw [e1, e3] at h1
  rw [e2, e4]
  generalize S * N = P at *
  generalize A * N = R at *
  generalize N * e = Q at *
  have k1 : |s + a - (S + A)| ≤ (P + 4 * S) / 2 ^ 52 + 2 * Q + (A / 2 ^ 51 + e) := by
    have : s + a - (S + A) = (s - S) + (a - A) := by ring
    rw [this]
    exact (abs_add_le _ _).trans (add_le_add h1 h2)
  have k2 := abs_sub_abs_le_abs_sub (s + a) (S + A)
  rw [abs_of_nonneg (add_nonneg hS hA)] at k2
  have k3 := abs_sub_le t (s + a) (S + A)
  have k4 : |t - (s + a)| ≤ |s + a| / 2 ^ 53 := by rw [le_div_iff₀ (by norm_num)]; linarith
  norm_num at *
  linarith

theorem small_sum {N : ℝ} (hN' : N ≤ 2 ^ 40) : 2 * N * (1 / (one1074 : ℝ)) ≤ 1 := by
  rw [mul_one_div, div_le_one one1074_pos']
  refine le_trans ?_ one1074_ge
  norm_num at *
  linarith

theorem half_bound {S N : ℝ} (hS : 0 ≤ S) (hN' : N ≤ 2 ^ 40) : S * (N + 4) / 2 ^ 52 ≤ S / 2 := by
  have := mul_le_mul_of_nonneg_left hN' hS
  norm_num at *
  linarith

theorem nothing_err (e : ℝ) : |(0 : ℝ) - 0| ≤ 0 * (((0 : Nat) : ℝ) + 4) / 2 ^ 52 + 2 * ((0 : Nat) : ℝ) * e := by
  norm_num

theorem areas_sum {ι : Type} (a : ι → F64) (A : ι → ℝ) (l : List ι) (h : ∀ i ∈ l, (a i).isFinite = true ∧ 0 ≤ A i
      ∧ A i ≤ 4 * ((2 : ℝ) ^ 400) ^ 2 ∧ |(a i).val - A i| ≤ A i / 2 ^ 51 + 1 / (one1074 : ℝ)) (hl : l.length ≤ 2 ^ 40) :
    (l.foldl (fun s i => add s (a i)) zero).isFinite = true
      ∧ |(l.foldl (fun s i => add s (a i)) zero).val - (l.map A).sum|
          ≤ (l.map A).sum * (l.length + 4) / 2 ^ 52 + 2 * l.length * (1 / (one1074 : ℝ))
      ∧ 0 ≤ (l.map A).sum ∧ (l.map A).sum ≤ l.length * (4 * ((2 : ℝ) ^ 400) ^ 2) := by
  obtain ⟨e0, e1⟩ := inv_le_one
  have hV : (1 : ℝ) ≤ 2 ^ 400 := one_le_pow₀ (by norm_num)
  have hW := pow400
  have hw : |two1002.val| = 2 ^ 1002 := by rw [two1002_val, abs_of_nonneg (pow_nonneg (by norm_num) _)]
  induction l using List.reverseRecOn with
  | nil =>
    simp only [List.foldl_nil, List.map_nil, List.sum_nil, List.length_nil]
    refine ⟨by decide, ?_, le_refl _, ?_⟩
    · rw [show zero.val = 0 from by unfold val; rw [zero_fv, Int.cast_zero, zero_div]]
      exact nothing_err _
    · norm_num
  | append_singleton l i ih =>
    rw [List.length_append, List.length_singleton] at hl
    obtain ⟨s1, s2, s3, s4⟩ := ih (fun j hj => h j (List.mem_append_left _ hj)) (by omega)
    obtain ⟨a1, a2, a3, a4⟩ := h i (by simp)
    rw [List.foldl_append, List.map_append, List.sum_append, List.length_append, List.length_singleton]
    simp only [List.foldl_cons, List.foldl_nil, List.map_cons, List.map_nil, List.sum_singleton, Nat.cast_add, Nat.cast_one]
    have hN : (0 : ℝ) ≤ l.length := Nat.cast_nonneg _
    have hN' : (l.length : ℝ) ≤ 2 ^ 40 := by
      have : l.length ≤ 2 ^ 40 := by omega
      exact_mod_cast this
    generalize l.foldl (fun s i => add s (a i)) zero = s at *
    generalize (l.map A).sum = S at *
    generalize (l.length : ℝ) = N at *
    generalize a i = x at *
    generalize A i = X at *
    have hS : |s.val| ≤ 2 * S + 1 := by
      have k := abs_sub_abs_le_abs_sub s.val S
      rw [abs_of_nonneg s3] at k
      have k1 : S * (N + 4) / 2 ^ 52 ≤ S / 2 := half_bound s3 hN'
      have k2 : 2 * N * (1 / (one1074 : ℝ)) ≤ 1 := small_sum hN'
      linarith only [k, k1, k2, s2, s3]
    have hX : |x.val| ≤ 2 * X + 1 := by
      have k := abs_sub_abs_le_abs_sub x.val X
      rw [abs_of_nonneg a2] at k
      have k1 : X / 2 ^ 51 ≤ X := div_le_self a2 (by norm_num)
      linarith only [k, k1, e1, a4]
    have hfin : (add s x).isFinite = true := by
      refine add_finite_of s1 a1 two1002_finite ?_
      rw [hw]
      refine (abs_add_le _ _).trans ?_
      refine le_trans ?_ hW
      have k1 : N * (4 * ((2 : ℝ) ^ 400) ^ 2) ≤ 2 ^ 40 * (4 * ((2 : ℝ) ^ 400) ^ 2) :=
        mul_le_mul_of_nonneg_right hN' (mul_nonneg (by norm_num) (sq_nonneg _))
      have k2 : (1 : ℝ) ≤ ((2 : ℝ) ^ 400) ^ 2 := one_le_pow₀ hV
      have k3 : (1 : ℝ) ≤ 2 ^ 40 := one_le_pow₀ (by norm_num)
      have k4 : ((2 : ℝ) ^ 400) ^ 2 ≤ 2 ^ 40 * ((2 : ℝ) ^ 400) ^ 2 := le_mul_of_one_le_left (sq_nonneg _) k3
      generalize ((2 : ℝ) ^ 400) ^ 2 = V at *
      linarith only [hS, hX, s4, a3, k1, k2, k3, k4]
    refine ⟨hfin, sum_step hN hN' s3 a2 e0 s2 a4 (add_val s1 a1 hfin), add_nonneg s3 a2, ?_⟩
    rw [add_mul, one_mul]
    exact add_le_add s4 a3

/-- The quotient is clearly above 100. -/
theorem ratio_above {M S m s r N e : ℝ} (hN : 0 ≤ N) (hN' : N ≤ 2 ^ 40) (hS : 0 < S) (he : 0 ≤ e) (he' : 2 ^ 100 * e ≤ S)
    (hm : |m - M| ≤ M / 2 ^ 51 + e) (hs : |s - S| ≤ S * (N + 4) / 2 ^ 52 + 2 * N * e) (hs0 : 0 < s)
    (hr : 2 ^ 53 * |r - m / s| ≤ |m / s| + 1) (h : 100 * S * (1 + (N + 16) / 2 ^ 51) < M) : 100 < r := by
  have hQ : 100 * (1 + 1 / 2 ^ 50) ≤ m / s := by
    rw [le_div_iff₀ hs0]
    have k1 := (abs_le.mp hm).1
    have k2 := (abs_le.mp hs).2
    have k3 : N * e ≤ 2 ^ 40 * e := mul_le_mul_of_nonneg_right hN' he
    have k4 : S * N ≤ S * 2 ^ 40 := mul_le_mul_of_nonneg_left hN' hS.le
    have k5 : 0 ≤ S * N := mul_nonneg hS.le hN
    have e1 : S * (N + 4) = S * N + 4 * S := by ring
    have e2 : 2 * N * e = 2 * (N * e) := by ring
    have e3 : 100 * S * (1 + (N + 16) / 2 ^ 51) = 100 * (S + (S * N + 16 * S) / 2 ^ 51) := by ring
    rw [e1, e2] at k2
    rw [e3] at h
    generalize S * N = P at *
    generalize N * e = Q at *
    norm_num at *
    linarith
  have k := (abs_le.mp (le_div_iff₀' (by norm_num : (0 : ℝ) < 2 ^ 53) |>.mpr hr)).1
  rw [abs_of_nonneg (le_trans (by norm_num) hQ)] at k
  generalize m / s = t at *
  norm_num at *
  linarith

/-- The quotient is clearly below 100. -/
theorem ratio_below {M S m s r N e : ℝ} (hN : 0 ≤ N) (hN' : N ≤ 2 ^ 40) (hS : 0 < S) (he : 0 ≤ e) (he' : 2 ^ 100 * e ≤ S)
    (hm : |m - M| ≤ M / 2 ^ 51 + e) (hs : |s - S| ≤ S * (N + 4) / 2 ^ 52 + 2 * N * e) (hs0 : 0 < s)
    (hr : 2 ^ 53 * |r - m / s| ≤ |m / s| + 1) (hM : 0 ≤ M) (hs4 : S / 4 ≤ s) (h : M < 100 * S * (1 - (N + 16) / 2 ^ 51)) : r < 100 := by
  have hQ : m / s ≤ 100 * (1 - 1 / 2 ^ 50) := by
    rw [div_le_iff₀ hs0]
    have k1 := (abs_le.mp hm).2
    have k2 := (abs_le.mp hs).1
    have k3 : N * e ≤ 2 ^ 40 * e := mul_le_mul_of_nonneg_right hN' he
    have k4 : S * N ≤ S * 2 ^ 40 := mul_le_mul_of_nonneg_left hN' hS.le
    have k5 : 0 ≤ S * N := mul_nonneg hS.le hN
    have e1 : S * (N + 4) = S * N + 4 * S := by ring
    have e2 : 2 * N * e = 2 * (N * e) := by ring
    have e3 : 100 * S * (1 - (N + 16) / 2 ^ 51) = 100 * (S - (S * N + 16 * S) / 2 ^ 51) := by ring
    rw [e1, e2] at k2
    rw [e3] at h
    generalize S * N = P at *
    generalize N * e = Q at *
    norm_num at *
    linarith
  have k := (abs_le.mp (le_div_iff₀' (by norm_num : (0 : ℝ) < 2 ^ 53) |>.mpr hr)).2
  have hlow : -1 ≤ m / s := by
    rw [le_div_iff₀ hs0]
    have k1 := (abs_le.mp hm).1
    norm_num at *
    linarith
  have habs : |m / s| ≤ 100 := by
    rw [abs_le]
    constructor
    · linarith
    · refine hQ.trans ?_
      norm_num
  have k' : r - m / s ≤ 101 / 2 ^ 53 := by
    refine k.trans ?_
    rw [div_le_div_iff_of_pos_right (by norm_num)]
    linarith
  generalize m / s = t at *
  norm_num at *
  linarith

theorem quotient_bound {m s S M : ℝ} (hm : |m| ≤ 2 * M + 1) (hM : M ≤ 4 * ((2 : ℝ) ^ 400) ^ 2) (hs : S / 4 ≤ s) (hS : 1 / 2 ^ 100 ≤ S) :
    |m| ≤ 2 ^ 1002 * s := by
  have h1 : (2 : ℝ) ^ 1002 = (2 ^ 400) ^ 2 * 2 ^ 202 := by rw [← pow_mul, ← pow_add]
  have hV : (1 : ℝ) ≤ ((2 : ℝ) ^ 400) ^ 2 := one_le_pow₀ (one_le_pow₀ (by norm_num))
  rw [h1]
  clear h1
  generalize ((2 : ℝ) ^ 400) ^ 2 = V at *
  have h2 : (2 : ℝ) ^ 200 * S ≤ 2 ^ 202 * s := by
    rw [show (202 : Nat) = 200 + 2 from rfl, pow_add]
    have : (0 : ℝ) ≤ 2 ^ 200 := by positivity
    nlinarith
  have h3 : (16 : ℝ) ≤ 2 ^ 200 * S := by
    have k : (16 : ℝ) ≤ 2 ^ 200 * (1 / 2 ^ 100) := by norm_num
    exact k.trans (mul_le_mul_of_nonneg_left hS (by positivity))
  rw [mul_assoc]
  have h4 : V * 16 ≤ V * (2 ^ 202 * s) := mul_le_mul_of_nonneg_left (h3.trans h2) (by linarith only [hV])
  generalize V * (2 ^ 202 * s) = R at *
  linarith only [h4, hm, hM, hV]

theorem sub_small {u v : F64} (hu : Below 400 u) (hv : Below 400 v) : (sub u v).isFinite = true := by
  have hw : |two1002.val| = 2 ^ 1002 := by rw [two1002_val, abs_of_nonneg (pow_nonneg (by norm_num) _)]
  refine sub_finite_of hu.1 hv.1 two1002_finite ?_
  rw [hw]
  refine (abs_sub _ _).trans ((add_le_add hu.2 hv.2).trans ?_)
  rw [← two_mul, ← pow_succ']
  exact pow_le_pow_right₀ (by norm_num) (by norm_num)

end Spoc
