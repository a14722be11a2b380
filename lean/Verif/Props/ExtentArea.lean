import Verif.Proofs.ExtentArea

/-!
# C93: the area and the volume of a box

`get_area` and `get_volume` of the box around a cloud are the area and the volume up to rounding, and they never decrease when
points are added.
-/

namespace Spoc.Props

open Spec F64

/-- C93, area. -/
theorem c93_area (ps : List PointRecord) (hne : ps ≠ []) (h : SmallBox ps) :
    ∃ A, BoxArea ps A ∧ (Extent.area (Extent.ofPoints ps)).isFinite = true
      ∧ |(Extent.area (Extent.ofPoints ps)).val - A| ≤ A / 2 ^ 51 + 1 / (one1074 : ℝ) := by
  obtain ⟨A, h1, _, _, h4, h5⟩ := area_val hne
    (fun p hp => ⟨below_le (by norm_num) (h p hp).1, below_le (by norm_num) (h p hp).2.1⟩ : FlatBelow 400 ps)
  exact ⟨A, h1, h4, h5⟩

/-- What is known of one axis: the computed limits. -/
theorem axis_facts {ps : List PointRecord} (hne : ps ≠ []) (g : PointRecord → F64) (h : ∀ p ∈ ps, Below 300 (g p)) :
    Spans (ps.map g) (foldMin maxVal (ps.map g)).val (foldMax lowest (ps.map g)).val
      ∧ Below 300 (foldMin maxVal (ps.map g)) ∧ Below 300 (foldMax lowest (ps.map g)) := by
  have hx : ∀ x ∈ ps.map g, Below 300 x := by
    intro x hx; obtain ⟨p, hp, rfl⟩ := List.mem_map.mp hx; exact h p hp
  have nx : ps.map g ≠ [] := by simpa using hne
  exact ⟨fold_spans nx fun x hx' => (hx x hx').1, hx _ (foldMin_attained _ nx fun x hx' => (hx x hx').1),
    hx _ (foldMax_attained _ nx fun x hx' => (hx x hx').1)⟩

theorem spans_le {xs : List F64} {lo hi : ℝ} (h : Spans xs lo hi) : lo ≤ hi := by
  obtain ⟨⟨a, ha, e⟩, _, hc⟩ := h
  rw [← e]; exact (hc a ha).2

theorem volume_eq (ps : List PointRecord) : Extent.volume (Extent.ofPoints ps)
    = mul (mul (sub (foldMax lowest (ps.map (·.x))) (foldMin maxVal (ps.map (·.x))))
        (sub (foldMax lowest (ps.map (·.y))) (foldMin maxVal (ps.map (·.y)))))
        (sub (foldMax lowest (ps.map (·.z))) (foldMin maxVal (ps.map (·.z)))) := by
  rw [Extent.ofPoints_eq]
  rfl

theorem area_eq (ps : List PointRecord) : Extent.area (Extent.ofPoints ps)
    = mul (sub (foldMax lowest (ps.map (·.x))) (foldMin maxVal (ps.map (·.x))))
        (sub (foldMax lowest (ps.map (·.y))) (foldMin maxVal (ps.map (·.y)))) := by
  rw [Extent.ofPoints_eq]
  rfl

/-- C93, volume. -/
theorem c93_volume (ps : List PointRecord) (hne : ps ≠ []) (h : SmallBox ps) :
    ∃ H V, BoxVolume ps H V ∧ (Extent.volume (Extent.ofPoints ps)).isFinite = true
      ∧ |(Extent.volume (Extent.ofPoints ps)).val - V| ≤ V / 2 ^ 50 + (1 + 2 * H) / (one1074 : ℝ) := by
  obtain ⟨sx, x0, x1⟩ := axis_facts hne (·.x) fun p hp => (h p hp).1
  obtain ⟨sy, y0, y1⟩ := axis_facts hne (·.y) fun p hp => (h p hp).2.1
  obtain ⟨sz, z0, z1⟩ := axis_facts hne (·.z) fun p hp => (h p hp).2.2
  obtain ⟨b1, b2⟩ := box_product3 x0 x1 y0 y1 z0 z1
  have lx := sub_nonneg.mpr (spans_le sx)
  have ly := sub_nonneg.mpr (spans_le sy)
  have lz := sub_nonneg.mpr (spans_le sz)
  rw [abs_of_nonneg (mul_nonneg (mul_nonneg lx ly) lz), abs_of_nonneg lz, mul_one_div] at b2
  rw [volume_eq]
  exact ⟨_, _, ⟨_, _, _, _, _, _, sx, sy, sz, rfl, rfl⟩, b1, b2⟩

theorem fold_fv {xs : List F64} (hf : ∀ x ∈ xs, x.isFinite = true) :
    (foldMin maxVal xs).fv = (xs.map F64.fv).foldl min maxVal.fv ∧ (foldMax lowest xs).fv = (xs.map F64.fv).foldl max lowest.fv := by
  have hn : ∀ x ∈ xs, x.isNaN = false := fun x hx => not_nan_of_finite (hf x hx)
  exact ⟨(foldMin_int xs hn).2, (foldMax_int xs hn).2⟩

/-- The side of a box with more points is at least as long. -/
theorem side_mono {ps qs : List PointRecord} (hne : ps ≠ []) (hsub : ∀ p ∈ ps, p ∈ qs) (g : PointRecord → F64)
    (h : ∀ p ∈ qs, Below 300 (g p)) :
    (sub (foldMax lowest (ps.map g)) (foldMin maxVal (ps.map g))).isFinite = true
      ∧ 0 ≤ (sub (foldMax lowest (ps.map g)) (foldMin maxVal (ps.map g))).fv
      ∧ (sub (foldMax lowest (ps.map g)) (foldMin maxVal (ps.map g))).fv
        ≤ (sub (foldMax lowest (qs.map g)) (foldMin maxVal (qs.map g))).fv := by
  have hp : ∀ p ∈ ps, Below 300 (g p) := fun p hp => h p (hsub p hp)
  have hne' : qs ≠ [] := by
    obtain ⟨a, l, rfl⟩ := List.exists_cons_of_ne_nil hne
    exact List.ne_nil_of_mem (hsub a (by simp))
  obtain ⟨s1, a1, b1⟩ := axis_facts hne g hp
  obtain ⟨s2, a2, b2⟩ := axis_facts hne' g h
  have key : ∀ {x y : F64}, x.val ≤ y.val → x.fv ≤ y.fv := by
    intro x y hxy
    unfold val at hxy
    rw [div_le_div_iff_of_pos_right one1074_pos'] at hxy
    exact Int.cast_le.mp hxy
  have l0 : (foldMin maxVal (ps.map g)).fv ≤ (foldMax lowest (ps.map g)).fv := key (spans_le s1)
  have l1 : (foldMin maxVal (qs.map g)).fv ≤ (foldMin maxVal (ps.map g)).fv := by
    refine key ?_
    obtain ⟨⟨x, hx, e⟩, _⟩ := s1
    rw [← e]
    obtain ⟨p, hp', rfl⟩ := List.mem_map.mp hx
    exact (s2.2.2 _ (List.mem_map_of_mem (hsub p hp'))).1
  have l2 : (foldMax lowest (ps.map g)).fv ≤ (foldMax lowest (qs.map g)).fv := by
    refine key ?_
    obtain ⟨_, ⟨x, hx, e⟩, _⟩ := s1
    rw [← e]
    obtain ⟨p, hp', rfl⟩ := List.mem_map.mp hx
    exact (s2.2.2 _ (List.mem_map_of_mem (hsub p hp'))).2
  exact ⟨(diff_300 b1 a1).1, sub_nonneg' b1.1 a1.1 l0, sub_mono b1.1 a1.1 b2.1 a2.1 l2 l1⟩

/-- C93: more points never make the box smaller, and neither value is ever negative. -/
theorem c93_more_points (ps qs : List PointRecord) (hne : ps ≠ []) (hsub : ∀ p ∈ ps, p ∈ qs) (h : SmallBox qs) :
    0 ≤ (Extent.area (Extent.ofPoints ps)).val ∧ 0 ≤ (Extent.volume (Extent.ofPoints ps)).val
      ∧ (Extent.area (Extent.ofPoints ps)).val ≤ (Extent.area (Extent.ofPoints qs)).val
      ∧ (Extent.volume (Extent.ofPoints ps)).val ≤ (Extent.volume (Extent.ofPoints qs)).val := by
  have hp : SmallBox ps := fun p hp => h p (hsub p hp)
  have hne' : qs ≠ [] := by
    obtain ⟨a, l, rfl⟩ := List.exists_cons_of_ne_nil hne
    exact List.ne_nil_of_mem (hsub a (by simp))
  have hid : ∀ p ∈ qs, p ∈ qs := fun p hp => hp
  obtain ⟨fx, nx, lx⟩ := side_mono hne hsub (·.x) fun p hp => (h p hp).1
  obtain ⟨fy, ny, ly⟩ := side_mono hne hsub (·.y) fun p hp => (h p hp).2.1
  obtain ⟨fz, nz, lz⟩ := side_mono hne hsub (·.z) fun p hp => (h p hp).2.2
  obtain ⟨fx', -, -⟩ := side_mono hne' hid (·.x) fun p hp => (h p hp).1
  obtain ⟨fy', -, -⟩ := side_mono hne' hid (·.y) fun p hp => (h p hp).2.1
  obtain ⟨fz', -, -⟩ := side_mono hne' hid (·.z) fun p hp => (h p hp).2.2
  obtain ⟨_, _, fa, _⟩ := c93_area ps hne hp
  obtain ⟨_, _, fa', _⟩ := c93_area qs hne' h
  rw [volume_eq, volume_eq]
  rw [area_eq] at *
  rw [area_eq] at *
  have n2 := mul_nonneg' fx fy nx ny
  have m2 := mul_mono fx fy fx' fy' nx ny lx ly
  have n3 := mul_nonneg' fa fz n2 nz
  have m3 := mul_mono fa fz fa' fz' n2 nz m2 lz
  have pos : ∀ {x : F64}, 0 ≤ x.fv → 0 ≤ x.val := by
    intro x hx
    unfold val
    exact div_nonneg (Int.cast_nonneg hx) one1074_pos'.le
  exact ⟨pos n2, pos n3, val_le_of_fv m2, val_le_of_fv m3⟩

/-- A side without extent is 0. -/
theorem side_flat {ps : List PointRecord} (hne : ps ≠ []) (g : PointRecord → F64) (h : ∀ p ∈ ps, Below 300 (g p))
    (hflat : ∀ p ∈ ps, ∀ q ∈ ps, (g p).val = (g q).val) :
    (sub (foldMax lowest (ps.map g)) (foldMin maxVal (ps.map g))).fv = 0 := by
  obtain ⟨s1, a1, b1⟩ := axis_facts hne g h
  obtain ⟨⟨x, hx, ex⟩, ⟨y, hy, ey⟩, -⟩ := s1
  obtain ⟨p, hp, rfl⟩ := List.mem_map.mp hx
  obtain ⟨q, hq, rfl⟩ := List.mem_map.mp hy
  have e : (foldMax lowest (ps.map g)).fv = (foldMin maxVal (ps.map g)).fv := by
    have e1 : (foldMax lowest (ps.map g)).val = (foldMin maxVal (ps.map g)).val := by rw [← ex, ← ey]; exact hflat q hq p hp
    unfold val at e1
    rw [div_left_inj' one1074_pos'.ne'] at e1
    exact Int.cast_inj.mp e1
  rw [sub_fv b1.1 a1.1, e, sub_self]
  exact rfv_zero (by norm_num)

/-- C93: the area of points on a line along an axis is 0, and so is the volume of points in a plane across an axis. -/
theorem c93_flat (ps : List PointRecord) (hne : ps ≠ []) (h : SmallBox ps) :
    ((∀ p ∈ ps, ∀ q ∈ ps, p.x.val = q.x.val) ∨ (∀ p ∈ ps, ∀ q ∈ ps, p.y.val = q.y.val) →
        (Extent.area (Extent.ofPoints ps)).val = 0 ∧ (Extent.volume (Extent.ofPoints ps)).val = 0)
      ∧ ((∀ p ∈ ps, ∀ q ∈ ps, p.z.val = q.z.val) → (Extent.volume (Extent.ofPoints ps)).val = 0) := by
  have hid : ∀ p ∈ ps, p ∈ ps := fun p hp => hp
  obtain ⟨fx, -, -⟩ := side_mono hne hid (·.x) fun p hp => (h p hp).1
  obtain ⟨fy, -, -⟩ := side_mono hne hid (·.y) fun p hp => (h p hp).2.1
  obtain ⟨fz, -, -⟩ := side_mono hne hid (·.z) fun p hp => (h p hp).2.2
  obtain ⟨_, _, fa, _⟩ := c93_area ps hne h
  rw [area_eq] at fa
  have z : ∀ {x : F64}, x.fv = 0 → x.val = 0 := by
    intro x hx
    unfold val
    rw [hx, Int.cast_zero, zero_div]
  constructor
  · intro hf
    have ha : (mul (sub (foldMax lowest (ps.map (·.x))) (foldMin maxVal (ps.map (·.x))))
        (sub (foldMax lowest (ps.map (·.y))) (foldMin maxVal (ps.map (·.y))))).fv = 0 := by
      rw [mul_fv fx fy]
      rcases hf with hf | hf
      · rw [side_flat hne (·.x) (fun p hp => (h p hp).1) hf, zero_mul]
        exact rfv_zero one1074_pos
      · rw [side_flat hne (·.y) (fun p hp => (h p hp).2.1) hf, mul_zero]
        exact rfv_zero one1074_pos
    rw [area_eq, volume_eq]
    refine ⟨z ha, z ?_⟩
    rw [mul_fv fa fz, ha, zero_mul]
    exact rfv_zero one1074_pos
  · intro hf
    rw [volume_eq]
    apply z
    rw [mul_fv fa fz, side_flat hne (·.z) (fun p hp => (h p hp).2.2) hf, mul_zero]
    exact rfv_zero one1074_pos

/-- C93: the box of no points has an infinite area and the volume minus infinity: callers must not ask for them. -/
theorem c93_nothing : Extent.area (Extent.ofPoints ([] : List PointRecord)) = inf false
    ∧ Extent.volume (Extent.ofPoints ([] : List PointRecord)) = inf true := by decide +kernel

/-! ## Examples -/

/-- The corners of a box of 3 by 4 by 5, and a point inside. -/
def boxPoints : List PointRecord :=
  [{ x := ofNat 1, y := ofNat 2, z := ofNat 3 }, { x := ofNat 4, y := ofNat 6, z := ofNat 8 }, { x := ofNat 2, y := ofNat 5, z := ofNat 4 }]

theorem boxPoints_small : SmallBox boxPoints := by
  have key : ∀ n : Nat, n ≤ 8 → Below 300 (ofNat n) := by
    intro n hn
    have all : ∀ n, n ≤ 8 → (ofNat n).isFinite = true ∧ (ofNat n).fv = n * (one1074 : Int) := by decide +kernel
    obtain ⟨hf, hv⟩ := all n hn
    refine ⟨hf, ?_⟩
    unfold val
    rw [hv]
    push_cast
    rw [mul_div_assoc, div_self one1074_pos'.ne', mul_one, abs_of_nonneg (Nat.cast_nonneg _)]
    have h8 : (n : ℝ) ≤ 2 ^ 3 := by
      norm_num
      exact_mod_cast hn
    exact h8.trans (pow_le_pow_right₀ (by norm_num) (by norm_num))
  have k1 := key 1 (by norm_num)
  have k2 := key 2 (by norm_num)
  have k3 := key 3 (by norm_num)
  have k4 := key 4 (by norm_num)
  have k5 := key 5 (by norm_num)
  have k6 := key 6 (by norm_num)
  have k8 := key 8 (by norm_num)
  unfold SmallBox boxPoints
  clear key
  generalize ofNat 1 = a1, ofNat 2 = a2, ofNat 3 = a3, ofNat 4 = a4, ofNat 5 = a5, ofNat 6 = a6, ofNat 8 = a8 at *
  intro p hp
  simp only [List.mem_cons, List.not_mem_nil, or_false] at hp
  rcases hp with rfl | rfl | rfl
  · exact ⟨k1, k2, k3⟩
  · exact ⟨k4, k6, k8⟩
  · exact ⟨k2, k5, k4⟩

example : ∃ A, BoxArea boxPoints A ∧ (Extent.area (Extent.ofPoints boxPoints)).isFinite = true
    ∧ |(Extent.area (Extent.ofPoints boxPoints)).val - A| ≤ A / 2 ^ 51 + 1 / (one1074 : ℝ) :=
  c93_area boxPoints (by simp [boxPoints]) boxPoints_small

example : ∃ H V, BoxVolume boxPoints H V ∧ (Extent.volume (Extent.ofPoints boxPoints)).isFinite = true
    ∧ |(Extent.volume (Extent.ofPoints boxPoints)).val - V| ≤ V / 2 ^ 50 + (1 + 2 * H) / (one1074 : ℝ) :=
  c93_volume boxPoints (by simp [boxPoints]) boxPoints_small

example : Extent.area (Extent.ofPoints boxPoints) = ofNat 12 ∧ Extent.volume (Extent.ofPoints boxPoints) = ofNat 60 := by
  decide +kernel

example : (Extent.volume (Extent.ofPoints (boxPoints.take 1))).val ≤ (Extent.volume (Extent.ofPoints boxPoints)).val :=
  (c93_more_points (boxPoints.take 1) boxPoints (by simp [boxPoints]) (fun p hp => List.mem_of_mem_take hp) boxPoints_small).2.2.2

example : (Extent.area (Extent.ofPoints (boxPoints.take 1))).val = 0 :=
  ((c93_flat (boxPoints.take 1) (by simp [boxPoints]) (fun p hp => boxPoints_small p (List.mem_of_mem_take hp))).1
    (Or.inl (by intro p hp q hq; simp [boxPoints] at hp hq; rw [hp, hq]))).1

end Spoc.Props
