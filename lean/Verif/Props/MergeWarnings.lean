import Verif.Proofs.MergeArea
import Verif.Props.Merge

/-!
# C91: the warnings of merge

merge warns if the area of the merged cloud is more than 100 times the sum of the areas of the files, unless it is told to be quiet.
-/

namespace Spoc.Props

open Spec Merge F64

/-- The files and the areas of their boxes. -/
def HaveAreas (fs : List SpocFile) (areas : List ℝ) : Prop := List.Forall₂ (fun f A => BoxArea f.prs A) fs areas

/-- The real area of a cloud (0 for an empty one). -/
noncomputable def areaOf (ps : List PointRecord) : ℝ := open Classical in if h : ∃ A, BoxArea ps A then h.choose else 0

theorem areaOf_eq {ps : List PointRecord} {A : ℝ} (h : BoxArea ps A) : areaOf ps = A := by
  unfold areaOf
  rw [dif_pos ⟨A, h⟩]
  exact boxArea_unique (Exists.choose_spec _) h

theorem haveAreas_eq {fs : List SpocFile} {areas : List ℝ} (h : HaveAreas fs areas) : areas = fs.map (fun f => areaOf f.prs) := by
  induction h with
  | nil => rfl
  | cons h _ ih => rw [List.map_cons, ← ih, areaOf_eq h]

theorem area_facts {ps : List PointRecord} (hne : ps ≠ []) (h : FlatBelow 400 ps) :
    (area (Extent.ofPoints ps)).isFinite = true ∧ 0 ≤ areaOf ps ∧ areaOf ps ≤ 4 * ((2 : ℝ) ^ 400) ^ 2
      ∧ |(area (Extent.ofPoints ps)).val - areaOf ps| ≤ areaOf ps / 2 ^ 51 + 1 / (one1074 : ℝ) := by
  obtain ⟨A, h1, h2, h3, h4, h5⟩ := area_val hne h
  rw [areaOf_eq h1]
  exact ⟨h4, h2, h3, h5⟩

theorem extent_congr {ps qs : List PointRecord} (h : ps.map (fun q => { q with p := 0 }) = qs.map (fun q => { q with p := 0 })) :
    Extent.ofPoints ps = Extent.ofPoints qs := by
  have key : ∀ g : PointRecord → F64, (∀ q : PointRecord, g { q with p := 0 } = g q) → ps.map g = qs.map g := by
    intro g hg
    have := congrArg (List.map g) h
    rw [List.map_map, List.map_map] at this
    have e : g ∘ (fun q : PointRecord => { q with p := 0 }) = g := funext hg
    rwa [e] at this
  rw [Extent.ofPoints_eq, Extent.ofPoints_eq, key (fun p => (pt p).x) (fun _ => rfl), key (fun p => (pt p).y) (fun _ => rfl),
    key (fun p => (pt p).z) (fun _ => rfl)]

/-- When the warning is in the log. -/
theorem merge_area_log (b : Build) (zl : Zlib) (files : List (Option IStream)) (f : SpocFile) (fs : List SpocFile)
    (hr : Contain b zl files (f :: fs)) (h2 : fs ≠ []) (hu : Uniform (allPoints (f :: fs)))
    (quiet : Bool) (asked : Option Nat) (ha : ∀ n ∈ asked, n < 2 ^ 31) :
    areaWarning ∈ (Merge.main b zl (mergeOptions quiet asked) files).1 ↔ quiet = false
      ∧ gt (div (area (Extent.ofPoints (allPoints (f :: fs)))) (areaTotal zero (f :: fs))) (ofNat 100) = true := by
  obtain ⟨a, hq, e⟩ := merge_run b zl files f fs hr h2 hu quiet asked ha
  rw [e, List.mem_append]
  have h1 : areaWarning ∉ warnings quiet f.wkt fs := by
    unfold warnings warn
    rw [List.mem_flatMap]
    rintro ⟨g, _, hg⟩
    split at hg
    · simp [srsWarning, areaWarning] at hg
    · simp at hg
  unfold areaLog
  dsimp only
  rw [hq, extent_congr (c41_nothing_lost (idOf asked) (f :: fs))]
  cases quiet
  · simp only [h1, Bool.false_eq_true, if_false, false_or, true_and]
    split
    · next h => simp [h]
    · next h => simp [h]
  · simp [h1]

/-- **C91**: told to be quiet, merge writes no warnings at all. -/
theorem c91_quiet (b : Build) (zl : Zlib) (files : List (Option IStream)) (f : SpocFile) (fs : List SpocFile)
    (hr : Contain b zl files (f :: fs)) (h2 : fs ≠ []) (hu : Uniform (allPoints (f :: fs)))
    (asked : Option Nat) (ha : ∀ n ∈ asked, n < 2 ^ 31) : (Merge.main b zl (mergeOptions true asked) files).1 = [] := by
  obtain ⟨a, hq, e⟩ := merge_run b zl files f fs hr h2 hu true asked ha
  rw [e]
  unfold areaLog warnings warn
  simp [hq]

/-- The clouds of the theorems: not empty, with coordinates that are not astronomically large, in a number of files that fits
on a command line. -/
structure Ordinary (fs : List SpocFile) : Prop where
  nonempty : ∀ g ∈ fs, g.prs ≠ []
  below : ∀ g ∈ fs, FlatBelow 400 g.prs
  count : fs.length ≤ 2 ^ 40

theorem Ordinary.all {f : SpocFile} {fs : List SpocFile} (h : Ordinary (f :: fs)) :
    allPoints (f :: fs) ≠ [] ∧ FlatBelow 400 (allPoints (f :: fs)) := by
  constructor
  · have := h.nonempty f (by simp)
    simp [allPoints, this]
  · intro p hp
    simp only [allPoints, List.mem_flatMap] at hp
    obtain ⟨g, hg, hp⟩ := hp
    exact h.below g hg p hp

theorem inv_tiny : (2 : ℝ) ^ 100 * (1 / (one1074 : ℝ)) ≤ 1 / 2 ^ 100 := by
  have h : (one1074 : ℝ) = 2 ^ 200 * 2 ^ 874 := by
    unfold one1074
    rw [← pow_add, Nat.cast_pow, Nat.cast_ofNat]
  rw [h, mul_one_div, div_le_div_iff₀ (mul_pos (pow_pos (by norm_num) _) (pow_pos (by norm_num) _)) (pow_pos (by norm_num) _),
    ← pow_add, one_mul]
  exact le_mul_of_one_le_right (pow_nonneg (by norm_num) _) (one_le_pow₀ (by norm_num))

theorem gt_100 {r : F64} (h : r.isFinite = true) : gt r (ofNat 100) = true ↔ 100 < r.val := by
  have e : (ofNat 100).val = 100 := by
    have := ofInt_val (n := 100) (by decide)
    rw [Int.cast_ofNat] at this
    exact this
  unfold gt
  rw [lt_iff]
  rw [← e]
  have : (ofNat 100).val < r.val ↔ (ofNat 100).fv < r.fv := by
    unfold val
    rw [div_lt_div_iff_of_pos_right one1074_pos']
    exact Int.cast_lt
  rw [this]
  exact ⟨fun h => h.2.2, fun h' => ⟨by decide +kernel, not_nan_of_finite h, h'⟩⟩

/-- **C91**: with areas in real arithmetic, `S` the sum of the areas of the `n` files and `M` the area of the merged cloud, there is a
warning if `M` is larger than `100 S`, and none if it is smaller, up to a relative deviation of `(n + 16) / 2^51`.  (Partial: `S` is
at least 2^-100.) -/
theorem c91_area_partial (b : Build) (zl : Zlib) (files : List (Option IStream)) (f : SpocFile) (fs : List SpocFile)
    (hr : Contain b zl files (f :: fs)) (h2 : fs ≠ []) (hu : Uniform (allPoints (f :: fs)))
    (asked : Option Nat) (ha : ∀ n ∈ asked, n < 2 ^ 31) (ho : Ordinary (f :: fs))
    (areas : List ℝ) (hareas : HaveAreas (f :: fs) areas) (M : ℝ) (hM : BoxArea (allPoints (f :: fs)) M) (hS : 1 / 2 ^ 100 ≤ areas.sum) :
    (100 * areas.sum * (1 + (((f :: fs).length : ℝ) + 16) / 2 ^ 51) < M
        → areaWarning ∈ (Merge.main b zl (mergeOptions false asked) files).1)
      ∧ (M < 100 * areas.sum * (1 - (((f :: fs).length : ℝ) + 16) / 2 ^ 51)
        → areaWarning ∉ (Merge.main b zl (mergeOptions false asked) files).1) := by
  rw [merge_area_log b zl files f fs hr h2 hu false asked ha]
  simp only [true_and]
  obtain ⟨m1, m2, m3, m4⟩ := area_facts ho.all.1 ho.all.2
  rw [areaOf_eq hM] at m2 m3 m4
  obtain ⟨s1, s2, s3, s4⟩ := areas_sum (fun g : SpocFile => area (Extent.ofPoints g.prs)) (fun g => areaOf g.prs) (f :: fs)
    (fun g hg => area_facts (ho.nonempty g hg) (ho.below g hg)) ho.count
  rw [← haveAreas_eq hareas] at s2 s3 s4
  have et : areaTotal zero (f :: fs) = (f :: fs).foldl (fun s g => add s (area (Extent.ofPoints g.prs))) zero := rfl
  rw [et]
  have hcount : ((f :: fs).length : ℝ) ≤ 2 ^ 40 := by exact_mod_cast ho.count
  have hcount0 : (0 : ℝ) ≤ (f :: fs).length := Nat.cast_nonneg _
  generalize (f :: fs).foldl (fun s g => add s (area (Extent.ofPoints g.prs))) zero = s at *
  generalize area (Extent.ofPoints (allPoints (f :: fs))) = m at *
  generalize ((f :: fs).length : ℝ) = N at *
  generalize areas.sum = S at *
  clear hareas et
  obtain ⟨e0, e1⟩ := inv_le_one
  have hT := inv_tiny
  have hS0 : 0 < S := lt_of_lt_of_le (div_pos one_pos (pow_pos (by norm_num) _)) hS
  have hspos : 0 < s.val ∧ S / 4 ≤ s.val := by
    have k1 := (abs_le.mp s2).1
    have k2 := half_bound hS0.le hcount
    have k3 : 2 * N * (1 / (one1074 : ℝ)) ≤ S / 4 := by
      have k4 : N * (1 / (one1074 : ℝ)) ≤ 2 ^ 40 * (1 / (one1074 : ℝ)) := mul_le_mul_of_nonneg_right hcount e0
      have k5 : (2 : ℝ) ^ 100 * (1 / (one1074 : ℝ)) ≤ S := hT.trans hS
      generalize 1 / (one1074 : ℝ) = e at *
      norm_num at k4 k5 ⊢
      linarith only [k4, k5, e0]
    constructor <;> linarith only [k1, k2, k3, hS0]
  have hsfv : 0 < s.fv := val_pos.mp hspos.1
  have hmbound : |m.val| ≤ 2 * M + 1 := by
    have k := abs_sub_abs_le_abs_sub m.val M
    rw [abs_of_nonneg m2] at k
    have k1 : M / 2 ^ 51 ≤ M := div_le_self m2 (by norm_num)
    linarith only [k, k1, e1, m4]
  have hfin : (div m s).isFinite = true := by
    refine div_finite_of m1 s1 hsfv two1002_finite ?_
    rw [two1002_val, abs_of_nonneg (pow_nonneg (by norm_num : (0 : ℝ) ≤ 2) 1002), abs_div, abs_of_pos hspos.1, div_le_iff₀ hspos.1]
    exact quotient_bound hmbound m3 hspos.2 hS
  rw [gt_100 hfin]
  have hd := div_val m1 s1 hsfv hfin
  have hd' : 2 ^ 53 * |(div m s).val - m.val / s.val| ≤ |m.val / s.val| + 1 := by
    refine hd.trans (add_le_add (le_refl _) ?_)
    rw [div_le_one one1074_pos']
    exact le_trans (pow_le_pow_right₀ (by norm_num) (by norm_num)) one1074_ge
  constructor
  · intro h
    exact ratio_above hcount0 hcount hS0 e0 (hT.trans hS) m4 s2 hspos.1 hd' h
  · intro h h'
    exact absurd h' (not_lt.mpr (ratio_below hcount0 hcount hS0 e0 (hT.trans hS) m4 s2 hspos.1 hd' m2 hspos.2 h).le)

/-! ## Files without area -/

theorem val_inj_fv {x y : F64} (h : x.val = y.val) : x.fv = y.fv := by
  unfold val at h
  rw [div_left_inj' one1074_pos'.ne'] at h
  exact_mod_cast h

/-- An area that is zero is computed as zero. -/
theorem area_zero {ps : List PointRecord} (hne : ps ≠ []) (h : FlatBelow 400 ps) (h0 : BoxArea ps 0) :
    (area (Extent.ofPoints ps)).isFinite = true ∧ (area (Extent.ofPoints ps)).fv = 0 := by
  refine ⟨(area_facts hne h).1, ?_⟩
  have hx : ∀ x ∈ ps.map (·.x), Below 400 x := by
    intro x hx; obtain ⟨p, hp, rfl⟩ := List.mem_map.mp hx; exact (h p hp).1
  have hy : ∀ x ∈ ps.map (·.y), Below 400 x := by
    intro x hx; obtain ⟨p, hp, rfl⟩ := List.mem_map.mp hx; exact (h p hp).2
  have nx : ps.map (·.x) ≠ [] := by simpa using hne
  have ny : ps.map (·.y) ≠ [] := by simpa using hne
  have sx := fold_spans nx (fun x hx' => (hx x hx').1)
  have sy := fold_spans ny (fun x hx' => (hy x hx').1)
  obtain ⟨x0, x1, y0, y1, k1, k2, k3⟩ := h0
  obtain ⟨rfl, rfl⟩ := spans_unique k1 sx
  obtain ⟨rfl, rfl⟩ := spans_unique k2 sy
  have fx0 := (hx _ (foldMin_attained _ nx fun x hx' => (hx x hx').1))
  have fx1 := (hx _ (foldMax_attained _ nx fun x hx' => (hx x hx').1))
  have fy0 := (hy _ (foldMin_attained _ ny fun x hx' => (hy x hx').1))
  have fy1 := (hy _ (foldMax_attained _ ny fun x hx' => (hy x hx').1))
  have harea : area (Extent.ofPoints ps) = mul (sub (foldMax lowest (ps.map (·.x))) (foldMin maxVal (ps.map (·.x))))
      (sub (foldMax lowest (ps.map (·.y))) (foldMin maxVal (ps.map (·.y)))) := by
    rw [Extent.ofPoints_eq]
    rfl
  rw [harea]
  clear harea hx hy nx ny k1 k2 sx sy
  generalize foldMax lowest (ps.map (·.x)) = x1 at *
  generalize foldMin maxVal (ps.map (·.x)) = x0 at *
  generalize foldMax lowest (ps.map (·.y)) = y1 at *
  generalize foldMin maxVal (ps.map (·.y)) = y0 at *
  have zero_sub' : ∀ {u v : F64}, Below 400 u → Below 400 v → u.val - v.val = 0 → (sub u v).fv = 0 := by
    intro u v hu hv e
    rw [sub_fv hu.1 hv.1, val_inj_fv (sub_eq_zero.mp e), sub_self, rfv_zero (by norm_num)]
  have dx := sub_small fx1 fx0
  have dy := sub_small fy1 fy0
  rw [mul_fv dx dy]
  rcases mul_eq_zero.mp k3.symm with e | e
  · rw [zero_sub' fx1 fx0 e, zero_mul, rfv_zero one1074_pos]
  · rw [zero_sub' fy1 fy0 e, mul_zero, rfv_zero one1074_pos]

theorem add_zero_fv {a : F64} (h : a.isFinite = true) (h0 : a.fv = 0) : add zero a = zero := by
  rw [add_finite (by decide) h, zero_fv, h0]
  rfl

theorem total_zero {fs : List SpocFile} (ho : Ordinary fs) (h0 : ∀ g ∈ fs, BoxArea g.prs 0) : areaTotal zero fs = zero := by
  unfold areaTotal
  have h1 := ho.nonempty
  have h2 := ho.below
  clear ho
  induction fs with
  | nil => rfl
  | cons g fs ih =>
    obtain ⟨a1, a2⟩ := area_zero (h1 g (by simp)) (h2 g (by simp)) (h0 g (by simp))
    rw [List.foldl_cons, add_zero_fv a1 a2]
    exact ih (fun x hx => h0 x (by simp [hx])) (fun x hx => h1 x (by simp [hx])) (fun x hx => h2 x (by simp [hx]))

/-- **C91**, files without area (such as single points or vertical walls along an axis): there is a warning if the merged cloud has one,
and none if it has none either. -/
theorem c91_no_area (b : Build) (zl : Zlib) (files : List (Option IStream)) (f : SpocFile) (fs : List SpocFile)
    (hr : Contain b zl files (f :: fs)) (h2 : fs ≠ []) (hu : Uniform (allPoints (f :: fs)))
    (asked : Option Nat) (ha : ∀ n ∈ asked, n < 2 ^ 31) (ho : Ordinary (f :: fs))
    (h0 : ∀ g ∈ f :: fs, BoxArea g.prs 0) (M : ℝ) (hM : BoxArea (allPoints (f :: fs)) M) :
    (1 / 2 ^ 100 ≤ M → areaWarning ∈ (Merge.main b zl (mergeOptions false asked) files).1)
      ∧ (M = 0 → areaWarning ∉ (Merge.main b zl (mergeOptions false asked) files).1) := by
  rw [merge_area_log b zl files f fs hr h2 hu false asked ha, total_zero ho h0]
  simp only [true_and]
  obtain ⟨m1, m2, m3, m4⟩ := area_facts ho.all.1 ho.all.2
  rw [areaOf_eq hM] at m2 m3 m4
  constructor
  · intro h
    have hpos : 0 < (area (Extent.ofPoints (allPoints (f :: fs)))).fv := by
      rw [← val_pos]
      have k := (abs_le.mp m4).1
      have hT := inv_tiny
      obtain ⟨e0, _⟩ := inv_le_one
      generalize 1 / (one1074 : ℝ) = e at *
      norm_num at *
      linarith only [k, hT, e0, h]
    generalize area (Extent.ofPoints (allPoints (f :: fs))) = m at *
    obtain ⟨p1, p2⟩ := fv_pos.mp hpos
    have e : div m zero = inf false := by
      have z1 : zero.isNaN = false := by decide
      have z2 : zero.isInf = false := by decide
      have z3 : zero.mag = 0 := by decide
      have z4 : zero.neg = false := by decide
      unfold div
      simp only [not_nan_of_finite m1, isInf_eq_false_of_finite m1, z1, z2, z3, z4, p1, p2, Bool.or_self, Bool.false_eq_true, if_false, if_true,
        bne_self_eq_false]
    rw [e]
    decide +kernel
  · rintro rfl
    have k := (area_zero ho.all.1 ho.all.2 hM).2
    generalize area (Extent.ofPoints (allPoints (f :: fs))) = m at *
    have e : div m zero = nan := by
      have z1 : zero.isNaN = false := by decide
      have z2 : zero.isInf = false := by decide
      have z3 : zero.mag = 0 := by decide
      unfold div
      simp only [not_nan_of_finite m1, isInf_eq_false_of_finite m1, z1, z2, z3, fv_eq_zero.mp k, Bool.or_self, Bool.false_eq_true, if_false,
        if_true]
    rw [e]
    decide +kernel

/-! ## Empty files -/

theorem add_inf_right {s : F64} (h : s.isFinite = true) : add s (inf false) = inf false := by
  have z1 := inf_not_nan false
  have z2 := inf_isInf false
  unfold add
  simp only [not_nan_of_finite h, isInf_eq_false_of_finite h, z1, z2, Bool.or_self, Bool.false_eq_true, if_false, if_true]

theorem add_inf_left {a : F64} (h : a.isFinite = true ∨ a = inf false) : add (inf false) a = inf false := by
  have z1 := inf_not_nan false
  have z2 := inf_isInf false
  rcases h with h | rfl
  · unfold add
    simp only [not_nan_of_finite h, isInf_eq_false_of_finite h, z1, z2, Bool.or_self, Bool.false_eq_true, if_false, if_true, Bool.false_and]
  · decide +kernel

theorem empty_area : area (Extent.ofPoints ([] : List PointRecord)) = inf false := by decide +kernel

theorem total_inf {fs : List SpocFile} (hb : ∀ g ∈ fs, FlatBelow 400 g.prs) (hl : fs.length ≤ 2 ^ 40) (he : ∃ g ∈ fs, g.prs = []) :
    areaTotal zero fs = inf false := by
  unfold areaTotal
  induction fs using List.reverseRecOn with
  | nil => obtain ⟨g, hg, _⟩ := he; simp at hg
  | append_singleton fs g ih =>
    rw [List.length_append, List.length_singleton] at hl
    have hb' : ∀ g ∈ fs, FlatBelow 400 g.prs := fun x hx => hb x (List.mem_append_left _ hx)
    rw [List.foldl_append]
    simp only [List.foldl_cons, List.foldl_nil]
    by_cases hp : ∃ g ∈ fs, g.prs = []
    · rw [ih hb' (by omega) hp]
      apply add_inf_left
      by_cases hg : g.prs = []
      · right; rw [hg]; exact empty_area
      · left; exact (area_facts hg (hb g (by simp))).1
    · obtain ⟨x, hx, hx0⟩ := he
      rw [List.mem_append, List.mem_singleton] at hx
      have hxg : x = g := hx.resolve_left (fun h => hp ⟨x, h, hx0⟩)
      subst hxg
      rw [hx0, empty_area]
      apply add_inf_right
      have hne : ∀ g ∈ fs, g.prs ≠ [] := fun g hg h => hp ⟨g, hg, h⟩
      exact (areas_sum (fun g : SpocFile => area (Extent.ofPoints g.prs)) (fun g => areaOf g.prs) fs
        (fun g hg => area_facts (hne g hg) (hb' g hg)) (by omega)).1

/-- **C91** is false if one of the files is empty: there is no warning, whatever the other files are. -/
theorem c91_empty_file (b : Build) (zl : Zlib) (files : List (Option IStream)) (f : SpocFile) (fs : List SpocFile)
    (hr : Contain b zl files (f :: fs)) (h2 : fs ≠ []) (hu : Uniform (allPoints (f :: fs)))
    (quiet : Bool) (asked : Option Nat) (ha : ∀ n ∈ asked, n < 2 ^ 31) (hb : ∀ g ∈ f :: fs, FlatBelow 400 g.prs)
    (hl : (f :: fs).length ≤ 2 ^ 40) (he : ∃ g ∈ f :: fs, g.prs = []) :
    areaWarning ∉ (Merge.main b zl (mergeOptions quiet asked) files).1 := by
  rw [merge_area_log b zl files f fs hr h2 hu quiet asked ha, total_inf hb hl he]
  rintro ⟨_, h⟩
  by_cases hp : allPoints (f :: fs) = []
  · rw [hp, empty_area] at h
    revert h
    decide +kernel
  · have hfb : FlatBelow 400 (allPoints (f :: fs)) := by
      intro p hp
      simp only [allPoints, List.mem_flatMap] at hp
      obtain ⟨g, hg, hp⟩ := hp
      exact hb g hg p hp
    have m1 := (area_facts hp hfb).1
    generalize area (Extent.ofPoints (allPoints (f :: fs))) = m at *
    have e : div m (inf false) = mk' (m.neg != (inf false).neg) 0 := by
      unfold div
      simp only [not_nan_of_finite m1, isInf_eq_false_of_finite m1, inf_not_nan, inf_isInf, Bool.or_self, Bool.false_eq_true, if_false,
        if_true]
    rw [e] at h
    generalize (m.neg != (inf false).neg) = n at h
    cases n <;> revert h <;> decide +kernel

/-! ## Examples -/

/-- A file with points at the given places. -/
def placed (ps : List (F64 × F64)) : SpocFile := { SpocFile.empty with prs := ps.map fun q => { x := q.1, y := q.2 } }

theorem placed_readable (ps : List (F64 × F64)) (h : ps.length < 2 ^ 32) : ∃ s, Contain .release toyZlib [some s] [placed ps] := by
  have h1 : Survives toyZlib (placed ps) := by
    refine ⟨⟨rfl, rfl, by simp [placed, SpocFile.empty], ?_, ?_, ?_⟩, ?_, fun h => by simp [placed, SpocFile.empty] at h⟩
    · intro p hp q hq
      simp only [placed, List.mem_map] at hp hq
      obtain ⟨_, _, rfl⟩ := hp
      obtain ⟨_, _, rfl⟩ := hq
      rfl
    · intro p hp
      simp only [placed, List.mem_map] at hp
      obtain ⟨_, _, rfl⟩ := hp
      simp
    · simp only [placed, List.length_map]; omega
    · intro _ p hp
      simp only [placed, List.mem_map] at hp
      obtain ⟨_, _, rfl⟩ := hp
      simp
  have := (survives_roundtrip .release toyZlib toyZlib_correct _ h1).2 []
  exact ⟨_, .cons ⟨_, _, rfl, this⟩ .nil⟩

theorem placed_two (ps qs : List (F64 × F64)) (hp : ps.length < 2 ^ 32) (hq : qs.length < 2 ^ 32) :
    ∃ s t, Contain .release toyZlib [some s, some t] [placed ps, placed qs] := by
  obtain ⟨s, hs⟩ := placed_readable ps hp
  obtain ⟨t, ht⟩ := placed_readable qs hq
  cases hs with
  | cons h1 _ => exact ⟨s, t, .cons h1 ht⟩

theorem placed_uniform (l : List (List (F64 × F64))) : Uniform (allPoints (l.map placed)) := by
  intro p hp q hq
  simp only [allPoints, List.mem_flatMap, List.mem_map, placed] at hp hq
  obtain ⟨_, ⟨_, _, rfl⟩, hp⟩ := hp
  obtain ⟨_, ⟨_, _, rfl⟩, hq⟩ := hq
  simp only [List.mem_map] at hp hq
  obtain ⟨_, _, rfl⟩ := hp
  obtain ⟨_, _, rfl⟩ := hq
  rfl

theorem ofNat_small {n : Nat} (h : n < 2 ^ 53) : (ofNat n).isFinite = true ∧ (ofNat n).val = n := by
  have := ofInt_val (n := n) (by simpa using h)
  rw [Int.cast_natCast] at this
  exact ⟨ofInt_finite (n := n) (by simpa using h), this⟩

/-- Coordinates that are small whole numbers. -/
theorem whole_below {n : Nat} (h : n < 2 ^ 53) : Below 400 (ofNat n) := by
  obtain ⟨h1, h2⟩ := ofNat_small h
  refine ⟨h1, ?_⟩
  rw [h2, abs_of_nonneg (Nat.cast_nonneg n)]
  have : (n : ℝ) ≤ 2 ^ 53 := by exact_mod_cast h.le
  exact this.trans (pow_le_pow_right₀ (by norm_num) (by norm_num))

/-- A file with two points on the diagonal. -/
def corners (a b : Nat) : SpocFile := placed [(ofNat a, ofNat a), (ofNat b, ofNat b)]

theorem placed_x (l : List (F64 × F64)) : (placed l).prs.map (·.x) = l.map (·.1) := by
  unfold placed
  rw [List.map_map]
  rfl

theorem placed_y (l : List (F64 × F64)) : (placed l).prs.map (·.y) = l.map (·.2) := by
  unfold placed
  rw [List.map_map]
  rfl

theorem placed_below {l : List (F64 × F64)} (h : ∀ q ∈ l, Below 400 q.1 ∧ Below 400 q.2) : FlatBelow 400 (placed l).prs := by
  intro p hp
  unfold placed at hp
  obtain ⟨q, hq, rfl⟩ := List.mem_map.mp hp
  exact h q hq

theorem corners_below {a b : Nat} (ha : a < 2 ^ 53) (hb : b < 2 ^ 53) : FlatBelow 400 (corners a b).prs := by
  have h1 := whole_below ha
  have h2 := whole_below hb
  unfold corners
  generalize ofNat a = x at *
  generalize ofNat b = y at *
  apply placed_below
  intro q hq
  simp only [List.mem_cons, List.not_mem_nil, or_false] at hq
  rcases hq with rfl | rfl
  · exact ⟨h1, h1⟩
  · exact ⟨h2, h2⟩

theorem corners_ordinary {a b c d : Nat} (ha : a < 2 ^ 53) (hb : b < 2 ^ 53) (hc : c < 2 ^ 53) (hd : d < 2 ^ 53) :
    Ordinary [corners a b, corners c d] := by
  refine ⟨?_, ?_, by simp⟩
  · simp [corners, placed]
  · intro g hg
    simp only [List.mem_cons, List.not_mem_nil, or_false] at hg
    rcases hg with rfl | rfl
    · exact corners_below ha hb
    · exact corners_below hc hd

theorem spans_whole {l : List Nat} {lo hi : Nat} (h1 : lo ∈ l) (h2 : hi ∈ l) (h : ∀ n ∈ l, lo ≤ n ∧ n ≤ hi) (hh : hi < 2 ^ 53) :
    Spans (l.map ofNat) lo hi := by
  refine ⟨⟨ofNat lo, List.mem_map_of_mem h1, (ofNat_small (lt_of_le_of_lt (h hi h2).1 hh)).2⟩,
    ⟨ofNat hi, List.mem_map_of_mem h2, (ofNat_small hh).2⟩, ?_⟩
  intro x hx
  obtain ⟨n, hn, rfl⟩ := List.mem_map.mp hx
  rw [(ofNat_small (lt_of_le_of_lt (h n hn).2 hh)).2]
  exact ⟨by exact_mod_cast (h n hn).1, by exact_mod_cast (h n hn).2⟩

theorem corners_area {a b : Nat} (h : a ≤ b) (hb : b < 2 ^ 53) : BoxArea (corners a b).prs (((b : ℝ) - a) * (b - a)) := by
  have := spans_whole (l := [a, b]) (lo := a) (hi := b) (by simp) (by simp) (by simp [h]) hb
  refine ⟨a, b, a, b, ?_, ?_, rfl⟩
  · unfold corners; rw [placed_x]; simpa only [List.map_cons, List.map_nil, List.cons_append, List.nil_append] using this
  · unfold corners; rw [placed_y]; simpa only [List.map_cons, List.map_nil, List.cons_append, List.nil_append] using this

theorem corners_all {a b c d : Nat} (h : a ≤ b) (hc : b ≤ c) (hd : c ≤ d) (hb : d < 2 ^ 53) :
    BoxArea (allPoints [corners a b, corners c d]) (((d : ℝ) - a) * (d - a)) := by
  have := spans_whole (l := [a, b, c, d]) (lo := a) (hi := d) (by simp) (by simp) (by simp; omega) hb
  have e : allPoints [corners a b, corners c d] = (corners a b).prs ++ (corners c d).prs := by simp [allPoints]
  rw [e]
  refine ⟨a, d, a, d, ?_, ?_, rfl⟩
  · unfold corners; rw [List.map_append, placed_x, placed_x]; simpa only [List.map_cons, List.map_nil, List.cons_append, List.nil_append] using this
  · unfold corners; rw [List.map_append, placed_y, placed_y]; simpa only [List.map_cons, List.map_nil, List.cons_append, List.nil_append] using this

/-- Two squares of area 1 at a distance of a hundred: the program warns. -/
example : ∃ s t, areaWarning ∈ (Merge.main .release toyZlib (mergeOptions false (some 7)) [some s, some t]).1 := by
  obtain ⟨s, t, h⟩ := placed_two [(ofNat 0, ofNat 0), (ofNat 1, ofNat 1)] [(ofNat 100, ofNat 100), (ofNat 101, ofNat 101)]
    (by decide) (by decide)
  refine ⟨s, t, (c91_area_partial .release toyZlib _ (corners 0 1) [corners 100 101] h (by simp)
    (placed_uniform [[(ofNat 0, ofNat 0), (ofNat 1, ofNat 1)], [(ofNat 100, ofNat 100), (ofNat 101, ofNat 101)]])
    (some 7) (by simp) (corners_ordinary (by norm_num) (by norm_num) (by norm_num) (by norm_num))
    _ (.cons (corners_area (by norm_num) (by norm_num)) (.cons (corners_area (by norm_num) (by norm_num)) .nil))
    _ (corners_all (by norm_num) (by norm_num) (by norm_num) (by norm_num)) (by norm_num)).1 (by norm_num)⟩

/-- Two squares of area 1 side by side: it does not. -/
example : ∃ s t, areaWarning ∉ (Merge.main .release toyZlib (mergeOptions false (some 7)) [some s, some t]).1 := by
  obtain ⟨s, t, h⟩ := placed_two [(ofNat 0, ofNat 0), (ofNat 1, ofNat 1)] [(ofNat 2, ofNat 2), (ofNat 3, ofNat 3)]
    (by decide) (by decide)
  refine ⟨s, t, (c91_area_partial .release toyZlib _ (corners 0 1) [corners 2 3] h (by simp)
    (placed_uniform [[(ofNat 0, ofNat 0), (ofNat 1, ofNat 1)], [(ofNat 2, ofNat 2), (ofNat 3, ofNat 3)]])
    (some 7) (by simp) (corners_ordinary (by norm_num) (by norm_num) (by norm_num) (by norm_num))
    _ (.cons (corners_area (by norm_num) (by norm_num)) (.cons (corners_area (by norm_num) (by norm_num)) .nil))
    _ (corners_all (by norm_num) (by norm_num) (by norm_num) (by norm_num)) (by norm_num)).2 (by norm_num)⟩

/-- Two single points (each written twice) apart from each other: the program warns. -/
example : ∃ s t, areaWarning ∈ (Merge.main .release toyZlib (mergeOptions false none) [some s, some t]).1 := by
  obtain ⟨s, t, h⟩ := placed_two [(ofNat 5, ofNat 5), (ofNat 5, ofNat 5)] [(ofNat 6, ofNat 6), (ofNat 6, ofNat 6)]
    (by decide) (by decide)
  refine ⟨s, t, (c91_no_area .release toyZlib _ (corners 5 5) [corners 6 6] h (by simp)
    (placed_uniform [[(ofNat 5, ofNat 5), (ofNat 5, ofNat 5)], [(ofNat 6, ofNat 6), (ofNat 6, ofNat 6)]])
    none (by simp) (corners_ordinary (by norm_num) (by norm_num) (by norm_num) (by norm_num)) ?_
    _ (corners_all (by norm_num) (by norm_num) (by norm_num) (by norm_num))).1 (by norm_num)⟩
  intro g hg
  simp only [List.mem_cons, List.not_mem_nil, or_false] at hg
  rcases hg with rfl | rfl
  · simpa using corners_area (le_refl 5) (by norm_num)
  · simpa using corners_area (le_refl 6) (by norm_num)

/-- **C91, negation**: two squares of area 1 a million apart, and an empty file: there is no warning, and without the empty file there
is one. -/
theorem c91_empty_file_example : ∃ s t u, areaWarning ∈ (Merge.main .release toyZlib (mergeOptions false none) [some s, some t]).1
    ∧ areaWarning ∉ (Merge.main .release toyZlib (mergeOptions false none) [some s, some t, some u]).1 := by
  obtain ⟨s, t, h⟩ := placed_two [(ofNat 0, ofNat 0), (ofNat 1, ofNat 1)] [(ofNat 1000000, ofNat 1000000), (ofNat 1000001, ofNat 1000001)]
    (by decide) (by decide)
  obtain ⟨u, hu⟩ := placed_readable [] (by decide)
  have ho := corners_ordinary (a := 0) (b := 1) (c := 1000000) (d := 1000001) (by norm_num) (by norm_num) (by norm_num) (by norm_num)
  refine ⟨s, t, u, (c91_area_partial .release toyZlib _ (corners 0 1) [corners 1000000 1000001] h (by simp)
    (placed_uniform [[(ofNat 0, ofNat 0), (ofNat 1, ofNat 1)], [(ofNat 1000000, ofNat 1000000), (ofNat 1000001, ofNat 1000001)]])
    none (by simp) ho
    _ (.cons (corners_area (by norm_num) (by norm_num)) (.cons (corners_area (by norm_num) (by norm_num)) .nil))
    _ (corners_all (by norm_num) (by norm_num) (by norm_num) (by norm_num)) (by norm_num)).1 (by norm_num), ?_⟩
  have h3 : Contain .release toyZlib [some s, some t, some u] (corners 0 1 :: [corners 1000000 1000001, placed []]) := by
    cases h with
    | cons h1 h2 =>
      cases h2 with
      | cons h2 _ => exact .cons h1 (.cons h2 hu)
  refine c91_empty_file .release toyZlib _ _ _ h3 (by simp)
    (placed_uniform [[(ofNat 0, ofNat 0), (ofNat 1, ofNat 1)], [(ofNat 1000000, ofNat 1000000), (ofNat 1000001, ofNat 1000001)], []])
    false none (by simp) ?_ (by simp) ⟨placed [], by simp, rfl⟩
  intro g hg
  simp only [List.mem_cons, List.not_mem_nil, or_false] at hg
  rcases hg with rfl | rfl | rfl
  · exact ho.below _ (by simp)
  · exact ho.below _ (by simp)
  · intro p hp; simp [placed] at hp

end Spoc.Props
