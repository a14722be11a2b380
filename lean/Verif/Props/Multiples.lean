import Verif.Props.Nested
import Verif.Props.Cells

/-!
# C138: a resolution that is a multiple keeps a part of the points
-/

namespace Spoc.Props

open Spec Subsampling

/-- The side `r` is `d` times the side `h`, a whole number of times. -/
def TimesLarger (d : Nat) (h r : F64) : Prop := 0 < d ∧ 0 < h.val ∧ r.val = d * h.val

theorem TimesLarger.pos {d : Nat} {h r : F64} (hd : TimesLarger d h r) : 0 < r.val := by
  have : (0 : ℝ) < d := by exact_mod_cast hd.1
  rw [hd.2.2]; exact mul_pos this hd.2.1

theorem floor_times {d : Nat} {h r : F64} (hd : TimesLarger d h r) (a : ℝ) : ⌊a / r.val⌋ = ⌊a / h.val⌋ / (d : ℤ) := by
  rw [hd.2.2, mul_comm, ← div_div, Int.floor_div_natCast]

theorem exists_least {α : Type} (ps : List α) (hne : ps ≠ []) (g : α → ℝ) : ∃ o, IsLeast {x | ∃ p ∈ ps, x = g p} o := by
  induction ps with
  | nil => exact absurd rfl hne
  | cons p ps ih =>
    by_cases h : ps = []
    · subst h
      exact ⟨g p, ⟨p, by simp, rfl⟩, by rintro x ⟨q, hq, rfl⟩; rw [List.mem_singleton.mp hq]⟩
    · obtain ⟨o, ⟨q, hq, e⟩, hl⟩ := ih h
      rcases le_total o (g p) with h1 | h1
      · refine ⟨o, ⟨q, List.mem_cons_of_mem _ hq, e⟩, ?_⟩
        rintro x ⟨r, hr, rfl⟩
        rcases List.mem_cons.mp hr with rfl | hr
        · exact h1
        · exact hl ⟨r, hr, rfl⟩
      · refine ⟨g p, ⟨p, List.mem_cons_self .., rfl⟩, ?_⟩
        rintro x ⟨r, hr, rfl⟩
        rcases List.mem_cons.mp hr with rfl | hr
        · exact le_refl _
        · exact le_trans h1 (hl ⟨r, hr, rfl⟩)

section
variable {α : Type} [HasXYZ α]

/-- The voxels of the two grids. -/
theorem indexes_times {k : ℤ} (hk0 : -1074 ≤ k) (hk : k ≤ 970) (ps : List α) (hps : CloudOnGrid k ps) {d : Nat} {h r : F64} (hh : OnGrid k 53 h)
    (hr : OnGrid k 53 r) (hd : TimesLarger d h r) :
    ∃ us vs, Voxel.getIndexes ps h = .ok us ∧ Voxel.getIndexes ps r = .ok vs ∧ us.length = ps.length ∧ vs.length = ps.length
      ∧ ∀ i j : Nat, i < ps.length → us[i]? = us[j]? → vs[i]? = vs[j]? := by
  by_cases hne : ps = []
  · subst hne
    exact ⟨[], [], rfl, rfl, rfl, rfl, by simp⟩
  obtain ⟨ox, hox⟩ := exists_least ps hne (fun p => (pt p).x.val)
  obtain ⟨oy, hoy⟩ := exists_least ps hne (fun p => (pt p).y.val)
  obtain ⟨oz, hoz⟩ := exists_least ps hne (fun p => (pt p).z.val)
  obtain ⟨us, u1, u2, u3⟩ := c137_voxels_partial hk0 hk ps hps h hh hd.2.1 hox hoy hoz
  obtain ⟨vs, v1, v2, v3⟩ := c137_voxels_partial hk0 hk ps hps r hr hd.pos hox hoy hoz
  refine ⟨us, vs, u1, v1, u2, v2, fun i j hi e => ?_⟩
  have hj : j < ps.length := by
    by_contra hc
    rw [List.getElem?_eq_none (l := us) (i := j) (by omega), List.getElem?_eq_getElem (by omega)] at e
    simp at e
  have pi := List.getElem?_eq_getElem hi
  have pj := List.getElem?_eq_getElem hj
  have ui := List.getElem?_eq_getElem (l := us) (i := i) (by omega)
  have uj := List.getElem?_eq_getElem (l := us) (i := j) (by omega)
  have vi := List.getElem?_eq_getElem (l := vs) (i := i) (by omega)
  have vj := List.getElem?_eq_getElem (l := vs) (i := j) (by omega)
  have eu : us[i] = us[j] := by rw [ui, uj] at e; exact Option.some.inj e
  obtain ⟨a1, a2, a3⟩ := u3 i _ _ pi ui
  obtain ⟨b1, b2, b3⟩ := u3 j _ _ pj uj
  obtain ⟨c1, c2, c3⟩ := v3 i _ _ pi vi
  obtain ⟨d1, d2, d3⟩ := v3 j _ _ pj vj
  rw [floor_times hd, ← a1] at c1
  rw [floor_times hd, ← a2] at c2
  rw [floor_times hd, ← a3] at c3
  rw [floor_times hd, ← b1, ← eu] at d1
  rw [floor_times hd, ← b2, ← eu] at d2
  rw [floor_times hd, ← b3, ← eu] at d3
  have x1 := UInt64.toNat_inj.mp (by exact_mod_cast c1.trans d1.symm : vs[i].i.toNat = vs[j].i.toNat)
  have x2 := UInt64.toNat_inj.mp (by exact_mod_cast c2.trans d2.symm : vs[i].j.toNat = vs[j].j.toNat)
  have x3 := UInt64.toNat_inj.mp (by exact_mod_cast c3.trans d3.symm : vs[i].k.toNat = vs[j].k.toNat)
  rw [vi, vj]
  congr 1
  cases h1 : vs[i]; cases h2 : vs[j]
  rw [h1, h2] at x1 x2 x3
  simp only at x1 x2 x3
  rw [x1, x2, x3]

/-- **C138**: on a grid, subsampling succeeds with every resolution, and a resolution that is a whole multiple of another one keeps points that the
finer subsampling keeps too, in the same order. -/
theorem c138_subsample_partial {k : ℤ} (hk0 : -1074 ≤ k) (hk : k ≤ 970) (b : Build) (sh : Shuffle) (hsh : sh.Lawful) (ps : List α) (hps : CloudOnGrid k ps)
    {d : Nat} {h r : F64} (hh : OnGrid k 53 h) (hr : OnGrid k 53 r) (hd : TimesLarger d h r) (seed : Nat) :
    ∃ qs rs, subsamplePoints b sh ps h seed = .ok qs ∧ subsamplePoints b sh ps r seed = .ok rs ∧ rs.Sublist qs := by
  obtain ⟨us, vs, hu, hv, hl', hl, hvu⟩ := indexes_times hk0 hk ps hps hh hr hd
  have e1 := subsampleIndexes_eq b sh hsh ps h seed us hu
  have e2 := subsampleIndexes_eq b sh hsh ps r seed vs hv
  obtain ⟨ks, qs, c1, c2, c3, -⟩ := c23_one_per_voxel b sh hsh ps h seed us hu
  obtain ⟨ls, rs, d1, d2, d3, -⟩ := c23_one_per_voxel b sh hsh ps r seed vs hv
  refine ⟨qs, rs, c2, d2, ?_⟩
  rw [e1] at c1
  rw [e2] at d1
  obtain rfl := Res.ok.inj c1
  obtain rfl := Res.ok.inj d1
  rw [forall₂_filterMap c3, forall₂_filterMap d3]
  apply List.Sublist.filterMap
  apply dedupe_coarser
  · intro i j e
    simp only [decide_eq_true_eq] at e ⊢
    by_cases hi : i < ps.length
    · exact hvu i j hi e
    · have hi' : ps.length ≤ i := Nat.le_of_not_lt hi
      have hj : ps.length ≤ j := by
        by_contra hc
        rw [List.getElem?_eq_none (l := us) (i := i) (by omega), List.getElem?_eq_getElem (by omega)] at e
        simp at e
      rw [List.getElem?_eq_none (by omega), List.getElem?_eq_none (by omega)]
  · intro i j l e1 e2
    simp only [decide_eq_true_eq] at e1 e2 ⊢
    exact e1.trans e2

end

/-- **C138**, tiles: on a grid, points that share a tile share a tile of every grid of tiles whose sides are whole multiples. -/
theorem c138_tiles_partial {k : ℤ} (hk0 : -1074 ≤ k) (hk : k ≤ 970) (ps : List PointRecord) (hps : CloudOnGrid k ps) {d e : Nat} {hx hy rx ry : F64}
    (gx : OnGrid k 53 hx) (gy : OnGrid k 53 hy) (gx' : OnGrid k 53 rx) (gy' : OnGrid k 53 ry) (dx : TimesLarger d hx rx) (dy : TimesLarger e hy ry)
    {ox oy : ℝ} (hox : IsLeast {x | ∃ p ∈ ps, x = p.x.val} ox) (hoy : IsLeast {y | ∃ p ∈ ps, y = p.y.val} oy)
    (fx : ∀ p ∈ ps, (p.x.val - ox) / hx.val < 2 ^ 32 - 1) (fy : ∀ p ∈ ps, (p.y.val - oy) / hy.val < 2 ^ 32 - 1) :
    ∃ small large, Tile.getTileIndexes ps (Extent.ofPoints ps) hx hy = .ok small ∧ Tile.getTileIndexes ps (Extent.ofPoints ps) rx ry = .ok large
      ∧ small.length = ps.length ∧ large.length = ps.length
      ∧ ∀ i j : Nat, i < ps.length → j < ps.length → small[i]? = small[j]? → large[i]? = large[j]? := by
  have few : ∀ {n : Nat} {h r : F64}, TimesLarger n h r → ∀ a : ℝ, 0 ≤ a → a / h.val < 2 ^ 32 - 1 → a / r.val < 2 ^ 32 - 1 := by
    intro n h r hn a ha hlt
    refine lt_of_le_of_lt ?_ hlt
    refine div_le_div_of_nonneg_left ha hn.2.1 ?_
    rw [hn.2.2]
    have : (1 : ℝ) ≤ n := by exact_mod_cast hn.1
    nlinarith [hn.2.1]
  obtain ⟨small, s1, s2, s3⟩ := c137_tiles_partial hk0 hk ps hps hx hy gx gy dx.2.1 dy.2.1 hox hoy fx fy
  obtain ⟨large, l1, l2, l3⟩ := c137_tiles_partial hk0 hk ps hps rx ry gx' gy' dx.pos dy.pos hox hoy
    (fun p hp => few dx _ (sub_nonneg.mpr (hox.2 ⟨p, hp, rfl⟩)) (fx p hp)) (fun p hp => few dy _ (sub_nonneg.mpr (hoy.2 ⟨p, hp, rfl⟩)) (fy p hp))
  refine ⟨small, large, s1, l1, s2, l2, fun i j hi hj h => ?_⟩
  have pi := List.getElem?_eq_getElem hi
  have pj := List.getElem?_eq_getElem hj
  have ui := List.getElem?_eq_getElem (l := small) (i := i) (by omega)
  have uj := List.getElem?_eq_getElem (l := small) (i := j) (by omega)
  have vi := List.getElem?_eq_getElem (l := large) (i := i) (by omega)
  have vj := List.getElem?_eq_getElem (l := large) (i := j) (by omega)
  obtain ⟨e1, e2⟩ := (s3 i j _ _ _ _ pi pj ui uj).mp (by rw [ui, uj] at h; exact Option.some.inj h)
  rw [vi, vj]
  refine congrArg some ((l3 i j _ _ _ _ pi pj vi vj).mpr ⟨?_, ?_⟩)
  · rw [floor_times dx, floor_times dx, e1]
  · rw [floor_times dy, floor_times dy, e2]

open Getopt Cmd Main Spec.Cmd Text

/-- **C138**, the filter application. -/
theorem c138_filter_partial {k : ℤ} (hk0 : -1074 ≤ k) (hk : k ≤ 970) (p : Params) (hz : p.zlib.Correct) (hsh : p.shuffle.Lawful) (w : World)
    (argv argv' : List Str) (i o o' : Str) {d : Nat} {h r : F64} (hh : OnGrid k 53 h) (hr : OnGrid k 53 r) (hd : TimesLarger d h r) (seed : Nat)
    (hopt : Asks (Cmd.filter.options argv) { resolution := some h, seed := seed })
    (hopt' : Asks (Cmd.filter.options argv') { resolution := some r, seed := seed }) (hops : Cmd.filter.operands argv = [i, o])
    (hops' : Cmd.filter.operands argv' = [i, o']) (hi : i ≠ []) (ho : o ≠ []) (ho' : o' ≠ []) (hc : CanReplace w o) (hc' : CanReplace w o')
    (f : SpocFile) (hcloud : HasCloud p w.fs i f) (hu : f.compressed = false) (he : ∀ q ∈ f.prs, q.extra.length ≤ 123) (hps : CloudOnGrid k f.prs) :
    ∃ qs rs, Makes .filter p w argv o { f with prs := qs } ∧ Makes .filter p w argv' o' { f with prs := rs } ∧ rs.Sublist qs
      ∧ List.Subperm qs f.prs := by
  obtain ⟨x, s', h1, h2, h3⟩ := id hcloud
  have hw := readable_writable h3
  obtain ⟨us, vs, hus, -⟩ := indexes_times hk0 hk f.prs hps hh hr hd
  obtain ⟨ks, qs, k1, k2, k3, k4, k5, -⟩ := c23_one_per_voxel p.build p.shuffle hsh f.prs h seed us hus
  obtain ⟨qs0, rs, r0, r1, r2⟩ := c138_subsample_partial hk0 hk p.build p.shuffle hsh f.prs hps hh hr hd seed
  obtain rfl := Res.ok.inj (k2.symm.trans r0)
  obtain ⟨qs', l1, l2, -⟩ := pick_only f hw.uniform ks k4 k5
  obtain rfl : qs' = qs := by rw [forall₂_filterMap l1, forall₂_filterMap k3]
  have writes : ∀ {ts : List PointRecord}, List.Subperm ts f.prs → Survives p.zlib { f with prs := ts } := fun l =>
    ⟨⟨hw.major, hw.minor, hw.wkt, uniform_subperm hw.uniform l, fun q hq => hw.extra q (l.subset hq),
      lt_of_le_of_lt l.length_le hw.count⟩, fun _ q hq => he q (l.subset hq), fun e => by rw [hu] at e; simp at e⟩
  refine ⟨qs', rs, ?_, ?_, r2, l2⟩
  · exact c76_filter_partial p hz hsh w argv i o _ hopt hops hi ho hc f hcloud qs' ⟨f.prs, f.prs, f.prs, qs', rfl, by simp, rfl, k2, rfl⟩
      (writes l2)
  · exact c76_filter_partial p hz hsh w argv' i o' _ hopt' hops' hi ho' hc' f hcloud rs ⟨f.prs, f.prs, f.prs, rs, rfl, by simp, rfl, r1, rfl⟩
      (writes (r2.subperm.trans l2))

/-! ## the full statement is false -/

theorem timesLarger_of_fv {d : Nat} {h r : F64} (hd : 0 < d) (h0 : 0 < h.fv) (e : r.fv = d * h.fv) : TimesLarger d h r := by
  refine ⟨hd, F64.val_pos.mpr h0, ?_⟩
  unfold F64.val
  rw [e, Int.cast_mul, Int.cast_natCast, mul_div_assoc]

/-- **C138, negation**: with the resolution 0.63787360145664 the last of three points is left out, with three times this resolution it is kept: the quotient
of its distance and the larger resolution, which is below 1048, is rounded to 1048. -/
theorem c138_rounding : TimesLarger 3 ⟨0x3fe46975e6279dc0⟩ ⟨0x3ffe9e30d93b6ca0⟩
    ∧ subsamplePoints .release (fun _ l => l) ([⟨0⟩, ⟨0x409f549f66f46eb2⟩, ⟨0x409f55e5fe52d12b⟩].map pointX) ⟨0x3fe46975e6279dc0⟩ 0
      = .ok ([⟨0⟩, ⟨0x409f549f66f46eb2⟩].map pointX)
    ∧ subsamplePoints .release (fun _ l => l) ([⟨0⟩, ⟨0x409f549f66f46eb2⟩, ⟨0x409f55e5fe52d12b⟩].map pointX) ⟨0x3ffe9e30d93b6ca0⟩ 0
      = .ok ([⟨0⟩, ⟨0x409f549f66f46eb2⟩, ⟨0x409f55e5fe52d12b⟩].map pointX) :=
  ⟨timesLarger_of_fv (by norm_num) (by decide +kernel) (by decide +kernel), by decide +kernel, by decide +kernel⟩

/-! ## examples -/

theorem fifteen_five : TimesLarger 3 (num 5) (num 15) := timesLarger_of_fv (by norm_num) (by decide +kernel) (by decide +kernel)

/-- The points of the examples, with voxels of side 5 and 15. -/
example : ∃ qs rs, Makes .filter exampleParams exampleDisk ["--subsample=5".toList, ['a'], ['o']] ['o'] { cloudA with prs := qs }
    ∧ Makes .filter exampleParams exampleDisk ["--subsample=15".toList, ['a'], ['o']] ['o'] { cloudA with prs := rs } ∧ rs.Sublist qs := by
  have e : Cmd.filter.options ["--subsample=5".toList, ['a'], ['o']] = [("subsample", ['5'])] := by decide +kernel
  have e' : Cmd.filter.options ["--subsample=15".toList, ['a'], ['o']] = [("subsample", ['1', '5'])] := by decide +kernel
  obtain ⟨qs, rs, h1, h2, h3, -⟩ := c138_filter_partial (k := 0) (by norm_num) (by norm_num) exampleParams toyZlib_correct (fun _ l => List.Perm.refl l)
    exampleDisk ["--subsample=5".toList, ['a'], ['o']] ["--subsample=15".toList, ['a'], ['o']] ['a'] ['o'] ['o']
    (onGrid_num (by norm_num) (by norm_num)) (onGrid_num (by norm_num) (by norm_num)) fifteen_five 0 (by
      rw [e]
      exact ⟨by decide, by decide, by decide, by decide, by decide, by simp,
        by show some (num 5) = if F64.gt (atof ['5']) F64.zero then some (atof ['5']) else none; decide +kernel,
        .inr ⟨rfl, rfl⟩, by decide, .inl rfl⟩) (by
      rw [e']
      exact ⟨by decide, by decide, by decide, by decide, by decide, by simp,
        by show some (num 15) = if F64.gt (atof ['1', '5']) F64.zero then some (atof ['1', '5']) else none; decide +kernel,
        .inr ⟨rfl, rfl⟩, by decide, .inl rfl⟩) (by decide +kernel) (by decide +kernel)
    (by decide) (by decide) (by decide) rfl rfl cloudA cloudA_on_disk.1 rfl (by decide) tilePoints_onGrid
  exact ⟨qs, rs, h1, h2, h3⟩

/-- The tiles of the same points. -/
example : ∃ small large, Tile.getTileIndexes tilePoints (Extent.ofPoints tilePoints) (num 10) (num 10) = .ok small
    ∧ Tile.getTileIndexes tilePoints (Extent.ofPoints tilePoints) (num 30) (num 30) = .ok large
    ∧ ∀ i j : Nat, i < 3 → j < 3 → small[i]? = small[j]? → large[i]? = large[j]? := by
  have g : OnGrid 0 53 (num 10) := onGrid_num (by norm_num) (by norm_num)
  have g' : OnGrid 0 53 (num 30) := onGrid_num (by norm_num) (by norm_num)
  have d : TimesLarger 3 (num 10) (num 30) := timesLarger_of_fv (by norm_num) (by decide +kernel) (by decide +kernel)
  obtain ⟨l1, l2, _⟩ := tilePoints_least
  obtain ⟨f1, f2⟩ := tilePoints_few
  obtain ⟨small, large, h1, h2, -, -, h3⟩ := c138_tiles_partial (k := 0) (by norm_num) (by norm_num) tilePoints tilePoints_onGrid g g g' g' d d l1 l2 f1 f2
  exact ⟨small, large, h1, h2, h3⟩

end Spoc.Props
