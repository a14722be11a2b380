import Verif.Props.Coverage
import Verif.Props.Twice
import Verif.Proofs.Nested

/-!
# C111: a coarser grid whose cells are a power of two larger nests in the finer one
-/

namespace Spoc.Spec

/-- The side `r` is `2 ^ k` times the side `h`. -/
def PowerLarger (k : Nat) (h r : F64) : Prop := h.isFinite = true ∧ r.isFinite = true ∧ 0 < h.val ∧ r.val = h.val * 2 ^ k

end Spoc.Spec

namespace Spoc.Props

open Spec Subsampling

theorem powerLarger_fv {k : Nat} {h r : F64} (hp : PowerLarger k h r) : 0 < h.fv ∧ r.fv = h.fv * 2 ^ k := by
  obtain ⟨-, -, h1, h2⟩ := hp
  refine ⟨F64.val_pos.mp h1, ?_⟩
  unfold F64.val at h2
  rw [div_mul_eq_mul_div, div_left_inj' F64.one1074_pos'.ne'] at h2
  exact_mod_cast h2

/-- One index of a voxel of the coarser grid. -/
theorem index1_larger {k : Nat} {h r o a : F64} (hp : PowerLarger k h r) (ho : o.isFinite = true) (ha : a.isFinite = true) (hle : o.fv ≤ a.fv)
    {u : UInt64} (hu : Voxel.index1 a o h = .ok u) : ∃ v, Voxel.index1 a o r = .ok v ∧ v.toNat = u.toNat / 2 ^ k := by
  obtain ⟨h1, h2⟩ := powerLarger_fv hp
  obtain ⟨q, e⟩ := index1_cell hp.1 h1 hu
  have hs : (F64.sub a o).isFinite = true := by
    by_contra hc
    rw [F64.div_not_finite (by simpa using hc)] at q
    simp at q
  have h0 : 0 ≤ (F64.sub a o).fv := by
    rw [F64.sub_fv ha ho]
    exact F64.rfv_nonneg (by omega)
  obtain ⟨t1, t2⟩ := F64.trunc_scale hs hp.2.1 hp.1 h1 h0 h2 q
  rw [Tile.gridCell_pos hp.1 h1] at e
  rw [← e] at t2
  have hn : 0 ≤ (F64.div (F64.sub a o) r).fv := by
    have hr0 : 0 < r.fv := by rw [h2]; positivity
    rw [(F64.div_fv hs hp.2.1 hr0).1]
    exact F64.rfv_nonneg (mul_nonneg h0 (Int.natCast_nonneg _))
  have t3 : (F64.div (F64.sub a o) r).trunc = ((u.toNat / 2 ^ k : Nat) : Int) := by rw [t2]; push_cast; rfl
  have hlt := u.toNat_lt
  have hle' : u.toNat / 2 ^ k ≤ u.toNat := Nat.div_le_self _ _
  obtain ⟨v, v1, v2⟩ := Tile.toU64_small t1 hn (by rw [t3]; exact_mod_cast lt_of_le_of_lt hle' hlt)
  refine ⟨v, v1, ?_⟩
  rw [t3] at v2
  exact_mod_cast v2

section
variable {α : Type} [HasXYZ α]

/-- The voxels of the coarser grid: defined if those of the finer grid are, and points that share a fine voxel share the coarse one. -/
theorem indexes_larger {k : Nat} {h r : F64} (hp : PowerLarger k h r) (ps : List α) (hf : ∀ p ∈ ps, Spec.Fin (pt p)) {us : List VoxelIndex}
    (hu : Voxel.getIndexes ps h = .ok us) :
    ∃ vs, Voxel.getIndexes ps r = .ok vs ∧ ∀ i j : Nat, i < ps.length → us[i]? = us[j]? → vs[i]? = vs[j]? := by
  by_cases hne : ps = []
  · subst hne
    exact ⟨[], rfl, by simp⟩
  obtain ⟨⟨m1, m2, m3⟩, -⟩ := extent_finite ps hne hf
  obtain ⟨hin, -⟩ := c15_extent_tight_partial ps hne hf
  have point : ∀ (n : Nat) (p : α), ps[n]? = some p → ∃ u v, us[n]? = some u
      ∧ Voxel.getIndex (pt p) (Extent.ofPoints ps).minp r = .ok v
      ∧ v.i.toNat = u.i.toNat / 2 ^ k ∧ v.j.toNat = u.j.toNat / 2 ^ k ∧ v.k.toNat = u.k.toNat / 2 ^ k := by
    intro n p hn
    obtain ⟨u, u0, u1, u2, u3⟩ := voxel_of hu hn
    have hm := List.mem_of_getElem? hn
    obtain ⟨f1, f2, f3⟩ := hf p hm
    obtain ⟨i1, -, i2, -, i3, -⟩ := hin p hm
    obtain ⟨a, a1, a2⟩ := index1_larger hp m1 f1 i1 u1
    obtain ⟨b, b1, b2⟩ := index1_larger hp m2 f2 i2 u2
    obtain ⟨c, c1, c2⟩ := index1_larger hp m3 f3 i3 u3
    refine ⟨u, ⟨a, b, c⟩, u0, ?_, a2, b2, c2⟩
    unfold Voxel.getIndex
    rw [a1, Res.ok_bind, b1, Res.ok_bind, c1, Res.ok_bind]
  obtain ⟨vs, hv⟩ : ∃ vs, Voxel.getIndexes ps r = .ok vs := by
    refine mapM_ok_of (fun p hm => ?_)
    obtain ⟨n, hn, rfl⟩ := List.getElem_of_mem hm
    obtain ⟨-, v, -, h2, -⟩ := point n _ (List.getElem?_eq_getElem hn)
    exact ⟨v, h2⟩
  have hl := (Io.mapM_getElem hv).1
  have hl' := (Io.mapM_getElem hu).1
  have value : ∀ n, n < ps.length → ∃ u v, us[n]? = some u ∧ vs[n]? = some v
      ∧ v.i.toNat = u.i.toNat / 2 ^ k ∧ v.j.toNat = u.j.toNat / 2 ^ k ∧ v.k.toNat = u.k.toNat / 2 ^ k := by
    intro n hn
    obtain ⟨u, v, h1, h2, h3⟩ := point n _ (List.getElem?_eq_getElem hn)
    refine ⟨u, v, h1, ?_, h3⟩
    have := (Io.mapM_getElem hv).2 n hn (by omega)
    rw [h2] at this
    rw [List.getElem?_eq_getElem (by omega), Res.ok.inj this]
  refine ⟨vs, hv, fun i j hi e => ?_⟩
  have hj : j < ps.length := by
    by_contra hc
    rw [List.getElem?_eq_none (l := us) (i := j) (by omega), List.getElem?_eq_getElem (by omega)] at e
    simp at e
  obtain ⟨u, v, a1, a2, a3, a4, a5⟩ := value i hi
  obtain ⟨u', v', b1, b2, b3, b4, b5⟩ := value j hj
  obtain rfl : u = u' := by rw [a1, b1] at e; exact Option.some.inj e
  rw [a2, b2]
  have x1 := UInt64.toNat_inj.mp (a3.trans b3.symm)
  have x2 := UInt64.toNat_inj.mp (a4.trans b4.symm)
  have x3 := UInt64.toNat_inj.mp (a5.trans b5.symm)
  cases v; cases v'
  simp only at x1 x2 x3
  rw [x1, x2, x3]

/-- **C111**: if subsampling a finite cloud succeeds, it succeeds for each resolution that is a power of two times as large with the same
seed, and keeps points that the finer subsampling keeps too, in the same order. -/
theorem c111_subsample (b : Build) (sh : Shuffle) (hsh : sh.Lawful) (ps : List α) (hf : ∀ p ∈ ps, Spec.Fin (pt p)) {k : Nat} {h r : F64}
    (hp : PowerLarger k h r) (seed : Nat) {qs : List α} (hq : subsamplePoints b sh ps h seed = .ok qs) :
    ∃ rs, subsamplePoints b sh ps r seed = .ok rs ∧ rs.Sublist qs := by
  obtain ⟨us, hu⟩ : ∃ us, Voxel.getIndexes ps h = .ok us := by
    unfold subsamplePoints subsampleIndexes at hq
    cases hu : Voxel.getIndexes ps h with
    | ok us => exact ⟨us, rfl⟩
    | throw e => rw [hu] at hq; simp at hq
    | ub e => rw [hu] at hq; simp at hq
    | abort => rw [hu] at hq; simp at hq
    | hang => rw [hu] at hq; simp at hq
  obtain ⟨vs, hv, hvu⟩ := indexes_larger hp ps hf hu
  have hl := (Io.mapM_getElem hv).1
  have hl' := (Io.mapM_getElem hu).1
  have e1 := subsampleIndexes_eq b sh hsh ps h seed us hu
  have e2 := subsampleIndexes_eq b sh hsh ps r seed vs hv
  obtain ⟨ks, qs', c1, c2, c3, -⟩ := c23_one_per_voxel b sh hsh ps h seed us hu
  obtain ⟨ls, rs, d1, d2, d3, -⟩ := c23_one_per_voxel b sh hsh ps r seed vs hv
  obtain rfl := Res.ok.inj (hq.symm.trans c2)
  refine ⟨rs, d2, ?_⟩
  rw [e1] at c1
  rw [e2] at d1
  obtain rfl := Res.ok.inj c1
  obtain rfl := Res.ok.inj d1
  rw [forall₂_filterMap c3, forall₂_filterMap d3]
  apply List.Sublist.filterMap
  apply dedupe_coarser
  · intro i j e
    simp only [decide_eq_true_eq] at e ⊢
    by_cases hi : i < ps.length
    · exact hvu i j hi e
    · have hi' : ps.length ≤ i := Nat.le_of_not_lt hi
      have hj : ps.length ≤ j := by
        by_contra hc
        rw [List.getElem?_eq_none (l := us) (i := i) (by omega), List.getElem?_eq_getElem (by omega)] at e
        simp at e
      rw [List.getElem?_eq_none (by omega), List.getElem?_eq_none (by omega)]
  · intro i j l e1 e2
    simp only [decide_eq_true_eq] at e1 e2 ⊢
    exact e1.trans e2

end

/-- **C111**, tiles: in a grid whose tiles are powers of two larger along the axes, points that share a tile still share a tile. -/
theorem c111_tiles (ps : List PointRecord) (hne : ps ≠ []) (hf : ∀ p ∈ ps, Spec.Fin (pt p)) {k l : Nat} {hx hy rx ry : F64}
    (hpx : PowerLarger k hx rx) (hpy : PowerLarger l hy ry)
    (fx : FewCells hx (Extent.ofPoints ps).minp.x (Extent.ofPoints ps).maxp.x)
    (fy : FewCells hy (Extent.ofPoints ps).minp.y (Extent.ofPoints ps).maxp.y) :
    ∃ small large, Tile.getTileIndexes ps (Extent.ofPoints ps) hx hy = .ok small ∧ Tile.getTileIndexes ps (Extent.ofPoints ps) rx ry = .ok large
      ∧ small.length = ps.length ∧ large.length = ps.length
      ∧ ∀ i j : Nat, i < ps.length → j < ps.length → small[i]? = small[j]? → large[i]? = large[j]? := by
  obtain ⟨⟨m1, m2, -⟩, ⟨n1, n2, -⟩⟩ := extent_finite ps hne hf
  obtain ⟨hin, -⟩ := c15_extent_tight_partial ps hne hf
  obtain ⟨p0, hp0⟩ := List.exists_mem_of_ne_nil ps hne
  have lx : (Extent.ofPoints ps).minp.x.fv ≤ (Extent.ofPoints ps).maxp.x.fv := le_trans (hin p0 hp0).1 (hin p0 hp0).2.1
  have ly : (Extent.ofPoints ps).minp.y.fv ≤ (Extent.ofPoints ps).maxp.y.fv := le_trans (hin p0 hp0).2.2.1 (hin p0 hp0).2.2.2.1
  generalize hE : Extent.ofPoints ps = E at *
  -- one axis
  have axis : ∀ {k : Nat} {h r o last v : F64}, PowerLarger k h r → o.isFinite = true → last.isFinite = true → v.isFinite = true →
      o.fv ≤ v.fv → v.fv ≤ last.fv → FewCells h o last →
      (F64.div (F64.sub v o) r).isFinite = true ∧ gridCell r o v = gridCell h o v / 2 ^ k ∧ gridCell h o v + 1 < 2 ^ 32 ∧ 0 ≤ gridCell h o v := by
    intro k h r o last v hp ho hl hv h1 h2 hfew
    obtain ⟨f1, f2⟩ := powerLarger_fv hp
    have hr0 : 0 < r.fv := by rw [f2]; positivity
    obtain ⟨g1, g2⟩ := hfew ((Tile.gt_zero hp.1).mpr f1)
    obtain ⟨-, p1⟩ := Voxel.quot_spec hv ho hp.1 f1 h1
    have hm := Voxel.quot_mono hv hl ho hp.1 f1 h2
    have hfin : (F64.div (F64.sub v o) h).isFinite = true := F64.finite_of_fv_le g1 (by omega)
    have hs : (F64.sub v o).isFinite = true := by
      by_contra hc
      rw [F64.div_not_finite (by simpa using hc)] at hfin
      simp at hfin
    have h0 : 0 ≤ (F64.sub v o).fv := by rw [F64.sub_fv hv ho]; exact F64.rfv_nonneg (by omega)
    obtain ⟨t1, t2⟩ := F64.trunc_scale hs hp.2.1 hp.1 f1 h0 f2 hfin
    have tm := F64.trunc_mono p1 hm
    rw [Tile.gridCell_pos hp.1 f1] at g2
    rw [Tile.gridCell_pos hp.1 f1, Tile.gridCell_pos hp.2.1 hr0]
    exact ⟨t1, t2, by omega, F64.trunc_nonneg p1⟩
  have few : ∀ {k : Nat} {h r o last : F64}, PowerLarger k h r → o.isFinite = true → last.isFinite = true → o.fv ≤ last.fv →
      FewCells h o last → FewCells r o last := by
    intro k h r o last hp ho hl hle hfew _
    obtain ⟨a1, a2, a3, a4⟩ := axis hp ho hl hl hle (le_refl _) hfew
    refine ⟨a1, ?_⟩
    have : gridCell h o last / 2 ^ k ≤ gridCell h o last := Int.ediv_le_self _ a4
    omega
  obtain ⟨small, s1, s2, s3⟩ := c44_same_tile ps hne hf hx hy hpx.1 hpy.1 (by rw [hE]; exact fx) (by rw [hE]; exact fy)
  obtain ⟨large, l1, l2, l3⟩ := c44_same_tile ps hne hf rx ry hpx.2.1 hpy.2.1 (by rw [hE]; exact few hpx m1 n1 lx fx)
    (by rw [hE]; exact few hpy m2 n2 ly fy)
  rw [hE] at s1 s3 l1 l3
  refine ⟨small, large, s1, l1, s2, l2, fun i j hi hj e => ?_⟩
  have ei : ps[i]? = some ps[i] := List.getElem?_eq_getElem hi
  have ej : ps[j]? = some ps[j] := List.getElem?_eq_getElem hj
  have si : small[i]? = some (small[i]'(by omega)) := List.getElem?_eq_getElem (by omega)
  have sj : small[j]? = some (small[j]'(by omega)) := List.getElem?_eq_getElem (by omega)
  have li : large[i]? = some (large[i]'(by omega)) := List.getElem?_eq_getElem (by omega)
  have lj : large[j]? = some (large[j]'(by omega)) := List.getElem?_eq_getElem (by omega)
  obtain ⟨c1, c2⟩ := (s3 i j _ _ _ _ ei ej si sj).mp (by rw [si, sj] at e; exact Option.some.inj e)
  rw [li, lj, (l3 i j _ _ _ _ ei ej li lj).mpr ?_]
  have mi := List.mem_of_getElem? ei
  have mj := List.mem_of_getElem? ej
  obtain ⟨u1, u2, u3, u4, -⟩ := hin _ mi
  obtain ⟨w1, w2, w3, w4, -⟩ := hin _ mj
  constructor
  · rw [(axis (v := ps[i].x) hpx m1 n1 (hf _ mi).1 u1 u2 fx).2.1, (axis (v := ps[j].x) hpx m1 n1 (hf _ mj).1 w1 w2 fx).2.1]
    exact congrArg (· / 2 ^ k) c1
  · rw [(axis (v := ps[i].y) hpy m2 n2 (hf _ mi).2.1 u3 u4 fy).2.1, (axis (v := ps[j].y) hpy m2 n2 (hf _ mj).2.1 w3 w4 fy).2.1]
    exact congrArg (· / 2 ^ l) c2

open Getopt Cmd Main Spec.Cmd Text

/-- **C111**, the filter application: with the same seed, subsampling with a resolution that is a power of two times as large writes
points that the finer subsampling writes too, in the same order. -/
theorem c111_filter (p : Params) (hz : p.zlib.Correct) (hsh : p.shuffle.Lawful) (w : World) (argv argv' : List Str) (i o o' : Str)
    {k : Nat} {h r : F64} (hp : PowerLarger k h r) (seed : Nat) (hopt : Asks (Cmd.filter.options argv) { resolution := some h, seed := seed })
    (hopt' : Asks (Cmd.filter.options argv') { resolution := some r, seed := seed }) (hops : Cmd.filter.operands argv = [i, o])
    (hops' : Cmd.filter.operands argv' = [i, o']) (hi : i ≠ []) (ho : o ≠ []) (ho' : o' ≠ []) (hc : CanReplace w o) (hc' : CanReplace w o')
    (f : SpocFile) (hcloud : HasCloud p w.fs i f) (hu : f.compressed = false) (he : ∀ q ∈ f.prs, q.extra.length ≤ 123)
    (hf : ∀ q ∈ f.prs, Spec.Fin (pt q)) (hfit : GridFits (Extent.ofPoints f.prs) h) :
    ∃ qs rs, Makes .filter p w argv o { f with prs := qs } ∧ Makes .filter p w argv' o' { f with prs := rs } ∧ rs.Sublist qs
      ∧ List.Subperm qs f.prs := by
  obtain ⟨x, s', h1, h2, h3⟩ := id hcloud
  have hw := readable_writable h3
  obtain ⟨us, hus, -⟩ := c22_voxel_indexes f.prs h hf hp.1 (powerLarger_fv hp).1 hfit
  obtain ⟨ks, qs, k1, k2, k3, k4, k5, -⟩ := c23_one_per_voxel p.build p.shuffle hsh f.prs h seed us hus
  obtain ⟨rs, r1, r2⟩ := c111_subsample p.build p.shuffle hsh f.prs hf hp seed k2
  obtain ⟨qs', l1, l2, -⟩ := pick_only f hw.uniform ks k4 k5
  obtain rfl : qs' = qs := by rw [forall₂_filterMap l1, forall₂_filterMap k3]
  have writes : ∀ {ts : List PointRecord}, List.Subperm ts f.prs → Survives p.zlib { f with prs := ts } := fun l =>
    ⟨⟨hw.major, hw.minor, hw.wkt, uniform_subperm hw.uniform l, fun q hq => hw.extra q (l.subset hq),
      lt_of_le_of_lt l.length_le hw.count⟩, fun _ q hq => he q (l.subset hq), fun e => by rw [hu] at e; simp at e⟩
  refine ⟨qs', rs, ?_, ?_, r2, l2⟩
  · exact c76_filter_partial p hz hsh w argv i o _ hopt hops hi ho hc f hcloud qs' ⟨f.prs, f.prs, f.prs, qs', rfl, by simp, rfl, k2, rfl⟩
      (writes l2)
  · exact c76_filter_partial p hz hsh w argv' i o' _ hopt' hops' hi ho' hc' f hcloud rs ⟨f.prs, f.prs, f.prs, rs, rfl, by simp, rfl, r1, rfl⟩
      (writes (r2.subperm.trans l2))

/-- **C111, negation**: in general a smaller resolution need not keep more points, even if all numbers are exact: of three points at
x = 0, 3.75 and 4.25 the resolution 2 keeps three, and 1.75 keeps two. -/
theorem c111_finer_keeps_less : ∃ (p : Params) (w : World) (f : SpocFile) (fine coarse : List Str), p.env.stod = Text.stod
    ∧ fine = ["--subsample=1.75".toList] ∧ coarse = ["--subsample=2".toList]
    ∧ (Name.filter.run p fine w).res = .ok 0 ∧ (Name.filter.run p coarse w).res = .ok 0
    ∧ (Name.filter.run p fine w).out = (Io.writeFile p.build p.zlib { f with prs := f.prs.take 2 }).bytes
    ∧ (Name.filter.run p coarse w).out = (Io.writeFile p.build p.zlib f).bytes ∧ f.prs.length = 3 := by
  refine ⟨{ exampleParams with env := { exampleEnv with stod := Text.stod } },
    onInput { SpocFile.empty with prs := [num 0, ⟨0x400E000000000000⟩, ⟨0x4011000000000000⟩].map pointX },
    { SpocFile.empty with prs := [num 0, ⟨0x400E000000000000⟩, ⟨0x4011000000000000⟩].map pointX }, _, _, rfl, rfl, rfl, ?_, ?_, ?_, ?_, rfl⟩
    <;> decide +kernel

/-- **C111, negation**: subsampling in two steps, first with 1 and then with 2, keeps fewer points than subsampling with 2 at once, since the
grid starts at the least coordinates of what is left. -/
theorem c111_two_steps : ∃ (p : Params) (w : World), p.env.stod = Text.stod
    ∧ (Name.filter.run p ["--subsample=1".toList] w).res = .ok 0
    ∧ (Name.filter.run p ["--subsample=2".toList] { w with stdin := { rest := (Name.filter.run p ["--subsample=1".toList] w).out } }).res = .ok 0
    ∧ (Name.filter.run p ["--subsample=2".toList] { w with stdin := { rest := (Name.filter.run p ["--subsample=1".toList] w).out } }).out.length
      < (Name.filter.run p ["--subsample=2".toList] w).out.length := by
  refine ⟨{ exampleParams with env := { exampleEnv with stod := Text.stod } },
    onInput { SpocFile.empty with prs := [⟨0x3FEC000000000000⟩, num 0, ⟨0x4004000000000000⟩].map pointX }, rfl, ?_, ?_, ?_⟩
    <;> decide +kernel

/-! ## Examples -/

/-- Ten is twice five. -/
theorem ten_five : PowerLarger 1 (num 5) (num 10) := by
  have h5 : (num 5).val = 5 := by exact_mod_cast num_val (n := 5) (by decide)
  have h10 : (num 10).val = 10 := by exact_mod_cast num_val (n := 10) (by decide)
  refine ⟨by decide +kernel, by decide +kernel, ?_, ?_⟩
  · rw [h5]; norm_num
  · rw [h5, h10]; norm_num

/-- The points of the examples, with voxels of side 5 and 10. -/
example : ∃ qs rs, Makes .filter exampleParams exampleDisk ["--subsample=5".toList, ['a'], ['o']] ['o'] { cloudA with prs := qs }
    ∧ Makes .filter exampleParams exampleDisk ["--subsample=10".toList, ['a'], ['o']] ['o'] { cloudA with prs := rs } ∧ rs.Sublist qs := by
  have e : Cmd.filter.options ["--subsample=5".toList, ['a'], ['o']] = [("subsample", ['5'])] := by decide +kernel
  have e' : Cmd.filter.options ["--subsample=10".toList, ['a'], ['o']] = [("subsample", ['1', '0'])] := by decide +kernel
  obtain ⟨qs, rs, h1, h2, h3, -⟩ := c111_filter exampleParams toyZlib_correct (fun _ l => List.Perm.refl l) exampleDisk
    ["--subsample=5".toList, ['a'], ['o']] ["--subsample=10".toList, ['a'], ['o']] ['a'] ['o'] ['o'] ten_five 0 (by
      rw [e]
      exact ⟨by decide, by decide, by decide, by decide, by decide, by simp,
        by show some (num 5) = if F64.gt (atof ['5']) F64.zero then some (atof ['5']) else none; decide +kernel,
        .inr ⟨rfl, rfl⟩, by decide, .inl rfl⟩) (by
      rw [e']
      exact ⟨by decide, by decide, by decide, by decide, by decide, by simp,
        by show some (num 10) = if F64.gt (atof ['1', '0']) F64.zero then some (atof ['1', '0']) else none; decide +kernel,
        .inr ⟨rfl, rfl⟩, by decide, .inl rfl⟩) (by decide +kernel) (by decide +kernel)
    (by decide) (by decide) (by decide) rfl rfl cloudA cloudA_on_disk.1 rfl (by decide) (by unfold Spec.Fin; decide +kernel) (by decide +kernel)
  exact ⟨qs, rs, h1, h2, h3⟩

/-- The tiles of the same points. -/
example : ∃ small large, Tile.getTileIndexes cloudA.prs (Extent.ofPoints cloudA.prs) (num 5) (num 5) = .ok small
    ∧ Tile.getTileIndexes cloudA.prs (Extent.ofPoints cloudA.prs) (num 10) (num 10) = .ok large
    ∧ ∀ i j : Nat, i < 3 → j < 3 → small[i]? = small[j]? → large[i]? = large[j]? := by
  obtain ⟨small, large, h1, h2, -, -, h3⟩ := c111_tiles cloudA.prs (by decide) (by unfold Spec.Fin; decide +kernel) ten_five ten_five
    (fun _ => by decide +kernel) (fun _ => by decide +kernel)
  exact ⟨small, large, h1, h2, h3⟩

end Spoc.Props
