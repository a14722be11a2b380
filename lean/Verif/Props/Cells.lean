import Verif.Proofs.Cells
import Verif.Props.Tile
import Verif.Props.Voxel
import Verif.Props.EndToEnd

/-!
# C137: tiles and voxels are the cells they should be
-/

namespace Spoc.Props

open Spec Text

/-! ## one axis -/

/-- **C137**, one axis: if origin, coordinate and size are on a grid (multiples of a power of two, below 2^52 of them), the column is the exact one. -/
theorem c137_column_partial {k : ℤ} (hk0 : -1074 ≤ k) (hk : k ≤ 970) {s o v : F64} (hs : OnGrid k 53 s) (ho : OnGrid k 52 o) (hv : OnGrid k 52 v)
    (hpos : 0 < s.val) (hle : o.val ≤ v.val) : gridCell s o v = ⌊(v.val - o.val) / s.val⌋ := by
  have hp := F64.val_pos.mp hpos
  rw [Tile.gridCell_pos hs.1 hp]
  exact (F64.cell_exact hk0 hk hs ho hv hp (F64.val_le_iff.mp hle)).2.2.1

/-- Columns are counted from the smallest coordinate. -/
theorem least_x {α : Type} [HasXYZ α] {ps : List α} (hf : ∀ p ∈ ps, Spec.Fin (pt p)) {o : ℝ} (h : IsLeast {x | ∃ p ∈ ps, x = (pt p).x.val} o) :
    (Extent.ofPoints ps).minp.x.val = o := by
  obtain ⟨⟨p, hp, e⟩, hl⟩ := h
  have hne : ps ≠ [] := List.ne_nil_of_mem hp
  obtain ⟨hin, ⟨q, hq, eq⟩, _⟩ := c15_extent_tight_partial ps hne hf
  refine le_antisymm ?_ ?_
  · rw [e]; exact F64.val_le_iff.mpr (hin p hp).1
  · rw [← eq]; exact hl ⟨q, hq, rfl⟩

theorem least_y {α : Type} [HasXYZ α] {ps : List α} (hf : ∀ p ∈ ps, Spec.Fin (pt p)) {o : ℝ} (h : IsLeast {x | ∃ p ∈ ps, x = (pt p).y.val} o) :
    (Extent.ofPoints ps).minp.y.val = o := by
  obtain ⟨⟨p, hp, e⟩, hl⟩ := h
  have hne : ps ≠ [] := List.ne_nil_of_mem hp
  obtain ⟨hin, _, _, ⟨q, hq, eq⟩, _⟩ := c15_extent_tight_partial ps hne hf
  refine le_antisymm ?_ ?_
  · rw [e]; exact F64.val_le_iff.mpr (hin p hp).2.2.1
  · rw [← eq]; exact hl ⟨q, hq, rfl⟩

theorem least_z {α : Type} [HasXYZ α] {ps : List α} (hf : ∀ p ∈ ps, Spec.Fin (pt p)) {o : ℝ} (h : IsLeast {x | ∃ p ∈ ps, x = (pt p).z.val} o) :
    (Extent.ofPoints ps).minp.z.val = o := by
  obtain ⟨⟨p, hp, e⟩, hl⟩ := h
  have hne : ps ≠ [] := List.ne_nil_of_mem hp
  obtain ⟨hin, _, _, _, _, ⟨q, hq, eq⟩, _⟩ := c15_extent_tight_partial ps hne hf
  refine le_antisymm ?_ ?_
  · rw [e]; exact F64.val_le_iff.mpr (hin p hp).2.2.2.2.1
  · rw [← eq]; exact hl ⟨q, hq, rfl⟩

/-! ## tiles -/

/-- The coordinates of a cloud are on a grid. -/
def CloudOnGrid {α : Type} [HasXYZ α] (k : ℤ) (ps : List α) : Prop :=
  ∀ p ∈ ps, OnGrid k 52 (pt p).x ∧ OnGrid k 52 (pt p).y ∧ OnGrid k 52 (pt p).z

theorem CloudOnGrid.fin {α : Type} [HasXYZ α] {k : ℤ} {ps : List α} (h : CloudOnGrid k ps) : ∀ p ∈ ps, Spec.Fin (pt p) :=
  fun p hp => ⟨(h p hp).1.1, (h p hp).2.1.1, (h p hp).2.2.1⟩

theorem CloudOnGrid.extent {α : Type} [HasXYZ α] {k : ℤ} {ps : List α} (h : CloudOnGrid k ps) (hne : ps ≠ []) :
    (OnGrid k 52 (Extent.ofPoints ps).minp.x ∧ OnGrid k 52 (Extent.ofPoints ps).minp.y ∧ OnGrid k 52 (Extent.ofPoints ps).minp.z)
      ∧ OnGrid k 52 (Extent.ofPoints ps).maxp.x ∧ OnGrid k 52 (Extent.ofPoints ps).maxp.y := by
  obtain ⟨_, ⟨p1, m1, e1⟩, ⟨p2, m2, e2⟩, ⟨p3, m3, e3⟩, ⟨p4, m4, e4⟩, ⟨p5, m5, e5⟩, _⟩ := c15_extent_tight_partial ps hne h.fin
  rw [← e1, ← e2, ← e3, ← e4, ← e5]
  exact ⟨⟨(h _ m1).1, (h _ m3).2.1, (h _ m5).2.2⟩, (h _ m2).1, (h _ m4).2.1⟩

theorem few_of_grid {k : ℤ} (hk0 : -1074 ≤ k) (hk : k ≤ 970) {s o v : F64} (hs : OnGrid k 53 s) (ho : OnGrid k 52 o) (hv : OnGrid k 52 v)
    (hpos : 0 < s.val) (hle : o.val ≤ v.val) (hfew : (v.val - o.val) / s.val < 2 ^ 32 - 1) : FewCells s o v := by
  intro _
  have hp := F64.val_pos.mp hpos
  obtain ⟨h1, h2, h3, _⟩ := F64.cell_exact hk0 hk hs ho hv hp (F64.val_le_iff.mp hle)
  refine ⟨h1, ?_⟩
  rw [Tile.gridCell_pos hs.1 hp, h3]
  have : ⌊(v.val - o.val) / s.val⌋ < 2 ^ 32 - 1 := Int.floor_lt.mpr (by push_cast; norm_num at hfew ⊢; exact hfew)
  omega

/-- **C137**, tiles: if the coordinates and the tile sizes are on a grid, two points are in the same tile exactly if their distances from the smallest
coordinates contain the tile size the same number of times, computed without rounding. -/
theorem c137_tiles_partial {k : ℤ} (hk0 : -1074 ≤ k) (hk : k ≤ 970) (ps : List PointRecord) (hps : CloudOnGrid k ps) (sx sy : F64) (hx : OnGrid k 53 sx)
    (hy : OnGrid k 53 sy) (px : 0 < sx.val) (py : 0 < sy.val) {ox oy : ℝ} (hox : IsLeast {x | ∃ p ∈ ps, x = p.x.val} ox)
    (hoy : IsLeast {y | ∃ p ∈ ps, y = p.y.val} oy) (fx : ∀ p ∈ ps, (p.x.val - ox) / sx.val < 2 ^ 32 - 1)
    (fy : ∀ p ∈ ps, (p.y.val - oy) / sy.val < 2 ^ 32 - 1) :
    ∃ numbers, Tile.getTileIndexes ps (Extent.ofPoints ps) sx sy = .ok numbers ∧ numbers.length = ps.length
      ∧ ∀ (i j : Nat) (p q : PointRecord) (m n : UInt64), ps[i]? = some p → ps[j]? = some q → numbers[i]? = some m → numbers[j]? = some n →
          (m = n ↔ ⌊(p.x.val - ox) / sx.val⌋ = ⌊(q.x.val - ox) / sx.val⌋ ∧ ⌊(p.y.val - oy) / sy.val⌋ = ⌊(q.y.val - oy) / sy.val⌋) := by
  have hne : ps ≠ [] := by obtain ⟨⟨p, hp, _⟩, _⟩ := hox; exact List.ne_nil_of_mem hp
  obtain ⟨⟨g1, g2, _⟩, g3, g4⟩ := hps.extent hne
  obtain ⟨hin, _, ⟨p2, m2, e2⟩, _, ⟨p4, m4, e4⟩, _⟩ := c15_extent_tight_partial ps hne hps.fin
  have ex := least_x (α := PointRecord) hps.fin hox
  have ey := least_y (α := PointRecord) hps.fin hoy
  have wx := few_of_grid hk0 hk hx g1 g3 px (F64.val_le_iff.mpr (by rw [← e2]; exact (hin p2 m2).1)) (by rw [ex, ← e2]; exact fx p2 m2)
  have wy := few_of_grid hk0 hk hy g2 g4 py (F64.val_le_iff.mpr (by rw [← e4]; exact (hin p4 m4).2.2.1)) (by rw [ey, ← e4]; exact fy p4 m4)
  obtain ⟨numbers, h1, h2, h3⟩ := c44_same_tile ps hne hps.fin sx sy hx.1 hy.1 wx wy
  refine ⟨numbers, h1, h2, fun i j p q m n hp hq hm hn => (h3 i j p q m n hp hq hm hn).trans ?_⟩
  have cx : ∀ p ∈ ps, gridCell sx (Extent.ofPoints ps).minp.x p.x = ⌊(p.x.val - ox) / sx.val⌋ := by
    intro p hp
    exact (c137_column_partial hk0 hk hx g1 (hps p hp).1 px (F64.val_le_iff.mpr (hin p hp).1)).trans (by rw [ex]; rfl)
  have cy : ∀ p ∈ ps, gridCell sy (Extent.ofPoints ps).minp.y p.y = ⌊(p.y.val - oy) / sy.val⌋ := by
    intro p hp
    exact (c137_column_partial hk0 hk hy g2 (hps p hp).2.1 py (F64.val_le_iff.mpr (hin p hp).2.2.1)).trans (by rw [ey]; rfl)
  rw [cx p (List.mem_of_getElem? hp), cx q (List.mem_of_getElem? hq), cy p (List.mem_of_getElem? hp), cy q (List.mem_of_getElem? hq)]

/-- Two numbers with the same number of sizes below them are less than one size apart. -/
theorem apart_of_floor {a b o s : ℝ} (hs : 0 < s) (h : ⌊(a - o) / s⌋ = ⌊(b - o) / s⌋) : |a - b| < s := by
  have h1 := Int.abs_sub_lt_one_of_floor_eq_floor h
  rw [← sub_div, abs_div, abs_of_pos hs, div_lt_one hs] at h1
  rwa [show a - o - (b - o) = a - b by ring] at h1

theorem mem_pointsNumbered {ps : List PointRecord} {numbers : List UInt64} {m : UInt64} {p : PointRecord} (h : p ∈ pointsNumbered ps numbers m) :
    ∃ i : Nat, ps[i]? = some p ∧ numbers[i]? = some m := by
  unfold pointsNumbered at h
  obtain ⟨⟨q, n⟩, hq, rfl⟩ := List.mem_map.mp h
  obtain ⟨h1, h2⟩ := List.mem_filter.mp hq
  obtain ⟨i, hi⟩ := List.mem_iff_getElem?.mp h1
  rw [List.getElem?_zip_eq_some] at hi
  simp only [decide_eq_true_eq] at h2
  subst h2
  exact ⟨i, hi⟩

/-- **C137**: the points of a tile are less than a tile size apart, in x and in y. -/
theorem c137_narrow_partial {k : ℤ} (hk0 : -1074 ≤ k) (hk : k ≤ 970) (ps : List PointRecord) (hps : CloudOnGrid k ps) (sx sy : F64) (hx : OnGrid k 53 sx)
    (hy : OnGrid k 53 sy) (px : 0 < sx.val) (py : 0 < sy.val) {ox oy : ℝ} (hox : IsLeast {x | ∃ p ∈ ps, x = p.x.val} ox)
    (hoy : IsLeast {y | ∃ p ∈ ps, y = p.y.val} oy) (fx : ∀ p ∈ ps, (p.x.val - ox) / sx.val < 2 ^ 32 - 1)
    (fy : ∀ p ∈ ps, (p.y.val - oy) / sy.val < 2 ^ 32 - 1) {numbers : List UInt64}
    (hn : Tile.getTileIndexes ps (Extent.ofPoints ps) sx sy = .ok numbers) (m : UInt64) :
    ∀ p ∈ pointsNumbered ps numbers m, ∀ q ∈ pointsNumbered ps numbers m, |p.x.val - q.x.val| < sx.val ∧ |p.y.val - q.y.val| < sy.val := by
  intro p hp q hq
  obtain ⟨numbers', h1, _, h3⟩ := c137_tiles_partial hk0 hk ps hps sx sy hx hy px py hox hoy fx fy
  obtain rfl := Res.ok.inj (hn.symm.trans h1)
  obtain ⟨i, hi, hi'⟩ := mem_pointsNumbered hp
  obtain ⟨j, hj, hj'⟩ := mem_pointsNumbered hq
  obtain ⟨e1, e2⟩ := (h3 i j p q m m hi hj hi' hj').mp rfl
  exact ⟨apart_of_floor px e1, apart_of_floor py e2⟩

theorem mapM_all_zero {t : List PointRecord} {g : PointRecord → Res UInt64} (h : ∀ p ∈ t, g p = .ok 0) : t.mapM g = .ok (t.map (fun _ => 0)) := by
  induction t with
  | nil => rfl
  | cons p t ih =>
    rw [List.mapM_cons, h p (List.mem_cons_self ..), Res.ok_bind, ih (fun q hq => h q (List.mem_cons_of_mem _ hq))]
    rfl

/-- One tile: if the points are less than a tile size apart, all of them get the number 0. -/
theorem one_tile {k : ℤ} (hk0 : -1074 ≤ k) (hk : k ≤ 970) (t : List PointRecord) (hne : t ≠ []) (ht : CloudOnGrid k t) (sx sy : F64) (hx : OnGrid k 53 sx)
    (hy : OnGrid k 53 sy) (px : 0 < sx.val) (py : 0 < sy.val)
    (h : ∀ p ∈ t, ∀ q ∈ t, |p.x.val - q.x.val| < sx.val ∧ |p.y.val - q.y.val| < sy.val) :
    Tile.getTileIndexes t (Extent.ofPoints t) sx sy = .ok (t.map (fun _ => 0)) := by
  obtain ⟨⟨g1, g2, _⟩, g3, g4⟩ := ht.extent hne
  obtain ⟨hin, ⟨p1, m1, e1⟩, ⟨p2, m2, e2⟩, ⟨p3, m3, e3⟩, ⟨p4, m4, e4⟩, _⟩ := c15_extent_tight_partial t hne ht.fin
  have zero : ∀ {a b s : ℝ}, 0 < s → a ≤ b → |b - a| < s → ⌊(b - a) / s⌋ = 0 := by
    intro a b s hs hab hlt
    rw [abs_of_nonneg (by linarith)] at hlt
    exact Int.floor_eq_zero_iff.mpr ⟨div_nonneg (by linarith) hs.le, (div_lt_one hs).mpr hlt⟩
  have cx : ∀ p ∈ t, gridCell sx (Extent.ofPoints t).minp.x p.x = 0 := by
    intro p hp
    have hle := F64.val_le_iff.mpr (hin p hp).1
    refine (c137_column_partial hk0 hk hx g1 (ht p hp).1 px hle).trans (zero px hle ?_)
    rw [← e1]; exact (h p hp p1 m1).1
  have cy : ∀ p ∈ t, gridCell sy (Extent.ofPoints t).minp.y p.y = 0 := by
    intro p hp
    have hle := F64.val_le_iff.mpr (hin p hp).2.2.1
    refine (c137_column_partial hk0 hk hy g2 (ht p hp).2.1 py hle).trans (zero py hle ?_)
    rw [← e3]; exact (h p hp p3 m3).2
  have lx := F64.val_le_iff.mpr (show (Extent.ofPoints t).minp.x.fv ≤ (Extent.ofPoints t).maxp.x.fv by rw [← e2]; exact (hin p2 m2).1)
  have ly := F64.val_le_iff.mpr (show (Extent.ofPoints t).minp.y.fv ≤ (Extent.ofPoints t).maxp.y.fv by rw [← e4]; exact (hin p4 m4).2.2.1)
  have small : ∀ {a b s : ℝ}, 0 < s → a ≤ b → |b - a| < s → (b - a) / s < 2 ^ 32 - 1 := by
    intro a b s hs hab hlt
    rw [abs_of_nonneg (by linarith)] at hlt
    exact lt_trans ((div_lt_one hs).mpr hlt) (by norm_num)
  have wx := few_of_grid hk0 hk hx g1 g3 px lx (small px lx (by rw [← e1, ← e2]; exact (h p2 m2 p1 m1).1))
  have wy := few_of_grid hk0 hk hy g2 g4 py ly (small py ly (by rw [← e3, ← e4]; exact (h p4 m4 p3 m3).2))
  obtain ⟨st, hst, _⟩ := Tile.stride_spec hx.1 g1.1 g3.1 (F64.val_le_iff.mp lx) wx
  unfold Tile.getTileIndexes
  rw [hst, Res.ok_bind]
  refine mapM_all_zero (fun p hp => ?_)
  obtain ⟨i1, i2, i3, i4, _, _⟩ := hin p hp
  obtain ⟨u, hu, eu, -⟩ := Tile.index1_cell hx.1 g1.1 (ht p hp).1.1 g3.1 i1 i2 wx
  obtain ⟨v, hv, ev, -⟩ := Tile.index1_cell hy.1 g2.1 (ht p hp).2.1.1 g4.1 i3 i4 wy
  have hu0 : u = 0 := UInt64.toNat_inj.mp (by have := eu.trans (cx p hp); simpa using this)
  have hv0 : v = 0 := UInt64.toNat_inj.mp (by have := ev.trans (cy p hp); simpa using this)
  subst hu0 hv0
  have hu' : Tile.index1 sx (Extent.ofPoints t).minp.x p.x = .ok 0 := hu
  have hv' : Tile.index1 sy (Extent.ofPoints t).minp.y p.y = .ok 0 := hv
  rw [hu', Res.ok_bind, hv', Res.ok_bind]
  simp

/-- **C137**: a tile is not cut again. -/
theorem c137_again_partial {k : ℤ} (hk0 : -1074 ≤ k) (hk : k ≤ 970) (ps : List PointRecord) (hps : CloudOnGrid k ps) (sx sy : F64) (hx : OnGrid k 53 sx)
    (hy : OnGrid k 53 sy) (px : 0 < sx.val) (py : 0 < sy.val) {ox oy : ℝ} (hox : IsLeast {x | ∃ p ∈ ps, x = p.x.val} ox)
    (hoy : IsLeast {y | ∃ p ∈ ps, y = p.y.val} oy) (fx : ∀ p ∈ ps, (p.x.val - ox) / sx.val < 2 ^ 32 - 1)
    (fy : ∀ p ∈ ps, (p.y.val - oy) / sy.val < 2 ^ 32 - 1) {numbers : List UInt64}
    (hn : Tile.getTileIndexes ps (Extent.ofPoints ps) sx sy = .ok numbers) (m : UInt64) (hm : m ∈ numbers) :
    let t := pointsNumbered ps numbers m
    Tile.getTileIndexes t (Extent.ofPoints t) sx sy = .ok (t.map (fun _ => 0)) := by
  intro t
  have hlen : numbers.length = ps.length := by
    obtain ⟨n', h1, h2, _⟩ := c137_tiles_partial hk0 hk ps hps sx sy hx hy px py hox hoy fx fy
    rw [Res.ok.inj (hn.symm.trans h1)]; exact h2
  have hsub : t.Sublist ps := Tile.pointsNumbered_sublist ps numbers m
  refine one_tile hk0 hk t ?_ (fun p hp => hps p (hsub.subset hp)) sx sy hx hy px py
    (c137_narrow_partial hk0 hk ps hps sx sy hx hy px py hox hoy fx fy hn m)
  have h1 := c43_partition ps numbers hlen
  dsimp only at h1
  exact (h1.2.2.2 m ((h1.2.1 m).mpr hm)).1

theorem pointsNumbered_zero (t : List PointRecord) : pointsNumbered t (t.map (fun _ => 0)) 0 = t := by
  unfold pointsNumbered
  induction t with
  | nil => rfl
  | cons p t ih => simpa using ih

/-- **C137**, the application: tiling the file of a tile with the same sizes writes one file, and it holds the same bytes. -/
theorem c137_app_partial {k : ℤ} (hk0 : -1074 ≤ k) (hk : k ≤ 970) (b : Build) (zl : Zlib) (hz : zl.Correct) (f : SpocFile) (hf : Survives zl f)
    (hc : f.compressed = false) (hps : CloudOnGrid k f.prs) (sx sy : F64) (hx : OnGrid k 53 sx)
    (hy : OnGrid k 53 sy) (px : 0 < sx.val) (py : 0 < sy.val) {ox oy : ℝ} (hox : IsLeast {x | ∃ p ∈ f.prs, x = p.x.val} ox)
    (hoy : IsLeast {y | ∃ p ∈ f.prs, y = p.y.val} oy) (fx : ∀ p ∈ f.prs, (p.x.val - ox) / sx.val < 2 ^ 32 - 1)
    (fy : ∀ p ∈ f.prs, (p.y.val - oy) / sy.val < 2 ^ 32 - 1) {numbers : List UInt64}
    (hn : Tile.getTileIndexes f.prs (Extent.ofPoints f.prs) sx sy = .ok numbers) (m : UInt64) (hm : m ∈ numbers)
    (cc : Str → Bool) (options : List (String × Str)) (fn : Str) (stdin : IStream) (fs : Tile.FS) (a : Tile.Args)
    (ha : Tile.getArgs options {} = .ok a) (hv : a.version = false) (hh : a.help = false) (hfn : fn ≠ [])
    (hin : fs fn = some { content := (Io.writeFile b zl (tileOf f numbers m)).bytes, readable := true, writable := true })
    (hs : ∀ e, Tile.tileSizes a e = .ok (sx, sy))
    (hpre : (if a.pre.isEmpty then Tile.stem fn else a.pre) ≠ [])
    (hnew : fs (tileName { a with fn := fn } f 0) = none) (hcc : cc (tileName { a with fn := fn } f 0) = true) :
    ∃ fs', Tile.main b zl cc options fn stdin fs = (fs', .ok ())
      ∧ fs' (tileName { a with fn := fn } f 0) = fs fn
      ∧ ∀ n, n ≠ tileName { a with fn := fn } f 0 → fs' n = fs n := by
  obtain ⟨w1, w2⟩ := c43_tile_read_back b zl hz f hf hc numbers m
  have hag := c137_again_partial hk0 hk f.prs hps sx sy hx hy px py hox hoy fx fy hn m hm
  dsimp only at hag
  set t := tileOf f numbers m with ht
  have hprs : t.prs = pointsNumbered f.prs numbers m := rfl
  rw [← hprs] at hag
  have hzero : ∀ j ∈ t.prs.map (fun _ => (0 : UInt64)), j = 0 := by
    intro j hj
    obtain ⟨_, _, rfl⟩ := List.mem_map.mp hj
    rfl
  have hne : t.prs ≠ [] := by
    have hlen : numbers.length = f.prs.length := by
      obtain ⟨n', h1, h2, _⟩ := c137_tiles_partial hk0 hk f.prs hps sx sy hx hy px py hox hoy fx fy
      rw [Res.ok.inj (hn.symm.trans h1)]; exact h2
    have h1 := c43_partition f.prs numbers hlen
    dsimp only at h1
    exact (h1.2.2.2 m ((h1.2.1 m).mpr hm)).1
  have hmem : (0 : UInt64) ∈ t.prs.map (fun _ => (0 : UInt64)) := by
    obtain ⟨p, hp⟩ := List.exists_mem_of_ne_nil _ hne
    exact List.mem_map.mpr ⟨p, hp, rfl⟩
  have hname : ∀ j, tileName { a with fn := fn } t j = tileName { a with fn := fn } f j := fun j => rfl
  have ht0 : tileOf t (t.prs.map (fun _ => 0)) 0 = t := by
    rw [ht]
    unfold tileOf
    dsimp only
    rw [pointsNumbered_zero]
  obtain ⟨fs', r1, r2, r3⟩ := c43_tiles_written b zl cc options fn stdin { rest := (Io.writeFile b zl t).bytes } _ fs a t ha hv hh (Or.inl hfn)
    (by unfold tileInput; simp [hfn, hin]) w2 (hs _) hag hpre
    (fun j hj => by rw [hzero j hj, hname]; exact hnew) (fun j hj => by rw [hzero j hj, hname]; exact hcc)
    (fun j hj => by rw [hzero j hj, ht0]; exact w1)
  refine ⟨fs', r1, ?_, fun n hn' => r3 n (fun j hj => by rw [hzero j hj, hname]; exact hn')⟩
  have := r2 0 hmem
  rw [hname, ht0] at this
  rw [this, hin]

/-! ## voxels -/

theorem index1_exact {k : ℤ} (hk0 : -1074 ≤ k) (hk : k ≤ 970) {s o v : F64} (hs : OnGrid k 53 s) (ho : OnGrid k 52 o) (hv : OnGrid k 52 v)
    (hpos : 0 < s.val) (hle : o.fv ≤ v.fv) : ∃ u, Voxel.index1 v o s = .ok u ∧ (u.toNat : ℤ) = ⌊(v.val - o.val) / s.val⌋ := by
  obtain ⟨h1, h2, h3, h4⟩ := F64.cell_exact hk0 hk hs ho hv (F64.val_pos.mp hpos) hle
  obtain ⟨u, hu, eu⟩ := Tile.toU64_small h1 h2 (lt_trans h4 (by norm_num))
  exact ⟨u, hu, eu.trans h3⟩

/-- **C137**, voxels: if the coordinates and the resolution are on a grid, the voxel of every point is the exact one. -/
theorem c137_voxels_partial {α : Type} [HasXYZ α] {k : ℤ} (hk0 : -1074 ≤ k) (hk : k ≤ 970) (ps : List α) (hps : CloudOnGrid k ps) (r : F64)
    (hr : OnGrid k 53 r) (hpos : 0 < r.val) {ox oy oz : ℝ} (hox : IsLeast {x | ∃ p ∈ ps, x = (pt p).x.val} ox)
    (hoy : IsLeast {y | ∃ p ∈ ps, y = (pt p).y.val} oy) (hoz : IsLeast {z | ∃ p ∈ ps, z = (pt p).z.val} oz) :
    ∃ vs, Voxel.getIndexes ps r = .ok vs ∧ vs.length = ps.length
      ∧ ∀ (i : Nat) (p : α) (v : VoxelIndex), ps[i]? = some p → vs[i]? = some v →
          (v.i.toNat : ℤ) = ⌊((pt p).x.val - ox) / r.val⌋ ∧ (v.j.toNat : ℤ) = ⌊((pt p).y.val - oy) / r.val⌋
            ∧ (v.k.toNat : ℤ) = ⌊((pt p).z.val - oz) / r.val⌋ := by
  have hne : ps ≠ [] := by obtain ⟨⟨p, hp, _⟩, _⟩ := hox; exact List.ne_nil_of_mem hp
  obtain ⟨⟨g1, g2, g3⟩, _⟩ := hps.extent hne
  have hin := (c15_extent_tight_partial ps hne hps.fin).1
  have point : ∀ p ∈ ps, ∃ v : VoxelIndex, Voxel.getIndex (pt p) (Extent.ofPoints ps).minp r = .ok v
      ∧ (v.i.toNat : ℤ) = ⌊((pt p).x.val - ox) / r.val⌋ ∧ (v.j.toNat : ℤ) = ⌊((pt p).y.val - oy) / r.val⌋
      ∧ (v.k.toNat : ℤ) = ⌊((pt p).z.val - oz) / r.val⌋ := by
    intro p hp
    obtain ⟨q1, q2, q3⟩ := hps p hp
    obtain ⟨i1, _, i2, _, i3, _⟩ := hin p hp
    obtain ⟨a, ha, ea⟩ := index1_exact hk0 hk hr g1 q1 hpos i1
    obtain ⟨b, hb, eb⟩ := index1_exact hk0 hk hr g2 q2 hpos i2
    obtain ⟨c, hc, ec⟩ := index1_exact hk0 hk hr g3 q3 hpos i3
    refine ⟨⟨a, b, c⟩, ?_, ?_, ?_, ?_⟩
    · unfold Voxel.getIndex
      rw [ha, Res.ok_bind, hb, Res.ok_bind, hc, Res.ok_bind]
    · rw [ea, least_x hps.fin hox]
    · rw [eb, least_y hps.fin hoy]
    · rw [ec, least_z hps.fin hoz]
  obtain ⟨vs, hvs⟩ := mapM_ok_of (f := fun p : α => Voxel.getIndex (pt p) (Extent.ofPoints ps).minp r) (l := ps) (fun p hp => by
    obtain ⟨v, hv, _⟩ := point p hp
    exact ⟨v, hv⟩)
  refine ⟨vs, hvs, mapM_length hvs, fun i p v hp hv => ?_⟩
  obtain ⟨v', hv', e⟩ := Spoc.mapM_get hvs hp
  rw [hv] at hv'
  obtain rfl := Option.some.inj hv'
  obtain ⟨w, hw, h⟩ := point p (List.mem_of_getElem? hp)
  obtain rfl := Res.ok.inj (e.symm.trans hw)
  exact h

/-! ## what holds for all coordinates -/

theorem quot_finite {s o v last : F64} (hs : s.isFinite = true) (ho : o.isFinite = true) (hv : v.isFinite = true) (hl : last.isFinite = true)
    (hpos : 0 < s.fv) (h1 : o.fv ≤ v.fv) (h2 : v.fv ≤ last.fv) (hfew : FewCells s o last) : (F64.div (F64.sub v o) s).isFinite = true := by
  obtain ⟨hq, _⟩ := hfew ((Tile.gt_zero hs).mpr hpos)
  obtain ⟨_, p1⟩ := Voxel.quot_spec hv ho hs hpos h1
  have hm := Voxel.quot_mono hv hl ho hs hpos h2
  exact F64.finite_of_fv_le hq (by omega)

theorem apart_of_cell {s o v w last : F64} (hs : s.isFinite = true) (ho : o.isFinite = true) (hv : v.isFinite = true) (hw : w.isFinite = true)
    (hl : last.isFinite = true) (hpos : 0 < s.val) (h1 : o.fv ≤ v.fv) (h2 : v.fv ≤ last.fv) (h3 : o.fv ≤ w.fv) (h4 : w.fv ≤ last.fv) (hfew : FewCells s o last)
    (h : gridCell s o v = gridCell s o w) : |v.val - w.val| ≤ s.val * (1 + 1 / 2 ^ 18) := by
  have hp := F64.val_pos.mp hpos
  obtain ⟨a1, a2⟩ := c44_grid_accurate hs hp ho hv h1 (quot_finite hs ho hv hl hp h1 h2 hfew)
  obtain ⟨b1, b2⟩ := c44_grid_accurate hs hp ho hw h3 (quot_finite hs ho hw hl hp h3 h4 hfew)
  obtain ⟨u, _, c1, c2, c3⟩ := Tile.index1_cell hs ho hw hl h3 h4 hfew
  rw [h] at a1 a2
  have k0 : (0 : ℝ) ≤ gridCell s o w := by
    have : (0 : ℤ) ≤ gridCell s o w := by omega
    exact_mod_cast this
  have k1 : (gridCell s o w : ℝ) ≤ 2 ^ 32 := by
    have : gridCell s o w ≤ 2 ^ 32 := by omega
    exact_mod_cast this
  generalize (gridCell s o w : ℝ) = c at *
  have e : (v.val - w.val) / s.val = (v.val - o.val) / s.val - (w.val - o.val) / s.val := by ring
  have key : |(v.val - w.val) / s.val| ≤ 1 + 1 / 2 ^ 18 := by
    rw [e]
    generalize (v.val - o.val) / s.val = x at *
    generalize (w.val - o.val) / s.val = y at *
    rw [abs_le]
    constructor <;> norm_num at * <;> linarith
  rw [abs_div, abs_of_pos hpos, div_le_iff₀ hpos] at key
  linarith

/-- **C137**, all finite coordinates: the points of a tile are at most the tile size and its 2^-18 part apart. -/
theorem c137_width (ps : List PointRecord) (hne : ps ≠ []) (hf : ∀ p ∈ ps, Spec.Fin (pt p)) (sx sy : F64) (hx : sx.isFinite = true) (hy : sy.isFinite = true)
    (px : 0 < sx.val) (py : 0 < sy.val) (fx : FewCells sx (Extent.ofPoints ps).minp.x (Extent.ofPoints ps).maxp.x)
    (fy : FewCells sy (Extent.ofPoints ps).minp.y (Extent.ofPoints ps).maxp.y) {numbers : List UInt64}
    (hn : Tile.getTileIndexes ps (Extent.ofPoints ps) sx sy = .ok numbers) (m : UInt64) :
    ∀ p ∈ pointsNumbered ps numbers m, ∀ q ∈ pointsNumbered ps numbers m,
      |p.x.val - q.x.val| ≤ sx.val * (1 + 1 / 2 ^ 18) ∧ |p.y.val - q.y.val| ≤ sy.val * (1 + 1 / 2 ^ 18) := by
  intro p hp q hq
  obtain ⟨numbers', h1, _, h3⟩ := c44_same_tile ps hne hf sx sy hx hy fx fy
  obtain rfl := Res.ok.inj (hn.symm.trans h1)
  obtain ⟨hmin, hmax⟩ := extent_finite ps hne hf
  have hin := (c15_extent_tight_partial ps hne hf).1
  obtain ⟨i, hi, hi'⟩ := mem_pointsNumbered hp
  obtain ⟨j, hj, hj'⟩ := mem_pointsNumbered hq
  obtain ⟨e1, e2⟩ := (h3 i j p q m m hi hj hi' hj').mp rfl
  have mp := List.mem_of_getElem? hi
  have mq := List.mem_of_getElem? hj
  obtain ⟨i1, i2, i3, i4, _, _⟩ := hin p mp
  obtain ⟨j1, j2, j3, j4, _, _⟩ := hin q mq
  exact ⟨apart_of_cell hx hmin.1 (hf p mp).1 (hf q mq).1 hmax.1 px i1 i2 j1 j2 fx e1,
    apart_of_cell hy hmin.2.1 (hf p mp).2.1 (hf q mq).2.1 hmax.2.1 py i3 i4 j3 j4 fy e2⟩

theorem quot_finite' {s o v o' v' : F64} (hs : s.isFinite = true) (ho : o.isFinite = true) (hv : v.isFinite = true) (ho' : o'.isFinite = true)
    (hv' : v'.isFinite = true) (hpos : 0 < s.fv) (h1 : o'.fv ≤ o.fv) (h2 : v.fv ≤ v'.fv) (h3 : o.fv ≤ v.fv)
    (hq : (F64.div (F64.sub v' o') s).isFinite = true) : (F64.div (F64.sub v o) s).isFinite = true := by
  obtain ⟨_, p1⟩ := Voxel.quot_spec hv ho hs hpos h3
  have hm : (F64.div (F64.sub v o) s).fv ≤ (F64.div (F64.sub v' o') s).fv := by
    apply F64.div_mono (F64.sub_not_nan hv ho) (F64.sub_not_nan hv' ho') hs hpos
    rw [F64.sub_fv hv ho, F64.sub_fv hv' ho']
    exact F64.rfv_mono (by norm_num) (by norm_num) (by push_cast; omega)
  exact F64.finite_of_fv_le hq (by omega)

/-- In a part of the cloud whose points are hardly more than a tile size apart there are at most two columns. -/
theorem two_cells {s o v o' v' : F64} (hs : s.isFinite = true) (ho : o.isFinite = true) (hv : v.isFinite = true) (ho' : o'.isFinite = true)
    (hv' : v'.isFinite = true) (hpos : 0 < s.val) (h1 : o'.fv ≤ o.fv) (h2 : v.fv ≤ v'.fv) (h3 : o.fv ≤ v.fv) (hfew : FewCells s o' v')
    (h : |v.val - o.val| ≤ s.val * (1 + 1 / 2 ^ 18)) : FewCells s o v ∧ gridCell s o v ≤ 1 := by
  have hp := F64.val_pos.mp hpos
  have hq := quot_finite' hs ho hv ho' hv' hp h1 h2 h3 (hfew ((Tile.gt_zero hs).mpr hp)).1
  obtain ⟨a1, _⟩ := c44_grid_accurate hs hp ho hv h3 hq
  have hle : (v.val - o.val) / s.val ≤ 1 + 1 / 2 ^ 18 := by
    rw [div_le_iff₀ hpos]
    linarith [le_abs_self (v.val - o.val)]
  have hc : gridCell s o v < 2 := by
    by_contra hcon
    have : (2 : ℝ) ≤ gridCell s o v := by exact_mod_cast (show (2 : ℤ) ≤ gridCell s o v by omega)
    norm_num at *
    linarith
  exact ⟨fun _ => ⟨hq, by omega⟩, by omega⟩

/-- **C137**, all finite coordinates: a tile that is cut again with the same sizes falls into four tiles at most. -/
theorem c137_at_most_four (ps : List PointRecord) (hne : ps ≠ []) (hf : ∀ p ∈ ps, Spec.Fin (pt p)) (sx sy : F64) (hx : sx.isFinite = true)
    (hy : sy.isFinite = true) (px : 0 < sx.val) (py : 0 < sy.val) (fx : FewCells sx (Extent.ofPoints ps).minp.x (Extent.ofPoints ps).maxp.x)
    (fy : FewCells sy (Extent.ofPoints ps).minp.y (Extent.ofPoints ps).maxp.y) {numbers : List UInt64}
    (hn : Tile.getTileIndexes ps (Extent.ofPoints ps) sx sy = .ok numbers) (m : UInt64) (hm : m ∈ numbers) :
    let t := pointsNumbered ps numbers m
    ∃ again, Tile.getTileIndexes t (Extent.ofPoints t) sx sy = .ok again ∧ again.length = t.length ∧ again.toFinset.card ≤ 4 := by
  intro t
  have hw := c137_width ps hne hf sx sy hx hy px py fx fy hn m
  have hlen : numbers.length = ps.length := by
    obtain ⟨n', h1, h2, _⟩ := c44_same_tile ps hne hf sx sy hx hy fx fy
    rw [Res.ok.inj (hn.symm.trans h1)]; exact h2
  have hsub : t.Sublist ps := Tile.pointsNumbered_sublist ps numbers m
  have tne : t ≠ [] := by
    have h1 := c43_partition ps numbers hlen
    dsimp only at h1
    exact (h1.2.2.2 m ((h1.2.1 m).mpr hm)).1
  have tf : ∀ p ∈ t, Spec.Fin (pt p) := fun p hp => hf p (hsub.subset hp)
  change ∀ p ∈ t, ∀ q ∈ t, _ at hw
  clear_value t
  obtain ⟨hmin, hmax⟩ := extent_finite ps hne hf
  have hin := (c15_extent_tight_partial ps hne hf).1
  obtain ⟨tmin, tmax⟩ := extent_finite t tne tf
  obtain ⟨tin, ⟨p1, m1, e1⟩, ⟨p2, m2, e2⟩, ⟨p3, m3, e3⟩, ⟨p4, m4, e4⟩, _⟩ := c15_extent_tight_partial t tne tf
  have cx : ∀ p ∈ t, FewCells sx (Extent.ofPoints t).minp.x p.x ∧ gridCell sx (Extent.ofPoints t).minp.x p.x ≤ 1 := by
    intro p hp
    refine two_cells hx tmin.1 (tf p hp).1 hmin.1 hmax.1 px ?_ (hin p (hsub.subset hp)).2.1 (tin p hp).1 fx ?_
    · rw [← e1]; exact (hin p1 (hsub.subset m1)).1
    · rw [← e1]; exact (hw p hp p1 m1).1
  have cy : ∀ p ∈ t, FewCells sy (Extent.ofPoints t).minp.y p.y ∧ gridCell sy (Extent.ofPoints t).minp.y p.y ≤ 1 := by
    intro p hp
    refine two_cells hy tmin.2.1 (tf p hp).2.1 hmin.2.1 hmax.2.1 py ?_ (hin p (hsub.subset hp)).2.2.2.1 (tin p hp).2.2.1 fy ?_
    · rw [← e3]; exact (hin p3 (hsub.subset m3)).2.2.1
    · rw [← e3]; exact (hw p hp p3 m3).2
  have wx : FewCells sx (Extent.ofPoints t).minp.x (Extent.ofPoints t).maxp.x := by rw [← e2]; exact (cx p2 m2).1
  have wy : FewCells sy (Extent.ofPoints t).minp.y (Extent.ofPoints t).maxp.y := by rw [← e4]; exact (cy p4 m4).1
  obtain ⟨again, g1, g2, _⟩ := c44_same_tile t tne tf sx sy hx hy wx wy
  refine ⟨again, g1, g2, ?_⟩
  have lx : (Extent.ofPoints t).minp.x.fv ≤ (Extent.ofPoints t).maxp.x.fv := by rw [← e2]; exact (tin p2 m2).1
  obtain ⟨st, hst, _⟩ := Tile.stride_spec hx tmin.1 tmax.1 lx wx
  unfold Tile.getTileIndexes at g1
  rw [hst, Res.ok_bind] at g1
  have hmem : ∀ n ∈ again, n ∈ ({0, 1, st, st + 1} : Finset UInt64) := by
    intro n hn'
    obtain ⟨j, hj⟩ := List.mem_iff_getElem?.mp hn'
    have hjl : j < t.length := by rw [← g2]; exact (List.getElem?_eq_some_iff.mp hj).1
    have hp : t[j] ∈ t := List.getElem_mem hjl
    obtain ⟨n', hn1, e⟩ := Spoc.mapM_get g1 (List.getElem?_eq_getElem hjl)
    obtain rfl := Option.some.inj (hj.symm.trans hn1)
    generalize t[j] = p at hp e
    obtain ⟨i1, i2, i3, i4, _, _⟩ := tin p hp
    obtain ⟨u, hu, eu, -⟩ := Tile.index1_cell hx tmin.1 (tf p hp).1 tmax.1 i1 i2 wx
    obtain ⟨v, hv, ev, -⟩ := Tile.index1_cell hy tmin.2.1 (tf p hp).2.1 tmax.2.1 i3 i4 wy
    have hu' : Tile.index1 sx (Extent.ofPoints t).minp.x p.x = .ok u := hu
    have hv' : Tile.index1 sy (Extent.ofPoints t).minp.y p.y = .ok v := hv
    rw [hu', Res.ok_bind, hv', Res.ok_bind] at e
    have hn0 := Res.ok.inj e
    have u1 : u.toNat ≤ 1 := by have := (cx p hp).2; have := eu; simp only [show (pt p).x = p.x from rfl] at *; omega
    have v1 : v.toNat ≤ 1 := by have := (cy p hp).2; have := ev; simp only [show (pt p).y = p.y from rfl] at *; omega
    have bit : ∀ w : UInt64, w.toNat ≤ 1 → w = 0 ∨ w = 1 := by
      intro w hw'
      rcases Nat.le_one_iff_eq_zero_or_eq_one.mp hw' with h | h
      · exact Or.inl (UInt64.toNat_inj.mp h)
      · exact Or.inr (UInt64.toNat_inj.mp h)
    rcases bit u u1 with rfl | rfl <;> rcases bit v v1 with rfl | rfl <;> subst hn0 <;> simp
  calc again.toFinset.card ≤ ({0, 1, st, st + 1} : Finset UInt64).card :=
        Finset.card_le_card (fun n hn' => hmem n (List.mem_toFinset.mp hn'))
    _ ≤ 4 := Finset.card_le_four

/-! ## the full statement is false -/

/-- x = -0.1, 1.7 (minus one unit in the last place) and 2 (minus one unit in the last place) -/
def roundedPoints : List PointRecord :=
  [{ x := ⟨0xBFB999999999999A⟩ }, { x := ⟨0x3FFB333333333332⟩ }, { x := ⟨0x3FFFFFFFFFFFFFFF⟩ }]

/-- With tiles of 0.3, the last two points are in the same tile (number 6), though they are at least 0.3 apart; the tile is cut again if it is tiled with
the same size. -/
theorem c137_cut_again :
    Tile.getTileIndexes roundedPoints (Extent.ofPoints roundedPoints) ⟨0x3FD3333333333333⟩ ⟨0x3FD3333333333333⟩ = .ok [0, 6, 6]
      ∧ Tile.getTileIndexes roundedPoints.tail (Extent.ofPoints roundedPoints.tail) ⟨0x3FD3333333333333⟩ ⟨0x3FD3333333333333⟩ = .ok [0, 1] := by
  decide +kernel

/-- The hypotheses of `c137_width` and `c137_at_most_four` hold for these points. -/
example : roundedPoints ≠ [] ∧ (∀ p ∈ roundedPoints, Spec.Fin (pt p))
    ∧ FewCells ⟨0x3FD3333333333333⟩ (Extent.ofPoints roundedPoints).minp.x (Extent.ofPoints roundedPoints).maxp.x
    ∧ FewCells ⟨0x3FD3333333333333⟩ (Extent.ofPoints roundedPoints).minp.y (Extent.ofPoints roundedPoints).maxp.y := by
  unfold Spec.Fin FewCells; decide +kernel

/-- The column that is computed is not the exact one: 6 instead of 5. -/
theorem c137_column_false : ¬ ∀ s o v : F64, s.isFinite = true → o.isFinite = true → v.isFinite = true → 0 < s.val → o.val ≤ v.val →
    gridCell s o v = ⌊(v.val - o.val) / s.val⌋ := by
  intro h
  have hs : 0 < (⟨0x3FD3333333333333⟩ : F64).val := F64.val_pos.mpr (by decide +kernel)
  have h1 := h ⟨0x3FD3333333333333⟩ ⟨0xBFB999999999999A⟩ ⟨0x3FFB333333333332⟩ (by decide) (by decide) (by decide) hs
    (F64.val_le_iff.mpr (by decide +kernel))
  rw [show gridCell ⟨0x3FD3333333333333⟩ ⟨0xBFB999999999999A⟩ ⟨0x3FFB333333333332⟩ = 6 by decide +kernel] at h1
  have h2 := Int.floor_le (((⟨0x3FFB333333333332⟩ : F64).val - (⟨0xBFB999999999999A⟩ : F64).val) / (⟨0x3FD3333333333333⟩ : F64).val)
  rw [← h1, le_div_iff₀ hs] at h2
  have h3 : (⟨0x3FFB333333333332⟩ : F64).fv - (⟨0xBFB999999999999A⟩ : F64).fv < 6 * (⟨0x3FD3333333333333⟩ : F64).fv := by decide +kernel
  unfold F64.val at h2
  have hU := F64.one1074_pos'
  rw [← sub_div, ← mul_div_assoc, div_le_div_iff_of_pos_right hU] at h2
  have h4 : 6 * (⟨0x3FD3333333333333⟩ : F64).fv ≤ (⟨0x3FFB333333333332⟩ : F64).fv - (⟨0xBFB999999999999A⟩ : F64).fv := by exact_mod_cast h2
  omega

/-! ## examples -/

theorem onGrid_num {n : ℤ} {b : Nat} (hb : b ≤ 53) (hn : |n| < 2 ^ b) : OnGrid 0 b (num n) := by
  have h1 : (2 : ℤ) ^ b ≤ 2 ^ 53 := pow_le_pow_right₀ (by norm_num) hb
  have h2 : n.natAbs < 2 ^ 53 := by
    rw [Int.abs_eq_natAbs] at hn
    omega
  exact ⟨F64.ofInt_finite h2, n, hn, by rw [show (num n).val = n from F64.ofInt_val h2, zpow_zero, mul_one]⟩

theorem onGrid_zero : OnGrid 0 52 F64.zero :=
  ⟨by decide, 0, by norm_num, by unfold F64.val; rw [F64.zero_fv, Int.cast_zero, zero_div, zero_mul]⟩

theorem val_num {n : ℤ} (h : n.natAbs < 2 ^ 53) : (num n).val = n := F64.ofInt_val h

theorem tilePoints_onGrid : CloudOnGrid 0 tilePoints := by
  have key : ∀ a b : F64, OnGrid 0 52 a → OnGrid 0 52 b → OnGrid 0 52 (pt ({ x := a, y := b } : PointRecord)).x
      ∧ OnGrid 0 52 (pt ({ x := a, y := b } : PointRecord)).y ∧ OnGrid 0 52 (pt ({ x := a, y := b } : PointRecord)).z :=
    fun a b h1 h2 => ⟨h1, h2, onGrid_zero⟩
  intro p hp
  simp only [tilePoints, List.mem_cons, List.not_mem_nil, or_false] at hp
  rcases hp with rfl | rfl | rfl
  · exact key (num 0) (num 0) (onGrid_num (by norm_num) (by norm_num)) (onGrid_num (by norm_num) (by norm_num))
  · exact key (num 15) (num 3) (onGrid_num (by norm_num) (by norm_num)) (onGrid_num (by norm_num) (by norm_num))
  · exact key (num 12) (num 17) (onGrid_num (by norm_num) (by norm_num)) (onGrid_num (by norm_num) (by norm_num))

theorem tilePoints_least : IsLeast {x | ∃ p ∈ tilePoints, x = p.x.val} 0 ∧ IsLeast {y | ∃ p ∈ tilePoints, y = p.y.val} 0
    ∧ IsLeast {z | ∃ p ∈ tilePoints, z = p.z.val} 0 := by
  have z : (F64.zero).val = 0 := by unfold F64.val; rw [F64.zero_fv, Int.cast_zero, zero_div]
  have z' : (num 0).val = 0 := by rw [val_num (by norm_num), Int.cast_zero]
  have m0 : ({ x := num 0, y := num 0 } : PointRecord) ∈ tilePoints := by simp [tilePoints]
  have kx : ∀ a : F64, a.val = 0 → (0 : ℝ) = ({ x := a, y := a } : PointRecord).x.val ∧ (0 : ℝ) = ({ x := a, y := a } : PointRecord).y.val :=
    fun a h => ⟨h.symm, h.symm⟩
  refine ⟨⟨⟨_, m0, (kx (num 0) z').1⟩, ?_⟩, ⟨⟨_, m0, (kx (num 0) z').2⟩, ?_⟩, ⟨⟨_, m0, z.symm⟩, ?_⟩⟩
  · rintro x ⟨p, hp, rfl⟩
    simp only [tilePoints, List.mem_cons, List.not_mem_nil, or_false] at hp
    rcases hp with rfl | rfl | rfl <;> (dsimp only; rw [val_num (by norm_num)]; norm_num)
  · rintro x ⟨p, hp, rfl⟩
    simp only [tilePoints, List.mem_cons, List.not_mem_nil, or_false] at hp
    rcases hp with rfl | rfl | rfl <;> (dsimp only; rw [val_num (by norm_num)]; norm_num)
  · rintro x ⟨p, hp, rfl⟩
    simp only [tilePoints, List.mem_cons, List.not_mem_nil, or_false] at hp
    rcases hp with rfl | rfl | rfl <;> exact z.symm.le

theorem tilePoints_few : (∀ p ∈ tilePoints, (p.x.val - 0) / (num 10).val < 2 ^ 32 - 1) ∧ ∀ p ∈ tilePoints, (p.y.val - 0) / (num 10).val < 2 ^ 32 - 1 := by
  constructor <;>
  · intro p hp
    simp only [tilePoints, List.mem_cons, List.not_mem_nil, or_false] at hp
    rcases hp with rfl | rfl | rfl <;> (dsimp only; rw [val_num (by norm_num), val_num (by norm_num)]; norm_num)

/-- The hypotheses hold: integer coordinates and tiles of 10 by 10. -/
example : ∃ numbers, Tile.getTileIndexes tilePoints (Extent.ofPoints tilePoints) (num 10) (num 10) = .ok numbers
    ∧ ∀ m ∈ numbers, Tile.getTileIndexes (pointsNumbered tilePoints numbers m) (Extent.ofPoints (pointsNumbered tilePoints numbers m)) (num 10) (num 10)
      = .ok ((pointsNumbered tilePoints numbers m).map (fun _ => 0)) := by
  have g : OnGrid 0 53 (num 10) := onGrid_num (by norm_num) (by norm_num)
  have h10 : 0 < (num 10).val := by rw [val_num (by norm_num)]; norm_num
  obtain ⟨l1, l2, _⟩ := tilePoints_least
  obtain ⟨f1, f2⟩ := tilePoints_few
  obtain ⟨numbers, hn, _⟩ := c137_tiles_partial (k := 0) (by norm_num) (by norm_num) tilePoints tilePoints_onGrid (num 10) (num 10) g g h10 h10 l1 l2 f1 f2
  exact ⟨numbers, hn, fun m hm => c137_again_partial (by norm_num) (by norm_num) tilePoints tilePoints_onGrid (num 10) (num 10) g g h10 h10 l1 l2 f1 f2 hn m hm⟩

/-- The voxels of the same points. -/
example : ∃ vs, Voxel.getIndexes tilePoints (num 10) = .ok vs ∧ vs.length = 3 := by
  obtain ⟨l1, l2, l3⟩ := tilePoints_least
  obtain ⟨vs, h1, h2, _⟩ := c137_voxels_partial (k := 0) (by norm_num) (by norm_num) tilePoints tilePoints_onGrid (num 10)
    (onGrid_num (by norm_num) (by norm_num)) (by rw [val_num (by norm_num)]; norm_num) l1 l2 l3
  exact ⟨vs, h1, h2⟩

/-- The application: the file `a` is the second tile (number 1) of a cloud of these points; tiling it again writes `b000.spoc`, with the same bytes. -/
example (fs : Tile.FS) (h1 : fs "a.spoc".toList = some { content := (Io.writeFile .release toyZlib (tileOf cloudA [0, 1, 3] 1)).bytes, readable := true, writable := true })
    (h2 : fs "b000.spoc".toList = none) :
    ∃ fs', Tile.main .release toyZlib (fun _ => true) [("tile-size", "10".toList), ("prefix", "b".toList)] "a.spoc".toList { rest := [] } fs = (fs', .ok ())
      ∧ fs' "b000.spoc".toList = fs "a.spoc".toList := by
  have g : OnGrid 0 53 (num 10) := onGrid_num (by norm_num) (by norm_num)
  have h10 : 0 < (num 10).val := by rw [val_num (by norm_num)]; norm_num
  obtain ⟨l1, l2, _⟩ := tilePoints_least
  obtain ⟨f1, f2⟩ := tilePoints_few
  have hn : Tile.getTileIndexes tilePoints (Extent.ofPoints tilePoints) (num 10) (num 10) = .ok [0, 1, 3] := by decide +kernel
  obtain ⟨A, hA⟩ : ∃ A : Tile.Args, A = { tileSize := atof "10".toList, pre := "b".toList } := ⟨_, rfl⟩
  have hs : ∀ e, Tile.tileSizes A e = .ok (num 10, num 10) := by
    intro e
    rw [hA]
    have e10 : atof "10".toList = num 10 := by decide +kernel
    have g1 : F64.gt (num 10) F64.zero = true := by decide +kernel
    have g2 : F64.gt F64.negOne F64.zero = false := by decide +kernel
    unfold Tile.tileSizes
    simp only [e10, g1, g2, Bool.and_false, Bool.false_eq_true, if_false, if_true]
  have hname : tileName { A with fn := "a.spoc".toList } cloudA 0 = "b000.spoc".toList := by rw [hA]; decide +kernel
  obtain ⟨fs', r1, r2, _⟩ := c137_app_partial (k := 0) (by norm_num) (by norm_num) .release toyZlib toyZlib_correct cloudA cloudA_survives rfl tilePoints_onGrid
    (num 10) (num 10) g g h10 h10 l1 l2 f1 f2 hn 1 (by decide) (fun _ => true) [("tile-size", "10".toList), ("prefix", "b".toList)] "a.spoc".toList { rest := [] } fs
    A (by rw [hA]; simp [Tile.getArgs]) (by rw [hA]) (by rw [hA]) (by decide) h1 hs (by rw [hA]; simp) (by rw [hname]; exact h2) rfl
  rw [hname] at r2
  exact ⟨fs', r1, r2⟩

end Spoc.Props
