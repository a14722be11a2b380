import Verif.Proofs.Tile
import Verif.Props.Merge
import Verif.Props.Voxel

/-!
# C43, C44, C45, C46: the tile application
-/

namespace Spoc.Props

open Spec Text

/-! ## C43 -/

/-- **C43**, the lists: when every point has a number, the tiles that are written have different numbers in ascending order, these are
the numbers of the points, and the points of all tiles together are the points of the file; no tile is empty, and each tile keeps
the order of the file. -/
theorem c43_partition (ps : List PointRecord) (numbers : List UInt64) (hl : numbers.length = ps.length) :
    let ks := Tile.sortedKeys (Tile.getTileMap numbers)
    ks.Pairwise (· < ·) ∧ (∀ k, k ∈ ks ↔ k ∈ numbers) ∧ (ks.flatMap (pointsNumbered ps numbers)).Perm ps
      ∧ ∀ k ∈ ks, pointsNumbered ps numbers k ≠ [] ∧ (pointsNumbered ps numbers k).Sublist ps := by
  intro ks
  obtain ⟨h1, h2⟩ := Tile.sortedKeys_spec numbers
  have hn : ks.Nodup := h1.imp (fun h => UInt64.ne_of_lt h)
  refine ⟨h1, h2, Tile.tiles_perm ps numbers hl ks hn h2, fun k hk => ⟨?_, Tile.pointsNumbered_sublist ps numbers k⟩⟩
  obtain ⟨i, hi, e⟩ := List.getElem_of_mem ((h2 k).mp hk)
  have hi2 : i < ps.length := hl ▸ hi
  intro he
  unfold pointsNumbered at he
  rw [List.map_eq_nil_iff, List.filter_eq_nil_iff] at he
  have hi3 : i < (ps.zip numbers).length := by simp [hi, hi2]
  have hm := List.getElem_mem hi3
  rw [List.getElem_zip] at hm
  exact he _ hm (by simpa using e)

/-- Every point is in the tile of its number, and in no other one. -/
theorem c43_one_tile (ps : List PointRecord) (numbers : List UInt64) (i : Nat) (p : PointRecord) (k k' : UInt64)
    (hp : ps[i]? = some p) (hk : numbers[i]? = some k) :
    (p, i) ∈ (((ps.zipIdx).zip numbers).filter (fun e => decide (e.2 = k'))).map (fun e => e.1) ↔ k' = k := by
  obtain ⟨h1, e1⟩ := List.getElem?_eq_some_iff.mp hp
  obtain ⟨h2, e2⟩ := List.getElem?_eq_some_iff.mp hk
  simp only [List.mem_map, List.mem_filter, decide_eq_true_eq, Prod.exists, exists_and_right, exists_eq_right]
  constructor
  · intro hm
    obtain ⟨j, hj, e⟩ := List.getElem_of_mem hm
    rw [List.getElem_zip, List.getElem_zipIdx] at e
    simp only [Prod.mk.injEq, Nat.zero_add] at e
    obtain ⟨⟨_, rfl⟩, e3⟩ := e
    rw [← e3, ← e2]
  · rintro rfl
    have h3 : i < (ps.zipIdx.zip numbers).length := by simp [h1, h2]
    have := List.getElem_mem h3
    rw [List.getElem_zip, List.getElem_zipIdx, e1, e2, Nat.zero_add] at this
    exact this

/-- The names of the tiles. -/
def tileName (a : Tile.Args) (f : SpocFile) (k : UInt64) : Str :=
  Tile.outputName a.fn (if a.pre.isEmpty then Tile.stem a.fn else a.pre) f.compressed (Tile.width a) k

theorem tileAll_eq (b : Build) (zl : Zlib) (cc : Str → Bool) (a : Tile.Args) (f : SpocFile) (fs : Tile.FS) {sx sy : F64}
    {numbers : List UInt64} (hs : Tile.tileSizes a (Extent.ofPoints f.prs) = .ok (sx, sy))
    (hi : Tile.getTileIndexes f.prs (Extent.ofPoints f.prs) sx sy = .ok numbers)
    (hp : (if a.pre.isEmpty then Tile.stem a.fn else a.pre) ≠ []) :
    Tile.tileAll b zl cc a f fs = Tile.writeTiles b zl cc a.force (tileName a f) f (Tile.getTileMap numbers)
      (Tile.sortedKeys (Tile.getTileMap numbers)) fs := by
  unfold Tile.tileAll
  simp only [hs, hi, Res.ok_bind]
  have : cassert b (!(if a.pre.isEmpty = true then Tile.stem a.fn else a.pre).isEmpty) = .ok () := by
    generalize (if a.pre.isEmpty = true then Tile.stem a.fn else a.pre) = pre at hp ⊢
    cases pre with
    | nil => exact absurd rfl hp
    | cons c s => cases b <;> rfl
  rw [this]
  rfl

/-- The stream the application reads. -/
def tileInput (fn : Str) (stdin : IStream) (fs : Tile.FS) : Option IStream :=
  if fn.isEmpty then some stdin
  else match fs fn with
    | some f => if f.readable then some { rest := f.content } else none
    | none => none

theorem tileMain_eq (b : Build) (zl : Zlib) (cc : Str → Bool) (options : List (String × Str)) (fn : Str) (stdin s s' : IStream)
    (fs : Tile.FS) (a : Tile.Args) (f : SpocFile) (ha : Tile.getArgs options {} = .ok a) (hv : a.version = false)
    (hh : a.help = false) (hp : fn ≠ [] ∨ a.pre ≠ []) (hin : tileInput fn stdin fs = some s)
    (hr : Io.readFile b zl s = .ok (f, s')) :
    Tile.main b zl cc options fn stdin fs = Tile.tileAll b zl cc { a with fn := fn } f fs := by
  unfold Tile.main
  rw [ha]
  simp only [hv, hh, Bool.or_self, Bool.false_eq_true, if_false]
  have h1 : ¬ (fn.isEmpty && a.pre.isEmpty) = true := by
    simp only [Bool.and_eq_true, List.isEmpty_iff]
    tauto
  rw [if_neg h1]
  unfold tileInput at hin
  by_cases hf : fn.isEmpty = true
  · rw [if_pos hf] at hin ⊢
    have := Option.some.inj hin
    subst this
    simp only [Res.ok_bind, hr, Apps.fileOf]
  · rw [if_neg hf] at hin ⊢
    cases he : fs fn with
    | none => rw [he] at hin; simp at hin
    | some g =>
      rw [he] at hin
      simp only at hin ⊢
      split at hin
      · next hg =>
        have := Option.some.inj hin
        subst this
        rw [if_pos hg]
        simp only [Res.ok_bind, hr, Apps.fileOf]
      · simp at hin

/-- **C43**: if all points have a tile number, and the names of the tiles are new and can be created, the application writes one file
for each number, that holds the points of this number in the order of the input, with spatial reference and compression flag of the
input; nothing else is changed.  (`hw`: writing a tile succeeds, see C01, C02.) -/
theorem c43_tiles_written (b : Build) (zl : Zlib) (cc : Str → Bool) (options : List (String × Str)) (fn : Str) (stdin s s' : IStream)
    (fs : Tile.FS) (a : Tile.Args) (f : SpocFile) (ha : Tile.getArgs options {} = .ok a) (hv : a.version = false)
    (hh : a.help = false) (hp : fn ≠ [] ∨ a.pre ≠ []) (hin : tileInput fn stdin fs = some s)
    (hr : Io.readFile b zl s = .ok (f, s')) {sx sy : F64} {numbers : List UInt64}
    (hs : Tile.tileSizes a (Extent.ofPoints f.prs) = .ok (sx, sy))
    (hi : Tile.getTileIndexes f.prs (Extent.ofPoints f.prs) sx sy = .ok numbers)
    (hpre : (if a.pre.isEmpty then Tile.stem fn else a.pre) ≠ [])
    (hnew : ∀ k ∈ numbers, fs (tileName { a with fn := fn } f k) = none)
    (hcc : ∀ k ∈ numbers, cc (tileName { a with fn := fn } f k) = true)
    (hw : ∀ k ∈ numbers, (Io.writeFile b zl (tileOf f numbers k)).res = .ok ()) :
    ∃ fs', Tile.main b zl cc options fn stdin fs = (fs', .ok ())
      ∧ (∀ k ∈ numbers, fs' (tileName { a with fn := fn } f k)
          = some { content := (Io.writeFile b zl (tileOf f numbers k)).bytes, readable := true, writable := true })
      ∧ ∀ n, (∀ k ∈ numbers, n ≠ tileName { a with fn := fn } f k) → fs' n = fs n := by
  rw [tileMain_eq b zl cc options fn stdin s s' fs a f ha hv hh hp hin hr]
  rw [tileAll_eq b zl cc { a with fn := fn } f fs hs hi hpre]
  obtain ⟨h1, h2⟩ := Tile.sortedKeys_spec numbers
  have hl : numbers.length = f.prs.length := by
    unfold Tile.getTileIndexes at hi
    rw [Res.bind_eq_ok] at hi
    obtain ⟨st, _, hm⟩ := hi
    exact mapM_length hm
  have hu := (readable_writable hr).uniform
  obtain ⟨e1, e2⟩ := Tile.writeTiles_new b zl cc a.force (tileName { a with fn := fn } f) f (Tile.getTileMap numbers)
    (tileOf f numbers) (Tile.sortedKeys (Tile.getTileMap numbers)) fs (fun k k' h => Tile.outputName_inj _ _ _ _ h)
    (h1.imp (fun h => UInt64.ne_of_lt h))
    (fun k hk => (Tile.tileFile_eq b f hu numbers hl k ((h2 k).mp hk)).1)
    (fun k hk => hnew k ((h2 k).mp hk)) (fun k hk => hcc k ((h2 k).mp hk)) (fun k hk => hw k ((h2 k).mp hk))
  refine ⟨_, Prod.ext rfl e1, fun k hk => e2 k ((h2 k).mpr hk), fun n hn => ?_⟩
  exact Tile.writeTiles_others _ _ _ _ _ _ _ _ _ (fun k hk => hn k ((h2 k).mp hk))

/-- Reading a tile gives back the tile. -/
theorem c43_tile_read_back (b : Build) (zl : Zlib) (hz : zl.Correct) (f : SpocFile) (hf : Survives zl f) (hc : f.compressed = false)
    (numbers : List UInt64) (k : UInt64) :
    (Io.writeFile b zl (tileOf f numbers k)).res = .ok ()
      ∧ Io.readFile b zl { rest := (Io.writeFile b zl (tileOf f numbers k)).bytes } = .ok (tileOf f numbers k, { rest := [] }) := by
  have h1 := survives_sublist hf hc (Tile.pointsNumbered_sublist f.prs numbers k)
  have e : tileOf f numbers k = { f with prs := pointsNumbered f.prs numbers k } := by
    unfold tileOf
    have h1 := hf.1.major
    have h2 := hf.1.minor
    cases f
    simp only at h1 h2 ⊢
    rw [h1, h2]; rfl
  rw [e]
  have := survives_roundtrip b zl hz _ h1
  exact ⟨this.1, by have := this.2 []; rwa [List.append_nil] at this⟩

/-- For a file without points the tile numbers need not be defined: with a positive tile size the conversion of minus infinity to an
integer is undefined. -/
theorem c43_empty_undefined :
    Tile.getTileIndexes [] (Extent.ofPoints ([] : List PointRecord)) (num 10) (num 10) = .ub "double out of range of uint64_t" := by
  decide +kernel

/-! ## C44 -/

/-- **C44**: for a cloud with finite coordinates, and fewer than 2^32 columns and rows, all tile numbers are defined, and two points
have the same number exactly if they are in the same column and the same row. -/
theorem c44_same_tile (ps : List PointRecord) (hne : ps ≠ []) (hf : ∀ p ∈ ps, Spec.Fin (pt p)) (sx sy : F64)
    (hx : sx.isFinite = true) (hy : sy.isFinite = true)
    (fx : FewCells sx (Extent.ofPoints ps).minp.x (Extent.ofPoints ps).maxp.x)
    (fy : FewCells sy (Extent.ofPoints ps).minp.y (Extent.ofPoints ps).maxp.y) :
    ∃ numbers, Tile.getTileIndexes ps (Extent.ofPoints ps) sx sy = .ok numbers ∧ numbers.length = ps.length
      ∧ ∀ (i j : Nat) (p q : PointRecord) (k l : UInt64), ps[i]? = some p → ps[j]? = some q → numbers[i]? = some k →
          numbers[j]? = some l →
          (k = l ↔ gridCell sx (Extent.ofPoints ps).minp.x p.x = gridCell sx (Extent.ofPoints ps).minp.x q.x
            ∧ gridCell sy (Extent.ofPoints ps).minp.y p.y = gridCell sy (Extent.ofPoints ps).minp.y q.y) := by
  obtain ⟨hmin, hmax⟩ := extent_finite ps hne hf
  have hin : ∀ p ∈ ps, Inside (Extent.ofPoints ps) (pt p) := (c15_extent_tight_partial ps hne hf).1
  set e := Extent.ofPoints ps with he
  obtain ⟨p0, hp0⟩ := List.exists_mem_of_ne_nil ps hne
  have hxe : e.minp.x.fv ≤ e.maxp.x.fv := le_trans (hin p0 hp0).1 (hin p0 hp0).2.1
  obtain ⟨st, hst, s1, s2⟩ := Tile.stride_spec hx hmin.1 hmax.1 hxe fx
  have point : ∀ p ∈ ps, ∃ u v : UInt64, Tile.index1 sx e.minp.x p.x = .ok u ∧ Tile.index1 sy e.minp.y p.y = .ok v
      ∧ (u.toNat : Int) = gridCell sx e.minp.x p.x ∧ (v.toNat : Int) = gridCell sy e.minp.y p.y ∧ u.toNat < st.toNat
      ∧ v.toNat + 1 < 2 ^ 32 := by
    intro p hp
    obtain ⟨i1, i2, i3, i4, _, _⟩ := hin p hp
    obtain ⟨f1, f2, _⟩ := hf p hp
    obtain ⟨u, hu, eu, lu, cu⟩ := Tile.index1_cell hx hmin.1 f1 hmax.1 i1 i2 fx
    obtain ⟨v, hv, ev, lv, cv⟩ := Tile.index1_cell hy hmin.2.1 f2 hmax.2.1 i3 i4 fy
    exact ⟨u, v, hu, hv, eu, ev, by have := lu; have := s1; omega, by omega⟩
  have num1 : ∀ p ∈ ps, ∀ {u v : UInt64}, Tile.index1 sx e.minp.x p.x = .ok u → Tile.index1 sy e.minp.y p.y = .ok v →
      (do
        let xi ← Tile.index1 sx e.minp.x p.x
        let yi ← Tile.index1 sy e.minp.y p.y
        Res.ok (yi * st + xi)) = .ok (v * st + u) := by
    intro p _ u v hu hv
    rw [hu, Res.ok_bind, hv, Res.ok_bind]
  obtain ⟨numbers, hn⟩ := mapM_ok_of (f := fun p : PointRecord => do
        let xi ← Tile.index1 sx e.minp.x p.x
        let yi ← Tile.index1 sy e.minp.y p.y
        Res.ok (yi * st + xi)) (l := ps) (by
    intro p hp
    obtain ⟨u, v, hu, hv, _⟩ := point p hp
    exact ⟨_, num1 p hp hu hv⟩)
  refine ⟨numbers, ?_, mapM_length hn, ?_⟩
  · unfold Tile.getTileIndexes
    rw [hst, Res.ok_bind]
    exact hn
  · intro i j p q k l hp hq hk hl
    have mp := List.mem_of_getElem? hp
    have mq := List.mem_of_getElem? hq
    obtain ⟨u, v, hu, hv, eu, ev, lu, lv⟩ := point p mp
    obtain ⟨u', v', hu', hv', eu', ev', lu', lv'⟩ := point q mq
    obtain ⟨k', hk', ek⟩ := mapM_get hn hp
    obtain ⟨l', hl', el⟩ := mapM_get hn hq
    rw [hk] at hk'
    rw [hl] at hl'
    obtain rfl := Option.some.inj hk'
    obtain rfl := Option.some.inj hl'
    rw [num1 p mp hu hv] at ek
    rw [num1 q mq hu' hv'] at el
    have ek := Res.ok.inj ek
    have el := Res.ok.inj el
    have toN : ∀ {a b : UInt64}, a.toNat < st.toNat → b.toNat + 1 < 2 ^ 32 →
        (b * st + a).toNat = b.toNat * st.toNat + a.toNat := by
      intro a b ha hb
      have hm : b.toNat * st.toNat + a.toNat < 2 ^ 64 := by
        have : b.toNat * st.toNat ≤ (2 ^ 32 - 2) * 2 ^ 32 := Nat.mul_le_mul (by omega) s2
        omega
      rw [UInt64.toNat_add, UInt64.toNat_mul, Nat.mod_eq_of_lt (a := b.toNat * st.toNat) (by omega), Nat.mod_eq_of_lt hm]
    rw [← ek, ← el, ← UInt64.toNat_inj, toN lu lv, toN lu' lv', Tile.grid_inj lu lu', ← eu, ← eu', ← ev, ← ev']
    omega

/-- The columns and rows of the grid are, up to rounding, those of the exact quotients: a coordinate in column `k` lies between `k` and
`k + 1` tile sizes from the origin, with a relative error of at most 3 · 2^-53. -/
theorem c44_grid_accurate {ts o v : F64} (hts : ts.isFinite = true) (hpos : 0 < ts.fv) (ho : o.isFinite = true)
    (hv : v.isFinite = true) (hle : o.fv ≤ v.fv) (hq : (F64.div (F64.sub v o) ts).isFinite = true) :
    (gridCell ts o v : ℝ) * (1 - 3 / 2 ^ 53) ≤ (v.val - o.val) / ts.val
      ∧ (v.val - o.val) / ts.val ≤ (gridCell ts o v + 1) * (1 + 3 / 2 ^ 53) := by
  rw [Tile.gridCell_pos hts hpos]
  obtain ⟨_, q0⟩ := Voxel.quot_spec hv ho hts hpos hle
  have sf : (F64.sub v o).isFinite = true := by
    by_contra hc
    have e := F64.eq_inf_of_not_finite (F64.sub_not_nan hv ho) (by simpa using hc)
    rw [e, F64.div_inf _ hts hpos, F64.inf_not_finite] at hq
    simp at hq
  have hs := F64.sub_val hv ho sf
  have hd := F64.div_val sf hts hpos hq
  have ⟨t1, t2⟩ := F64.trunc_val_nonneg q0
  have t0 : (0 : ℝ) ≤ (F64.div (F64.sub v o) ts).trunc := by exact_mod_cast F64.trunc_nonneg q0
  have tp : 0 < ts.val := F64.val_pos.mpr hpos
  have x0 : 0 ≤ v.val - o.val := by have := F64.val_le_iff.mpr hle; linarith
  have hκ : (2 : ℝ) ^ 52 / F64.one1074 ≤ 1 / 2 ^ 100 := by
    rw [div_le_div_iff₀ F64.one1074_pos' (by positivity)]
    have h : 2 ^ 152 ≤ F64.one1074 := F64.le_one1074 152 (by norm_num)
    have h2 : ((2 ^ 152 : Nat) : ℝ) ≤ (F64.one1074 : ℝ) := Nat.cast_le.mpr h
    rw [one_mul]
    refine le_trans (le_of_eq ?_) h2
    rw [Nat.cast_pow, ← pow_add]; norm_num
  generalize (2 : ℝ) ^ 52 / F64.one1074 = κ at hd hκ
  have sv0 : 0 ≤ (F64.sub v o).val := F64.val_nonneg.mpr (by rw [F64.sub_fv hv ho]; exact F64.rfv_nonneg (by omega))
  generalize hk : ((F64.div (F64.sub v o) ts).trunc : ℝ) = k at t0 t1 t2 ⊢
  generalize (F64.div (F64.sub v o) ts).val = q at hd t1 t2
  generalize (F64.sub v o).val = s at hs hd sv0
  have hsx : |s / ts.val - (v.val - o.val) / ts.val| ≤ (v.val - o.val) / ts.val / 2 ^ 53 := by
    rw [← sub_div, abs_div, abs_of_pos tp, div_right_comm]
    refine div_le_div_of_nonneg_right ?_ tp.le
    rw [abs_of_nonneg x0] at hs
    rw [le_div_iff₀ (by norm_num)]
    linarith
  have y0 : 0 ≤ s / ts.val := div_nonneg sv0 tp.le
  have z0 : 0 ≤ (v.val - o.val) / ts.val := div_nonneg x0 tp.le
  rw [abs_of_nonneg y0] at hd
  have hd' : |q - s / ts.val| ≤ (s / ts.val + κ) / 2 ^ 53 := by
    rw [le_div_iff₀ (by norm_num)]; linarith
  generalize s / ts.val = y at *
  generalize (v.val - o.val) / ts.val = x at *
  have ⟨a1, a2⟩ := abs_le.mp hsx
  have ⟨b1, b2⟩ := abs_le.mp hd'
  constructor
  · rcases le_or_gt k 0 with h | h
    · have : k = 0 := le_antisymm h t0
      rw [this]; linarith
    · have k1 : 1 ≤ k := by
        rw [← hk] at h ⊢
        exact_mod_cast (by exact_mod_cast h : (0 : Int) < _)
      linarith
  · linarith

/-- Three points, in columns 0, 1, 1 and rows 0, 0, 1 of a grid with tile size 10. -/
def tilePoints : List PointRecord :=
  [{ x := num 0, y := num 0 }, { x := num 15, y := num 3 }, { x := num 12, y := num 17 }]

example : tilePoints ≠ [] ∧ (∀ p ∈ tilePoints, Spec.Fin (pt p)) ∧ (num 10).isFinite = true
    ∧ FewCells (num 10) (Extent.ofPoints tilePoints).minp.x (Extent.ofPoints tilePoints).maxp.x
    ∧ FewCells (num 10) (Extent.ofPoints tilePoints).minp.y (Extent.ofPoints tilePoints).maxp.y
    ∧ Tile.getTileIndexes tilePoints (Extent.ofPoints tilePoints) (num 10) (num 10) = .ok [0, 1, 3] := by
  unfold Spec.Fin FewCells; decide +kernel

/-! ## C45 -/

/-- **C45** (partial: the full property is false for clouds that are too large, see `c45_one_too_many`).  If a cloud with finite
coordinates measures at most 2^28 in x and in y, and `n` tiles (`1 ≤ n < 2^32`) are asked for, the tile size is positive, and every
point is in one of the columns `0 … n - 1` and one of the rows `0 … n - 1`. -/
theorem c45_at_most_n_partial (ps : List PointRecord) (hne : ps ≠ []) (hf : ∀ p ∈ ps, Spec.Fin (pt p)) (n : Nat) (hn : 1 ≤ n)
    (hn2 : n < 2 ^ 32)
    (hx : (Extent.ofPoints ps).maxp.x.val - (Extent.ofPoints ps).minp.x.val ≤ 2 ^ 28)
    (hy : (Extent.ofPoints ps).maxp.y.val - (Extent.ofPoints ps).minp.y.val ≤ 2 ^ 28) :
    let t := Tile.getTileSize (Extent.ofPoints ps) n
    t.isFinite = true ∧ 0 < t.fv
      ∧ FewCells t (Extent.ofPoints ps).minp.x (Extent.ofPoints ps).maxp.x
      ∧ FewCells t (Extent.ofPoints ps).minp.y (Extent.ofPoints ps).maxp.y
      ∧ ∀ p ∈ ps, 0 ≤ gridCell t (Extent.ofPoints ps).minp.x p.x ∧ gridCell t (Extent.ofPoints ps).minp.x p.x < n
          ∧ 0 ≤ gridCell t (Extent.ofPoints ps).minp.y p.y ∧ gridCell t (Extent.ofPoints ps).minp.y p.y < n := by
  intro t
  obtain ⟨hmin, hmax⟩ := extent_finite ps hne hf
  have hin : ∀ p ∈ ps, Inside (Extent.ofPoints ps) (pt p) := (c15_extent_tight_partial ps hne hf).1
  have ht : t = Tile.getTileSize (Extent.ofPoints ps) n := rfl
  clear_value t
  set e := Extent.ofPoints ps with he
  obtain ⟨p0, hp0⟩ := List.exists_mem_of_ne_nil ps hne
  obtain ⟨i1, i2, i3, i4, _, _⟩ := hin p0 hp0
  have hxe : e.minp.x.fv ≤ e.maxp.x.fv := le_trans i1 i2
  have hye : e.minp.y.fv ≤ e.maxp.y.fv := le_trans i3 i4
  obtain ⟨x1, x2, x3, x4, x5, x6, x7⟩ := Tile.enlarge hmin.1 hmax.1 hxe hx
  obtain ⟨y1, y2, y3, y4, y5, y6, y7⟩ := Tile.enlarge hmin.2.1 hmax.2.1 hye hy
  have key : ∃ S : F64, t = F64.div S (F64.ofNat n) ∧ S.isFinite = true ∧ S.val ≤ 2 ^ 29
      ∧ (F64.add (F64.sub e.maxp.x e.minp.x) Tile.epsilon).val ≤ S.val
      ∧ (F64.add (F64.sub e.maxp.y e.minp.y) Tile.epsilon).val ≤ S.val := by
    rw [ht]
    unfold Tile.getTileSize
    simp only
    by_cases hg : F64.gt (F64.add (F64.sub e.maxp.x e.minp.x) Tile.epsilon) (F64.add (F64.sub e.maxp.y e.minp.y) Tile.epsilon) = true
    · rw [if_pos hg]
      exact ⟨_, rfl, x4, x5, le_refl _, F64.val_le_iff.mpr (F64.gt_iff.mp hg).2.2.le⟩
    · rw [if_neg hg]
      refine ⟨_, rfl, y4, y5, ?_, le_refl _⟩
      rw [F64.val_le_iff]
      by_contra hc
      exact hg (F64.gt_iff.mpr ⟨F64.not_nan_of_finite x4, F64.not_nan_of_finite y4, not_le.mp hc⟩)
  obtain ⟨S, hS, s1, s2, s3, s4⟩ := key
  obtain ⟨a1, a2, a3, a4⟩ := Tile.column_bound hn hn2 x1 x2 s1 s2 (le_trans x6 s3) (le_trans x7 s3)
  obtain ⟨_, _, b3, b4⟩ := Tile.column_bound hn hn2 y1 y2 s1 s2 (le_trans y6 s4) (le_trans y7 s4)
  rw [← hS] at a1 a2 a3 a4 b3 b4
  have cell : ∀ {o v last : F64}, o.isFinite = true → v.isFinite = true → last.isFinite = true → o.fv ≤ v.fv → v.fv ≤ last.fv →
      (F64.div (F64.sub last o) t).val < n → 0 ≤ gridCell t o v ∧ gridCell t o v < n := by
    intro o v last ho hv hl h1 h2 h3
    rw [Tile.gridCell_pos a1 a2]
    obtain ⟨_, q0⟩ := Voxel.quot_spec hv ho a1 a2 h1
    have hm := F64.val_le_iff.mpr (Voxel.quot_mono hv hl ho a1 a2 h2)
    refine ⟨F64.trunc_nonneg q0, ?_⟩
    have := (F64.trunc_val_nonneg q0).1
    have : ((F64.div (F64.sub v o) t).trunc : ℝ) < ((n : Int) : ℝ) := by
      rw [Int.cast_natCast]; linarith
    exact_mod_cast this
  refine ⟨a1, a2, fun _ => ⟨a3, ?_⟩, fun _ => ⟨b3, ?_⟩, fun p hp => ?_⟩
  · have := (cell hmin.1 hmax.1 hmax.1 hxe (le_refl _) a4).2; omega
  · have := (cell hmin.2.1 hmax.2.1 hmax.2.1 hye (le_refl _) b4).2; omega
  · obtain ⟨i1, i2, i3, i4, _, _⟩ := hin p hp
    obtain ⟨f1, f2, _⟩ := hf p hp
    have c1 := cell hmin.1 f1 hmax.1 i1 i2 a4
    have c2 := cell hmin.2.1 f2 hmax.2.1 i3 i4 b4
    exact ⟨c1.1, c1.2, c2.1, c2.2⟩

example : let e := Extent.ofPoints tilePoints
    e.maxp.x.fv - e.minp.x.fv ≤ 2 ^ 28 * F64.one1074 ∧ e.maxp.y.fv - e.minp.y.fv ≤ 2 ^ 28 * F64.one1074
      ∧ Tile.getTileIndexes tilePoints e (Tile.getTileSize e 2) (Tile.getTileSize e 2) = .ok [0, 1, 3] := by decide +kernel

/-- This tile size is used when the number of tiles is given on the command line, and no tile size. -/
theorem c45_app (n : Nat) (hn : n < 2 ^ 31) (e : Extent) :
    ∃ a, Tile.getArgs [("tiles", Nat.toDigits 10 n)] {} = .ok a
      ∧ Tile.tileSizes a e = .ok (Tile.getTileSize e n, Tile.getTileSize e n) := by
  have h1 : atoi (Nat.toDigits 10 n) = n := by
    have := Filter.atoi_showNat (n := n) (by omega)
    rw [show Nat.toDigits 10 n = showNat n from rfl, this]
    exact Int.bmod_eq_of_le (by omega) (by omega)
  refine ⟨{ tiles := UInt32.ofInt (atoi (Nat.toDigits 10 n)) }, rfl, ?_⟩
  have h2 : (UInt32.ofInt (atoi (Nat.toDigits 10 n))).toNat = n := by
    rw [h1]
    have : UInt32.ofInt (n : Int) = UInt32.ofNat n := by unfold UInt32.ofInt; congr 1; omega
    rw [this, UInt32.toNat_ofNat', Nat.mod_eq_of_lt (by omega)]
  have h3 : F64.gt F64.negOne F64.zero = false := by decide +kernel
  unfold Tile.tileSizes
  simp only [h3, h2, Bool.false_and, Bool.or_self, Bool.false_eq_true, if_false]

/-- C45 is false for large clouds: of a cloud that measures 2^40, with two tiles asked for, the last point is in column 2, the third
one. -/
theorem c45_one_too_many :
    let ps : List PointRecord := [{ x := num 0, y := num 0 }, { x := num (2 ^ 40), y := num 0 }]
    gridCell (Tile.getTileSize (Extent.ofPoints ps) 2) (Extent.ofPoints ps).minp.x (num (2 ^ 40)) = 2 := by decide +kernel

/-! ## C46 -/

/-- **C46**, the names: different tiles have different names. -/
theorem c46_names (a : Tile.Args) (f : SpocFile) (k k' : UInt64) : tileName a f k = tileName a f k' ↔ k = k' :=
  ⟨fun h => Tile.outputName_inj _ _ _ _ h, fun h => h ▸ rfl⟩

theorem getArgs_no_force (options : List (String × Str)) (hno : ∀ o ∈ options, o.1 ≠ "force") (a0 a : Tile.Args)
    (h0 : a0.force = false) (h : Tile.getArgs options a0 = .ok a) : a.force = false := by
  induction options generalizing a0 with
  | nil => rw [Tile.getArgs] at h; rw [← Res.ok.inj h]; exact h0
  | cons o os ih =>
    obtain ⟨name, arg⟩ := o
    have h1 : name ≠ "force" := hno (name, arg) (by simp)
    have ih := fun a0 h0 h => ih (fun o ho => hno o (by simp [ho])) a0 h0 h
    unfold Tile.getArgs at h
    by_cases c1 : name = "help"
    · rw [if_pos c1] at h; rw [← Res.ok.inj h]; exact h0
    rw [if_neg c1] at h
    by_cases c2 : name = "verbose"
    · rw [if_pos c2] at h; exact ih _ (by exact h0) h
    rw [if_neg c2] at h
    by_cases c3 : name = "version"
    · rw [if_pos c3] at h; exact ih _ (by exact h0) h
    rw [if_neg c3, if_neg h1] at h
    by_cases c4 : name = "tiles"
    · rw [if_pos c4] at h; exact ih _ (by exact h0) h
    rw [if_neg c4] at h
    by_cases c5 : name = "digits"
    · rw [if_pos c5] at h; exact ih _ (by exact h0) h
    rw [if_neg c5] at h
    by_cases c6 : name = "tile-size"
    · rw [if_pos c6] at h; exact ih _ (by exact h0) h
    rw [if_neg c6] at h
    by_cases c7 : name = "tile-size-x"
    · rw [if_pos c7] at h; exact ih _ (by exact h0) h
    rw [if_neg c7] at h
    by_cases c8 : name = "tile-size-y"
    · rw [if_pos c8] at h; exact ih _ (by exact h0) h
    rw [if_neg c8] at h
    by_cases c9 : name = "prefix"
    · rw [if_pos c9] at h; exact ih _ (by exact h0) h
    rw [if_neg c9] at h
    simp at h

theorem tileAll_keeps (b : Build) (zl : Zlib) (cc : Str → Bool) (a : Tile.Args) (ha : a.force = false) (f : SpocFile) (fs : Tile.FS)
    {n : Str} {g : Tile.File} (hg : fs n = some g) (hr : g.readable = true) : (Tile.tileAll b zl cc a f fs).1 n = some g := by
  unfold Tile.tileAll
  simp only
  split
  · split
    · rw [ha]; exact Tile.writeTiles_keeps b zl cc _ _ _ _ _ hg hr
    · exact hg
  · exact hg

/-- **C46** (partial: it is about files that can be read; see `c46_unreadable_overwritten`).  Without the force option no file that
existed before is modified, whatever the outcome. -/
theorem c46_untouched_partial (b : Build) (zl : Zlib) (cc : Str → Bool) (options : List (String × Str))
    (hno : ∀ o ∈ options, o.1 ≠ "force") (fn : Str) (stdin : IStream) (fs : Tile.FS) {n : Str} {g : Tile.File} (hg : fs n = some g)
    (hr : g.readable = true) : (Tile.main b zl cc options fn stdin fs).1 n = some g := by
  unfold Tile.main
  cases ha : Tile.getArgs options {} with
  | ok a =>
    have hf := getArgs_no_force options hno {} a rfl ha
    simp only
    split
    · exact hg
    · split
      · exact hg
      · split
        · exact tileAll_keeps b zl cc _ (by exact hf) _ fs hg hr
        · exact hg
  | throw e => exact hg
  | ub w => exact hg
  | abort => exact hg
  | hang => exact hg

/-- A file system that holds the input and two other files. -/
def tileFS : Tile.FS := fun n =>
  if n = "in.spoc".toList then
    some { content := (Io.writeFile .release toyZlib { SpocFile.empty with prs := tilePoints }).bytes, readable := true, writable := true }
  else if n = "in001.spoc".toList then some { content := [1], readable := true, writable := true }
  else if n = "out000.spoc".toList then some { content := [2], readable := false, writable := true }
  else none

/-- The input is split into four (with three that are not empty); the second of them exists already: the application stops, after it
has written the first one. -/
example : (Tile.main .release toyZlib (fun _ => true) [("tile-size", "10".toList)] "in.spoc".toList { rest := [] } tileFS).2
      = .throw "File already exists. Use the force option to overwrite. Aborting."
    ∧ tileFS "in000.spoc".toList = none
    ∧ ((Tile.main .release toyZlib (fun _ => true) [("tile-size", "10".toList)] "in.spoc".toList { rest := [] } tileFS).1
        "in000.spoc".toList).isSome = true := by decide +kernel

/-- C46 is false for a file that can be written but not read: the application does not notice it and overwrites it. -/
theorem c46_unreadable_overwritten :
    tileFS "out000.spoc".toList = some { content := [2], readable := false, writable := true }
    ∧ (Tile.main .release toyZlib (fun _ => true) [("tile-size", "10".toList), ("prefix", "out".toList)] "in.spoc".toList { rest := [] }
        tileFS).2 = .ok ()
    ∧ (Tile.main .release toyZlib (fun _ => true) [("tile-size", "10".toList), ("prefix", "out".toList)] "in.spoc".toList { rest := [] }
        tileFS).1 "out000.spoc".toList ≠ tileFS "out000.spoc".toList := by decide +kernel

/-- The hypotheses of `c43_tiles_written` hold for the prefix `x`. -/
example : ∃ a f s', Tile.getArgs [("tile-size", "10".toList), ("prefix", "x".toList)] {} = .ok a ∧ a.version = false ∧ a.help = false
    ∧ a.pre ≠ [] ∧ tileInput "in.spoc".toList { rest := [] } tileFS
        = some { rest := (Io.writeFile .release toyZlib { SpocFile.empty with prs := tilePoints }).bytes }
    ∧ Io.readFile .release toyZlib { rest := (Io.writeFile .release toyZlib { SpocFile.empty with prs := tilePoints }).bytes } = .ok (f, s')
    ∧ Tile.tileSizes a (Extent.ofPoints f.prs) = .ok (num 10, num 10)
    ∧ Tile.getTileIndexes f.prs (Extent.ofPoints f.prs) (num 10) (num 10) = .ok [0, 1, 3]
    ∧ (∀ k ∈ [0, 1, 3], tileFS (tileName { a with fn := "in.spoc".toList } f k) = none)
    ∧ ∀ k ∈ [0, 1, 3], (Io.writeFile .release toyZlib (tileOf f [0, 1, 3] k)).res = .ok () := by
  refine ⟨{ tileSize := num 10, pre := "x".toList }, { SpocFile.empty with prs := tilePoints }, { rest := [] }, ?_⟩
  decide +kernel

end Spoc.Props
