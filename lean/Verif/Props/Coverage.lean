import Verif.Props.EndToEnd
import Verif.Proofs.Accept

/-!
# C98: a subsampled cloud covers the original one, and is no larger than the space it fills
-/

namespace Spoc.Spec

/-- `q` is within one voxel of `p` along the axis `f`: at most the side `r` apart, but for the rounding of the coordinates, which is
relative to the distance `D`. -/
def WithinVoxel (r D a b : ℝ) : Prop := |a - b| ≤ r * (1 + 1 / 2 ^ 51) + D / 2 ^ 50

/-- `D` bounds the length of the cloud along an axis. -/
def SpanAtMost (ps : List (Pt F64)) (axis : Pt F64 → F64) (D : ℝ) : Prop := ∀ p ∈ ps, ∀ q ∈ ps, (axis p).val - (axis q).val ≤ D

end Spoc.Spec

namespace Spoc.Props

open Spec Subsampling

/-- Two quotients that are rounded down to the same number belong to coordinates that are at most one voxel apart. -/
theorem same_cell_close {r o a b : F64} (hr : r.isFinite = true) (hpos : 0 < r.fv) (ho : o.isFinite = true) (ha : a.isFinite = true)
    (hb : b.isFinite = true) (h1 : o.fv ≤ a.fv) (h2 : o.fv ≤ b.fv) (q1 : (F64.div (F64.sub a o) r).isFinite = true)
    (q2 : (F64.div (F64.sub b o) r).isFinite = true) (he : gridCell r o a = gridCell r o b) {D : ℝ} (hD : b.val - o.val ≤ D) :
    a.val - b.val ≤ r.val * (1 + 1 / 2 ^ 51) + D / 2 ^ 50 := by
  obtain ⟨-, a2⟩ := c44_grid_accurate hr hpos ho ha h1 q1
  obtain ⟨b1, -⟩ := c44_grid_accurate hr hpos ho hb h2 q2
  rw [he] at a2
  have rp : 0 < r.val := F64.val_pos.mpr hpos
  rw [div_le_iff₀ rp] at a2
  rw [le_div_iff₀ rp] at b1
  have b0 : 0 ≤ b.val - o.val := by have := F64.val_le_iff.mpr h2; linarith only [this]
  generalize (gridCell r o b : ℝ) = k at a2 b1
  generalize r.val = R at *
  have hk : k * R ≤ (b.val - o.val) * (1 + 1 / 2 ^ 51) := by
    have e : k * (1 - 3 / 2 ^ 53) * R = k * R * (1 - 3 / 2 ^ 53) := by ring
    rw [e] at b1
    nlinarith only [b1, b0]
  nlinarith only [a2, b1, hk, hD, b0, rp]

/-- What is known of one index of a voxel. -/
theorem index1_cell {r o a : F64} (hr : r.isFinite = true) (hpos : 0 < r.fv) {u : UInt64} (h : Voxel.index1 a o r = .ok u) :
    (F64.div (F64.sub a o) r).isFinite = true ∧ (u.toNat : Int) = gridCell r o a := by
  rw [Tile.gridCell_pos hr hpos]
  refine ⟨?_, F64.toU64_toNat h⟩
  unfold Voxel.index1 F64.toU64 at h
  by_contra hc
  rw [if_neg hc] at h
  simp at h

theorem index1_bound {r o a : F64} (hr : r.isFinite = true) (hpos : 0 < r.fv) (ho : o.isFinite = true) (ha : a.isFinite = true)
    (hle : o.fv ≤ a.fv) {u : UInt64} (h : Voxel.index1 a o r = .ok u) {D : ℝ} (hD : a.val - o.val ≤ D) :
    u.toNat ≤ ⌊D / r.val * (1 + 1 / 2 ^ 51)⌋₊ := by
  obtain ⟨q, e⟩ := index1_cell hr hpos h
  obtain ⟨b1, -⟩ := c44_grid_accurate hr hpos ho ha hle q
  rw [← e] at b1
  have rp : 0 < r.val := F64.val_pos.mpr hpos
  have b0 : 0 ≤ a.val - o.val := by have := F64.val_le_iff.mpr hle; linarith only [this]
  have h2 : (a.val - o.val) / r.val ≤ D / r.val := div_le_div_of_nonneg_right hD rp.le
  have h0 : 0 ≤ (a.val - o.val) / r.val := div_nonneg b0 rp.le
  apply Nat.le_floor
  rw [Int.cast_natCast] at b1
  generalize (a.val - o.val) / r.val = X at *
  generalize D / r.val = Y at *
  nlinarith only [b1, h2, h0]

section
variable {α : Type} [HasXYZ α]

theorem voxel_of {ps : List α} {r : F64} {vs : List VoxelIndex} (h : Voxel.getIndexes ps r = .ok vs) {k : Nat} {p : α}
    (hp : ps[k]? = some p) : ∃ v, vs[k]? = some v ∧ Voxel.index1 (pt p).x (Extent.ofPoints ps).minp.x r = .ok v.i
      ∧ Voxel.index1 (pt p).y (Extent.ofPoints ps).minp.y r = .ok v.j ∧ Voxel.index1 (pt p).z (Extent.ofPoints ps).minp.z r = .ok v.k := by
  obtain ⟨hl, hk⟩ := Io.mapM_getElem h
  obtain ⟨h1, rfl⟩ := List.getElem?_eq_some_iff.mp hp
  have h2 : k < vs.length := by omega
  refine ⟨vs[k], List.getElem?_eq_getElem h2, ?_⟩
  have := hk k h1 h2
  unfold Voxel.getIndex at this
  simp only [Res.bind_eq_ok, Res.ok.injEq] at this
  obtain ⟨i, hi, j, hj, l, hl, e⟩ := this
  rw [← e]
  exact ⟨hi, hj, hl⟩

/-- **C98**: whenever subsampling a finite cloud succeeds, every point of the cloud has a kept point within one voxel along each axis,
so the shape of the cloud is preserved up to the resolution; and not more points are kept than there are voxels in the box. -/
theorem c98_subsample (b : Build) (sh : Shuffle) (hsh : sh.Lawful) (ps : List α) (r : F64) (seed : Nat) (hf : ∀ p ∈ ps, Spec.Fin (pt p))
    (hr : r.isFinite = true) (hpos : 0 < r.val) {qs : List α} (h : subsamplePoints b sh ps r seed = .ok qs) {dx dy dz : ℝ}
    (hx : SpanAtMost (ps.map pt) (·.x) dx) (hy : SpanAtMost (ps.map pt) (·.y) dy) (hz : SpanAtMost (ps.map pt) (·.z) dz) :
    (∀ p ∈ ps, ∃ q ∈ qs, WithinVoxel r.val dx (pt p).x.val (pt q).x.val ∧ WithinVoxel r.val dy (pt p).y.val (pt q).y.val
      ∧ WithinVoxel r.val dz (pt p).z.val (pt q).z.val)
    ∧ qs.length ≤ (⌊dx / r.val * (1 + 1 / 2 ^ 51)⌋₊ + 1) * ((⌊dy / r.val * (1 + 1 / 2 ^ 51)⌋₊ + 1) * (⌊dz / r.val * (1 + 1 / 2 ^ 51)⌋₊ + 1)) := by
  have hpos' := F64.val_pos.mp hpos
  by_cases hne : ps = []
  · subst hne
    obtain ⟨ks, qs', h1, h2, h3, -, h4, -⟩ := c23_one_per_voxel b sh hsh ([] : List α) r seed [] rfl
    obtain rfl := Res.ok.inj (h.symm.trans h2)
    have : ks = [] := List.eq_nil_iff_forall_not_mem.mpr (fun k hk => absurd (h4 k hk) (by simp))
    subst this
    cases h3
    exact ⟨by simp, by simp⟩
  obtain ⟨vs, hv⟩ : ∃ vs, Voxel.getIndexes ps r = .ok vs := by
    unfold subsamplePoints subsampleIndexes at h
    cases hv : Voxel.getIndexes ps r with
    | ok vs => exact ⟨vs, rfl⟩
    | throw e => rw [hv] at h; simp at h
    | ub e => rw [hv] at h; simp at h
    | abort => rw [hv] at h; simp at h
    | hang => rw [hv] at h; simp at h
  obtain ⟨ks, qs', h1, h2, h3, h4, h5, h6, h7⟩ := c23_one_per_voxel b sh hsh ps r seed vs hv
  obtain rfl := Res.ok.inj (h.symm.trans h2)
  obtain ⟨⟨m1, m2, m3⟩, -⟩ := extent_finite ps hne hf
  obtain ⟨hin, ⟨p1, n1, e1⟩, -, ⟨p2, n2, e2⟩, -, ⟨p3, n3, e3⟩, -⟩ := c15_extent_tight_partial ps hne hf
  have sx : ∀ p ∈ ps, (pt p).x.val - (Extent.ofPoints ps).minp.x.val ≤ dx := fun p hp => by
    rw [← e1]; exact hx _ (List.mem_map_of_mem hp) _ (List.mem_map_of_mem n1)
  have sy : ∀ p ∈ ps, (pt p).y.val - (Extent.ofPoints ps).minp.y.val ≤ dy := fun p hp => by
    rw [← e2]; exact hy _ (List.mem_map_of_mem hp) _ (List.mem_map_of_mem n2)
  have sz : ∀ p ∈ ps, (pt p).z.val - (Extent.ofPoints ps).minp.z.val ≤ dz := fun p hp => by
    rw [← e3]; exact hz _ (List.mem_map_of_mem hp) _ (List.mem_map_of_mem n3)
  generalize hE : Extent.ofPoints ps = E at *
  constructor
  · intro p hp
    obtain ⟨i, hi, rfl⟩ := List.getElem_of_mem hp
    obtain ⟨k, hk, hkv⟩ := h7 i hi
    obtain ⟨q, hq, hqk⟩ : ∃ q ∈ qs, ps[k]? = some q := by
      have := List.forall₂_iff_get.mp h3
      obtain ⟨n, hn, rfl⟩ := List.getElem_of_mem hk
      exact ⟨qs[n]'(by omega), List.getElem_mem _, this.2 n hn (by omega)⟩
    have hqp : q ∈ ps := List.mem_of_getElem? hqk
    refine ⟨q, hq, ?_⟩
    obtain ⟨v, a1, a2, a3, a4⟩ := voxel_of hv (List.getElem?_eq_getElem hi)
    obtain ⟨w, b1, b2, b3, b4⟩ := voxel_of hv hqk
    rw [hE] at a2 a3 a4 b2 b3 b4
    obtain rfl : w = v := by rw [a1, b1] at hkv; exact Option.some.inj hkv
    obtain ⟨f1, f2, f3⟩ := hf _ hp
    obtain ⟨g1, g2, g3⟩ := hf _ hqp
    obtain ⟨i1, -, i2, -, i3, -⟩ := hin _ hp
    obtain ⟨j1, -, j2, -, j3, -⟩ := hin _ hqp
    have key : ∀ {o a c : F64} {u : UInt64} {D : ℝ}, o.isFinite = true → a.isFinite = true → c.isFinite = true → o.fv ≤ a.fv → o.fv ≤ c.fv →
        Voxel.index1 a o r = .ok u → Voxel.index1 c o r = .ok u → a.val - o.val ≤ D → c.val - o.val ≤ D → WithinVoxel r.val D a.val c.val := by
      intro o a c u D ho ha hc l1 l2 x1 x2 d1 d2
      obtain ⟨y1, y2⟩ := index1_cell hr hpos' x1
      obtain ⟨z1, z2⟩ := index1_cell hr hpos' x2
      refine abs_le.mpr ⟨?_, same_cell_close hr hpos' ho ha hc l1 l2 y1 z1 (by omega) d2⟩
      have := same_cell_close hr hpos' ho hc ha l2 l1 z1 y1 (by omega) d1
      linarith only [this]
    exact ⟨key m1 f1 g1 i1 j1 a2 b2 (sx _ hp) (sx _ hqp), key m2 f2 g2 i2 j2 a3 b3 (sy _ hp) (sy _ hqp),
      key m3 f3 g3 i3 j3 a4 b4 (sz _ hp) (sz _ hqp)⟩
  · rw [← h3.length_eq]
    generalize hA : ⌊dx / r.val * (1 + 1 / 2 ^ 51)⌋₊ = A
    generalize hB : ⌊dy / r.val * (1 + 1 / 2 ^ 51)⌋₊ = B
    generalize hC : ⌊dz / r.val * (1 + 1 / 2 ^ 51)⌋₊ = C
    have hsub : (ks.map (fun k => (vs[k]?).map (fun v => (v.i.toNat, v.j.toNat, v.k.toNat))))
        ⊆ ((List.range (A + 1) ×ˢ (List.range (B + 1) ×ˢ List.range (C + 1))).map some) := by
      intro t ht
      obtain ⟨k, hk, rfl⟩ := List.mem_map.mp ht
      have hk' := h5 k hk
      have hp : ps[k] ∈ ps := List.getElem_mem hk'
      obtain ⟨v, a1, a2, a3, a4⟩ := voxel_of hv (List.getElem?_eq_getElem hk')
      rw [hE] at a2 a3 a4
      obtain ⟨f1, f2, f3⟩ := hf _ hp
      obtain ⟨i1, -, i2, -, i3, -⟩ := hin _ hp
      have c1 := index1_bound hr hpos' m1 f1 i1 a2 (sx _ hp)
      have c2 := index1_bound hr hpos' m2 f2 i2 a3 (sy _ hp)
      have c3 := index1_bound hr hpos' m3 f3 i3 a4 (sz _ hp)
      rw [hA] at c1
      rw [hB] at c2
      rw [hC] at c3
      rw [a1]
      refine List.mem_map.mpr ⟨_, ?_, rfl⟩
      exact List.mem_product.mpr ⟨List.mem_range.mpr (by omega), List.mem_product.mpr ⟨List.mem_range.mpr (by omega), List.mem_range.mpr (by omega)⟩⟩
    have hnd : (ks.map (fun k => (vs[k]?).map (fun v => (v.i.toNat, v.j.toNat, v.k.toNat)))).Nodup := by
      refine List.Nodup.map_on (fun k hk l hl e => h6 k hk l hl ?_) h4
      have l1 : vs.length = ps.length := (Io.mapM_getElem hv).1
      obtain ⟨v, hv'⟩ : ∃ v, vs[k]? = some v := ⟨_, List.getElem?_eq_getElem (by have := h5 k hk; omega)⟩
      obtain ⟨w, hw'⟩ : ∃ v, vs[l]? = some v := ⟨_, List.getElem?_eq_getElem (by have := h5 l hl; omega)⟩
      rw [hv', hw'] at e ⊢
      simp only [Option.map_some, Option.some.injEq, Prod.mk.injEq, UInt64.toNat_inj] at e
      cases v; cases w
      simp only at e
      rw [e.1, e.2.1, e.2.2]
    have := (hnd.subperm hsub).length_le
    simpa [List.length_product] using this

end

open Getopt Cmd Main Spec.Cmd Text

/-- **C98**, the filter application: for every finite cloud whose voxels can be numbered, `filter --subsample` writes a cloud that covers
the original one, for every seed. -/
theorem c98_filter (p : Params) (hz : p.zlib.Correct) (hsh : p.shuffle.Lawful) (w : World) (argv : List Str) (i o : Str) (r : F64) (seed : Nat)
    (hopt : Asks (Cmd.filter.options argv) { resolution := some r, seed := seed }) (hops : Cmd.filter.operands argv = [i, o]) (hi : i ≠ [])
    (ho : o ≠ []) (hc : CanReplace w o) (f : SpocFile) (hcloud : HasCloud p w.fs i f) (hu : f.compressed = false)
    (he : ∀ q ∈ f.prs, q.extra.length ≤ 123) (hf : ∀ q ∈ f.prs, Spec.Fin (pt q)) (hr : r.isFinite = true) (hpos : 0 < r.val)
    (hfit : GridFits (Extent.ofPoints f.prs) r) {dx dy dz : ℝ} (hx : SpanAtMost (f.prs.map pt) (·.x) dx)
    (hy : SpanAtMost (f.prs.map pt) (·.y) dy) (hz' : SpanAtMost (f.prs.map pt) (·.z) dz) :
    ∃ qs, Makes .filter p w argv o { f with prs := qs } ∧ List.Subperm qs f.prs
      ∧ (∀ q ∈ f.prs, ∃ q' ∈ qs, WithinVoxel r.val dx q.x.val q'.x.val ∧ WithinVoxel r.val dy q.y.val q'.y.val ∧ WithinVoxel r.val dz q.z.val q'.z.val)
      ∧ qs.length ≤ (⌊dx / r.val * (1 + 1 / 2 ^ 51)⌋₊ + 1) * ((⌊dy / r.val * (1 + 1 / 2 ^ 51)⌋₊ + 1) * (⌊dz / r.val * (1 + 1 / 2 ^ 51)⌋₊ + 1)) := by
  obtain ⟨x, s', h1, h2, h3⟩ := id hcloud
  have hw := readable_writable h3
  obtain ⟨vs, hv, -⟩ := c22_voxel_indexes f.prs r hf hr (F64.val_pos.mp hpos) hfit
  obtain ⟨ks, qs, k1, k2, k3, k4, k5, -⟩ := c23_one_per_voxel p.build p.shuffle hsh f.prs r seed vs hv
  obtain ⟨qs', l1, l2, -⟩ := pick_only f hw.uniform ks k4 k5
  obtain rfl : qs' = qs := by rw [forall₂_filterMap l1, forall₂_filterMap k3]
  obtain ⟨c1, c2⟩ := c98_subsample p.build p.shuffle hsh f.prs r seed hf hr hpos k2 hx hy hz'
  refine ⟨qs', ?_, l2, c1, c2⟩
  refine c76_filter_partial p hz hsh w argv i o _ hopt hops hi ho hc f hcloud qs' ⟨f.prs, f.prs, f.prs, qs', rfl, ?_, rfl, k2, rfl⟩ ?_
  · simp
  · exact ⟨⟨hw.major, hw.minor, hw.wkt, uniform_subperm hw.uniform l2, fun q hq => hw.extra q (l2.subset hq),
      lt_of_le_of_lt l2.length_le hw.count⟩, fun _ q hq => he q (l2.subset hq), fun e => by rw [hu] at e; simp at e⟩

theorem span_of {ps : List (Pt F64)} {axis : Pt F64 → F64} {n : Int} (hn : n.natAbs < 2 ^ 53)
    (h : ∀ p ∈ ps, (num 0).fv ≤ (axis p).fv ∧ (axis p).fv ≤ (num n).fv) : SpanAtMost ps axis n := by
  intro p hp q hq
  have h1 := F64.val_le_iff.mpr (h p hp).2
  have h2 := F64.val_le_iff.mpr (h q hq).1
  rw [num_val hn] at h1
  have h3 : (num 0).val = 0 := by exact_mod_cast num_val (n := 0) (by decide)
  rw [h3] at h2
  linarith only [h1, h2]

/-- The three points of the examples, 15 by 17 by 0 large, with voxels of side 10: at most 2 · 2 · 1 points are kept. -/
example : ∃ qs, Makes .filter exampleParams exampleDisk ["--subsample=10".toList, ['a'], ['o']] ['o'] { cloudA with prs := qs } ∧ qs.length ≤ 4 := by
  have e : Cmd.filter.options ["--subsample=10".toList, ['a'], ['o']] = [("subsample", ['1', '0'])] := by decide +kernel
  have h10 : (num 10).val = 10 := by exact_mod_cast num_val (n := 10) (by decide)
  obtain ⟨qs, h1, -, -, h2⟩ := c98_filter exampleParams toyZlib_correct (fun _ l => List.Perm.refl l) exampleDisk
    ["--subsample=10".toList, ['a'], ['o']] ['a'] ['o'] (num 10) 0 (by
      rw [e]
      exact ⟨by decide, by decide, by decide, by decide, by decide, by simp,
        by show some (num 10) = if F64.gt (atof ['1', '0']) F64.zero then some (atof ['1', '0']) else none; decide +kernel,
        .inr ⟨rfl, rfl⟩, by decide, .inl rfl⟩) (by decide +kernel)
    (by decide) (by decide) rfl cloudA cloudA_on_disk.1 rfl (by decide) (by unfold Spec.Fin; decide +kernel) (by decide +kernel)
    (by rw [h10]; norm_num) (by decide +kernel) (span_of (n := 15) (by decide) (by decide +kernel)) (span_of (n := 17) (by decide) (by decide +kernel))
    (span_of (n := 0) (by decide) (by decide +kernel))
  refine ⟨qs, h1, le_trans h2 ?_⟩
  rw [h10]
  have f1 : ⌊((15 : Int) : ℝ) / 10 * (1 + 1 / 2 ^ 51)⌋₊ = 1 := by
    rw [Nat.floor_eq_iff (by norm_num)]; norm_num
  have f2 : ⌊((17 : Int) : ℝ) / 10 * (1 + 1 / 2 ^ 51)⌋₊ = 1 := by
    rw [Nat.floor_eq_iff (by norm_num)]; norm_num
  have f3 : ⌊((0 : Int) : ℝ) / 10 * (1 + 1 / 2 ^ 51)⌋₊ = 0 := by simp
  rw [f1, f2, f3]

end Spoc.Props
