import Verif.Props.UpsampleLaws
import Verif.Props.Coverage
import Verif.Props.Cells

/-!
# C140: classes are carried over short distances only
-/

namespace Spoc.Props

open Spec Text AppUtils Tool Main

/-! ## where a class comes from -/

theorem mem_of_lastOf {ms : List (VoxelIndex × UInt32)} {v : VoxelIndex} {c : UInt32} (h : lastOf ms v = some c) : (v, c) ∈ ms := by
  induction ms with
  | nil => simp [lastOf] at h
  | cons m ms ih =>
    obtain ⟨w, d⟩ := m
    rw [lastOf] at h
    cases h1 : lastOf ms v with
    | some e =>
      rw [h1] at h
      obtain rfl := Option.some.inj h
      exact List.mem_cons_of_mem _ (ih h1)
    | none =>
      rw [h1] at h
      simp only [Option.none_or] at h
      split at h
      · next e =>
        obtain rfl := Option.some.inj h
        subst e
        exact List.mem_cons_self ..
      · simp at h

/-- A point keeps its class, or takes that of a low-resolution point with the same indexes. -/
theorem carried_from {b : Build} {l f : SpocFile} {r : F64} {g : SpocFile} {n : Nat} (hu : upsample b l f r = .ok (g, n)) {j : Nat} {p q : PointRecord}
    (hp : f.prs[j]? = some p) (hq : g.prs[j]? = some q) :
    q = { p with c := q.c } ∧ (q.c = p.c ∨ ∃ lp ∈ l.prs, q.c = lp.c ∧ ∃ v : VoxelIndex,
        (Voxel.index1 p.x (Extent.ofPoints f.prs).minp.x r = .ok v.i ∧ Voxel.index1 p.y (Extent.ofPoints f.prs).minp.y r = .ok v.j
          ∧ Voxel.index1 p.z (Extent.ofPoints f.prs).minp.z r = .ok v.k)
        ∧ (Voxel.index1 lp.x (Extent.ofPoints f.prs).minp.x r = .ok v.i ∧ Voxel.index1 lp.y (Extent.ofPoints f.prs).minp.y r = .ok v.j
          ∧ Voxel.index1 lp.z (Extent.ofPoints f.prs).minp.z r = .ok v.k)) := by
  obtain ⟨-, -, -, vh, vl, hvh, hvl, rfl, -⟩ := (upsample_iff b l f r g n).mp hu
  have split3 : ∀ {p minp : Pt F64} {v : VoxelIndex}, Voxel.getIndex p minp r = .ok v →
      Voxel.index1 p.x minp.x r = .ok v.i ∧ Voxel.index1 p.y minp.y r = .ok v.j ∧ Voxel.index1 p.z minp.z r = .ok v.k := by
    intro p minp v h
    unfold Voxel.getIndex at h
    obtain ⟨a, h1, h⟩ := Res.bind_eq_ok.mp h
    obtain ⟨c, h2, h⟩ := Res.bind_eq_ok.mp h
    obtain ⟨d, h3, h⟩ := Res.bind_eq_ok.mp h
    obtain rfl := Res.ok.inj h
    exact ⟨h1, h2, h3⟩
  obtain ⟨v, hv, hgi⟩ := Spoc.mapM_get hvh hp
  have hq' : q = { p with c := (lastOf (marks l vl) v).getD p.c } := by
    dsimp only at hq
    rw [marked, List.getElem?_zipWith, hp, hv] at hq
    exact (Option.some.inj hq).symm
  refine ⟨by rw [hq'], ?_⟩
  cases hl : lastOf (marks l vl) v with
  | none => left; rw [hq', hl]; rfl
  | some c =>
    right
    have hm := mem_of_lastOf hl
    unfold marks at hm
    obtain ⟨i, hi⟩ := List.mem_iff_getElem?.mp hm
    rw [List.getElem?_zip_eq_some] at hi
    obtain ⟨h1, h2⟩ := hi
    rw [List.getElem?_map, Option.map_eq_some_iff] at h2
    obtain ⟨lp, h3, rfl⟩ := h2
    obtain ⟨w, h4, h5⟩ := Spoc.mapM_get hvl h3
    obtain rfl := Option.some.inj (h1.symm.trans h4)
    have h6 := split3 hgi
    have h7 := split3 h5
    have h8 : q.c = lp.c := by rw [hq', hl]; rfl
    exact ⟨lp, List.mem_of_getElem? h3, h8, v, h6, h7⟩

/-! ## one axis -/

theorem near_of_index {r o a c : F64} {u : UInt64} {D : ℝ} (hr : r.isFinite = true) (hpos : 0 < r.val) (ho : o.isFinite = true) (ha : a.isFinite = true)
    (hc : c.isFinite = true) (l1 : o.fv ≤ a.fv) (l2 : o.fv ≤ c.fv) (x1 : Voxel.index1 a o r = .ok u) (x2 : Voxel.index1 c o r = .ok u)
    (d1 : a.val - o.val ≤ D) (d2 : c.val - o.val ≤ D) : WithinVoxel r.val D a.val c.val := by
  have hpos' := F64.val_pos.mp hpos
  obtain ⟨y1, y2⟩ := index1_cell hr hpos' x1
  obtain ⟨z1, z2⟩ := index1_cell hr hpos' x2
  refine abs_le.mpr ⟨?_, same_cell_close hr hpos' ho ha hc l1 l2 y1 z1 (by omega) d2⟩
  have := same_cell_close hr hpos' ho hc ha l2 l1 z1 y1 (by omega) d1
  linarith only [this]

/-- Turning the difference around turns the sign of the quotient around. -/
theorem quot_swap {r o c : F64} (hr : r.isFinite = true) (hpos : 0 < r.fv) (ho : o.isFinite = true) (hc : c.isFinite = true)
    (hfin : (F64.sub c o).isFinite = true) :
    (F64.sub o c).isFinite = true ∧ (F64.div (F64.sub o c) r).fv = -(F64.div (F64.sub c o) r).fv := by
  have e : (F64.sub o c).fv = -(F64.sub c o).fv := by
    rw [F64.sub_fv ho hc, F64.sub_fv hc ho, ← F64.rfv_neg _ (by norm_num)]
    congr 1
    ring
  have hf : (F64.sub o c).isFinite = true := F64.finite_of_fv_le hfin (by rw [e, Int.natAbs_neg])
  refine ⟨hf, ?_⟩
  rw [(F64.div_fv hf hr hpos).1, (F64.div_fv hfin hr hpos).1, e, neg_mul, F64.rfv_neg _ (by omega)]

/-- A coordinate below the origin that has an index is less than a voxel below it, and the index is 0. -/
theorem below_origin {r o c : F64} {u : UInt64} (hr : r.isFinite = true) (hpos : 0 < r.val) (ho : o.isFinite = true) (hc : c.isFinite = true)
    (hlt : c.fv ≤ o.fv) (h : Voxel.index1 c o r = .ok u) : u.toNat = 0 ∧ o.val - c.val ≤ r.val * (1 + 1 / 2 ^ 51) := by
  have hpos' := F64.val_pos.mp hpos
  obtain ⟨y1, y2⟩ := index1_cell hr hpos' h
  have hfin : (F64.sub c o).isFinite = true := by
    by_contra hcon
    have e := F64.eq_inf_of_not_finite (F64.sub_not_nan hc ho) (by simpa using hcon)
    rw [e, F64.div_inf _ hr hpos', F64.inf_not_finite] at y1
    simp at y1
  obtain ⟨hf, e⟩ := quot_swap hr hpos' ho hc hfin
  have hfq : (F64.div (F64.sub o c) r).isFinite = true := F64.finite_of_fv_le y1 (by rw [e, Int.natAbs_neg])
  have q0 : 0 ≤ (F64.div (F64.sub o c) r).fv := (Voxel.quot_spec ho hc hr hpos' hlt).2
  rw [Tile.gridCell_pos hr hpos'] at y2
  have t : (F64.div (F64.sub c o) r).trunc = -(F64.div (F64.sub o c) r).trunc := by
    unfold F64.trunc
    rw [e, Int.neg_tdiv, neg_neg]
  have t0 : 0 ≤ (F64.div (F64.sub o c) r).trunc := Int.tdiv_nonneg q0 (Int.natCast_nonneg _)
  have z : (F64.div (F64.sub o c) r).trunc = 0 := by omega
  refine ⟨by omega, ?_⟩
  have := (c44_grid_accurate hr hpos' hc ho hlt hfq).2
  rw [Tile.gridCell_pos hr hpos', z, div_le_iff₀ hpos] at this
  push_cast at this
  nlinarith

theorem near_twice {r o a c : F64} {u : UInt64} {D : ℝ} (hr : r.isFinite = true) (hpos : 0 < r.val) (ho : o.isFinite = true) (ha : a.isFinite = true)
    (hc : c.isFinite = true) (l1 : o.fv ≤ a.fv) (x1 : Voxel.index1 a o r = .ok u) (x2 : Voxel.index1 c o r = .ok u)
    (d1 : a.val - o.val ≤ D) (d2 : c.val - o.val ≤ D) : |a.val - c.val| ≤ 2 * r.val * (1 + 1 / 2 ^ 51) + D / 2 ^ 50 := by
  have hD : 0 ≤ D := by have := F64.val_le_iff.mpr l1; linarith
  rcases le_total o.fv c.fv with l2 | l2
  · have := near_of_index hr hpos ho ha hc l1 l2 x1 x2 d1 d2
    unfold WithinVoxel at this
    nlinarith
  · obtain ⟨hu, hb⟩ := below_origin hr hpos ho hc l2 x2
    obtain ⟨y1, y2⟩ := index1_cell hr (F64.val_pos.mp hpos) x1
    have := (c44_grid_accurate hr (F64.val_pos.mp hpos) ho ha l1 y1).2
    rw [← y2, hu, div_le_iff₀ hpos] at this
    push_cast at this
    have h1 := F64.val_le_iff.mpr l1
    have h2 := F64.val_le_iff.mpr l2
    rw [abs_of_nonneg (by linarith)]
    have h3 : 0 ≤ D / 2 ^ 50 := by positivity
    nlinarith

/-! ## the property -/

/-- What is known about the lowest coordinates of a cloud. -/
theorem lowest {ps : List PointRecord} (hne : ps ≠ []) (hf : ∀ p ∈ ps, Spec.Fin (pt p)) :
    ((Extent.ofPoints ps).minp.x.isFinite = true ∧ (Extent.ofPoints ps).minp.y.isFinite = true ∧ (Extent.ofPoints ps).minp.z.isFinite = true)
      ∧ (∀ p ∈ ps, (Extent.ofPoints ps).minp.x.fv ≤ p.x.fv ∧ (Extent.ofPoints ps).minp.y.fv ≤ p.y.fv ∧ (Extent.ofPoints ps).minp.z.fv ≤ p.z.fv)
      ∧ (∃ p ∈ ps, (Extent.ofPoints ps).minp.x = p.x) ∧ (∃ p ∈ ps, (Extent.ofPoints ps).minp.y = p.y)
      ∧ ∃ p ∈ ps, (Extent.ofPoints ps).minp.z = p.z := by
  obtain ⟨hin, ⟨p1, m1, e1⟩, _, ⟨p2, m2, e2⟩, _, ⟨p3, m3, e3⟩, _⟩ := c15_extent_tight_partial ps hne hf
  refine ⟨⟨by rw [← e1]; exact (hf p1 m1).1, by rw [← e2]; exact (hf p2 m2).2.1, by rw [← e3]; exact (hf p3 m3).2.2⟩, fun p hp => ?_,
    ⟨p1, m1, e1.symm⟩, ⟨p2, m2, e2.symm⟩, ⟨p3, m3, e3.symm⟩⟩
  obtain ⟨h1, _, h2, _, h3, _⟩ := hin p hp
  exact ⟨h1, h2, h3⟩

theorem span_x {ps : List PointRecord} {D : ℝ} (h : SpanAtMost (ps.map pt) (·.x) D) {p q : PointRecord} (hp : p ∈ ps) (hq : q ∈ ps) :
    p.x.val - q.x.val ≤ D := h (pt p) (List.mem_map_of_mem hp) (pt q) (List.mem_map_of_mem hq)

theorem span_y {ps : List PointRecord} {D : ℝ} (h : SpanAtMost (ps.map pt) (·.y) D) {p q : PointRecord} (hp : p ∈ ps) (hq : q ∈ ps) :
    p.y.val - q.y.val ≤ D := h (pt p) (List.mem_map_of_mem hp) (pt q) (List.mem_map_of_mem hq)

theorem span_z {ps : List PointRecord} {D : ℝ} (h : SpanAtMost (ps.map pt) (·.z) D) {p q : PointRecord} (hp : p ∈ ps) (hq : q ∈ ps) :
    p.z.val - q.z.val ≤ D := h (pt p) (List.mem_map_of_mem hp) (pt q) (List.mem_map_of_mem hq)

/-- No coordinate of the low-resolution points is below all those of the high-resolution points. -/
def NotBelow (ls ps : List PointRecord) : Prop :=
  ∀ q ∈ ls, (∃ p ∈ ps, p.x.val ≤ q.x.val) ∧ (∃ p ∈ ps, p.y.val ≤ q.y.val) ∧ ∃ p ∈ ps, p.z.val ≤ q.z.val

/-- **C140** (partial: if no low-resolution point is below the high-resolution cloud; see `c140_border` and `c140_twice`): a point keeps its class, or
takes that of a low-resolution point that is at most the resolution away along each axis, up to rounding. -/
theorem c140_near_partial (b : Build) (l f : SpocFile) (r : F64) (g : SpocFile) (n : Nat) (hu : upsample b l f r = .ok (g, n)) (hr : r.isFinite = true)
    (hpos : 0 < r.val) (hf : ∀ p ∈ f.prs, Spec.Fin (pt p)) (hl : ∀ p ∈ l.prs, Spec.Fin (pt p)) (hb : NotBelow l.prs f.prs) {dx dy dz : ℝ}
    (hx : SpanAtMost ((f.prs ++ l.prs).map pt) (·.x) dx) (hy : SpanAtMost ((f.prs ++ l.prs).map pt) (·.y) dy)
    (hz : SpanAtMost ((f.prs ++ l.prs).map pt) (·.z) dz) :
    ∀ (j : Nat) (p q : PointRecord), f.prs[j]? = some p → g.prs[j]? = some q → q.c = p.c
      ∨ ∃ lp ∈ l.prs, q.c = lp.c ∧ WithinVoxel r.val dx p.x.val lp.x.val ∧ WithinVoxel r.val dy p.y.val lp.y.val ∧ WithinVoxel r.val dz p.z.val lp.z.val := by
  intro j p q hp hq
  obtain ⟨-, h | ⟨lp, hlp, hc, v, ⟨a1, a2, a3⟩, b1, b2, b3⟩⟩ := carried_from hu hp hq
  · exact Or.inl h
  have hmem := List.mem_of_getElem? hp
  obtain ⟨⟨o1, o2, o3⟩, hle, ⟨p1, m1, e1⟩, ⟨p2, m2, e2⟩, ⟨p3, m3, e3⟩⟩ := lowest (List.ne_nil_of_mem hmem) hf
  have left : ∀ q ∈ f.prs, q ∈ f.prs ++ l.prs := fun q hq => List.mem_append_left _ hq
  have right : lp ∈ f.prs ++ l.prs := List.mem_append_right _ hlp
  obtain ⟨⟨q1, n1, k1⟩, ⟨q2, n2, k2⟩, ⟨q3, n3, k3⟩⟩ := hb lp hlp
  obtain ⟨f1, f2, f3⟩ := hf p hmem
  obtain ⟨g1, g2, g3⟩ := hl lp hlp
  obtain ⟨i1, i2, i3⟩ := hle p hmem
  refine Or.inr ⟨lp, hlp, hc, ?_, ?_, ?_⟩
  · exact near_of_index hr hpos o1 f1 g1 i1 (le_trans (hle q1 n1).1 (F64.val_le_iff.mp k1)) a1 b1 (by rw [e1]; exact span_x hx (left p hmem) (left p1 m1))
      (by rw [e1]; exact span_x hx right (left p1 m1))
  · exact near_of_index hr hpos o2 f2 g2 i2 (le_trans (hle q2 n2).2.1 (F64.val_le_iff.mp k2)) a2 b2 (by rw [e2]; exact span_y hy (left p hmem) (left p2 m2))
      (by rw [e2]; exact span_y hy right (left p2 m2))
  · exact near_of_index hr hpos o3 f3 g3 i3 (le_trans (hle q3 n3).2.2 (F64.val_le_iff.mp k3)) a3 b3 (by rw [e3]; exact span_z hz (left p hmem) (left p3 m3))
      (by rw [e3]; exact span_z hz right (left p3 m3))

/-- **C140**, all finite clouds: a point keeps its class, or takes that of a low-resolution point that is at most twice the resolution away along each
axis, up to rounding. -/
theorem c140_twice (b : Build) (l f : SpocFile) (r : F64) (g : SpocFile) (n : Nat) (hu : upsample b l f r = .ok (g, n)) (hr : r.isFinite = true)
    (hpos : 0 < r.val) (hf : ∀ p ∈ f.prs, Spec.Fin (pt p)) (hl : ∀ p ∈ l.prs, Spec.Fin (pt p)) {dx dy dz : ℝ}
    (hx : SpanAtMost ((f.prs ++ l.prs).map pt) (·.x) dx) (hy : SpanAtMost ((f.prs ++ l.prs).map pt) (·.y) dy)
    (hz : SpanAtMost ((f.prs ++ l.prs).map pt) (·.z) dz) :
    ∀ (j : Nat) (p q : PointRecord), f.prs[j]? = some p → g.prs[j]? = some q → q.c = p.c
      ∨ ∃ lp ∈ l.prs, q.c = lp.c ∧ |p.x.val - lp.x.val| ≤ 2 * r.val * (1 + 1 / 2 ^ 51) + dx / 2 ^ 50
          ∧ |p.y.val - lp.y.val| ≤ 2 * r.val * (1 + 1 / 2 ^ 51) + dy / 2 ^ 50 ∧ |p.z.val - lp.z.val| ≤ 2 * r.val * (1 + 1 / 2 ^ 51) + dz / 2 ^ 50 := by
  intro j p q hp hq
  obtain ⟨-, h | ⟨lp, hlp, hc, v, ⟨a1, a2, a3⟩, b1, b2, b3⟩⟩ := carried_from hu hp hq
  · exact Or.inl h
  have hmem := List.mem_of_getElem? hp
  obtain ⟨⟨o1, o2, o3⟩, hle, ⟨p1, m1, e1⟩, ⟨p2, m2, e2⟩, ⟨p3, m3, e3⟩⟩ := lowest (List.ne_nil_of_mem hmem) hf
  have left : ∀ q ∈ f.prs, q ∈ f.prs ++ l.prs := fun q hq => List.mem_append_left _ hq
  have right : lp ∈ f.prs ++ l.prs := List.mem_append_right _ hlp
  obtain ⟨f1, f2, f3⟩ := hf p hmem
  obtain ⟨g1, g2, g3⟩ := hl lp hlp
  obtain ⟨i1, i2, i3⟩ := hle p hmem
  refine Or.inr ⟨lp, hlp, hc, ?_, ?_, ?_⟩
  · exact near_twice hr hpos o1 f1 g1 i1 a1 b1 (by rw [e1]; exact span_x hx (left p hmem) (left p1 m1)) (by rw [e1]; exact span_x hx right (left p1 m1))
  · exact near_twice hr hpos o2 f2 g2 i2 a2 b2 (by rw [e2]; exact span_y hy (left p hmem) (left p2 m2)) (by rw [e2]; exact span_y hy right (left p2 m2))
  · exact near_twice hr hpos o3 f3 g3 i3 a3 b3 (by rw [e3]; exact span_z hz (left p hmem) (left p3 m3)) (by rw [e3]; exact span_z hz right (left p3 m3))

/-- **C140** on a grid (partial: if no low-resolution point is below the high-resolution cloud): less than the resolution away along each axis. -/
theorem c140_grid_partial {k : ℤ} (hk0 : -1074 ≤ k) (hk : k ≤ 970) (b : Build) (l f : SpocFile) (r : F64) (g : SpocFile) (n : Nat)
    (hu : upsample b l f r = .ok (g, n)) (hr : OnGrid k 53 r) (hpos : 0 < r.val) (hf : CloudOnGrid k f.prs) (hl : CloudOnGrid k l.prs)
    (hb : NotBelow l.prs f.prs) :
    ∀ (j : Nat) (p q : PointRecord), f.prs[j]? = some p → g.prs[j]? = some q → q.c = p.c
      ∨ ∃ lp ∈ l.prs, q.c = lp.c ∧ |p.x.val - lp.x.val| < r.val ∧ |p.y.val - lp.y.val| < r.val ∧ |p.z.val - lp.z.val| < r.val := by
  intro j p q hp hq
  obtain ⟨-, h | ⟨lp, hlp, hc, v, ⟨a1, a2, a3⟩, b1, b2, b3⟩⟩ := carried_from hu hp hq
  · exact Or.inl h
  have hmem := List.mem_of_getElem? hp
  have hne := List.ne_nil_of_mem hmem
  obtain ⟨-, hle, -⟩ := lowest hne hf.fin
  obtain ⟨⟨o1, o2, o3⟩, _⟩ := hf.extent hne
  obtain ⟨⟨q1, n1, k1⟩, ⟨q2, n2, k2⟩, ⟨q3, n3, k3⟩⟩ := hb lp hlp
  obtain ⟨f1, f2, f3⟩ := hf p hmem
  obtain ⟨g1, g2, g3⟩ := hl lp hlp
  obtain ⟨i1, i2, i3⟩ := hle p hmem
  have key : ∀ {o a c : F64} {u : UInt64}, OnGrid k 52 o → OnGrid k 52 a → OnGrid k 52 c → o.fv ≤ a.fv → o.fv ≤ c.fv → Voxel.index1 a o r = .ok u →
      Voxel.index1 c o r = .ok u → |a.val - c.val| < r.val := by
    intro o a c u ho ha hc h1 h2 x1 x2
    obtain ⟨u1, y1, z1⟩ := index1_exact hk0 hk hr ho ha hpos h1
    obtain ⟨u2, y2, z2⟩ := index1_exact hk0 hk hr ho hc hpos h2
    obtain rfl := Res.ok.inj (x1.symm.trans y1)
    obtain rfl := Res.ok.inj (x2.symm.trans y2)
    exact apart_of_floor hpos (z1.symm.trans z2)
  refine Or.inr ⟨lp, hlp, hc, ?_, ?_, ?_⟩
  · exact key o1 f1 g1 i1 (le_trans (hle q1 n1).1 (F64.val_le_iff.mp k1)) a1 b1
  · exact key o2 f2 g2 i2 (le_trans (hle q2 n2).2.1 (F64.val_le_iff.mp k2)) a2 b2
  · exact key o3 f3 g3 i3 (le_trans (hle q3 n3).2.2 (F64.val_le_iff.mp k3)) a3 b3

/-- **C140**, the application: the low-resolution cloud is in the file `i`, the high-resolution one in `h`, and the result in `o`. -/
theorem c140_app (p : Params) (hz : p.zlib.Correct) (w : World) (argv : List Str) (i h t o : Str)
    (hopt : Cmd.tool.options argv = [("upsample-classifications", h), ("resolution", t)]) (hops : Cmd.tool.operands argv = [i, o])
    (hi : i ≠ []) (ho : o ≠ []) (hc : CanReplace w o) (l f : SpocFile) (hl : HasCloud p w.fs i l) (hf : HasCloud p w.fs h f)
    (hs : Survives p.zlib f) (hr : F64.gt (atof t) F64.zero = true) (hfin : (atof t).isFinite = true) (vh vl : List VoxelIndex)
    (hvh : Voxel.getIndexes f.prs (atof t) = .ok vh) (hvl : Voxel.getIndexesIn l.prs (Extent.ofPoints f.prs) (atof t) = .ok vl)
    (hff : ∀ q ∈ f.prs, Spec.Fin (pt q)) (hlf : ∀ q ∈ l.prs, Spec.Fin (pt q)) {D : ℝ}
    (hx : SpanAtMost ((f.prs ++ l.prs).map pt) (·.x) D) (hy : SpanAtMost ((f.prs ++ l.prs).map pt) (·.y) D)
    (hz' : SpanAtMost ((f.prs ++ l.prs).map pt) (·.z) D) :
    ∃ g, Makes .tool p w argv o g ∧ g.prs.length = f.prs.length
      ∧ ∀ (j : Nat) (q q' : PointRecord), f.prs[j]? = some q → g.prs[j]? = some q' → q' = { q with c := q'.c } ∧ (q'.c = q.c
        ∨ ∃ lp ∈ l.prs, q'.c = lp.c ∧ |q.x.val - lp.x.val| ≤ 2 * (atof t).val * (1 + 1 / 2 ^ 51) + D / 2 ^ 50
          ∧ |q.y.val - lp.y.val| ≤ 2 * (atof t).val * (1 + 1 / 2 ^ 51) + D / 2 ^ 50
          ∧ |q.z.val - lp.z.val| ≤ 2 * (atof t).val * (1 + 1 / 2 ^ 51) + D / 2 ^ 50) := by
  obtain ⟨g, m, h1, -, h3, -, h5, -⟩ := c76_upsample_run p hz w argv i h t o hopt hops hi ho hc l f hl hf hs hr vh vl hvh hvl
  have hpos : 0 < (atof t).val := F64.val_pos.mpr ((Tile.gt_zero hfin).mp hr)
  exact ⟨g, h3, h5, fun j q q' hq hq' => ⟨(carried_from h1 hq hq').1, c140_twice p.build l f (atof t) g m h1 hfin hpos hff hlf hx hy hz' j q q' hq hq'⟩⟩

/-! ## examples -/

/-- A low-resolution point of class 7. -/
def lowCloud : SpocFile := { SpocFile.empty with prs := [{ x := num 12, y := num 3, c := 7 }] }

/-- Three high-resolution points of class 0. -/
def highCloud : SpocFile := { SpocFile.empty with prs := tilePoints }

theorem ok_of_isOk {β : Type} {x : Res β} (h : x.isOk = true) : ∃ y, x = .ok y := by
  cases x <;> simp_all [Res.isOk]

theorem lowCloud_carried (b : Build) : ∃ g n, upsample b lowCloud highCloud (num 10) = .ok (g, n) ∧ g.prs.map (·.c) = [0, 7, 0] := by
  have h : ∀ b, (match upsample b lowCloud highCloud (num 10) with | .ok (g, _) => g.prs.map (·.c) | _ => []) = [0, 7, 0] := by
    intro b
    cases b <;> decide +kernel
  have h' := h b
  split at h'
  · next g n e => exact ⟨g, n, e, h'⟩
  · simp at h'

theorem lowCloud_notBelow : NotBelow lowCloud.prs highCloud.prs := by
  have key : ∀ (a b : F64) (p : PointRecord) (rest : List PointRecord), p.x.fv ≤ a.fv → p.y.fv ≤ b.fv → p.z.fv ≤ F64.zero.fv →
      NotBelow [({ x := a, y := b, c := 7 } : PointRecord)] (p :: rest) := by
    intro a b p rest h1 h2 h3 q hq
    obtain rfl := List.mem_singleton.mp hq
    exact ⟨⟨p, List.mem_cons_self, F64.val_le_iff.mpr h1⟩, ⟨p, List.mem_cons_self, F64.val_le_iff.mpr h2⟩, ⟨p, List.mem_cons_self, F64.val_le_iff.mpr h3⟩⟩
  exact key (num 12) (num 3) _ _ (by decide +kernel) (by decide +kernel) (by decide +kernel)

theorem lowCloud_span : SpanAtMost ((highCloud.prs ++ lowCloud.prs).map pt) (·.x) (17 : ℤ) ∧ SpanAtMost ((highCloud.prs ++ lowCloud.prs).map pt) (·.y) (17 : ℤ)
    ∧ SpanAtMost ((highCloud.prs ++ lowCloud.prs).map pt) (·.z) (17 : ℤ) :=
  ⟨span_of (by decide) (by decide +kernel), span_of (by decide) (by decide +kernel), span_of (by decide) (by decide +kernel)⟩

theorem ten_finite : (num 10).isFinite = true := by decide +kernel

theorem ten_pos : 0 < (num 10).val := by
  rw [val_num (by norm_num)]
  norm_num

/-- The hypotheses of `c140_near_partial` and `c140_twice` hold: a point of class 7 comes from a low-resolution point in the same voxel. -/
example (b : Build) : ∃ g n, upsample b lowCloud highCloud (num 10) = .ok (g, n) ∧ g.prs.map (·.c) = [0, 7, 0]
    ∧ ∀ (j : Nat) (p q : PointRecord), highCloud.prs[j]? = some p → g.prs[j]? = some q → q.c = p.c
      ∨ ∃ lp ∈ lowCloud.prs, q.c = lp.c ∧ WithinVoxel (num 10).val (17 : ℤ) p.x.val lp.x.val ∧ WithinVoxel (num 10).val (17 : ℤ) p.y.val lp.y.val
        ∧ WithinVoxel (num 10).val (17 : ℤ) p.z.val lp.z.val := by
  obtain ⟨g, n, h1, h2⟩ := lowCloud_carried b
  exact ⟨g, n, h1, h2, c140_near_partial b lowCloud highCloud (num 10) g n h1 ten_finite ten_pos (by unfold Spec.Fin; decide +kernel)
    (by unfold Spec.Fin; decide +kernel) lowCloud_notBelow lowCloud_span.1 lowCloud_span.2.1 lowCloud_span.2.2⟩

/-- The hypotheses of `c140_grid_partial` hold. -/
example (b : Build) : ∃ g n, upsample b lowCloud highCloud (num 10) = .ok (g, n) ∧ g.prs.map (·.c) = [0, 7, 0]
    ∧ ∀ (j : Nat) (p q : PointRecord), highCloud.prs[j]? = some p → g.prs[j]? = some q → q.c = p.c
      ∨ ∃ lp ∈ lowCloud.prs, q.c = lp.c ∧ |p.x.val - lp.x.val| < (num 10).val ∧ |p.y.val - lp.y.val| < (num 10).val ∧ |p.z.val - lp.z.val| < (num 10).val := by
  obtain ⟨g, n, h1, h2⟩ := lowCloud_carried b
  have key : ∀ a b : F64, OnGrid 0 52 a → OnGrid 0 52 b → CloudOnGrid 0 [({ x := a, y := b, c := 7 } : PointRecord)] := by
    intro a b ha hb q hq
    obtain rfl := List.mem_singleton.mp hq
    exact ⟨ha, hb, onGrid_zero⟩
  exact ⟨g, n, h1, h2, c140_grid_partial (k := 0) (by norm_num) (by norm_num) b lowCloud highCloud (num 10) g n h1 (onGrid_num (by norm_num) (by norm_num)) ten_pos
    tilePoints_onGrid (key (num 12) (num 3) (onGrid_num (by norm_num) (by norm_num)) (onGrid_num (by norm_num) (by norm_num))) lowCloud_notBelow⟩

/-- The hypotheses of `c140_app` hold for the files of the examples. -/
example : ∃ g, Makes .tool exampleParams exampleDisk toD ['o'] g ∧ g.prs.length = 3 := by
  obtain ⟨vh, hvh⟩ := ok_of_isOk (show (Voxel.getIndexes cloudA.prs (atof ['1', '0'])).isOk = true by decide +kernel)
  obtain ⟨vl, hvl⟩ := ok_of_isOk (show (Voxel.getIndexesIn cloudA.prs (Extent.ofPoints cloudA.prs) (atof ['1', '0'])).isOk = true by decide +kernel)
  have fin : ∀ q ∈ cloudA.prs, Spec.Fin (pt q) := by unfold Spec.Fin; decide +kernel
  obtain ⟨g, h1, h2, -⟩ := c140_app exampleParams toyZlib_correct exampleDisk toD ['a'] ['d'] ['1', '0'] ['o'] (by decide +kernel) (by decide +kernel)
    (by decide) (by decide) rfl cloudA cloudA cloudA_on_disk.1 cloudA_on_disk.2 cloudA_survives (by decide +kernel) (by decide +kernel) vh vl hvh hvl fin fin
    (span_of (n := 17) (by decide) (by decide +kernel)) (span_of (n := 17) (by decide) (by decide +kernel)) (span_of (n := 17) (by decide) (by decide +kernel))
  exact ⟨g, h1, h2⟩

/-! ## at the border -/

/-- **C140, negation**: with a resolution of 4, a low-resolution point at -3, below the high-resolution cloud, gives its class to the point at 3, which is
6 away; both quotients are rounded towards zero. -/
theorem c140_border (b : Build) : ∃ g n, upsample b { SpocFile.empty with prs := [{ x := num (-3), c := 7 }] }
      { SpocFile.empty with prs := [{ x := num 0 }, { x := num 3 }, { x := num 4 }] } (num 4) = .ok (g, n) ∧ g.prs.map (·.c) = [7, 7, 0]
    ∧ |(num 3).val - (num (-3)).val| = 6 := by
  have h : ∀ b, (match upsample b { SpocFile.empty with prs := [{ x := num (-3), c := 7 }] }
      { SpocFile.empty with prs := [{ x := num 0 }, { x := num 3 }, { x := num 4 }] } (num 4) with | .ok (g, _) => g.prs.map (·.c) | _ => []) = [7, 7, 0] := by
    intro b
    cases b <;> decide +kernel
  have h3 : |(num 3).val - (num (-3)).val| = 6 := by
    rw [val_num (n := 3) (by norm_num), val_num (n := -3) (by norm_num)]
    norm_num
  have h' := h b
  split at h'
  · next g n e => exact ⟨g, n, e, h', h3⟩
  · simp at h'

end Spoc.Props
