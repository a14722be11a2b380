import Verif.Spec.Voxel
import Verif.Proofs.Voxel
import Verif.Props.Geometry

/-!
# C22: voxel indexes
-/

namespace Spoc.Props

open Spec

theorem limit64_eq : limit64 = F64.two64 := rfl

section
variable {α : Type} [HasXYZ α]

/-- The corners of the extent of a non-empty finite cloud are finite. -/
theorem extent_finite (ps : List α) (hne : ps ≠ []) (hf : ∀ p ∈ ps, Spec.Fin (pt p)) :
    Spec.Fin (Extent.ofPoints ps).minp ∧ Spec.Fin (Extent.ofPoints ps).maxp := by
  obtain ⟨_, ⟨p1, m1, e1⟩, ⟨p2, m2, e2⟩, ⟨p3, m3, e3⟩, ⟨p4, m4, e4⟩, ⟨p5, m5, e5⟩, ⟨p6, m6, e6⟩⟩ :=
    c15_extent_tight_partial ps hne hf
  refine ⟨⟨?_, ?_, ?_⟩, ⟨?_, ?_, ?_⟩⟩
  · rw [← e1]; exact (hf _ m1).1
  · rw [← e3]; exact (hf _ m3).2.1
  · rw [← e5]; exact (hf _ m5).2.2
  · rw [← e2]; exact (hf _ m2).1
  · rw [← e4]; exact (hf _ m4).2.1
  · rw [← e6]; exact (hf _ m6).2.2

/-- The voxel index in one coordinate. -/
theorem index1_spec {p m r : F64} (hp : p.isFinite = true) (hm : m.isFinite = true) (hr : r.isFinite = true)
    (hpos : 0 < r.fv) (h : m.fv ≤ p.fv) :
    (∃ u, Voxel.index1 p m r = .ok u ∧ F64.lt (F64.div (F64.sub p m) r) limit64 = true
        ∧ (u.toNat : Int) = (F64.div (F64.sub p m) r).trunc)
      ∨ (Voxel.index1 p m r = .ub "double out of range of uint64_t"
        ∧ F64.lt (F64.div (F64.sub p m) r) limit64 = false) := by
  obtain ⟨h1, h2⟩ := Voxel.quot_spec hp hm hr hpos h
  rcases F64.toU64_spec h1 h2 with ⟨a, _, c⟩ | ⟨a, c⟩
  · exact Or.inl ⟨_, a, c, F64.toU64_toNat a⟩
  · exact Or.inr ⟨a, c⟩

theorem index1_le {p q m r : F64} (hp : p.isFinite = true) (hq : q.isFinite = true) (hm : m.isFinite = true)
    (hr : r.isFinite = true) (hpos : 0 < r.fv) (h : m.fv ≤ p.fv) (hpq : p.fv ≤ q.fv) {u v : UInt64}
    (hu : Voxel.index1 p m r = .ok u) (hv : Voxel.index1 q m r = .ok v) : u ≤ v := by
  have h1 := F64.toU64_toNat hu
  have h2 := F64.toU64_toNat hv
  have h3 := Voxel.quot_mono hp hq hm hr hpos hpq
  have h4 := F64.trunc_mono (Voxel.quot_spec hp hm hr hpos h).2 h3
  rw [UInt64.le_iff_toNat_le]
  omega

theorem index1_zero {p m r : F64} (hp : p.isFinite = true) (hm : m.isFinite = true) (hr : r.isFinite = true)
    (hpos : 0 < r.fv) (h : p.fv = m.fv) : Voxel.index1 p m r = .ok 0 := by
  have hs : (F64.sub p m).fv = 0 := by rw [F64.sub_fv hp hm, h, Int.sub_self, F64.rfv_zero (by norm_num)]
  have hd := F64.div_zero_fv hs (F64.finite_of_fv_zero hs) hr hpos
  have ht : (F64.div (F64.sub p m) r).trunc = 0 := by unfold F64.trunc; rw [hd]; simp
  unfold Voxel.index1 F64.toU64
  rw [if_pos (F64.finite_of_fv_zero hd), ht]
  rfl

theorem getIndex_eq {p m : Pt F64} {r : F64} {v : VoxelIndex} :
    Voxel.getIndex p m r = .ok v ↔
      Voxel.index1 p.x m.x r = .ok v.i ∧ Voxel.index1 p.y m.y r = .ok v.j ∧ Voxel.index1 p.z m.z r = .ok v.k := by
  unfold Voxel.getIndex
  simp only [Res.bind_eq_ok, Res.ok.injEq]
  constructor
  · rintro ⟨i, hi, j, hj, k, hk, rfl⟩; exact ⟨hi, hj, hk⟩
  · rintro ⟨hi, hj, hk⟩; exact ⟨_, hi, _, hj, _, hk, rfl⟩

/-- C22: the voxel indexes of a finite cloud are defined when the grid fits; they are monotone in each coordinate,
and a point with the smallest coordinate gets index 0. -/
theorem c22_voxel_indexes (ps : List α) (r : F64) (hf : ∀ p ∈ ps, Spec.Fin (pt p)) (hr : r.isFinite = true)
    (hpos : 0 < r.fv) (hfit : GridFits (Extent.ofPoints ps) r) :
    ∃ vs, Voxel.getIndexes ps r = .ok vs ∧ vs.length = ps.length
      ∧ (∀ (a b : Nat) (p q : α) (v w : VoxelIndex), ps[a]? = some p → ps[b]? = some q → vs[a]? = some v → vs[b]? = some w →
          ((pt p).x.fv ≤ (pt q).x.fv → v.i ≤ w.i) ∧ ((pt p).y.fv ≤ (pt q).y.fv → v.j ≤ w.j)
            ∧ ((pt p).z.fv ≤ (pt q).z.fv → v.k ≤ w.k))
      ∧ (∀ (a : Nat) (p : α) (v : VoxelIndex), ps[a]? = some p → vs[a]? = some v →
          ((∀ q ∈ ps, (pt p).x.fv ≤ (pt q).x.fv) → v.i = 0) ∧ ((∀ q ∈ ps, (pt p).y.fv ≤ (pt q).y.fv) → v.j = 0)
            ∧ ((∀ q ∈ ps, (pt p).z.fv ≤ (pt q).z.fv) → v.k = 0)) := by
  by_cases hne : ps = []
  · subst hne
    exact ⟨[], rfl, rfl, by simp, by simp⟩
  obtain ⟨hmin, hmax⟩ := extent_finite ps hne hf
  obtain ⟨hin, ⟨p1, m1, e1⟩, _, ⟨p3, m3, e3⟩, _, ⟨p5, m5, e5⟩, _⟩ := c15_extent_tight_partial ps hne hf
  set e := Extent.ofPoints ps with he
  have hdef : ∀ p ∈ ps, ∃ v, Voxel.getIndex (pt p) e.minp r = .ok v := by
    intro p hp
    obtain ⟨i1, i2, i3, i4, i5, i6⟩ := hin p hp
    obtain ⟨f1, f2, f3⟩ := hf p hp
    have step : ∀ {c mn mx : F64}, c.isFinite = true → mn.isFinite = true → mx.isFinite = true → mn.fv ≤ c.fv →
        c.fv ≤ mx.fv → F64.lt (F64.div (F64.sub mx mn) r) limit64 = true → ∃ u, Voxel.index1 c mn r = .ok u := by
      intro c mn mx hc hmn hmx h1 h2 h3
      rcases index1_spec hc hmn hr hpos h1 with ⟨u, hu, _⟩ | ⟨_, hl⟩
      · exact ⟨u, hu⟩
      · exfalso
        have h4 := Voxel.quot_mono hc hmx hmn hr hpos h2
        obtain ⟨n1, _⟩ := Voxel.quot_spec hc hmn hr hpos h1
        rw [F64.lt_iff] at h3
        rw [F64.lt_eq_false n1 h3.2.1] at hl
        omega
    obtain ⟨u, hu⟩ := step f1 hmin.1 hmax.1 i1 i2 hfit.1
    obtain ⟨v, hv⟩ := step f2 hmin.2.1 hmax.2.1 i3 i4 hfit.2.1
    obtain ⟨w, hw⟩ := step f3 hmin.2.2 hmax.2.2 i5 i6 hfit.2.2
    exact ⟨⟨u, v, w⟩, getIndex_eq.mpr ⟨hu, hv, hw⟩⟩
  obtain ⟨vs, hvs⟩ := mapM_ok_of hdef
  refine ⟨vs, hvs, mapM_length hvs, ?_, ?_⟩
  · intro a b p q v w hp hq hv hw
    obtain ⟨v', hv', gv⟩ := mapM_get hvs hp
    obtain ⟨w', hw', gw⟩ := mapM_get hvs hq
    rw [hv'] at hv; rw [hw'] at hw
    obtain rfl := Option.some.inj hv
    obtain rfl := Option.some.inj hw
    have mp := List.mem_of_getElem? hp
    have mq := List.mem_of_getElem? hq
    obtain ⟨a1, a2, a3⟩ := getIndex_eq.mp gv
    obtain ⟨b1, b2, b3⟩ := getIndex_eq.mp gw
    obtain ⟨i1, i2, i3, i4, i5, i6⟩ := hin p mp
    obtain ⟨f1, f2, f3⟩ := hf p mp
    obtain ⟨g1, g2, g3⟩ := hf q mq
    exact ⟨fun h => index1_le f1 g1 hmin.1 hr hpos i1 h a1 b1, fun h => index1_le f2 g2 hmin.2.1 hr hpos i3 h a2 b2,
      fun h => index1_le f3 g3 hmin.2.2 hr hpos i5 h a3 b3⟩
  · intro a p v hp hv
    obtain ⟨v', hv', gv⟩ := mapM_get hvs hp
    rw [hv'] at hv
    obtain rfl := Option.some.inj hv
    have mp := List.mem_of_getElem? hp
    obtain ⟨a1, a2, a3⟩ := getIndex_eq.mp gv
    obtain ⟨i1, i2, i3, i4, i5, i6⟩ := hin p mp
    obtain ⟨f1, f2, f3⟩ := hf p mp
    refine ⟨fun h => ?_, fun h => ?_, fun h => ?_⟩
    · have h1 := h p1 m1
      rw [e1] at h1
      rw [index1_zero f1 hmin.1 hr hpos (by omega)] at a1
      exact (Res.ok.inj a1).symm
    · have h1 := h p3 m3
      rw [e3] at h1
      rw [index1_zero f2 hmin.2.1 hr hpos (by omega)] at a2
      exact (Res.ok.inj a2).symm
    · have h1 := h p5 m5
      rw [e5] at h1
      rw [index1_zero f3 hmin.2.2 hr hpos (by omega)] at a3
      exact (Res.ok.inj a3).symm

/-- If each step succeeds or has the undefined outcome `w`, and one does not succeed, the loop has that outcome. -/
theorem mapM_ub {β γ : Type} {f : β → Res γ} {w : String} {l : List β} (h : ∀ a ∈ l, (∃ b, f a = .ok b) ∨ f a = .ub w)
    {a : β} (ha : a ∈ l) (hu : f a = .ub w) : l.mapM f = .ub w := by
  induction l with
  | nil => simp at ha
  | cons x l ih =>
    rw [List.mapM_cons]
    rcases h x (by simp) with ⟨b, hb⟩ | hb
    · have : a ∈ l := by
        rcases List.mem_cons.mp ha with rfl | h'
        · rw [hb] at hu; simp at hu
        · exact h'
      rw [hb, Res.ok_bind, ih (fun y hy => h y (by simp [hy])) this]
      rfl
    · rw [hb]; rfl

/-- C22: the condition is necessary: if the grid does not fit, the computation is undefined. -/
theorem c22_oversized (ps : List α) (hne : ps ≠ []) (r : F64) (hf : ∀ p ∈ ps, Spec.Fin (pt p)) (hr : r.isFinite = true)
    (hpos : 0 < r.fv) (hfit : ¬ GridFits (Extent.ofPoints ps) r) :
    Voxel.getIndexes ps r = .ub "double out of range of uint64_t" := by
  obtain ⟨hmin, hmax⟩ := extent_finite ps hne hf
  obtain ⟨hin, _, ⟨p1, m1, e1⟩, _, ⟨p3, m3, e3⟩, _, ⟨p5, m5, e5⟩⟩ := c15_extent_tight_partial ps hne hf
  unfold Voxel.getIndexes Voxel.getIndexesIn
  set e := Extent.ofPoints ps with he
  have hall : ∀ p ∈ ps, (∃ v, Voxel.getIndex (pt p) e.minp r = .ok v)
      ∨ Voxel.getIndex (pt p) e.minp r = .ub "double out of range of uint64_t" := by
    intro p hp
    obtain ⟨i1, i2, i3, i4, i5, i6⟩ := hin p hp
    obtain ⟨f1, f2, f3⟩ := hf p hp
    unfold Voxel.getIndex
    rcases index1_spec f1 hmin.1 hr hpos i1 with ⟨u, hu, _⟩ | ⟨hu, _⟩
    · rw [hu, Res.ok_bind]
      rcases index1_spec f2 hmin.2.1 hr hpos i3 with ⟨v, hv, _⟩ | ⟨hv, _⟩
      · rw [hv, Res.ok_bind]
        rcases index1_spec f3 hmin.2.2 hr hpos i5 with ⟨w, hw, _⟩ | ⟨hw, _⟩
        · rw [hw]; exact Or.inl ⟨_, rfl⟩
        · rw [hw]; exact Or.inr rfl
      · rw [hv]; exact Or.inr rfl
    · rw [hu]; exact Or.inr rfl
  have hbad : ∃ p ∈ ps, ¬ ∃ v, Voxel.getIndex (pt p) e.minp r = .ok v := by
    by_contra hc
    push Not at hc
    apply hfit
    have step : ∀ {c mn : F64}, c.isFinite = true → mn.isFinite = true → mn.fv ≤ c.fv → (∃ u, Voxel.index1 c mn r = .ok u) →
        F64.lt (F64.div (F64.sub c mn) r) limit64 = true := by
      intro c mn hcf hmn h1 ⟨u, hu⟩
      rcases index1_spec hcf hmn hr hpos h1 with ⟨_, _, hl, _⟩ | ⟨hl, _⟩
      · exact hl
      · rw [hu] at hl; simp at hl
    refine ⟨?_, ?_, ?_⟩
    · rw [← e1]; obtain ⟨v, hv⟩ := hc p1 m1
      exact step (hf _ m1).1 hmin.1 (hin _ m1).1 ⟨_, (getIndex_eq.mp hv).1⟩
    · rw [← e3]; obtain ⟨v, hv⟩ := hc p3 m3
      exact step (hf _ m3).2.1 hmin.2.1 (hin _ m3).2.2.1 ⟨_, (getIndex_eq.mp hv).2.1⟩
    · rw [← e5]; obtain ⟨v, hv⟩ := hc p5 m5
      exact step (hf _ m5).2.2 hmin.2.2 (hin _ m5).2.2.2.2.1 ⟨_, (getIndex_eq.mp hv).2.2⟩
  obtain ⟨p, hp, hb⟩ := hbad
  exact mapM_ub hall hp ((hall p hp).resolve_left hb)

end

/-- The hypotheses hold for a cloud that spans several voxels. -/
example : let ps : List (Pt F64) := [⟨num 3, num (-1), F64.zero⟩, ⟨num (-2), num 5, F64.negZero⟩]
    (∀ p ∈ ps, Spec.Fin p) ∧ F64.one.isFinite = true ∧ 0 < F64.one.fv ∧ GridFits (Extent.ofPoints ps) F64.one
      ∧ Voxel.getIndexes ps F64.one = .ok [⟨5, 0, 0⟩, ⟨0, 6, 0⟩] := by
  unfold Spec.Fin; decide +kernel

/-- The comparison with 2^64 must be made after rounding: here the exact extent is 2^64 - 2^10. -/
theorem c22_exact_not_enough :
    let ps : List (Pt F64) := [⟨⟨0xC090000000000000⟩, num 0, num 0⟩, ⟨⟨0x43EFFFFFFFFFFFFF⟩, num 0, num 0⟩]
    (Extent.ofPoints ps).maxp.x.fv - (Extent.ofPoints ps).minp.x.fv < F64.one.fv * 2 ^ 64
      ∧ (Voxel.getIndexes ps F64.one).isUb = true := by decide +kernel

end Spoc.Props
