import Verif.Proofs.Rescale
import Verif.Props.Voxel
import Verif.Props.Rotation

/-!
# C21: rescaling to the integer grid of the extent
-/

namespace Spoc.Props

open Spec F64 Extent

/-- The error allowed for a coordinate `p` in an extent from `m` to `M`: about 2^13 grid steps (a grid step is
2^-62 of the extent) and a unit in the last place of the coordinate. -/
noncomputable def rescaleTolerance (m M p : F64) : ℝ :=
  (M.val - m.val) / 2 ^ 49 + |p.val| / 2 ^ 52 + 4 * (1 / (one1074 : ℝ))

/-- No side of the box is flat. -/
def Solid (e : Extent) : Prop := e.minp.x.fv < e.maxp.x.fv ∧ e.minp.y.fv < e.maxp.y.fv ∧ e.minp.z.fv < e.maxp.z.fv

instance (e : Extent) : Decidable (Solid e) := by unfold Solid; infer_instance

theorem lessEqual_ok {e : Extent} (hmin : Spec.Fin e.minp) (hmax : Spec.Fin e.maxp)
    (h : e.minp.x.fv ≤ e.maxp.x.fv ∧ e.minp.y.fv ≤ e.maxp.y.fv ∧ e.minp.z.fv ≤ e.maxp.z.fv) :
    allLessEqual e.minp e.maxp = true := by
  have key : ∀ {a b : F64}, a.isFinite = true → b.isFinite = true → a.fv ≤ b.fv → gt a b = false := by
    intro a b ha hb hab
    unfold gt
    rw [lt_eq_false (not_nan_of_finite hb) (not_nan_of_finite ha)]
    exact hab
  unfold allLessEqual
  rw [key hmin.1 hmax.1 h.1, key hmin.2.1 hmax.2.1 h.2.1, key hmin.2.2 hmax.2.2 h.2.2]
  rfl

theorem roundtrip1_tolerance {p m M : F64} (hp : Below 900 p) (hm : Below 900 m) (hM : Below 900 M)
    (h1 : m.fv ≤ p.fv) (h2 : p.fv ≤ M.fv) (hlt : m.fv < M.fv) :
    ∃ u, rescale1 p (F64.sub M m) m = .ok u ∧ u.toNat ≤ 2 ^ 62
      ∧ |(restore1 u (F64.sub M m) m).val - p.val| ≤ rescaleTolerance m M p := by
  obtain ⟨u, e, hu, _, t⟩ := roundtrip1 hp hm hM h1 h2 hlt
  refine ⟨u, e, hu, ?_⟩
  unfold rescaleTolerance
  exact t

theorem restorePt_eq (u : Pt UInt64) (M m : Pt F64) : restorePt u (Pt.sub M m) m
    = ⟨restore1 u.x (F64.sub M.x m.x) m.x, restore1 u.y (F64.sub M.y m.y) m.y, restore1 u.z (F64.sub M.z m.z) m.z⟩ :=
  rfl

theorem rescalePt_eq (p M m : Pt F64) : rescalePt p (Pt.sub M m) m = (do
      let x ← rescale1 p.x (F64.sub M.x m.x) m.x
      let y ← rescale1 p.y (F64.sub M.y m.y) m.y
      let z ← rescale1 p.z (F64.sub M.z m.z) m.z
      Res.ok (⟨x, y, z⟩ : Pt UInt64)) := rfl

/-- **C21** (partial: no flat side, magnitudes up to 2^900, and restoring is exact up to rounding only).
Rescaling a cloud to the grid of its own extent is well defined; the integers do not exceed 2^62; restoring
gives back every coordinate up to rounding. -/
theorem c21_roundtrip_partial (b : Build) (ps : List (Pt F64)) (hne : ps ≠ []) (hb : ∀ p ∈ ps, BelowPt 900 p)
    (hs : Solid (Extent.ofPoints ps)) :
    let e := Extent.ofPoints ps
    ∃ us, rescale b ps e = .ok us ∧ us.length = ps.length
      ∧ (∀ u ∈ us, u.x.toNat ≤ 2 ^ 62 ∧ u.y.toNat ≤ 2 ^ 62 ∧ u.z.toNat ≤ 2 ^ 62)
      ∧ ∃ qs, restore b us e = .ok qs ∧ qs.length = ps.length
      ∧ ∀ (i : Nat) (p q : Pt F64), ps[i]? = some p → qs[i]? = some q →
          |q.x.val - p.x.val| ≤ rescaleTolerance e.minp.x e.maxp.x p.x
          ∧ |q.y.val - p.y.val| ≤ rescaleTolerance e.minp.y e.maxp.y p.y
          ∧ |q.z.val - p.z.val| ≤ rescaleTolerance e.minp.z e.maxp.z p.z := by
  intro e
  have hf : ∀ p ∈ ps, Spec.Fin (pt p) := fun p hp => ⟨(hb p hp).1.1, (hb p hp).2.1.1, (hb p hp).2.2.1⟩
  obtain ⟨hin, ⟨p1, m1, e1⟩, ⟨p2, m2, e2⟩, ⟨p3, m3, e3⟩, ⟨p4, m4, e4⟩, ⟨p5, m5, e5⟩, ⟨p6, m6, e6⟩⟩ :=
    c15_extent_tight_partial ps hne hf
  have b1 : Below 900 e.minp.x := by show Below 900 (Extent.ofPoints ps).minp.x; rw [← e1]; exact (hb _ m1).1
  have b2 : Below 900 e.maxp.x := by show Below 900 (Extent.ofPoints ps).maxp.x; rw [← e2]; exact (hb _ m2).1
  have b3 : Below 900 e.minp.y := by show Below 900 (Extent.ofPoints ps).minp.y; rw [← e3]; exact (hb _ m3).2.1
  have b4 : Below 900 e.maxp.y := by show Below 900 (Extent.ofPoints ps).maxp.y; rw [← e4]; exact (hb _ m4).2.1
  have b5 : Below 900 e.minp.z := by show Below 900 (Extent.ofPoints ps).minp.z; rw [← e5]; exact (hb _ m5).2.2
  have b6 : Below 900 e.maxp.z := by show Below 900 (Extent.ofPoints ps).maxp.z; rw [← e6]; exact (hb _ m6).2.2
  have hle : allLessEqual e.minp e.maxp = true :=
    lessEqual_ok ⟨b1.1, b3.1, b5.1⟩ ⟨b2.1, b4.1, b6.1⟩ ⟨hs.1.le, hs.2.1.le, hs.2.2.le⟩
  have key : ∀ p ∈ ps, ∃ u, rescalePt p (Pt.sub e.maxp e.minp) e.minp = .ok u
      ∧ (u.x.toNat ≤ 2 ^ 62 ∧ u.y.toNat ≤ 2 ^ 62 ∧ u.z.toNat ≤ 2 ^ 62)
      ∧ |(restorePt u (Pt.sub e.maxp e.minp) e.minp).x.val - p.x.val| ≤ rescaleTolerance e.minp.x e.maxp.x p.x
      ∧ |(restorePt u (Pt.sub e.maxp e.minp) e.minp).y.val - p.y.val| ≤ rescaleTolerance e.minp.y e.maxp.y p.y
      ∧ |(restorePt u (Pt.sub e.maxp e.minp) e.minp).z.val - p.z.val| ≤ rescaleTolerance e.minp.z e.maxp.z p.z := by
    intro p hp
    obtain ⟨x1, x2, y1, y2, z1, z2⟩ := hin p hp
    obtain ⟨ux, ex, lx, tx⟩ := roundtrip1_tolerance (hb p hp).1 b1 b2 x1 x2 hs.1
    obtain ⟨uy, ey, ly, ty⟩ := roundtrip1_tolerance (hb p hp).2.1 b3 b4 y1 y2 hs.2.1
    obtain ⟨uz, ez, lz, tz⟩ := roundtrip1_tolerance (hb p hp).2.2 b5 b6 z1 z2 hs.2.2
    refine ⟨⟨ux, uy, uz⟩, ?_, ⟨lx, ly, lz⟩, ?_⟩
    · rw [rescalePt_eq, ex, ey, ez]; rfl
    · rw [restorePt_eq]; dsimp only; exact ⟨tx, ty, tz⟩
  have hassert : cassert b (allLessEqual e.minp e.maxp) = .ok () := by rw [hle]; cases b <;> rfl
  obtain ⟨us, hus⟩ := mapM_ok_of (f := fun p => rescalePt p (Pt.sub e.maxp e.minp) e.minp)
    (fun p hp => (key p hp).imp (fun u hu => hu.1))
  have hlen := mapM_length hus
  refine ⟨us, ?_, hlen, ?_, us.map (fun u => restorePt u (Pt.sub e.maxp e.minp) e.minp), ?_, ?_, ?_⟩
  · unfold rescale; rw [hassert]; exact hus
  · intro u hu
    obtain ⟨i, hi⟩ := List.mem_iff_getElem?.mp hu
    have hi' : i < ps.length := by rw [← hlen]; exact (List.getElem?_eq_some_iff.mp hi).1
    obtain ⟨v, hv, ev⟩ := mapM_get hus (List.getElem?_eq_getElem hi')
    rw [hi] at hv
    obtain ⟨w, ew, hw, _⟩ := key _ (List.getElem_mem hi')
    rw [ew] at ev
    cases hv
    cases ev
    exact hw
  · unfold restore; rw [hassert]; rfl
  · rw [List.length_map, hlen]
  · intro i p q hp hq
    obtain ⟨u, hu, eu⟩ := mapM_get hus hp
    obtain ⟨v, ev, _, t⟩ := key p (List.mem_of_getElem? hp)
    rw [ev] at eu
    cases eu
    rw [List.getElem?_map, hu, Option.map_some, Option.some_inj] at hq
    rw [← hq]
    exact t

/-- A cloud for which the hypotheses hold. -/
def rescaleCloud : List (Pt F64) :=
  [⟨num 0, num (-1), num 5⟩, ⟨num 15, num 2, num 7⟩, ⟨num 22, num 9, num 6⟩]

theorem num_below {n : Int} (h : n.natAbs < 2 ^ 20) : Below 900 (num n) := by
  have hn : n.natAbs < 2 ^ 53 := by omega
  refine ⟨ofInt_finite hn, ?_⟩
  show |(ofInt n).val| ≤ _
  rw [ofInt_val hn]
  have : |n| ≤ 2 ^ 20 := by rw [Int.abs_eq_natAbs]; exact_mod_cast h.le
  calc |(n : ℝ)| ≤ 2 ^ 20 := by exact_mod_cast this
    _ ≤ 2 ^ 900 := pow_le_pow_right₀ (by norm_num) (by norm_num)

example : rescaleCloud ≠ [] ∧ (∀ p ∈ rescaleCloud, BelowPt 900 p) ∧ Solid (Extent.ofPoints rescaleCloud) := by
  refine ⟨by decide, ?_, by decide +kernel⟩
  intro p hp
  simp only [rescaleCloud, List.mem_cons, List.not_mem_nil, or_false] at hp
  rcases hp with rfl | rfl | rfl <;>
    · unfold BelowPt
      dsimp only
      refine ⟨?_, ?_, ?_⟩ <;> refine num_below ?_ <;> decide

/-- The full claim is false: the coordinate 15 in the extent from 0 to 22 is restored as 14.999999999999998, many grid
steps away. -/
theorem c21_not_one_step : ∃ u, rescale1 (num 15) (F64.sub (num 22) (num 0)) (num 0) = .ok u
    ∧ 2 ^ 62 * ((num 15).fv - (restore1 u (F64.sub (num 22) (num 0)) (num 0)).fv) > (num 22).fv - (num 0).fv :=
  ⟨UInt64.ofNat 3144331376200491520, by decide +kernel⟩

/-- The full claim is false: with a flat side (such as every cloud with one point) the division gives NaN, and
its conversion to an integer is undefined. -/
theorem c21_flat_undefined {p m M : F64} (hp : p.isFinite = true) (hm : m.isFinite = true) (hM : M.isFinite = true)
    (h1 : p.fv = m.fv) (h2 : M.fv = m.fv) :
    rescale1 p (F64.sub M m) m = .ub "double out of range of uint64_t" := by
  have hz : ∀ {x : F64}, x.isFinite = true → x.fv = m.fv → (F64.sub x m).mag = 0 ∧ (F64.sub x m).isFinite = true := by
    intro x hx h
    have e : (F64.sub x m).fv = 0 := by rw [sub_fv hx hm, h, sub_self, rfv_zero (by norm_num)]
    exact ⟨fv_eq_zero.mp e, finite_of_fv_zero e⟩
  obtain ⟨d1, d2⟩ := hz hp h1
  obtain ⟨s1, s2⟩ := hz hM h2
  have t : (F64.mul (F64.sub p m) maxValue).fv = 0 := by
    rw [mul_fv d2 maxValue_finite, fv_eq_zero.mpr d1, zero_mul, rfv_zero one1074_pos]
  have t1 := fv_eq_zero.mp t
  have t2 := finite_of_fv_zero t
  have hd : F64.div (F64.mul (F64.sub p m) maxValue) (F64.sub M m) = F64.nan := by
    unfold div
    simp [not_nan_of_finite t2, not_nan_of_finite s2, isInf_eq_false_of_finite t2, isInf_eq_false_of_finite s2, s1, t1]
  unfold rescale1
  rw [hd]
  decide

example : (num 4).isFinite = true ∧ (F64.negZero).fv = F64.zero.fv := by decide +kernel

/-- So every cloud of one finite point is undefined behaviour. -/
theorem c21_single_point (b : Build) (p : Pt F64) (hp : Spec.Fin p) :
    rescale b [p] (Extent.ofPoints [p]) = .ub "double out of range of uint64_t" := by
  obtain ⟨_, ⟨p1, m1, e1⟩, ⟨p2, m2, e2⟩, ⟨p3, m3, e3⟩, ⟨p4, m4, e4⟩, ⟨p5, m5, e5⟩, ⟨p6, m6, e6⟩⟩ :=
    c15_extent_tight_partial [p] (by simp) (by intro q hq; rw [List.mem_singleton.mp hq]; exact hp)
  rw [List.mem_singleton.mp m1] at e1
  rw [List.mem_singleton.mp m2] at e2
  rw [List.mem_singleton.mp m3] at e3
  rw [List.mem_singleton.mp m4] at e4
  rw [List.mem_singleton.mp m5] at e5
  rw [List.mem_singleton.mp m6] at e6
  have e1' : (Extent.ofPoints [p]).minp.x = p.x := e1.symm
  have e2' : (Extent.ofPoints [p]).maxp.x = p.x := e2.symm
  have e3' : (Extent.ofPoints [p]).minp.y = p.y := e3.symm
  have e4' : (Extent.ofPoints [p]).maxp.y = p.y := e4.symm
  have e5' : (Extent.ofPoints [p]).minp.z = p.z := e5.symm
  have e6' : (Extent.ofPoints [p]).maxp.z = p.z := e6.symm
  have hle : allLessEqual (Extent.ofPoints [p]).minp (Extent.ofPoints [p]).maxp = true := by
    apply lessEqual_ok
    · exact ⟨by rw [e1']; exact hp.1, by rw [e3']; exact hp.2.1, by rw [e5']; exact hp.2.2⟩
    · exact ⟨by rw [e2']; exact hp.1, by rw [e4']; exact hp.2.1, by rw [e6']; exact hp.2.2⟩
    · rw [e1', e2', e3', e4', e5', e6']; exact ⟨le_refl _, le_refl _, le_refl _⟩
  have hub := c21_flat_undefined hp.1 hp.1 hp.1 rfl rfl
  unfold rescale
  rw [hle]
  have hassert : cassert b true = .ok () := by cases b <;> rfl
  rw [hassert]
  rw [List.mapM_cons, rescalePt_eq, e1', e2', hub]
  rfl

example : Spec.Fin (⟨num 1, num 2, num 3⟩ : Pt F64) := by unfold Spec.Fin; decide +kernel

end Spoc.Props
