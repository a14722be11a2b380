import Verif.Proofs.Metrics
import Verif.Props.Json

/-!
# C66: the densities the info application reports
-/

namespace Spoc.Props

open Spec F64

theorem ofNat_pos {n : Nat} (h0 : 0 < n) (hn : n < 2 ^ 53) : (F64.ofNat n).isFinite = true ∧ (F64.ofNat n).val = n ∧ 0 < (F64.ofNat n).fv := by
  have h1 : ((n : Int)).natAbs < 2 ^ 53 := by rwa [Int.natAbs_natCast]
  have h2 := ofInt_finite h1
  have h3 := ofInt_val h1
  refine ⟨h2, h3.trans (by simp), ?_⟩
  have h4 : F64.zero.val < (ofInt (n : Int)).val := by
    rw [h3]
    have : F64.zero.val = 0 := by unfold val; rw [zero_fv, Int.cast_zero, zero_div]
    rw [this]
    exact_mod_cast h0
  have := val_lt_iff.mp h4
  rw [zero_fv] at this
  exact this

/-- The quotient of two counts. -/
theorem quotient {n d : Nat} (h0 : 0 < d) (hd : d ≤ n) (hn : n < 2 ^ 53) :
    Nearest (div (F64.ofNat n) (F64.ofNat d)) ((n : ℝ) / d) ∧ 1 ≤ (div (F64.ofNat n) (F64.ofNat d)).val
      ∧ (div (F64.ofNat n) (F64.ofNat d)).val ≤ n := by
  obtain ⟨a1, a2, a3⟩ := ofNat_pos (n := n) (by omega) hn
  obtain ⟨b1, b2, b3⟩ := ofNat_pos (n := d) h0 (by omega)
  have hN := div_nearest a1 b1 b3
  rw [a2, b2] at hN
  refine ⟨hN, ?_, ?_⟩
  · obtain ⟨e, -⟩ := div_fv a1 b1 b3
    have : one.fv ≤ (div (F64.ofNat n) (F64.ofNat d)).fv := by
      rw [e]
      apply le_rfv (by decide +kernel) (by omega)
      have hle : (F64.ofNat d).fv ≤ (F64.ofNat n).fv := by
        apply val_le_iff.mp
        rw [a2, b2]
        exact_mod_cast hd
      have : ((F64.ofNat d).fv.natAbs : Int) = (F64.ofNat d).fv := by omega
      rw [this, one_fv, mul_comm]
      exact mul_le_mul_of_nonneg_right hle (Int.natCast_nonneg _)
    have h := val_le_iff.mpr this
    have h1 : one.val = 1 := by
      unfold val
      rw [one_fv]
      exact div_self one1074_pos'.ne'
    rwa [h1] at h
  · obtain ⟨e, -⟩ := div_fv a1 b1 b3
    have : (div (F64.ofNat n) (F64.ofNat d)).fv ≤ (F64.ofNat n).fv := by
      rw [e]
      apply rfv_le (not_nan_of_finite a1) (by omega)
      have hone : one.fv ≤ (F64.ofNat d).fv := by
        apply val_le_iff.mp
        have h1 : one.val = 1 := by
          unfold val
          rw [one_fv]
          exact div_self one1074_pos'.ne'
        rw [b2, h1]
        exact_mod_cast h0
      have : ((F64.ofNat d).fv.natAbs : Int) = (F64.ofNat d).fv := by omega
      rw [this]
      rw [one_fv] at hone
      exact mul_le_mul_of_nonneg_left hone a3.le
    have h := val_le_iff.mpr this
    rwa [a2] at h

theorem quotient_mono {n d d' : Nat} (h0 : 0 < d) (hd : d ≤ d') (hn : n < 2 ^ 53) (hd' : d' ≤ n) :
    (div (F64.ofNat n) (F64.ofNat d')).val ≤ (div (F64.ofNat n) (F64.ofNat d)).val := by
  obtain ⟨a1, a2, a3⟩ := ofNat_pos (n := n) (by omega) hn
  obtain ⟨b1, b2, b3⟩ := ofNat_pos (n := d) h0 (by omega)
  obtain ⟨c1, c2, c3⟩ := ofNat_pos (n := d') (by omega) (by omega)
  apply val_le_iff.mpr
  rw [(div_fv a1 b1 b3).1, (div_fv a1 c1 c3).1]
  apply rfv_mono (by omega) (by omega)
  have hle : (F64.ofNat d).fv ≤ (F64.ofNat d').fv := by
    apply val_le_iff.mp
    rw [b2, c2]
    exact_mod_cast hd
  have e1 : ((F64.ofNat d).fv.natAbs : Int) = (F64.ofNat d).fv := by omega
  have e2 : ((F64.ofNat d').fv.natAbs : Int) = (F64.ofNat d').fv := by omega
  rw [e1, e2]
  exact mul_le_mul_of_nonneg_left hle (mul_nonneg a3.le (Int.natCast_nonneg _))

theorem three_entries {β : Type} (a b c : β) : Text.mapOf [(Key.extentPointDensity, a), (Key.gridPointDensity, b), (Key.voxelPointDensity, c)]
    = [(Key.extentPointDensity, a), (Key.gridPointDensity, b), (Key.voxelPointDensity, c)] := rfl

/-- The coordinates of the points. -/
def coords (ps : List PointRecord) : List (Pt F64) := ps.map HasXYZ.pt

/-- **C66**: the grid density is the number of points divided by the number of occupied squares of side 1, the voxel density the number of
points divided by the number of occupied cubes of side 1, both correctly rounded; they lie between 1 and the number of points. -/
theorem c66_occupied_partial (ps : List PointRecord) (hne : ps ≠ []) (hf : AllFinite ps) (hfit : GridFits (Extent.ofPoints ps) one)
    (hlen : ps.length < 2 ^ 53) :
    ∃ d1 d2 d3, Info.metricValues ps = .ok [(Key.extentPointDensity, d1), (Key.gridPointDensity, d2), (Key.voxelPointDensity, d3)]
      ∧ d1 = div (F64.ofNat ps.length) (Merge.area (Extent.ofPoints ps))
      ∧ Nearest d2 ((ps.length : ℝ) / distinct ((coords ps).map (cell2 (Extent.ofPoints ps).minp)))
      ∧ Nearest d3 ((ps.length : ℝ) / distinct ((coords ps).map (cell3 (Extent.ofPoints ps).minp)))
      ∧ 1 ≤ d3.val ∧ d3.val ≤ d2.val ∧ d2.val ≤ ps.length := by
  have hfin : ∀ p ∈ ps, Spec.Fin (HasXYZ.pt p) := hf
  have h1 : one.isFinite = true := by decide +kernel
  have h2 : 0 < one.fv := by rw [one_fv]; exact_mod_cast one1074_pos
  obtain ⟨vs, hvs, hvl, -⟩ := c22_voxel_indexes ps one hfin h1 h2 hfit
  obtain ⟨hin, -⟩ := c15_extent_tight_partial ps hne hfin
  obtain ⟨hmin, -⟩ := extent_finite ps hne hfin
  set m := (Extent.ofPoints ps).minp with hm
  have hz : List.Forall₂ (fun p v => Voxel.getIndex (HasXYZ.pt p) m one = .ok v) ps vs := mapM_eq_ok.mp hvs
  set L := ps.zip vs with hL
  have hps : ps = L.map Prod.fst := by rw [hL, List.map_fst_zip (by omega)]
  have hvs' : vs = L.map Prod.snd := by rw [hL, List.map_snd_zip (by omega)]
  have hcell : ∀ e ∈ L, (e.2.i.toNat : ℤ) = ⌊(sub (HasXYZ.pt e.1).x m.x).val⌋ ∧ (e.2.j.toNat : ℤ) = ⌊(sub (HasXYZ.pt e.1).y m.y).val⌋
        ∧ (e.2.k.toNat : ℤ) = ⌊(sub (HasXYZ.pt e.1).z m.z).val⌋ := by
    intro e he
    have hi := (List.forall₂_iff_zip.mp hz).2 (show (e.1, e.2) ∈ ps.zip vs from he)
    have hmem : e.1 ∈ ps := by rw [hps]; exact List.mem_map_of_mem he
    obtain ⟨i1, i2, i3⟩ := getIndex_eq.mp hi
    obtain ⟨f1, f2, f3⟩ := hfin e.1 hmem
    obtain ⟨m1, m2, m3⟩ := hmin
    have hI := hin e.1 hmem
    exact ⟨index1_one f1 m1 hI.1 i1, index1_one f2 m2 hI.2.2.1 i2, index1_one f3 m3 hI.2.2.2.2.1 i3⟩
  have hn : L.length = ps.length := by rw [hL, List.length_zip]; omega
  have u64 : ∀ {a b : UInt64}, a = b ↔ (a.toNat : ℤ) = (b.toNat : ℤ) := by
    intro a b
    constructor
    · intro h; rw [h]
    · intro h; exact UInt64.toNat_inj.mp (by exact_mod_cast h)
  have hV : (Voxel.getSet vs).length = distinct ((coords ps).map (cell3 m)) := by
    rw [getSet_spec, distinct, coords, List.map_map]
    conv_lhs => rw [hvs']
    conv_rhs => rw [hps]
    rw [List.map_map]
    apply card_map_eq
    intro a ha b hb
    obtain ⟨a1, a2, a3⟩ := hcell a ha
    obtain ⟨b1, b2, b3⟩ := hcell b hb
    have : a.2 = b.2 ↔ a.2.i = b.2.i ∧ a.2.j = b.2.j ∧ a.2.k = b.2.k := by
      constructor
      · intro h; rw [h]; exact ⟨rfl, rfl, rfl⟩
      · rintro ⟨e1, e2, e3⟩
        cases hA : a.2
        cases hB : b.2
        rw [hA, hB] at e1 e2 e3
        simp only at e1 e2 e3
        rw [e1, e2, e3]
    rw [this, u64, u64, u64, a1, a2, a3, b1, b2, b3]
    show _ ↔ cell3 m (HasXYZ.pt a.1) = cell3 m (HasXYZ.pt b.1)
    unfold cell3
    rw [Prod.mk.injEq, Prod.mk.injEq]
  have hG : (Voxel.getSet (vs.map (fun i => { i with k := 0 }))).length = distinct ((coords ps).map (cell2 m)) := by
    rw [getSet_spec, distinct, coords, List.map_map]
    conv_lhs => rw [hvs']
    conv_rhs => rw [hps]
    rw [List.map_map, List.map_map]
    apply card_map_eq
    intro a ha b hb
    obtain ⟨a1, a2, -⟩ := hcell a ha
    obtain ⟨b1, b2, -⟩ := hcell b hb
    have : ({ a.2 with k := 0 } : VoxelIndex) = { b.2 with k := 0 } ↔ a.2.i = b.2.i ∧ a.2.j = b.2.j := by
      rw [VoxelIndex.mk.injEq]
      simp
    show ({ a.2 with k := 0 } : VoxelIndex) = { b.2 with k := 0 } ↔ cell2 m (HasXYZ.pt a.1) = cell2 m (HasXYZ.pt b.1)
    rw [this, u64, u64, a1, a2, b1, b2]
    unfold cell2
    rw [Prod.mk.injEq]
  set G := distinct ((coords ps).map (cell2 m))
  set V := distinct ((coords ps).map (cell3 m))
  have hlen0 : 0 < ps.length := List.length_pos_iff.mpr hne
  have hGV : G ≤ V := card_map_le (l := coords ps) (f := cell3 m) (g := fun c => (c.1, c.2.1))
  have hVn : V ≤ ps.length := by
    refine le_trans (List.toFinset_card_le _) ?_
    rw [coords, List.length_map, List.length_map]
  have hG0 : 0 < G := by
    apply Finset.card_pos.mpr
    obtain ⟨p, hp⟩ := List.exists_mem_of_ne_nil _ hne
    exact ⟨cell2 m (HasXYZ.pt p), by rw [List.mem_toFinset]; exact List.mem_map_of_mem (List.mem_map_of_mem hp)⟩
  refine ⟨div (F64.ofNat ps.length) (Merge.area (Extent.ofPoints ps)), div (F64.ofNat ps.length) (F64.ofNat G),
    div (F64.ofNat ps.length) (F64.ofNat V), ?_, rfl, ?_, ?_, ?_, ?_, ?_⟩
  · unfold Info.metricValues
    have : Voxel.getIndexesIn ps (Extent.ofPoints ps) one = .ok vs := hvs
    simp only [this, Res.ok_bind, hV, hG, three_entries]
  · exact (quotient hG0 (by omega) hlen).1
  · exact (quotient (by omega) hVn hlen).1
  · exact (quotient (by omega) hVn hlen).2.1
  · exact quotient_mono hG0 hGV hlen hVn
  · exact (quotient hG0 (by omega) hlen).2.2

/-- **C66**: the extent density is the number of points divided by the area of the bounding rectangle, correctly rounded, if the area is
positive and does not overflow; sides and area are correctly rounded as well. -/
theorem c66_extent_partial (ps : List PointRecord) (hne : ps ≠ []) (hf : AllFinite ps) (hlen : ps.length < 2 ^ 53)
    (e : Extent) (he : e = Extent.ofPoints ps) (hx : (sub e.maxp.x e.minp.x).isFinite = true) (hy : (sub e.maxp.y e.minp.y).isFinite = true)
    (ha : (Merge.area e).isFinite = true) (hpos : 0 < (Merge.area e).fv) :
    Nearest (div (F64.ofNat ps.length) (Merge.area e)) ((ps.length : ℝ) / (Merge.area e).val)
      ∧ Nearest (Merge.area e) ((sub e.maxp.x e.minp.x).val * (sub e.maxp.y e.minp.y).val)
      ∧ Nearest (sub e.maxp.x e.minp.x) (e.maxp.x.val - e.minp.x.val) ∧ Nearest (sub e.maxp.y e.minp.y) (e.maxp.y.val - e.minp.y.val) := by
  obtain ⟨hmin, hmax⟩ := extent_finite ps hne hf
  rw [← he] at hmin hmax
  obtain ⟨a1, a2, a3⟩ := ofNat_pos (n := ps.length) (List.length_pos_iff.mpr hne) hlen
  refine ⟨?_, mul_nearest hx hy, sub_nearest hmax.1 hmin.1, sub_nearest hmax.2.1 hmin.2.1⟩
  have := div_nearest a1 ha hpos
  rwa [a2] at this

theorem div_zero_inf (n : Nat) (h0 : 0 < n) (hn : n < 2 ^ 53) (a : F64) (ha : a.mag = 0) : (div (F64.ofNat n) a).isInf = true := by
  obtain ⟨a1, a2, a3⟩ := ofNat_pos h0 hn
  have hmag := (fv_pos.mp a3).2
  have hN : a.isNaN = false := by rw [isNaN_eq_false, ha]; exact Nat.zero_le _
  have hI : a.isInf = false := by unfold isInf; rw [ha]; decide
  unfold div
  rw [not_nan_of_finite a1, hN, isInf_eq_false_of_finite a1, hI, ha]
  simp only [Bool.or_self, Bool.false_eq_true, if_false, if_true, hmag]
  exact inf_isInf _

/-- What is missing: if all points have the same x, the reported extent density is infinite. -/
theorem c66_flat (ps : List PointRecord) (hne : ps ≠ []) (hf : AllFinite ps) (hlen : ps.length < 2 ^ 53)
    (hflat : ∀ p ∈ ps, ∀ q ∈ ps, p.x = q.x)
    (hy : (sub (Extent.ofPoints ps).maxp.y (Extent.ofPoints ps).minp.y).isFinite = true) :
    (div (F64.ofNat ps.length) (Merge.area (Extent.ofPoints ps))).isInf = true := by
  apply div_zero_inf _ (List.length_pos_iff.mpr hne) hlen
  obtain ⟨-, ⟨p1, m1, e1⟩, ⟨p2, m2, e2⟩, -⟩ := c15_extent_tight_partial ps hne hf
  obtain ⟨hmin, hmax⟩ := extent_finite ps hne hf
  have e : (Extent.ofPoints ps).maxp.x = (Extent.ofPoints ps).minp.x := by
    rw [← e1, ← e2]
    exact hflat p2 m2 p1 m1
  have hs : (sub (Extent.ofPoints ps).maxp.x (Extent.ofPoints ps).minp.x).fv = 0 := by
    rw [sub_fv hmax.1 hmin.1, e, sub_self, rfv_zero (by norm_num)]
  have hm : (Merge.area (Extent.ofPoints ps)).fv = 0 := by
    unfold Merge.area
    rw [mul_fv (finite_of_fv_zero hs) hy, hs, Int.zero_mul, rfv_zero one1074_pos]
  exact fv_eq_zero.mp hm

example : exampleFile.prs.take 1 ≠ [] ∧ AllFinite (exampleFile.prs.take 1) ∧ (∀ p ∈ exampleFile.prs.take 1, ∀ q ∈ exampleFile.prs.take 1, p.x = q.x)
    ∧ (sub (Extent.ofPoints (exampleFile.prs.take 1)).maxp.y (Extent.ofPoints (exampleFile.prs.take 1)).minp.y).isFinite = true := by
  unfold AllFinite
  decide +kernel

/-- Three points. -/
def threePoints : List PointRecord :=
  [⟨F64.ofNat 0, F64.ofNat 0, F64.ofNat 0, 0, 0, 0, 0, 0, 0, []⟩, ⟨F64.ofNat 2, F64.ofNat 3, F64.ofNat 0, 0, 0, 0, 0, 0, 0, []⟩,
    ⟨F64.ofNat 2, F64.ofNat 3, F64.ofNat 4, 0, 0, 0, 0, 0, 0, []⟩]

example : threePoints ≠ [] ∧ AllFinite threePoints ∧ GridFits (Extent.ofPoints threePoints) one
    ∧ (sub (Extent.ofPoints threePoints).maxp.x (Extent.ofPoints threePoints).minp.x).isFinite = true
    ∧ (sub (Extent.ofPoints threePoints).maxp.y (Extent.ofPoints threePoints).minp.y).isFinite = true
    ∧ (Merge.area (Extent.ofPoints threePoints)).isFinite = true ∧ 0 < (Merge.area (Extent.ofPoints threePoints)).fv := by
  unfold AllFinite
  decide +kernel

end Spoc.Props
