import Verif.Proofs.Distance
import Verif.Props.RadiusSearch
import Verif.Props.Rotation

/-!
# C27 and C28 in terms of the Euclidean distance

The theorems of `Verif/Props/RadiusSearch.lean` speak about the distance that the library computes.  Here the computed
distance is compared with the Euclidean distance of the points (`dist3`).
-/

namespace Spoc.Props

open Spec F64 RadiusSearch HasXYZ

/-- The error allowed for a computed distance. -/
noncomputable def slack (d : ℝ) : ℝ := d / 2 ^ 49 + 1 / 2 ^ 535

/-- C27: `point::distance` is the Euclidean distance up to rounding; it does not overflow. -/
theorem c27_distance (p q : Pt F64) (hp : BelowPt 490 p) (hq : BelowPt 490 q) :
    (Pt.distance p q).isFinite = true ∧ |(Pt.distance p q).val - dist3 p q| ≤ slack (dist3 p q) :=
  distance_val hp hq

section
variable {α : Type} [HasXYZ α]

theorem val_le_fv {x y : F64} : x.val ≤ y.val ↔ x.fv ≤ y.fv := by
  unfold val
  rw [div_le_div_iff_of_pos_right one1074_pos']
  exact Int.cast_le

/-- C27: what the search reports is within the radius, up to rounding: for every cloud with coordinates up to 2^490. -/
theorem c27_euclidean (b : Build) (rng : Nat → Nat → Nat) (points : List α) (pis nis : List Nat) (radius : F64) (maxN : Nat)
    (nss : List (List Nat)) (h : search b rng points pis nis radius maxN = .ok nss) (hb : ∀ p ∈ points, BelowPt 490 (pt p)) :
    ∀ (i j : Nat) ns, nss[i]? = some ns → j ∈ ns →
      ∃ pi nj p q, pis[i]? = some pi ∧ nis[j]? = some nj ∧ points[pi]? = some p ∧ points[nj]? = some q
        ∧ dist3 (pt p) (pt q) ≤ radius.val + slack (dist3 (pt p) (pt q)) := by
  intro i j ns hns hj
  obtain ⟨_, pi, nj, p, q, h1, h2, h3, h4, h5⟩ := ((c27_sound b rng points pis nis radius maxN nss h).2 i ns hns).2.2 j hj
  refine ⟨pi, nj, p, q, h1, h2, h3, h4, ?_⟩
  have hd := (c27_distance (pt p) (pt q) (hb _ (List.mem_of_getElem? h3)) (hb _ (List.mem_of_getElem? h4))).2
  have hr := val_le_fv.mpr (F64.le_iff.mp h5).2.2
  linarith [(abs_le.mp hd).1]

theorem coord_le_dist {a c d e : ℝ} (h : Real.sqrt (a ^ 2 + c ^ 2 + d ^ 2) ≤ e) : |a| ≤ e ∧ |c| ≤ e ∧ |d| ≤ e := by
  refine ⟨le_trans ?_ h, le_trans ?_ h, le_trans ?_ h⟩ <;> apply Real.abs_le_sqrt <;>
    nlinarith [sq_nonneg a, sq_nonneg c, sq_nonneg d]

theorem close_coord {x y r : F64} (h : |x.val - y.val| ≤ (1 - 1 / 2 ^ 19) * r.val) :
    2 ^ 19 * ((x.fv - y.fv).natAbs : Int) ≤ (2 ^ 19 - 1) * r.fv := by
  have hU := one1074_pos'
  unfold val at h
  rw [← sub_div, abs_div, abs_of_pos hU, ← mul_div_assoc, div_le_div_iff_of_pos_right hU] at h
  rw [← Int.abs_eq_natAbs]
  have h2 : (2 : ℝ) ^ 19 * |(x.fv : ℝ) - y.fv| ≤ (2 ^ 19 - 1) * r.fv := by
    calc (2 : ℝ) ^ 19 * |(x.fv : ℝ) - y.fv| ≤ 2 ^ 19 * ((1 - 1 / 2 ^ 19) * r.fv) := mul_le_mul_of_nonneg_left h (by norm_num)
      _ = (2 ^ 19 - 1) * r.fv := by ring
  exact_mod_cast h2

/-- C28 (partial: for neighbours at most (1 - 2^-19) times the radius away): the search reports every point that near,
if it reports fewer than the maximum. -/
theorem c28_euclidean_partial (b : Build) (rng : Nat → Nat → Nat) (points : List α) (pis nis : List Nat)
    (radius : F64) (maxN : Nat) (nss : List (List Nat)) (h : search b rng points pis nis radius maxN = .ok nss)
    (hb : ∀ p ∈ points, BelowPt 490 (pt p)) (hr : radius.isFinite = true) (hpos : 1 / 2 ^ 500 ≤ radius.val)
    (hsmall : SmallVoxels points pis radius)
    (i j pi nj : Nat) (p q : α) (ns : List Nat) (hns : nss[i]? = some ns) (hless : ns.length < maxN)
    (hpi : pis[i]? = some pi) (hnj : nis[j]? = some nj) (hp : points[pi]? = some p) (hq : points[nj]? = some q)
    (hd : dist3 (pt p) (pt q) ≤ (1 - 1 / 2 ^ 19) * radius.val) : j ∈ ns := by
  have hbp := hb _ (List.mem_of_getElem? hp)
  have hbq := hb _ (List.mem_of_getElem? hq)
  obtain ⟨d1, d2⟩ := c27_distance (pt p) (pt q) hbp hbq
  have h500 : (0 : ℝ) < 1 / 2 ^ 500 := div_pos one_pos (pow_pos (by norm_num) _)
  have hrpos : 0 < radius.val := lt_of_lt_of_le h500 hpos
  have hfv : 0 < radius.fv := by
    unfold val at hrpos
    have := (div_pos_iff_of_pos_right one1074_pos').mp hrpos
    exact_mod_cast this
  have hle : F64.le (Pt.distance (pt p) (pt q)) radius = true := by
    refine F64.le_iff.mpr ⟨not_nan_of_finite d1, not_nan_of_finite hr, val_le_fv.mp ?_⟩
    have h535 : (1 : ℝ) / 2 ^ 535 ≤ 1 / 2 ^ 20 * (1 / 2 ^ 500) := by
      rw [one_div_mul_one_div, ← pow_add]
      exact one_div_le_one_div_of_le (pow_pos (by norm_num) _) (pow_le_pow_right₀ (by norm_num) (by norm_num))
    unfold slack at d2
    generalize (1 : ℝ) / 2 ^ 535 = u at *
    generalize (1 : ℝ) / 2 ^ 500 = v at *
    have := (abs_le.mp d2).2
    norm_num at *
    linarith
  obtain ⟨c1, c2, c3⟩ := coord_le_dist hd
  exact c28_complete_partial b rng points pis nis radius maxN nss h
    (fun p hp => ⟨(hb p hp).1.1, (hb p hp).2.1.1, (hb p hp).2.2.1⟩) hr hfv hsmall i j pi nj p q ns hns hless hpi hnj hp hq hle
    ⟨close_coord c1, close_coord c2, close_coord c3⟩

end

theorem num_val {n : Int} (h : n.natAbs < 2 ^ 53) : (num n).val = n := ofInt_val h

theorem num_bounded {n : Int} (h : n.natAbs < 2 ^ 53) : Below 490 (num n) := by
  refine ⟨ofInt_finite h, ?_⟩
  rw [num_val h]
  have h1 : |(n : ℝ)| ≤ 2 ^ 53 := by
    have : |n| ≤ 2 ^ 53 := by rw [Int.abs_eq_natAbs]; omega
    exact_mod_cast this
  exact h1.trans (pow_le_pow_right₀ (by norm_num) (by norm_num))

theorem three_points {P : Pt F64 → Prop} {a c d : Pt F64} (ha : P a) (hc : P c) (hd : P d) : ∀ p ∈ [a, c, d], P p := by
  intro p hp
  simp only [List.mem_cons, List.not_mem_nil, or_false] at hp
  rcases hp with rfl | rfl | rfl <;> assumption

theorem belowPt_mk {k : Nat} {x y z : F64} (hx : Below k x) (hy : Below k y) (hz : Below k z) : BelowPt k ⟨x, y, z⟩ := ⟨hx, hy, hz⟩

/-- A cloud with a neighbour at distance 5 that is found with radius 6. -/
def farCloud : List (Pt F64) := [⟨num 0, num 0, num 0⟩, ⟨num 3, num 4, num 0⟩, ⟨num 70, num 0, num 0⟩]

/-- The hypotheses of `c27_euclidean` and `c28_euclidean_partial` hold for it. -/
example : search .debug (fun _ _ => 5) farCloud [0, 1] [0, 1, 2] (num 6) 4 = .ok [[1, 0], [1, 0]]
    ∧ (∀ p ∈ farCloud, BelowPt 490 p) ∧ (num 6).isFinite = true ∧ 1 / 2 ^ 500 ≤ (num 6).val
    ∧ SmallVoxels farCloud [0, 1] (num 6)
    ∧ dist3 ⟨num 0, num 0, num 0⟩ ⟨num 3, num 4, num 0⟩ = 5 ∧ (5 : ℝ) ≤ (1 - 1 / 2 ^ 19) * (num 6).val := by
  have h6 : (num 6).val = 6 := by exact_mod_cast num_val (n := 6) (by decide)
  have h0 : (num 0).val = 0 := by exact_mod_cast num_val (n := 0) (by decide)
  have h3 : (num 3).val = 3 := by exact_mod_cast num_val (n := 3) (by decide)
  have h4 : (num 4).val = 4 := by exact_mod_cast num_val (n := 4) (by decide)
  have e1 : search .debug (fun _ _ => 5) farCloud [0, 1] [0, 1, 2] (num 6) 4 = .ok [[1, 0], [1, 0]] := by decide +kernel
  have e2 : (num 6).isFinite = true := by decide +kernel
  refine ⟨e1, ?_, e2, ?_, ?_, ?_, ?_⟩
  · have b0 : Below 490 (num 0) := num_bounded (by decide)
    have b3 : Below 490 (num 3) := num_bounded (by decide)
    have b4 : Below 490 (num 4) := num_bounded (by decide)
    have b70 : Below 490 (num 70) := num_bounded (by decide)
    exact three_points (P := BelowPt 490) (belowPt_mk b0 b0 b0) (belowPt_mk b3 b4 b0) (belowPt_mk b70 b0 b0)
  · rw [h6]
    have : (1 : ℝ) / 2 ^ 500 ≤ 1 := by
      rw [div_le_one (pow_pos (by norm_num) _)]
      exact one_le_pow₀ (by norm_num)
    exact this.trans (by norm_num)
  · intro pvs h
    have : Voxel.getIndexesOf farCloud [0, 1] (num 6) = .ok [⟨0, 0, 0⟩, ⟨0, 0, 0⟩] := by decide +kernel
    obtain rfl := Res.ok.inj (this.symm.trans h)
    decide
  · unfold dist3
    rw [h0, h3, h4]
    rw [show ((0 : ℝ) - 3) ^ 2 + (0 - 4) ^ 2 + (0 - 0) ^ 2 = 5 ^ 2 by norm_num]
    exact Real.sqrt_sq (by norm_num)
  · rw [h6]
    norm_num

end Spoc.Props
