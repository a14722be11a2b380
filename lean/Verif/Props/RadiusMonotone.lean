import Verif.Props.Distance

/-!
# C133: a larger search radius finds at least what a smaller one finds

The property fails for two radii that differ by one rounding step: the boxes that a search looks into are placed
anew for each radius, and rounding may put a neighbour two boxes away.  It holds as soon as the larger radius is larger
by a factor of 1 + 2^-18.
-/

namespace Spoc.Props

open Spec F64 RadiusSearch HasXYZ

section
variable {α : Type} [HasXYZ α]

theorem dist_shrinks {d r1 r2 u v : ℝ} (hd : d ≤ r1 + (d / 2 ^ 49 + u)) (h12 : r1 ≤ (1 - 1 / 2 ^ 18) * r2) (hu : u ≤ 1 / 2 ^ 20 * v)
    (hv : v ≤ r2) (hv0 : 0 < v) : d ≤ (1 - 1 / 2 ^ 19) * r2 := by
  norm_num at *
  linarith

/-- C133 (partial: for radii that differ by more than rounding, and searches that do not reach the maximum): whatever
the random choices of the two searches, what is found around a point with the smaller radius is found with the larger
radius. -/
theorem c133_larger_partial (b : Build) (rng rng' : Nat → Nat → Nat) (points : List α) (pis nis : List Nat)
    (r1 r2 : F64) (maxN maxN' : Nat) (nss nss' : List (List Nat))
    (h1 : search b rng points pis nis r1 maxN = .ok nss) (h2 : search b rng' points pis nis r2 maxN' = .ok nss')
    (hb : ∀ p ∈ points, BelowPt 490 (pt p)) (hr : r2.isFinite = true) (hpos : 1 / 2 ^ 500 ≤ r2.val)
    (hsmall : SmallVoxels points pis r2) (h12 : r1.val ≤ (1 - 1 / 2 ^ 18) * r2.val)
    (i : Nat) (ns ns' : List Nat) (hns : nss[i]? = some ns) (hns' : nss'[i]? = some ns') (hless : ns'.length < maxN') :
    ∀ j ∈ ns, j ∈ ns' := by
  intro j hj
  obtain ⟨pi, nj, p, q, e1, e2, e3, e4, e5⟩ := c27_euclidean b rng points pis nis r1 maxN nss h1 hb i j ns hns hj
  refine c28_euclidean_partial b rng' points pis nis r2 maxN' nss' h2 hb hr hpos hsmall i j pi nj p q ns' hns' hless
    e1 e2 e3 e4 ?_
  have h500 : (0 : ℝ) < 1 / 2 ^ 500 := div_pos one_pos (pow_pos (by norm_num) _)
  have h535 : (1 : ℝ) / 2 ^ 535 ≤ 1 / 2 ^ 20 * (1 / 2 ^ 500) := by
    rw [one_div_mul_one_div, ← pow_add]
    exact one_div_le_one_div_of_le (pow_pos (by norm_num) _) (pow_le_pow_right₀ (by norm_num) (by norm_num))
  unfold slack at e5
  exact dist_shrinks e5 h12 h535 hpos h500

/-- C133 (partial, likewise): so there are at least as many neighbours. -/
theorem c133_count_partial (b : Build) (rng rng' : Nat → Nat → Nat) (points : List α) (pis nis : List Nat)
    (r1 r2 : F64) (maxN maxN' : Nat) (nss nss' : List (List Nat))
    (h1 : search b rng points pis nis r1 maxN = .ok nss) (h2 : search b rng' points pis nis r2 maxN' = .ok nss')
    (hb : ∀ p ∈ points, BelowPt 490 (pt p)) (hr : r2.isFinite = true) (hpos : 1 / 2 ^ 500 ≤ r2.val)
    (hsmall : SmallVoxels points pis r2) (h12 : r1.val ≤ (1 - 1 / 2 ^ 18) * r2.val)
    (hmax : maxN ≤ maxN') (i : Nat) (ns ns' : List Nat) (hns : nss[i]? = some ns) (hns' : nss'[i]? = some ns') :
    ns.length ≤ ns'.length := by
  have s1 := (c27_sound b rng points pis nis r1 maxN nss h1).2 i ns hns
  by_cases hless : ns'.length < maxN'
  · exact (List.subperm_of_subset s1.2.1 (c133_larger_partial b rng rng' points pis nis r1 r2 maxN maxN' nss nss' h1 h2 hb hr
      hpos hsmall h12 i ns ns' hns hns' hless)).length_le
  · have := s1.1
    omega

end

/-- C133 fails in general: three points on a line, two radii that are neighbouring floating point numbers near 1.8.  The
smaller radius finds the neighbour and the larger one does not, whatever the random choices. -/
theorem c133_lost (b : Build) (rng : Nat → Nat → Nat) :
    let a : Pt F64 := ⟨⟨0x4026666666666666⟩, num 0, num 0⟩
    let c : Pt F64 := ⟨⟨0x4029FFFFFFFFFFFF⟩, num 0, num 0⟩
    let pts : List (Pt F64) := [⟨⟨0xC00999999999999A⟩, num 0, num 0⟩, a, c]
    let r1 : F64 := ⟨0x3FFCCCCCCCCCCCCC⟩
    let r2 : F64 := ⟨0x3FFCCCCCCCCCCCCD⟩
    F64.lt r1 r2 = true ∧ search b rng pts [1] [2] r1 32 = .ok [[0]] ∧ search b rng pts [1] [2] r2 32 = .ok [[]] := by
  intro a c pts r1 r2
  refine ⟨by decide +kernel, ?_, ?_⟩
  · have h1 : Voxel.getIndexesOf pts [1] r1 = .ok [⟨8, 0, 0⟩] := by decide +kernel
    have h2 : Voxel.getIndexesOf pts [2] r1 = .ok [⟨9, 0, 0⟩] := by decide +kernel
    have hu : ∃ us, voxels27 ⟨8, 0, 0⟩ = .ok us ∧ candidates (Voxel.getMap [⟨9, 0, 0⟩]) us = [0] :=
      ⟨_, rfl, by decide +kernel⟩
    obtain ⟨us, hu, hc⟩ := hu
    obtain ⟨drawn, rest, out, e1, e2, e3, e4, e5⟩ := getNeighbors_spec b rng pts [1] [2] r1 32 [⟨8, 0, 0⟩] [⟨9, 0, 0⟩]
      rfl rfl (by decide) (by decide) 0 _ rfl us hu
    rw [hc] at e2
    have hl := e2.length_eq
    simp only [List.length_cons, List.length_nil, List.length_append] at hl
    have hr : rest = [] := by
      rcases e5 with e | e
      · exact e
      · have : out.length ≤ drawn.length := by rw [e3]; exact List.length_filter_le _ _
        omega
    subst hr
    rw [List.append_nil] at e2
    obtain rfl := List.perm_singleton.mp e2.symm
    have hw : within pts [1] [2] r1 0 0 = true := by decide +kernel
    rw [List.filter_cons_of_pos hw, List.filter_nil] at e3
    unfold search
    rw [h1, h2, Res.ok_bind, Res.ok_bind]
    show (List.range 1).mapM _ = _
    rw [show List.range 1 = [0] from rfl, List.mapM_cons, e1, e3]
    rfl
  · have h1 : Voxel.getIndexesOf pts [1] r2 = .ok [⟨7, 0, 0⟩] := by decide +kernel
    have h2 : Voxel.getIndexesOf pts [2] r2 = .ok [⟨9, 0, 0⟩] := by decide +kernel
    have hu : ∃ us, voxels27 ⟨7, 0, 0⟩ = .ok us ∧ candidates (Voxel.getMap [⟨9, 0, 0⟩]) us = [] :=
      ⟨_, rfl, by decide +kernel⟩
    obtain ⟨us, hu, hc⟩ := hu
    obtain ⟨drawn, rest, out, e1, e2, e3, _, _⟩ := getNeighbors_spec b rng pts [1] [2] r2 32 [⟨7, 0, 0⟩] [⟨9, 0, 0⟩]
      rfl rfl (by decide) (by decide) 0 _ rfl us hu
    rw [hc] at e2
    have : drawn = [] := by
      have := e2.length_eq
      simp only [List.length_nil, List.length_append] at this
      exact List.length_eq_zero_iff.mp (by omega)
    rw [this] at e3
    simp only [List.filter_nil] at e3
    unfold search
    rw [h1, h2, Res.ok_bind, Res.ok_bind]
    show (List.range 1).mapM _ = _
    rw [show List.range 1 = [0] from rfl, List.mapM_cons, e1, e3]
    rfl

/-- The hypotheses of `c133_larger_partial` hold for a cloud, the radii 2 and 6, and searches that find different sets. -/
example : search .debug (fun _ _ => 5) farCloud [0, 1] [0, 1, 2] (num 2) 4 = .ok [[0], [1]]
    ∧ search .debug (fun _ _ => 5) farCloud [0, 1] [0, 1, 2] (num 6) 4 = .ok [[1, 0], [1, 0]]
    ∧ (∀ p ∈ farCloud, BelowPt 490 p) ∧ (num 6).isFinite = true ∧ 1 / 2 ^ 500 ≤ (num 6).val
    ∧ SmallVoxels farCloud [0, 1] (num 6) ∧ (num 2).val ≤ (1 - 1 / 2 ^ 18) * (num 6).val := by
  have h6 : (num 6).val = 6 := by exact_mod_cast num_val (n := 6) (by decide)
  have h2 : (num 2).val = 2 := by exact_mod_cast num_val (n := 2) (by decide)
  have e1 : search .debug (fun _ _ => 5) farCloud [0, 1] [0, 1, 2] (num 2) 4 = .ok [[0], [1]] := by decide +kernel
  have e2 : search .debug (fun _ _ => 5) farCloud [0, 1] [0, 1, 2] (num 6) 4 = .ok [[1, 0], [1, 0]] := by decide +kernel
  have e3 : (num 6).isFinite = true := by decide +kernel
  refine ⟨e1, e2, ?_, e3, ?_, ?_, ?_⟩
  · have b0 : Below 490 (num 0) := num_bounded (by decide)
    have b3 : Below 490 (num 3) := num_bounded (by decide)
    have b4 : Below 490 (num 4) := num_bounded (by decide)
    have b70 : Below 490 (num 70) := num_bounded (by decide)
    exact three_points (P := BelowPt 490) (belowPt_mk b0 b0 b0) (belowPt_mk b3 b4 b0) (belowPt_mk b70 b0 b0)
  · rw [h6]
    have : (1 : ℝ) / 2 ^ 500 ≤ 1 := by
      rw [div_le_one (pow_pos (by norm_num) _)]
      exact one_le_pow₀ (by norm_num)
    exact this.trans (by norm_num)
  · intro pvs h
    have : Voxel.getIndexesOf farCloud [0, 1] (num 6) = .ok [⟨0, 0, 0⟩, ⟨0, 0, 0⟩] := by decide +kernel
    obtain rfl := Res.ok.inj (this.symm.trans h)
    decide
  · rw [h6, h2]
    norm_num

end Spoc.Props
