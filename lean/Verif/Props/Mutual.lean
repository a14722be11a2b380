import Verif.Proofs.Mutual
import Verif.Props.RadiusSearch

/-!
# C109: being neighbours is mutual, and the neighbours do not depend on chance until the maximum cuts the list
-/

namespace Spoc.Props

open Spec RadiusSearch

section
variable {α : Type} [HasXYZ α]

/-- What a list that the maximum did not cut contains. -/
theorem uncut_eq (b : Build) (rng : Nat → Nat → Nat) (points : List α) (pis nis : List Nat)
    (radius : F64) (maxN : Nat) (nss : List (List Nat)) (h : search b rng points pis nis radius maxN = .ok nss)
    (i : Nat) (ns : List Nat) (hns : nss[i]? = some ns) (h0 : maxN ≠ 0) :
    ∃ pvs nvs v us drawn rest, Voxel.getIndexesOf points pis radius = .ok pvs
      ∧ Voxel.getIndexesOf points nis radius = .ok nvs ∧ pvs[i]? = some v
      ∧ voxels27 v = .ok us ∧ (candidates (Voxel.getMap nvs) us).Perm (drawn ++ rest)
      ∧ ns = drawn.filter (within points pis nis radius i) ∧ ns.length ≤ maxN ∧ (rest = [] ∨ ns.length = maxN) := by
  unfold search at h
  simp only [Res.bind_eq_ok] at h
  obtain ⟨pvs, hp, nvs, hn, h⟩ := h
  obtain ⟨p1, p2, p3⟩ := getIndexesOf_get hp
  obtain ⟨n1, n2, n3⟩ := getIndexesOf_get hn
  have hi : i < pvs.length := by
    have := (List.getElem?_eq_some_iff.mp hns).1
    rwa [mapM_length h, List.length_range] at this
  obtain ⟨ns', h1, h2⟩ := mapM_get h (i := i) (a := i) (by simp [hi])
  rw [hns] at h1
  obtain rfl := Option.some.inj h1
  have hv := List.getElem?_eq_getElem hi
  have hu : ∃ us, voxels27 pvs[i] = .ok us := by
    unfold getNeighbors at h2
    rw [if_neg h0] at h2
    simp only [Voxel.at', hv, Res.ok_bind, Res.bind_eq_ok] at h2
    obtain ⟨s, hs, _⟩ := h2
    unfold Selector.new at hs
    rw [Res.bind_eq_ok] at hs
    obtain ⟨us, hus, _⟩ := hs
    exact ⟨us, hus⟩
  obtain ⟨us, hu⟩ := hu
  obtain ⟨drawn, rest, out, e1, e2, e3, e4, e5⟩ :=
    getNeighbors_spec b rng points pis nis radius maxN pvs nvs p1 n1 p2 n2 i _ hv us hu
  rw [h2] at e1
  obtain rfl := Res.ok.inj e1
  exact ⟨pvs, nvs, _, us, drawn, rest, hp, hn, hv, hu, e2, e3, e4, e5⟩

theorem toInt_small {u : UInt64} (hu : u.toNat < 2 ^ 31 - 2) : toInt u = u.toNat := by
  unfold toInt
  simp only
  rw [Nat.mod_eq_of_lt (by omega), if_pos (by omega)]

theorem mem27_symm {v w : VoxelIndex} {vs ws : List VoxelIndex}
    (sv : v.i.toNat < 2 ^ 31 - 2 ∧ v.j.toNat < 2 ^ 31 - 2 ∧ v.k.toNat < 2 ^ 31 - 2)
    (sw : w.i.toNat < 2 ^ 31 - 2 ∧ w.j.toNat < 2 ^ 31 - 2 ∧ w.k.toNat < 2 ^ 31 - 2)
    (hv : voxels27 v = .ok vs) (hw : voxels27 w = .ok ws) (h : w ∈ vs) : v ∈ ws := by
  obtain ⟨us, hu, _, _, hm⟩ := c29_voxels w sw.1 sw.2.1 sw.2.2
  rw [hw] at hu
  obtain rfl := Res.ok.inj hu
  obtain ⟨a, b, c, ha, hb, hc, e⟩ := ((voxels27_spec hv).2.2 w).mp h
  have key : ∀ (x y : UInt64) (d : Int), -1 ≤ d ∧ d ≤ 1 → x.toNat < 2 ^ 31 - 2 → y.toNat < 2 ^ 31 - 2 →
      y = ofInt (toInt x + d) → (y.toNat : Int) = x.toNat + d := by
    intro x y d hd hx hy e
    have := ofInt_toNat (toInt x + d)
    rw [← e, toInt_small hx] at this
    omega
  rw [VoxelIndex.mk.injEq] at e
  have k1 := key _ _ _ ha sv.1 sw.1 e.1
  have k2 := key _ _ _ hb sv.2.1 sw.2.1 e.2.1
  have k3 := key _ _ _ hc sv.2.2 sw.2.2 e.2.2
  exact hm v (by omega) (by omega) (by omega) (by omega) (by omega) (by omega)

theorem inReach_symm {points : List α} {indexes : List Nat} {radius : F64} {i j : Nat}
    (h : InReach points indexes indexes radius i j) : InReach points indexes indexes radius j i := by
  obtain ⟨a, c, p, q, h1, h2, h3, h4, h5⟩ := h
  exact ⟨c, a, q, p, h2, h1, h4, h3, by rw [Pt.distance_comm]; exact h5⟩

/-- C109 (partial: for lists the maximum did not cut, see `c109_cut_not_mutual`): in a search of some points among
themselves, if `j` is listed as a neighbour of `i` then `i` is listed as a neighbour of `j`.  This is exact: it holds
for all coordinates, also at the rim, where rounding decides what is found, and for all random numbers. -/
theorem c109_mutual_partial (b : Build) (rng : Nat → Nat → Nat) (points : List α) (indexes : List Nat) (radius : F64)
    (maxN : Nat) (nss : List (List Nat)) (h : searchIndexes b rng points indexes radius maxN = .ok nss)
    (hsmall : SmallVoxels points indexes radius)
    (i j : Nat) (ns ms : List Nat) (hi : nss[i]? = some ns) (hj : nss[j]? = some ms)
    (hms : ms.length < maxN) (hmem : j ∈ ns) : i ∈ ms := by
  obtain ⟨pvs, nvs, v, us, drawn, rest, hp, hn, hv, hu, e2, e3, e4, e5⟩ :=
    uncut_eq b rng points indexes indexes radius maxN nss h i ns hi (by omega)
  obtain ⟨pvs', nvs', w, xs, drawn', rest', hp', hn', hw, hx, f2, f3, f4, f5⟩ :=
    uncut_eq b rng points indexes indexes radius maxN nss h j ms hj (by omega)
  rw [hp] at hp' hn hn'
  obtain rfl := Res.ok.inj hp'
  obtain rfl := Res.ok.inj hn
  obtain rfl := Res.ok.inj hn'
  have sv := hsmall pvs hp v (List.mem_of_getElem? hv)
  have sw := hsmall pvs hp w (List.mem_of_getElem? hw)
  rw [e3] at hmem
  obtain ⟨m1, m2⟩ := List.mem_filter.mp hmem
  obtain ⟨w', hw', ew⟩ := ((c29_candidates v pvs us hu).2 j).mp (e2.mem_iff.mpr (List.mem_append_left _ m1))
  rw [hw] at ew
  obtain rfl := Option.some.inj ew
  have hr : rest' = [] := f5.resolve_right (by omega)
  rw [hr, List.append_nil] at f2
  rw [f3]
  refine List.mem_filter.mpr ⟨f2.mem_iff.mp (((c29_candidates w pvs xs hx).2 i).mpr
    ⟨v, mem27_symm sv sw hu hx hw', hv⟩), ?_⟩
  exact (within_iff _ _ _ _ _ _).mpr (inReach_symm ((within_iff _ _ _ _ _ _).mp m2))

/-- C109 for `radius_search_all` (partial as `c109_mutual_partial`): of two points whose lists the maximum did not cut,
either each lists the other or neither does. -/
theorem c109_all_mutual_partial (b : Build) (rng : Nat → Nat → Nat) (points : List α) (radius : F64)
    (maxN : Nat) (nss : List (List Nat)) (h : searchAll b rng points radius maxN = .ok nss)
    (hsmall : SmallVoxels points (List.range points.length) radius)
    (i j : Nat) (ns ms : List Nat) (hi : nss[i]? = some ns) (hj : nss[j]? = some ms)
    (hns : ns.length < maxN) (hms : ms.length < maxN) : j ∈ ns ↔ i ∈ ms :=
  ⟨c109_mutual_partial b rng points _ radius maxN nss h hsmall i j ns ms hi hj hms,
    c109_mutual_partial b rng points _ radius maxN nss h hsmall j i ms ns hj hi hns⟩

/-- C109 (partial as `c109_mutual_partial`): a point with finite coordinates is listed as its own neighbour, for every radius
that is not negative. -/
theorem c109_own_neighbour_partial (b : Build) (rng : Nat → Nat → Nat) (points : List α) (indexes : List Nat) (radius : F64)
    (maxN : Nat) (nss : List (List Nat)) (h : searchIndexes b rng points indexes radius maxN = .ok nss)
    (hsmall : SmallVoxels points indexes radius) (hr : F64.le F64.zero radius = true)
    (i k : Nat) (p : α) (ns : List Nat) (hi : nss[i]? = some ns) (hns : ns.length < maxN)
    (hk : indexes[i]? = some k) (hp : points[k]? = some p) (hf : Spec.Fin (pt p)) : i ∈ ns := by
  obtain ⟨pvs, nvs, v, us, drawn, rest, hpv, hn, hv, hu, e2, e3, e4, e5⟩ :=
    uncut_eq b rng points indexes indexes radius maxN nss h i ns hi (by omega)
  have sv := hsmall pvs hpv v (List.mem_of_getElem? hv)
  exact c28_complete_adjacent_partial b rng points indexes indexes radius maxN nss h pvs pvs hpv hpv i i ns hi hns v v hv hv
    sv ⟨by omega, by omega, by omega, by omega, by omega, by omega⟩
    ⟨k, k, p, p, hk, hk, hp, hp, by rw [Pt.distance_self hf.1 hf.2.1 hf.2.2]; exact hr⟩

/-- C109: chance decides nothing until the maximum cuts the list: if with some random numbers, in one build, fewer than
the maximum are listed for `i`, then with any other random numbers, in either build, the same ones are listed, each
once, in some order. -/
theorem c109_chance (b b' : Build) (rng rng' : Nat → Nat → Nat) (points : List α) (pis nis : List Nat) (radius : F64)
    (maxN : Nat) (nss nss' : List (List Nat)) (h : search b rng points pis nis radius maxN = .ok nss)
    (h' : search b' rng' points pis nis radius maxN = .ok nss')
    (i : Nat) (ns ns' : List Nat) (hi : nss[i]? = some ns) (hi' : nss'[i]? = some ns') (hns : ns.length < maxN) :
    ns.Perm ns' := by
  obtain ⟨pvs, nvs, v, us, drawn, rest, hp, hn, hv, hu, e2, e3, e4, e5⟩ :=
    uncut_eq b rng points pis nis radius maxN nss h i ns hi (by omega)
  obtain ⟨pvs', nvs', w, xs, drawn', rest', hp', hn', hw, hx, f2, f3, f4, f5⟩ :=
    uncut_eq b' rng' points pis nis radius maxN nss' h' i ns' hi' (by omega)
  rw [hp] at hp'
  rw [hn] at hn'
  obtain rfl := Res.ok.inj hp'
  obtain rfl := Res.ok.inj hn'
  rw [hv] at hw
  obtain rfl := Option.some.inj hw
  rw [hu] at hx
  obtain rfl := Res.ok.inj hx
  have hr : rest = [] := e5.resolve_right (by omega)
  rw [hr, List.append_nil] at e2
  have k := (e2.symm.trans f2).filter (within points pis nis radius i)
  rw [List.filter_append, ← e3, ← f3] at k
  rcases f5 with f5 | f5
  · rw [f5] at k
    simpa using k
  · exfalso
    have := k.length_eq
    rw [List.length_append] at this
    omega

/-- C109: with the same random numbers a smaller maximum only cuts every list short: it keeps the first entries. -/
theorem c109_smaller_maximum (b : Build) (rng : Nat → Nat → Nat) (points : List α) (pis nis : List Nat) (radius : F64)
    (m M : Nat) (hm : m ≤ M) (nss : List (List Nat)) (h : search b rng points pis nis radius M = .ok nss) :
    search b rng points pis nis radius m = .ok (nss.map (List.take m)) := by
  unfold search at h ⊢
  simp only [Res.bind_eq_ok] at h
  obtain ⟨pvs, hp, nvs, hn, h⟩ := h
  rw [hp, hn]
  simp only [Res.ok_bind]
  rw [mapM_eq_ok] at h ⊢
  rw [List.forall₂_map_right_iff]
  refine h.imp ?_
  intro i out ho
  unfold getNeighbors at ho ⊢
  by_cases h0 : m = 0
  · subst h0; simp
  · rw [if_neg (by omega)] at ho
    rw [if_neg h0]
    simp only [Res.bind_eq_ok] at ho ⊢
    obtain ⟨v, hv, s, hs, ho⟩ := ho
    exact ⟨v, hv, s, hs, loop_take b rng i points pis nis radius m M hm _ _ _ _ (by simp) ho⟩

end

/-- Three points in one voxel, each within reach of the others, and a distant one. -/
def huddle : List (Pt F64) :=
  [⟨num 0, num 0, num 0⟩, ⟨⟨0x3FE0000000000000⟩, num 0, num 0⟩, ⟨⟨0x3FD0000000000000⟩, num 0, num 0⟩, ⟨num 7, num 0, num 0⟩]

/-- C109 is false for lists that the maximum cuts: with a maximum of 2, point 0 lists points 2 and 1, but neither of them
lists point 0, and point 0 does not list itself. -/
theorem c109_cut_not_mutual :
    searchAll .debug (fun _ k => 3 * k) huddle F64.one 2 = .ok [[2, 1], [2, 1], [2, 1], [3]] := by decide +kernel

/-- The hypotheses of the theorems of C109 hold for this cloud; with other random numbers the order may differ. -/
example : searchAll .debug (fun _ k => 3 * k) huddle F64.one 9 = .ok [[2, 1, 0], [2, 1, 0], [2, 1, 0], [3]]
    ∧ Voxel.getIndexesOf huddle (List.range huddle.length) F64.one = .ok [⟨0, 0, 0⟩, ⟨0, 0, 0⟩, ⟨0, 0, 0⟩, ⟨7, 0, 0⟩]
    ∧ F64.le F64.zero F64.one = true := by decide +kernel

/-- Points in two voxels, which different random numbers list in a different order. -/
example : let pts : List (Pt F64) := [⟨num 0, num 0, num 0⟩, ⟨num 1, num 0, num 0⟩, ⟨⟨0x3FE0000000000000⟩, num 0, num 0⟩,
      ⟨num 1, num 0, num 0⟩]
    searchAll .debug (fun _ _ => 0) pts F64.one 9 = .ok [[2, 0, 3, 1], [2, 0, 3, 1], [2, 0, 3, 1], [2, 0, 3, 1]]
      ∧ searchAll .release (fun _ _ => 3) pts F64.one 9 = .ok [[3, 2, 0, 1], [3, 2, 0, 1], [3, 2, 0, 1], [3, 2, 0, 1]] := by
  decide +kernel

end Spoc.Props
