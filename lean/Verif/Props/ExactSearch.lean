import Verif.Proofs.GridDistance
import Verif.Props.Cells
import Verif.Props.Distance
import Verif.Props.RadiusMonotone

/-!
# C139: a radius search finds exactly the points within the radius
-/

namespace Spoc.Props

open Spec RadiusSearch HasXYZ

section
variable {α : Type} [HasXYZ α]

/-- The points are less than 2^24 units apart in every coordinate. -/
def Compact (k : ℤ) (ps : List α) : Prop :=
  ∀ p ∈ ps, ∀ q ∈ ps, |(pt p).x.val - (pt q).x.val| < 2 ^ 24 * (2 : ℝ) ^ k ∧ |(pt p).y.val - (pt q).y.val| < 2 ^ 24 * (2 : ℝ) ^ k
    ∧ |(pt p).z.val - (pt q).z.val| < 2 ^ 24 * (2 : ℝ) ^ k

open Classical in
/-- The positions of the candidates whose Euclidean distance from `p`, computed without rounding, is at most `r`. -/
noncomputable def candidatesWithin (points : List α) (nis : List Nat) (p : Pt F64) (r : ℝ) : List Nat :=
  (List.range nis.length).filter (fun j => decide (∃ nj q, nis[j]? = some nj ∧ points[nj]? = some q ∧ dist3 p (pt q) ≤ r))

theorem mem_candidatesWithin {points : List α} {nis : List Nat} {p : Pt F64} {r : ℝ} {j : Nat} :
    j ∈ candidatesWithin points nis p r ↔ ∃ nj q, nis[j]? = some nj ∧ points[nj]? = some q ∧ dist3 p (pt q) ≤ r := by
  unfold candidatesWithin
  simp only [List.mem_filter, List.mem_range, decide_eq_true_eq]
  refine ⟨fun h => h.2, fun h => ⟨?_, h⟩⟩
  obtain ⟨nj, q, h1, _⟩ := h
  exact (List.getElem?_eq_some_iff.mp h1).1

theorem candidatesWithin_nodup (points : List α) (nis : List Nat) (p : Pt F64) (r : ℝ) : (candidatesWithin points nis p r).Nodup :=
  List.Nodup.filter _ List.nodup_range

theorem floor_adjacent {a b o r : ℝ} (hr : 0 < r) (h : |a - b| ≤ r) : ⌊(b - o) / r⌋ - ⌊(a - o) / r⌋ ≤ 1 := by
  have h1 : (b - o) / r ≤ (a - o) / r + 1 := by
    rw [div_add_one hr.ne', div_le_div_iff_of_pos_right hr]
    linarith [(abs_le.mp h).1]
  have h2 := Int.floor_mono h1
  rw [Int.floor_add_one] at h2
  omega

theorem unit_le {k : ℤ} {r : F64} (hr : OnGrid k 53 r) (hpos : 0 < r.val) : (2 : ℝ) ^ k ≤ r.val := by
  obtain ⟨_, m, _, e⟩ := hr
  have hK : (0 : ℝ) < (2 : ℝ) ^ k := zpow_pos (by norm_num) _
  rw [e] at hpos ⊢
  have h1 : (0 : ℝ) < m := (pos_iff_pos_of_mul_pos hpos).mpr hK
  have h2 : 0 < m := by exact_mod_cast h1
  have h3 : (1 : ℝ) ≤ m := by exact_mod_cast h2
  nlinarith

theorem floor_small {k : ℤ} {r : F64} (hr : OnGrid k 53 r) (hpos : 0 < r.val) {d : ℝ} (h : |d| < 2 ^ 24 * (2 : ℝ) ^ k) : ⌊d / r.val⌋ < 2 ^ 24 := by
  rw [Int.floor_lt, div_lt_iff₀ hpos]
  have h1 := unit_le hr hpos
  push_cast
  have h2 := lt_of_le_of_lt (le_abs_self d) h
  nlinarith

/-- The voxel of every point, with the origin of the cloud. -/
theorem point_voxel {k : ℤ} (hk0 : -537 ≤ k) (hk : k ≤ 485) {points : List α} (hps : CloudOnGrid k points) (hc : Compact k points) {r : F64}
    (hr : OnGrid k 53 r) (hpos : 0 < r.val) :
    ∃ ox oy oz : ℝ, ∀ p ∈ points, ∃ v : VoxelIndex, Voxel.getIndex (pt p) (Extent.ofPoints points).minp r = .ok v
      ∧ ((v.i.toNat : ℤ) = ⌊((pt p).x.val - ox) / r.val⌋ ∧ (v.j.toNat : ℤ) = ⌊((pt p).y.val - oy) / r.val⌋
        ∧ (v.k.toNat : ℤ) = ⌊((pt p).z.val - oz) / r.val⌋)
      ∧ v.i.toNat < 2 ^ 24 ∧ v.j.toNat < 2 ^ 24 ∧ v.k.toNat < 2 ^ 24 := by
  refine ⟨(Extent.ofPoints points).minp.x.val, (Extent.ofPoints points).minp.y.val, (Extent.ofPoints points).minp.z.val, fun p hp => ?_⟩
  have hne : points ≠ [] := List.ne_nil_of_mem hp
  obtain ⟨⟨g1, g2, g3⟩, _⟩ := hps.extent hne
  obtain ⟨hin, ⟨p1, m1, e1⟩, _, ⟨p2, m2, e2⟩, _, ⟨p3, m3, e3⟩, _⟩ := c15_extent_tight_partial points hne hps.fin
  obtain ⟨q1, q2, q3⟩ := hps p hp
  obtain ⟨i1, _, i2, _, i3, _⟩ := hin p hp
  have hk1 : -1074 ≤ k := by omega
  have hk2 : k ≤ 970 := by omega
  obtain ⟨a, ha, ea⟩ := index1_exact hk1 hk2 hr g1 q1 hpos i1
  obtain ⟨b, hb, eb⟩ := index1_exact hk1 hk2 hr g2 q2 hpos i2
  obtain ⟨c, hc', ec⟩ := index1_exact hk1 hk2 hr g3 q3 hpos i3
  have s1 := floor_small hr hpos (hc p hp p1 m1).1
  have s2 := floor_small hr hpos (hc p hp p2 m2).2.1
  have s3 := floor_small hr hpos (hc p hp p3 m3).2.2
  rw [e1, ← ea] at s1
  rw [e2, ← eb] at s2
  rw [e3, ← ec] at s3
  refine ⟨⟨a, b, c⟩, ?_, ⟨ea, eb, ec⟩, by exact_mod_cast s1, by exact_mod_cast s2, by exact_mod_cast s3⟩
  unfold Voxel.getIndex
  rw [ha, Res.ok_bind, hb, Res.ok_bind, hc', Res.ok_bind]

/-- **C139**: if the coordinates and the radius are on a grid and the cloud is compact, a radius search succeeds; every point gets candidates within the
radius, each once, and as many of them as there are, up to the maximum. -/
theorem c139_exact_partial {k : ℤ} (hk0 : -537 ≤ k) (hk : k ≤ 485) (b : Build) (rng : Nat → Nat → Nat) (points : List α) (hps : CloudOnGrid k points)
    (hc : Compact k points) (pis nis : List Nat) (hpis : ∀ i ∈ pis, i < points.length) (hnis : ∀ i ∈ nis, i < points.length) (radius : F64)
    (hr : OnGrid k 53 radius) (hpos : 0 < radius.val) (maxN : Nat) :
    ∃ nss, search b rng points pis nis radius maxN = .ok nss ∧ nss.length = pis.length
      ∧ ∀ (i pi : Nat) (p : α) (ns : List Nat), pis[i]? = some pi → points[pi]? = some p → nss[i]? = some ns →
          ns.Subperm (candidatesWithin points nis (pt p) radius.val)
            ∧ ns.length = min maxN (candidatesWithin points nis (pt p) radius.val).length := by
  obtain ⟨ox, oy, oz, hv⟩ := point_voxel hk0 hk hps hc hr hpos
  have all : ∀ is : List Nat, (∀ i ∈ is, i < points.length) → ∃ vs, Voxel.getIndexesOf points is radius = .ok vs
      ∧ ∀ (i n : Nat) (p : α), is[i]? = some n → points[n]? = some p → ∃ v, vs[i]? = some v
        ∧ Voxel.getIndex (pt p) (Extent.ofPoints points).minp radius = .ok v := by
    intro is his
    obtain ⟨vs, hvs⟩ := mapM_ok_of (f := fun n => do
        let p ← Voxel.at' points n
        Voxel.getIndex (pt p) (Extent.ofPoints points).minp radius) (l := is) (fun n hn => by
      have hlt := his n hn
      obtain ⟨v, h1, _⟩ := hv points[n] (List.getElem_mem hlt)
      refine ⟨v, ?_⟩
      unfold Voxel.at'
      rw [List.getElem?_eq_getElem hlt]
      exact h1)
    refine ⟨vs, hvs, fun i n p hi hp => ?_⟩
    obtain ⟨v, h1, h2⟩ := Spoc.mapM_get hvs hi
    refine ⟨v, h1, ?_⟩
    unfold Voxel.at' at h2
    rw [hp] at h2
    exact h2
  obtain ⟨pvs, hp, hp'⟩ := all pis hpis
  obtain ⟨nvs, hn, hn'⟩ := all nis hnis
  have hsmall : ∀ v ∈ pvs, v.i.toNat < 2 ^ 31 - 2 ∧ v.j.toNat < 2 ^ 31 - 2 ∧ v.k.toNat < 2 ^ 31 - 2 := by
    intro v hmem
    obtain ⟨i, hi⟩ := List.mem_iff_getElem?.mp hmem
    have hlen : i < pis.length := by
      have := (List.getElem?_eq_some_iff.mp hi).1
      have e := mapM_length hp
      omega
    have hlt := hpis _ (List.getElem_mem hlen)
    obtain ⟨v', h1, h2⟩ := hp' i _ _ (List.getElem?_eq_getElem hlen) (List.getElem?_eq_getElem hlt)
    obtain rfl := Option.some.inj (hi.symm.trans h1)
    obtain ⟨w, h3, _, h4, h5, h6⟩ := hv _ (List.getElem_mem hlt)
    obtain rfl := Res.ok.inj (h2.symm.trans h3)
    omega
  obtain ⟨nss, hs⟩ := c27_defined b rng points pis nis radius maxN pvs nvs hp hn hsmall
  obtain ⟨s1, s2⟩ := c27_sound b rng points pis nis radius maxN nss hs
  refine ⟨nss, hs, s1, fun i pi p ns hi hpt hns => ?_⟩
  obtain ⟨t1, t2, t3⟩ := s2 i ns hns
  have hmem := List.mem_of_getElem? hpt
  have hle : ∀ q ∈ points, (F64.le (Pt.distance (pt p) (pt q)) radius = true ↔ dist3 (pt p) (pt q) ≤ radius.val) := by
    intro q hq
    obtain ⟨a1, a2, a3⟩ := hps p hmem
    obtain ⟨b1, b2, b3⟩ := hps q hq
    obtain ⟨c1, c2, c3⟩ := hc p hmem q hq
    exact F64.distance_grid hk0 hk a1 a2 a3 b1 b2 b3 c1 c2 c3 hr hpos
  have hsub : ns ⊆ candidatesWithin points nis (pt p) radius.val := by
    intro j hj
    obtain ⟨_, pi', nj, p', q, h1, h2, h3, h4, h5⟩ := t3 j hj
    obtain rfl := Option.some.inj (hi.symm.trans h1)
    obtain rfl := Option.some.inj (hpt.symm.trans h3)
    exact mem_candidatesWithin.mpr ⟨nj, q, h2, h4, (hle q (List.mem_of_getElem? h4)).mp h5⟩
  have hperm : ns.Subperm (candidatesWithin points nis (pt p) radius.val) := List.subperm_of_subset t2 hsub
  refine ⟨hperm, ?_⟩
  have hl := hperm.length_le
  rcases Nat.lt_or_ge ns.length maxN with hless | hge
  · have hback : candidatesWithin points nis (pt p) radius.val ⊆ ns := by
      intro j hj
      obtain ⟨nj, q, h1, h2, h3⟩ := mem_candidatesWithin.mp hj
      have hq := List.mem_of_getElem? h2
      obtain ⟨v, v1, v2⟩ := hp' i pi p hi hpt
      obtain ⟨w, w1, w2⟩ := hn' j nj q h1 h2
      obtain ⟨v', v3, ⟨v4, v5, v6⟩, _⟩ := hv p hmem
      obtain rfl := Res.ok.inj (v2.symm.trans v3)
      obtain ⟨w', w3, ⟨w4, w5, w6⟩, _⟩ := hv q hq
      obtain rfl := Res.ok.inj (w2.symm.trans w3)
      obtain ⟨d1, d2, d3⟩ := coord_le_dist (show Real.sqrt _ ≤ radius.val from h3)
      refine c28_complete_adjacent_partial b rng points pis nis radius maxN nss hs pvs nvs hp hn i j ns hns hless v w v1 w1
        (hsmall v (List.mem_of_getElem? v1)) ?_ ⟨pi, nj, p, q, hi, h1, hpt, h2, (hle q hq).mpr h3⟩
      unfold Adjacent
      rw [v4, v5, v6, w4, w5, w6]
      refine ⟨floor_adjacent hpos d1, floor_adjacent hpos ?_, floor_adjacent hpos d2, floor_adjacent hpos ?_, floor_adjacent hpos d3,
        floor_adjacent hpos ?_⟩ <;> rw [abs_sub_comm] <;> assumption
    have := (List.subperm_of_subset (candidatesWithin_nodup points nis (pt p) radius.val) hback).length_le
    omega
  · omega

/-- **C139**: if the maximum is not too small for a point, its list is the list of all candidates within the radius, in some order. -/
theorem c139_all_partial {k : ℤ} (hk0 : -537 ≤ k) (hk : k ≤ 485) (b : Build) (rng : Nat → Nat → Nat) (points : List α) (hps : CloudOnGrid k points)
    (hc : Compact k points) (radius : F64) (hr : OnGrid k 53 radius) (hpos : 0 < radius.val) (maxN : Nat) :
    ∃ nss, searchAll b rng points radius maxN = .ok nss ∧ nss.length = points.length
      ∧ ∀ (i : Nat) (p : α) (ns : List Nat), points[i]? = some p → nss[i]? = some ns →
          (candidatesWithin points (List.range points.length) (pt p) radius.val).length ≤ maxN →
            ns.Nodup ∧ ∀ j, j ∈ ns ↔ ∃ q, points[j]? = some q ∧ dist3 (pt p) (pt q) ≤ radius.val := by
  have hall : ∀ i ∈ List.range points.length, i < points.length := fun i hi => List.mem_range.mp hi
  obtain ⟨nss, h1, h2, h3⟩ := c139_exact_partial hk0 hk b rng points hps hc _ _ hall hall radius hr hpos maxN
  refine ⟨nss, h1, by rw [h2, List.length_range], fun i p ns hp hns hmax => ?_⟩
  have hlt := (List.getElem?_eq_some_iff.mp hp).1
  obtain ⟨t1, t2⟩ := h3 i i p ns (List.getElem?_range hlt) hp hns
  have hperm := t1.perm_of_length_le (by omega)
  refine ⟨hperm.nodup_iff.mpr (candidatesWithin_nodup ..), fun j => ?_⟩
  rw [hperm.mem_iff, mem_candidatesWithin]
  constructor
  · rintro ⟨nj, q, e1, e2, e3⟩
    have hj := (List.getElem?_eq_some_iff.mp e1).1
    rw [List.length_range] at hj
    rw [List.getElem?_range hj] at e1
    obtain rfl := Option.some.inj e1
    exact ⟨q, e2, e3⟩
  · rintro ⟨q, e2, e3⟩
    exact ⟨j, q, List.getElem?_range (List.getElem?_eq_some_iff.mp e2).1, e2, e3⟩

/-- C133 on a grid, for all radii: a larger radius and a maximum that is not smaller find at least as many neighbours, and the neighbours of the
smaller radius are among the candidates of the larger one; if the maximum is not reached, they are found. -/
theorem c133_grid_partial {k : ℤ} (hk0 : -537 ≤ k) (hk : k ≤ 485) (b b' : Build) (rng rng' : Nat → Nat → Nat) (points : List α) (hps : CloudOnGrid k points)
    (hc : Compact k points) (pis nis : List Nat) (hpis : ∀ i ∈ pis, i < points.length) (hnis : ∀ i ∈ nis, i < points.length) (r1 r2 : F64)
    (h1 : OnGrid k 53 r1) (h2 : OnGrid k 53 r2) (hpos : 0 < r1.val) (h12 : r1.val ≤ r2.val) (maxN maxN' : Nat) :
    ∃ nss nss', search b rng points pis nis r1 maxN = .ok nss ∧ search b' rng' points pis nis r2 maxN' = .ok nss'
      ∧ ∀ (i : Nat) (ns ns' : List Nat), nss[i]? = some ns → nss'[i]? = some ns' →
          (maxN ≤ maxN' → ns.length ≤ ns'.length) ∧ (ns'.length < maxN' → ∀ j ∈ ns, j ∈ ns') := by
  obtain ⟨nss, a1, a2, a3⟩ := c139_exact_partial hk0 hk b rng points hps hc pis nis hpis hnis r1 h1 hpos maxN
  obtain ⟨nss', b1, b2, b3⟩ := c139_exact_partial hk0 hk b' rng' points hps hc pis nis hpis hnis r2 h2 (lt_of_lt_of_le hpos h12) maxN'
  refine ⟨nss, nss', a1, b1, fun i ns ns' hi hi' => ?_⟩
  have hlen : i < pis.length := by
    have := (List.getElem?_eq_some_iff.mp hi).1
    omega
  have hlt := hpis _ (List.getElem_mem hlen)
  obtain ⟨s1, s2⟩ := a3 i _ _ ns (List.getElem?_eq_getElem hlen) (List.getElem?_eq_getElem hlt) hi
  obtain ⟨t1, t2⟩ := b3 i _ _ ns' (List.getElem?_eq_getElem hlen) (List.getElem?_eq_getElem hlt) hi'
  have hsub : candidatesWithin points nis (pt points[pis[i]]) r1.val ⊆ candidatesWithin points nis (pt points[pis[i]]) r2.val := by
    intro j hj
    obtain ⟨nj, q, e1, e2, e3⟩ := mem_candidatesWithin.mp hj
    exact mem_candidatesWithin.mpr ⟨nj, q, e1, e2, le_trans e3 h12⟩
  have hl := (List.subperm_of_subset (candidatesWithin_nodup ..) hsub).length_le
  refine ⟨fun hmax => by rw [s2, t2]; omega, fun hless j hj => ?_⟩
  have hperm := t1.perm_of_length_le (by omega)
  exact hperm.mem_iff.mpr (hsub (s1.subset hj))

end

/-! ## examples -/

theorem farCloud_onGrid : CloudOnGrid 0 farCloud := by
  have key : ∀ {a b c : F64}, OnGrid 0 52 a → OnGrid 0 52 b → OnGrid 0 52 c →
      OnGrid 0 52 (pt (⟨a, b, c⟩ : Pt F64)).x ∧ OnGrid 0 52 (pt (⟨a, b, c⟩ : Pt F64)).y ∧ OnGrid 0 52 (pt (⟨a, b, c⟩ : Pt F64)).z :=
    fun h1 h2 h3 => ⟨h1, h2, h3⟩
  have h0 : OnGrid 0 52 (num 0) := onGrid_num (by norm_num) (by norm_num)
  have h3 : OnGrid 0 52 (num 3) := onGrid_num (by norm_num) (by norm_num)
  have h4 : OnGrid 0 52 (num 4) := onGrid_num (by norm_num) (by norm_num)
  have h70 : OnGrid 0 52 (num 70) := onGrid_num (by norm_num) (by norm_num)
  exact three_points (key h0 h0 h0) (key h3 h4 h0) (key h70 h0 h0)

theorem farCloud_compact : Compact 0 farCloud := by
  have key : ∀ a b c a' b' c' : F64, (0 ≤ a.val ∧ a.val ≤ 70) → (0 ≤ b.val ∧ b.val ≤ 70) → (0 ≤ c.val ∧ c.val ≤ 70) → (0 ≤ a'.val ∧ a'.val ≤ 70) →
      (0 ≤ b'.val ∧ b'.val ≤ 70) → (0 ≤ c'.val ∧ c'.val ≤ 70) →
      |(pt (⟨a, b, c⟩ : Pt F64)).x.val - (pt (⟨a', b', c'⟩ : Pt F64)).x.val| < 2 ^ 24 * (2 : ℝ) ^ (0 : ℤ)
      ∧ |(pt (⟨a, b, c⟩ : Pt F64)).y.val - (pt (⟨a', b', c'⟩ : Pt F64)).y.val| < 2 ^ 24 * (2 : ℝ) ^ (0 : ℤ)
      ∧ |(pt (⟨a, b, c⟩ : Pt F64)).z.val - (pt (⟨a', b', c'⟩ : Pt F64)).z.val| < 2 ^ 24 * (2 : ℝ) ^ (0 : ℤ) := by
    intro a b c a' b' c' h1 h2 h3 h4 h5 h6
    change |a.val - a'.val| < _ ∧ |b.val - b'.val| < _ ∧ |c.val - c'.val| < _
    rw [zpow_zero, mul_one]
    refine ⟨?_, ?_, ?_⟩ <;> rw [abs_lt] <;> constructor <;> norm_num <;> linarith [h1.1, h1.2, h2.1, h2.2, h3.1, h3.2, h4.1, h4.2, h5.1, h5.2, h6.1, h6.2]
  have hv : ∀ n : ℤ, 0 ≤ n → n ≤ 70 → 0 ≤ (num n).val ∧ (num n).val ≤ 70 := by
    intro n h1 h2
    rw [val_num (by omega)]
    exact ⟨by exact_mod_cast h1, by exact_mod_cast h2⟩
  have h0 := hv 0 (by norm_num) (by norm_num)
  have h3 := hv 3 (by norm_num) (by norm_num)
  have h4 := hv 4 (by norm_num) (by norm_num)
  have h70 := hv 70 (by norm_num) (by norm_num)
  have cloud : ∀ o t f s : F64, (0 ≤ o.val ∧ o.val ≤ 70) → (0 ≤ t.val ∧ t.val ≤ 70) → (0 ≤ f.val ∧ f.val ≤ 70) → (0 ≤ s.val ∧ s.val ≤ 70) →
      Compact 0 [(⟨o, o, o⟩ : Pt F64), ⟨t, f, o⟩, ⟨s, o, o⟩] := by
    intro o t f s _ _ _ _
    refine three_points (three_points ?_ ?_ ?_) (three_points ?_ ?_ ?_) (three_points ?_ ?_ ?_) <;> apply key <;> assumption
  exact cloud _ _ _ _ h0 h3 h4 h70

theorem five_val : (num 5).val = 5 := by exact_mod_cast val_num (n := 5) (by decide)
theorem six_val : (num 6).val = 6 := by exact_mod_cast val_num (n := 6) (by decide)
theorem five_onGrid : OnGrid 0 53 (num 5) := onGrid_num (by norm_num) (by norm_num)
theorem six_onGrid : OnGrid 0 53 (num 6) := onGrid_num (by norm_num) (by norm_num)

/-- The hypotheses of `c139_exact_partial` and `c139_all_partial` hold for three points and the radius 5, which is the distance of two of them. -/
example (b : Build) (rng : Nat → Nat → Nat) : ∃ nss, searchAll b rng farCloud (num 5) 32 = .ok nss ∧ nss.length = 3
    ∧ ∀ (i : Nat) (p : Pt F64) (ns : List Nat), farCloud[i]? = some p → nss[i]? = some ns →
        ns.Nodup ∧ ∀ j, j ∈ ns ↔ ∃ q, farCloud[j]? = some q ∧ dist3 p q ≤ 5 := by
  obtain ⟨nss, h1, h2, h3⟩ := c139_all_partial (k := 0) (by norm_num) (by norm_num) b rng farCloud farCloud_onGrid farCloud_compact (num 5) five_onGrid
    (by rw [five_val]; norm_num) 32
  refine ⟨nss, h1, h2, fun i p ns hp hns => ?_⟩
  rw [five_val] at h3
  refine h3 i p ns hp hns ?_
  refine le_trans (List.length_filter_le _ _) ?_
  rw [List.length_range, List.length_range]
  decide

example : searchAll .debug (fun _ _ => 5) farCloud (num 5) 32 = .ok [[1, 0], [1, 0], [2]] := by decide +kernel

/-- The hypotheses of `c133_grid_partial` hold for the radii 5 and 6. -/
example (b b' : Build) (rng rng' : Nat → Nat → Nat) :
    ∃ nss nss', search b rng farCloud [0, 1] [0, 1, 2] (num 5) 4 = .ok nss ∧ search b' rng' farCloud [0, 1] [0, 1, 2] (num 6) 4 = .ok nss'
      ∧ ∀ (i : Nat) (ns ns' : List Nat), nss[i]? = some ns → nss'[i]? = some ns' →
          (4 ≤ 4 → ns.length ≤ ns'.length) ∧ (ns'.length < 4 → ∀ j ∈ ns, j ∈ ns') :=
  c133_grid_partial (k := 0) (by norm_num) (by norm_num) b b' rng rng' farCloud farCloud_onGrid farCloud_compact [0, 1] [0, 1, 2] (by decide) (by decide)
    (num 5) (num 6) five_onGrid six_onGrid (by rw [five_val]; norm_num) (by rw [five_val, six_val]; norm_num) 4 4

/-! ## what rounding does -/

/-- A square root above 1. -/
theorem beyond_one {o x y : F64} (ho : o.val = 0) (hx : x.val = 1) (hy : 0 < y.val) : 1 < dist3 ⟨o, o, o⟩ ⟨x, y, o⟩ := by
  unfold dist3
  rw [ho, hx, Real.lt_sqrt (by norm_num)]
  nlinarith

/-- **C139, negation**: a point is listed though it is not within the radius: its distance is sqrt (1 + 2^-60), which is rounded to 1. -/
theorem c139_beyond : 1 < dist3 ⟨F64.zero, F64.zero, F64.zero⟩ ⟨F64.one, ⟨0x3E10000000000000⟩, F64.zero⟩ ∧ F64.one.val = 1
    ∧ ∀ b, search b (fun _ _ => 0) [(⟨F64.zero, F64.zero, F64.zero⟩ : Pt F64), ⟨F64.one, ⟨0x3E10000000000000⟩, F64.zero⟩] [0] [1] F64.one 32
      = .ok [[0]] := by
  have h1 : F64.one.val = 1 := by
    unfold F64.val
    rw [show F64.one.fv = (F64.one1074 : ℤ) from by decide +kernel, Int.cast_natCast, div_self F64.one1074_pos'.ne']
  have h0 : F64.zero.val = 0 := by unfold F64.val; rw [F64.zero_fv, Int.cast_zero, zero_div]
  refine ⟨beyond_one h0 h1 (F64.val_pos.mpr (by decide +kernel)), h1, ?_⟩
  intro b
  cases b <;> decide +kernel

end Spoc.Props
