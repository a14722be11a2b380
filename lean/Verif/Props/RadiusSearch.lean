import Verif.Proofs.RadiusSearch
import Verif.Proofs.VoxelNear
import Verif.Props.Subsampling

/-!
# C27-C30: radius search
-/

namespace Spoc.Props

open Spec RadiusSearch

/-! ## C29 the random neighbour selector -/

/-- Draw `k` neighbours one after the other. -/
def drawMany (b : Build) (rng : Nat → Nat → Nat) : Nat → Selector → Res (List Nat × Selector)
  | 0, s => .ok ([], s)
  | k + 1, s => do
    let (n, s) ← s.draw b rng
    let (ns, s) ← drawMany b rng k s
    .ok (n :: ns, s)

theorem drawMany_spec (b : Build) (rng : Nat → Nat → Nat) (k : Nat) (s : Selector) (hv : Valid s) (hk : k ≤ s.left) :
    ∃ ns s', drawMany b rng k s = .ok (ns, s') ∧ Valid s' ∧ ns.length = k ∧ s'.left = s.left - k
      ∧ (pool s).Perm (ns ++ pool s') := by
  induction k generalizing s with
  | zero => exact ⟨[], s, rfl, hv, rfl, by omega, List.Perm.refl _⟩
  | succ k ih =>
    obtain ⟨n, s1, h1, h2, _, _, h5, h6⟩ := draw_spec b rng s hv (by omega)
    obtain ⟨ns, s2, g1, g2, g3, g4, g5⟩ := ih s1 h2 (by omega)
    refine ⟨n :: ns, s2, ?_, g2, by simp [g3], by omega, h6.trans (g5.cons n)⟩
    unfold drawMany
    rw [h1, Res.ok_bind]
    simp only
    rw [g1]
    rfl

/-- The candidates: all points in the given voxels. -/
def candidates (vim : Voxel.Map) (voxels : List VoxelIndex) : List Nat :=
  voxels.flatMap (fun v => (vim.find v).getD [])

/-- C29 (partial: for centre voxels whose neighbours can be computed without `int` overflow, see `c29_voxels` and
`c29_overflow`): from a new selector for which the surrounding voxel numbers are defined, any number `k` of draws up to the
number of candidates succeeds in a debug and in a release build, for every random number generator; the numbers drawn
and the ones not yet drawn together are exactly the candidates.  Hence no candidate is drawn twice, and after as many
draws as there are candidates each has been drawn exactly once. -/
theorem c29_enumerates_partial (b : Build) (rng : Nat → Nat → Nat) (ijk : VoxelIndex) (vim : Voxel.Map) (vs : List VoxelIndex)
    (h : voxels27 ijk = .ok vs) :
    ∃ s, Selector.new ijk vim = .ok s ∧ s.left = (candidates vim vs).length
      ∧ (∀ k ≤ s.left, ∃ ns s' rest, drawMany b rng k s = .ok (ns, s') ∧ ns.length = k
          ∧ (candidates vim vs).Perm (ns ++ rest))
      ∧ ∃ ns s', drawMany b rng s.left s = .ok (ns, s') ∧ (candidates vim vs).Perm ns := by
  obtain ⟨s, h1, h2, h3, h4, h5⟩ := new_spec (vim := vim) h
  have hc : pool s = candidates vim vs := h5
  refine ⟨s, h1, ?_, ?_, ?_⟩
  · rw [← hc, pool_length s h2]
  · intro k hk
    obtain ⟨ns, s', g1, _, g3, _, g5⟩ := drawMany_spec b rng k s h2 hk
    exact ⟨ns, s', pool s', g1, g3, hc ▸ g5⟩
  · obtain ⟨ns, s', g1, g2, g3, g4, g5⟩ := drawMany_spec b rng s.left s h2 (Nat.le_refl _)
    refine ⟨ns, s', g1, ?_⟩
    have : pool s' = [] := List.length_eq_zero_iff.mp (by rw [pool_length s' g2]; omega)
    rw [this, List.append_nil] at g5
    exact hc ▸ g5

/-- C29: for the map of a cloud the candidates are different points, namely those whose voxel is one of the 27. -/
theorem c29_candidates (ijk : VoxelIndex) (ws vs : List VoxelIndex) (h : voxels27 ijk = .ok vs) :
    (candidates (Voxel.getMap ws) vs).Nodup
      ∧ ∀ j, j ∈ candidates (Voxel.getMap ws) vs ↔ ∃ v ∈ vs, ws[j]? = some v := by
  refine ⟨pool_nodup (voxels27_spec h).1 ws, ?_⟩
  intro j
  unfold candidates
  simp only [List.mem_flatMap, Voxel.getD_getMap, Voxel.members, List.mem_filter, List.mem_range,
    decide_eq_true_eq]
  constructor
  · rintro ⟨v, hv, _, e⟩; exact ⟨v, hv, e⟩
  · rintro ⟨v, hv, e⟩; exact ⟨v, hv, (List.getElem?_eq_some_iff.mp e).1, e⟩

/-- C29: the 27 voxels are defined for every voxel below 2^31 - 2, and are the voxels that differ by at most 1. -/
theorem c29_voxels (ijk : VoxelIndex) (hi : ijk.i.toNat < 2 ^ 31 - 2) (hj : ijk.j.toNat < 2 ^ 31 - 2)
    (hk : ijk.k.toNat < 2 ^ 31 - 2) :
    ∃ vs, voxels27 ijk = .ok vs ∧ vs.Nodup ∧ vs.length = 27
      ∧ ∀ w : VoxelIndex, (w.i.toNat : Int) - ijk.i.toNat ≤ 1 → (ijk.i.toNat : Int) - w.i.toNat ≤ 1 →
        (w.j.toNat : Int) - ijk.j.toNat ≤ 1 → (ijk.j.toNat : Int) - w.j.toNat ≤ 1 →
        (w.k.toNat : Int) - ijk.k.toNat ≤ 1 → (ijk.k.toNat : Int) - w.k.toNat ≤ 1 → w ∈ vs := by
  have ht : ∀ u : UInt64, u.toNat < 2 ^ 31 - 2 → toInt u = u.toNat := by
    intro u hu
    unfold toInt
    simp only
    rw [Nat.mod_eq_of_lt (by omega), if_pos (by omega)]
  have ha : ∀ u : UInt64, u.toNat < 2 ^ 31 - 2 → ∃ l, around u = .ok l := by
    intro u hu
    unfold around
    simp only
    rw [ht u hu, if_neg (by omega), if_neg (by omega)]
    exact ⟨_, rfl⟩
  obtain ⟨is, hi'⟩ := ha _ hi
  obtain ⟨js, hj'⟩ := ha _ hj
  obtain ⟨ks, hk'⟩ := ha _ hk
  have hv : ∃ vs, voxels27 ijk = .ok vs := by
    unfold voxels27; rw [hi', hj', hk']; exact ⟨_, rfl⟩
  obtain ⟨vs, hv⟩ := hv
  obtain ⟨h1, h2, h3⟩ := voxels27_spec hv
  refine ⟨vs, hv, h1, h2, ?_⟩
  intro w a1 a2 b1 b2 c1 c2
  rw [h3]
  refine ⟨w.i.toNat - ijk.i.toNat, w.j.toNat - ijk.j.toNat, w.k.toNat - ijk.k.toNat, by omega, by omega, by omega, ?_⟩
  have e : ∀ u w : UInt64, toInt u = u.toNat → ofInt (toInt u + ((w.toNat : Int) - u.toNat)) = w := by
    intro u w hu
    rw [hu]
    apply UInt64.toNat_inj.mp
    have := ofInt_toNat ((u.toNat : Int) + ((w.toNat : Int) - u.toNat))
    have hw := w.toNat_lt
    omega
  rw [e _ _ (ht _ hi), e _ _ (ht _ hj), e _ _ (ht _ hk)]

/-- C29 is false for a centre voxel with index 2^31 - 1: the neighbour's index overflows `int`. -/
theorem c29_overflow (vim : Voxel.Map) : ∃ why, Selector.new ⟨2147483647, 0, 0⟩ vim = .ub why := ⟨_, rfl⟩

/-- A selector with three candidates in two voxels. -/
example : ∃ vs, voxels27 ⟨1, 1, 1⟩ = .ok vs
    ∧ candidates (Voxel.getMap [⟨1, 1, 1⟩, ⟨5, 1, 1⟩, ⟨2, 1, 0⟩, ⟨1, 1, 1⟩]) vs = [0, 3, 2] :=
  ⟨_, rfl, by decide +kernel⟩

/-! ## C30 uniformity -/

/-- Index of the voxel chosen for a value `r` of the random index (lines 106-115). -/
def chosenVoxel (b : Build) (counts : List Nat) (r : Nat) : Res Nat :=
  match counts with
  | [] => .ub "voxel_counts read out of bounds"
  | c :: rest => choose b r rest 0 c c

theorem choose_iff (b : Build) (r : Nat) : ∀ (rest : List Nat) (chosen cur cum t : Nat),
    (choose b r rest chosen cur cum = .ok (chosen + t) ↔
      (∃ c, (cur :: rest)[t]? = some c ∧ 0 < c ∧ r ≤ cum + (rest.take t).sum)
        ∧ ∀ t' < t, ∀ c, (cur :: rest)[t']? = some c → c = 0 ∨ cum + (rest.take t').sum < r) := by
  intro rest
  induction rest with
  | nil =>
    intro chosen cur cum t
    unfold choose
    by_cases h : cur = 0 ∨ cum < r
    · rw [if_pos h]
      constructor
      · intro h'; cases b <;> simp at h'
      · rintro ⟨⟨c, h1, h2, h3⟩, _⟩
        cases t with
        | zero => simp at h1 h3; omega
        | succ t => simp at h1
    · rw [if_neg h]
      simp only [Res.ok.injEq]
      constructor
      · intro h'
        have : t = 0 := by omega
        subst this
        exact ⟨⟨cur, rfl, by omega, by simp; omega⟩, by omega⟩
      · rintro ⟨⟨c, h1, _, _⟩, _⟩
        cases t with
        | zero => rfl
        | succ t => simp at h1
  | cons a rest ih =>
    intro chosen cur cum t
    unfold choose
    by_cases h : cur = 0 ∨ cum < r
    · rw [if_pos h]
      cases t with
      | zero =>
        constructor
        · intro h'
          exfalso
          have : ∀ (l : List Nat) (ch c cu m : Nat), choose b r l ch c cu = .ok m → ch ≤ m := by
            intro l
            induction l with
            | nil =>
              intro ch c cu m hm; unfold choose at hm; split at hm
              · cases b <;> simp at hm
              · exact Nat.le_of_eq (Res.ok.inj hm)
            | cons x l ihl =>
              intro ch c cu m hm; unfold choose at hm; split at hm
              · have := ihl _ _ _ _ hm; omega
              · exact Nat.le_of_eq (Res.ok.inj hm)
          have := this _ _ _ _ _ h'
          omega
        · rintro ⟨⟨c, h1, h2, h3⟩, _⟩
          simp at h1 h3
          omega
      | succ t =>
        have h' := ih (chosen + 1) a (cum + a) t
        have e : chosen + (t + 1) = chosen + 1 + t := by omega
        rw [e]
        refine h'.trans ?_
        constructor
        · rintro ⟨⟨c, h1, h2, h3⟩, h4⟩
          refine ⟨⟨c, by simpa using h1, h2, by simp; omega⟩, ?_⟩
          intro t' ht' c' hc'
          cases t' with
          | zero => simp at hc'; subst hc'; simp; omega
          | succ t' =>
            rcases h4 t' (by omega) c' (by simpa using hc') with h5 | h5
            · exact Or.inl h5
            · right; simp; omega
        · rintro ⟨⟨c, h1, h2, h3⟩, h4⟩
          refine ⟨⟨c, by simpa using h1, h2, by simp at h3; omega⟩, ?_⟩
          intro t' ht' c' hc'
          rcases h4 (t' + 1) (by omega) c' (by simpa using hc') with h5 | h5
          · exact Or.inl h5
          · right; simp at h5; omega
    · rw [if_neg h]
      simp only [Res.ok.injEq]
      constructor
      · intro h'
        have : t = 0 := by omega
        subst this
        exact ⟨⟨cur, rfl, by omega, by simp; omega⟩, by omega⟩
      · rintro ⟨_, h4⟩
        cases t with
        | zero => rfl
        | succ t =>
          have := h4 0 (by omega) cur rfl
          simp at this
          omega

/-- Which voxel a random index selects: the non-empty voxel `t` with (points before `t`) < `r` ≤ (points up to and
including `t`), and the first non-empty voxel for `r` = 0. -/
theorem chosen_iff (b : Build) (counts : List Nat) (r t : Nat) :
    chosenVoxel b counts r = .ok t ↔
      ∃ c, counts[t]? = some c ∧ 0 < c ∧ r ≤ (counts.take t).sum + c
        ∧ ((counts.take t).sum < r ∨ (counts.take t).sum = 0) := by
  cases counts with
  | nil => simp [chosenVoxel]
  | cons c0 rest =>
    have h := choose_iff b r rest 0 c0 c0 t
    rw [Nat.zero_add] at h
    have hs : ∀ t c, (c0 :: rest)[t]? = some c → c0 + (rest.take t).sum = ((c0 :: rest).take t).sum + c := by
      intro t c hc
      have h1 : ((c0 :: rest).take (t + 1)).sum = ((c0 :: rest).take t).sum + c := by
        obtain ⟨hlt, e⟩ := List.getElem?_eq_some_iff.mp hc
        rw [List.take_succ_eq_append_getElem hlt, e]; simp
      rw [← h1]; simp
    unfold chosenVoxel
    refine h.trans ?_
    constructor
    · rintro ⟨⟨c, h1, h2, h3⟩, h4⟩
      refine ⟨c, h1, h2, by rw [hs t c h1] at h3; exact h3, ?_⟩
      -- look at the last non-empty voxel before `t`
      have key : ∀ n ≤ t, ((c0 :: rest).take n).sum < r ∨ ((c0 :: rest).take n).sum = 0 := by
        intro n
        induction n with
        | zero => intro _; right; simp
        | succ n ih =>
          intro hn
          have hlt : n < (c0 :: rest).length := by
            have := (List.getElem?_eq_some_iff.mp h1).1; omega
          have hg := List.getElem?_eq_getElem hlt
          rw [List.take_succ_eq_append_getElem hlt]
          simp only [List.sum_append, List.sum_singleton]
          rcases h4 n (by omega) _ hg with h5 | h5
          · rw [h5, Nat.add_zero]; exact ih (by omega)
          · left; rw [hs n _ hg] at h5; exact h5
      exact key t (Nat.le_refl _)
    · rintro ⟨c, h1, h2, h3, h4⟩
      refine ⟨⟨c, h1, h2, by rw [hs t c h1]; exact h3⟩, ?_⟩
      intro t' ht' c' hc'
      rw [hs t' c' hc']
      obtain ⟨hlt, e⟩ := List.getElem?_eq_some_iff.mp hc'
      have hle : ((c0 :: rest).take (t' + 1)).sum ≤ ((c0 :: rest).take t).sum := by
        obtain ⟨k, hk⟩ : ∃ k, t = (t' + 1) + k := ⟨t - (t' + 1), by omega⟩
        rw [hk, List.take_add (i := t' + 1) (j := k), List.sum_append]
        exact Nat.le_add_right _ _
      rw [List.take_succ_eq_append_getElem hlt] at hle
      simp only [List.sum_append, List.sum_singleton, e] at hle
      omega

theorem length_filter_range (n a b : Nat) :
    ((List.range n).filter (fun r => decide (a ≤ r ∧ r < b))).length = min b n - a := by
  induction n with
  | zero => simp
  | succ n ih =>
    rw [List.range_succ, List.filter_append, List.length_append, ih]
    by_cases h : a ≤ n ∧ n < b
    · simp [h]; omega
    · simp only [List.filter_cons, h, decide_false, List.filter_nil]
      simp; omega

/-- C30 (partial: the selection is uniform only up to an off-by-one error): the number of random indexes that select
voxel `t` is the number of points left in it, plus one for the first non-empty voxel and minus one for the last.
The full property (exactly the number of points left) is false, see `c30_not_uniform`. -/
theorem c30_distribution_partial (b : Build) (counts : List Nat) (t c : Nat) (hc : counts[t]? = some c) (hpos : 0 < c) :
    ((List.range counts.sum).filter (fun r => decide (chosenVoxel b counts r = .ok t))).length
        + (if (counts.drop (t + 1)).sum = 0 then 1 else 0)
      = c + (if (counts.take t).sum = 0 then 1 else 0) := by
  have hsum : counts.sum = (counts.take t).sum + c + (counts.drop (t + 1)).sum := by
    obtain ⟨hlt, e⟩ := List.getElem?_eq_some_iff.mp hc
    conv_lhs => rw [← List.take_append_drop (t + 1) counts]
    rw [List.sum_append, List.take_succ_eq_append_getElem hlt, e]
    simp
  set S := (counts.take t).sum with hS
  set D := (counts.drop (t + 1)).sum with hD
  have hchar : ∀ r ∈ List.range counts.sum, decide (chosenVoxel b counts r = .ok t)
      = decide ((if S = 0 then 0 else S + 1) ≤ r ∧ r < min (S + c + 1) counts.sum) := by
    intro r hr
    have hr' := List.mem_range.mp hr
    rw [decide_eq_decide, chosen_iff]
    constructor
    · rintro ⟨c', h1, h2, h3, h4⟩
      rw [hc] at h1
      obtain rfl := Option.some.inj h1
      split <;> omega
    · intro h
      refine ⟨c, hc, hpos, ?_, ?_⟩
      · omega
      · by_cases h0 : S = 0
        · right; exact h0
        · rw [if_neg h0] at h; left; omega
  rw [List.filter_congr hchar, length_filter_range]
  split <;> split <;> omega

example : ([2, 0, 3] : List Nat)[2]? = some 3 ∧ 0 < 3 := by decide

/-- C30 is false: with one point in each of two voxels, the first draw always returns the first point, whatever the
random number generator. -/
theorem c30_not_uniform (b : Build) (rng : Nat → Nat → Nat) :
    ∃ s s', Selector.new ⟨1, 1, 1⟩ (Voxel.getMap [⟨1, 1, 1⟩, ⟨1, 1, 2⟩]) = .ok s
      ∧ s.left = 2 ∧ s.draw b rng = .ok (0, s') := by
  have hnew : ∃ s, Selector.new ⟨1, 1, 1⟩ (Voxel.getMap [⟨1, 1, 1⟩, ⟨1, 1, 2⟩]) = .ok s := ⟨_, rfl⟩
  obtain ⟨s, hs⟩ := hnew
  have hl : s.left = 2 := by
    have := Res.ok.inj hs; rw [← this]; decide +kernel
  have hd : s.draw b rng = s.draw b (fun _ _ => rng s.seed s.draws % 2) := by
    unfold Selector.draw
    rw [hl, Nat.mod_mod]
  have hlt : rng s.seed s.draws % 2 < 2 := Nat.mod_lt _ (by norm_num)
  have h01 : rng s.seed s.draws % 2 = 0 ∨ rng s.seed s.draws % 2 = 1 := by omega
  have hfst : ∀ r, (r = 0 ∨ r = 1) → ∃ s', s.draw b (fun _ _ => r) = .ok (0, s') := by
    have hs' := Res.ok.inj hs
    rintro r (rfl | rfl)
    · rw [← hs']; cases b <;> exact ⟨_, rfl⟩
    · rw [← hs']; cases b <;> exact ⟨_, rfl⟩
  obtain ⟨s', h'⟩ := hfst _ h01
  exact ⟨s, s', hs, hl, by rw [hd]; exact h'⟩

/-! ## C27, C28 radius search -/

section
variable {α : Type} [HasXYZ α]

theorem getNeighbors_spec (b : Build) (rng : Nat → Nat → Nat) (points : List α) (pis nis : List Nat) (radius : F64)
    (maxN : Nat) (pvs nvs : List VoxelIndex) (hlen : pvs.length = pis.length) (hnl : nvs.length = nis.length)
    (hpi : ∀ k ∈ pis, k < points.length) (hni : ∀ k ∈ nis, k < points.length) (i : Nat) (v : VoxelIndex)
    (hv : pvs[i]? = some v) (us : List VoxelIndex) (hu : voxels27 v = .ok us) :
    ∃ drawn rest out, getNeighbors b rng i points pis nis pvs (Voxel.getMap nvs) radius maxN = .ok out
      ∧ (candidates (Voxel.getMap nvs) us).Perm (drawn ++ rest)
      ∧ out = drawn.filter (within points pis nis radius i) ∧ out.length ≤ maxN ∧ (rest = [] ∨ out.length = maxN) := by
  unfold getNeighbors
  by_cases h0 : maxN = 0
  · rw [if_pos h0]
    exact ⟨[], _, [], rfl, List.Perm.refl _, rfl, by simp, Or.inr (by simp [h0])⟩
  · rw [if_neg h0]
    obtain ⟨s, h1, h2, h3, h4, h5⟩ := new_spec (vim := Voxel.getMap nvs) hu
    simp only [Voxel.at', hv, Res.ok_bind, h1]
    have hi : i < pis.length := by rw [← hlen]; exact (List.getElem?_eq_some_iff.mp hv).1
    have hc : pool s = candidates (Voxel.getMap nvs) us := h5
    obtain ⟨drawn, rest, out, e1, e2, e3, e4, e5⟩ := loop_spec b rng i points pis nis radius maxN hi hpi hni s.left s []
      h2 (Nat.le_refl _) (by
        intro j hj
        rw [hc, (c29_candidates v nvs us hu).2] at hj
        obtain ⟨w, _, e⟩ := hj
        rw [← hnl]; exact (List.getElem?_eq_some_iff.mp e).1) (by simp)
    exact ⟨drawn, rest, out, e1, hc ▸ e2, by simpa using e3, e4, e5⟩

theorem getIndexesOf_get {ps : List α} {ks : List Nat} {res : F64} {vs : List VoxelIndex}
    (h : Voxel.getIndexesOf ps ks res = .ok vs) :
    vs.length = ks.length ∧ (∀ k ∈ ks, k < ps.length)
      ∧ ∀ (i k : Nat), ks[i]? = some k → ∃ p v, ps[k]? = some p ∧ vs[i]? = some v
        ∧ Voxel.getIndex (pt p) (Extent.ofPoints ps).minp res = .ok v := by
  have key : ∀ (i k : Nat), ks[i]? = some k → ∃ p v, ps[k]? = some p ∧ vs[i]? = some v
      ∧ Voxel.getIndex (pt p) (Extent.ofPoints ps).minp res = .ok v := by
    intro i k hk
    obtain ⟨v, hv1, hv2⟩ := mapM_get h hk
    unfold Voxel.at' at hv2
    cases hp : ps[k]? with
    | none => rw [hp] at hv2; simp at hv2
    | some p => rw [hp] at hv2; exact ⟨p, v, rfl, hv1, hv2⟩
  refine ⟨mapM_length h, ?_, key⟩
  intro k hk
  obtain ⟨i, hi, rfl⟩ := List.mem_iff_getElem.mp hk
  obtain ⟨p, _, hp, _⟩ := key i _ (List.getElem?_eq_getElem hi)
  exact (List.getElem?_eq_some_iff.mp hp).1

/-- A pair of points, given by positions in the index vectors, whose computed distance is at most the radius. -/
def InReach (points : List α) (pis nis : List Nat) (radius : F64) (i j : Nat) : Prop :=
  ∃ pi nj p q, pis[i]? = some pi ∧ nis[j]? = some nj ∧ points[pi]? = some p ∧ points[nj]? = some q
    ∧ F64.le (Pt.distance (pt p) (pt q)) radius = true

theorem within_iff (points : List α) (pis nis : List Nat) (radius : F64) (i j : Nat) :
    within points pis nis radius i j = true ↔ InReach points pis nis radius i j := by
  unfold within InReach
  cases h1 : pis[i]? with
  | none => simp
  | some a =>
    cases h2 : nis[j]? with
    | none => simp
    | some c =>
      cases h3 : points[a]? with
      | none => simp [h3]
      | some p =>
        cases h4 : points[c]? with
        | none => simp [h4]
        | some q => simp [h3, h4]

/-- C27: everything the search reports is a candidate within the radius, reported once, and at most `maxN` are
reported; for every cloud, index vectors, radius and random number generator for which the search returns. -/
theorem c27_sound (b : Build) (rng : Nat → Nat → Nat) (points : List α) (pis nis : List Nat) (radius : F64) (maxN : Nat)
    (nss : List (List Nat)) (h : search b rng points pis nis radius maxN = .ok nss) :
    nss.length = pis.length
      ∧ ∀ (i : Nat) ns, nss[i]? = some ns →
        ns.length ≤ maxN ∧ ns.Nodup ∧ ∀ j ∈ ns, j < nis.length ∧ InReach points pis nis radius i j := by
  unfold search at h
  simp only [Res.bind_eq_ok] at h
  obtain ⟨pvs, hp, nvs, hn, h⟩ := h
  obtain ⟨p1, p2, p3⟩ := getIndexesOf_get hp
  obtain ⟨n1, n2, n3⟩ := getIndexesOf_get hn
  refine ⟨by rw [mapM_length h, List.length_range, p1], ?_⟩
  intro i ns hns
  have hi : i < pvs.length := by
    have := (List.getElem?_eq_some_iff.mp hns).1
    rwa [mapM_length h, List.length_range] at this
  obtain ⟨ns', h1, h2⟩ := mapM_get h (i := i) (a := i) (by simp [hi])
  rw [hns] at h1
  obtain rfl := Option.some.inj h1
  have hv := List.getElem?_eq_getElem hi
  by_cases h0 : maxN = 0
  · have : getNeighbors b rng i points pis nis pvs (Voxel.getMap nvs) radius maxN = .ok [] := by
      unfold getNeighbors; rw [if_pos h0]
    rw [this] at h2
    rw [← Res.ok.inj h2]
    simp
  · have hu : ∃ us, voxels27 pvs[i] = .ok us := by
      unfold getNeighbors at h2
      rw [if_neg h0] at h2
      simp only [Voxel.at', hv, Res.ok_bind, Res.bind_eq_ok] at h2
      obtain ⟨s, hs, _⟩ := h2
      unfold Selector.new at hs
      rw [Res.bind_eq_ok] at hs
      obtain ⟨us, hus, _⟩ := hs
      exact ⟨us, hus⟩
    obtain ⟨us, hu⟩ := hu
    obtain ⟨drawn, rest, out, e1, e2, e3, e4, e5⟩ :=
      getNeighbors_spec b rng points pis nis radius maxN pvs nvs p1 n1 p2 n2 i _ hv us hu
    rw [h2] at e1
    obtain rfl := Res.ok.inj e1
    obtain ⟨c1, c2⟩ := c29_candidates pvs[i] nvs us hu
    have hnd : drawn.Nodup := ((e2.nodup_iff.mp c1)).of_append_left
    refine ⟨e4, by rw [e3]; exact hnd.filter _, ?_⟩
    intro j hj
    rw [e3] at hj
    obtain ⟨hj1, hj2⟩ := List.mem_filter.mp hj
    refine ⟨?_, (within_iff _ _ _ _ _ _).mp hj2⟩
    have : j ∈ candidates (Voxel.getMap nvs) us := e2.mem_iff.mpr (List.mem_append_left _ hj1)
    obtain ⟨w, _, e⟩ := (c2 j).mp this
    rw [← n1]; exact (List.getElem?_eq_some_iff.mp e).1

/-- C27: the search returns normally (in both builds) whenever the voxel indexes are defined and those of the
searched points are below 2^31 - 2. -/
theorem c27_defined (b : Build) (rng : Nat → Nat → Nat) (points : List α) (pis nis : List Nat) (radius : F64) (maxN : Nat)
    (pvs nvs : List VoxelIndex) (hp : Voxel.getIndexesOf points pis radius = .ok pvs)
    (hn : Voxel.getIndexesOf points nis radius = .ok nvs)
    (hsmall : ∀ v ∈ pvs, v.i.toNat < 2 ^ 31 - 2 ∧ v.j.toNat < 2 ^ 31 - 2 ∧ v.k.toNat < 2 ^ 31 - 2) :
    ∃ nss, search b rng points pis nis radius maxN = .ok nss := by
  obtain ⟨p1, p2, p3⟩ := getIndexesOf_get hp
  obtain ⟨n1, n2, n3⟩ := getIndexesOf_get hn
  unfold search
  rw [hp, hn]
  apply mapM_ok_of
  intro i hi
  have hi' : i < pvs.length := List.mem_range.mp hi
  obtain ⟨a, b', c⟩ := hsmall _ (List.getElem_mem hi')
  obtain ⟨us, hu, _⟩ := c29_voxels _ a b' c
  obtain ⟨_, _, out, e1, _⟩ := getNeighbors_spec b rng points pis nis radius maxN pvs nvs p1 n1 p2 n2 i _
    (List.getElem?_eq_getElem hi') us hu
  exact ⟨out, e1⟩

/-- A cell has at most distance 1 from another in each direction. -/
def Adjacent (v w : VoxelIndex) : Prop :=
  (w.i.toNat : Int) - v.i.toNat ≤ 1 ∧ (v.i.toNat : Int) - w.i.toNat ≤ 1
    ∧ (w.j.toNat : Int) - v.j.toNat ≤ 1 ∧ (v.j.toNat : Int) - w.j.toNat ≤ 1
    ∧ (w.k.toNat : Int) - v.k.toNat ≤ 1 ∧ (v.k.toNat : Int) - w.k.toNat ≤ 1

/-- C28 (partial: for candidates in an adjacent voxel): if fewer than the maximum are reported, every candidate within
the radius is reported. -/
theorem c28_complete_adjacent_partial (b : Build) (rng : Nat → Nat → Nat) (points : List α) (pis nis : List Nat)
    (radius : F64) (maxN : Nat) (nss : List (List Nat)) (h : search b rng points pis nis radius maxN = .ok nss)
    (pvs nvs : List VoxelIndex) (hp : Voxel.getIndexesOf points pis radius = .ok pvs)
    (hn : Voxel.getIndexesOf points nis radius = .ok nvs)
    (i j : Nat) (ns : List Nat) (hns : nss[i]? = some ns) (hless : ns.length < maxN)
    (v w : VoxelIndex) (hv : pvs[i]? = some v) (hw : nvs[j]? = some w)
    (hsmall : v.i.toNat < 2 ^ 31 - 2 ∧ v.j.toNat < 2 ^ 31 - 2 ∧ v.k.toNat < 2 ^ 31 - 2)
    (hadj : Adjacent v w) (hin : InReach points pis nis radius i j) : j ∈ ns := by
  unfold search at h
  rw [hp, hn] at h
  simp only [Res.ok_bind] at h
  obtain ⟨p1, p2, p3⟩ := getIndexesOf_get hp
  obtain ⟨n1, n2, n3⟩ := getIndexesOf_get hn
  have hi : i < pvs.length := (List.getElem?_eq_some_iff.mp hv).1
  obtain ⟨ns', h1, h2⟩ := mapM_get h (i := i) (a := i) (by simp [hi])
  rw [hns] at h1
  obtain rfl := Option.some.inj h1
  obtain ⟨us, hu, _, _, hmem⟩ := c29_voxels v hsmall.1 hsmall.2.1 hsmall.2.2
  obtain ⟨drawn, rest, out, e1, e2, e3, e4, e5⟩ :=
    getNeighbors_spec b rng points pis nis radius maxN pvs nvs p1 n1 p2 n2 i v hv us hu
  rw [h2] at e1
  obtain rfl := Res.ok.inj e1
  obtain ⟨a1, a2, a3, a4, a5, a6⟩ := hadj
  have hj : j ∈ candidates (Voxel.getMap nvs) us :=
    ((c29_candidates v nvs us hu).2 j).mpr ⟨w, hmem w a1 a2 a3 a4 a5 a6, hw⟩
  have hrest : rest = [] := e5.resolve_right (by omega)
  rw [hrest, List.append_nil] at e2
  rw [e3]
  exact List.mem_filter.mpr ⟨e2.mem_iff.mp hj, (within_iff _ _ _ _ _ _).mpr hin⟩

/-- Each coordinate differs by at most (1 - 2^-19) of the radius, exactly. -/
def CloserThan (p q : Pt F64) (r : F64) : Prop :=
  2 ^ 19 * (p.x.fv - q.x.fv).natAbs ≤ (2 ^ 19 - 1) * r.fv ∧ 2 ^ 19 * (p.y.fv - q.y.fv).natAbs ≤ (2 ^ 19 - 1) * r.fv
    ∧ 2 ^ 19 * (p.z.fv - q.z.fv).natAbs ≤ (2 ^ 19 - 1) * r.fv

theorem index_near_abs {p q m r : F64} (hp : p.isFinite = true) (hq : q.isFinite = true) (hm : m.isFinite = true)
    (hr : r.isFinite = true) (hpos : 0 < r.fv) (hmp : m.fv ≤ p.fv) (hmq : m.fv ≤ q.fv)
    (hnear : 2 ^ 19 * (p.fv - q.fv).natAbs ≤ (2 ^ 19 - 1) * r.fv) {u v : UInt64}
    (hu : Voxel.index1 p m r = .ok u) (hv : Voxel.index1 q m r = .ok v) (h1 : u.toNat < 2 ^ 31 - 2) :
    (v.toNat : Int) - u.toNat ≤ 1 ∧ (u.toNat : Int) - v.toNat ≤ 1 := by
  rcases le_total p.fv q.fv with h | h
  · have a := Voxel.index_near hp hq hm hr hpos hmp h (by omega) hu hv (by omega)
    have b := index1_le hp hq hm hr hpos hmp h hu hv
    rw [UInt64.le_iff_toNat_le] at b
    omega
  · have b := index1_le hq hp hm hr hpos hmq h hv hu
    rw [UInt64.le_iff_toNat_le] at b
    have a := Voxel.index_near hq hp hm hr hpos hmq h (by omega) hv hu (by omega)
    omega

/-- C28 (partial: for candidates whose exact coordinate differences are at most (1 - 2^-19) times the radius; the full
statement is false for candidates closer to the rim, see `c28_incomplete`): if fewer than the maximum are reported,
every such candidate within the radius is reported. -/
theorem c28_complete_partial (b : Build) (rng : Nat → Nat → Nat) (points : List α) (pis nis : List Nat)
    (radius : F64) (maxN : Nat) (nss : List (List Nat)) (h : search b rng points pis nis radius maxN = .ok nss)
    (hf : ∀ p ∈ points, Spec.Fin (pt p)) (hr : radius.isFinite = true) (hpos : 0 < radius.fv)
    (hsmall : ∀ pvs, Voxel.getIndexesOf points pis radius = .ok pvs →
      ∀ v ∈ pvs, v.i.toNat < 2 ^ 31 - 2 ∧ v.j.toNat < 2 ^ 31 - 2 ∧ v.k.toNat < 2 ^ 31 - 2)
    (i j pi nj : Nat) (p q : α) (ns : List Nat) (hns : nss[i]? = some ns) (hless : ns.length < maxN)
    (hpi : pis[i]? = some pi) (hnj : nis[j]? = some nj) (hp : points[pi]? = some p) (hq : points[nj]? = some q)
    (hd : F64.le (Pt.distance (pt p) (pt q)) radius = true) (hclose : CloserThan (pt p) (pt q) radius) : j ∈ ns := by
  have h' := h
  unfold search at h'
  simp only [Res.bind_eq_ok] at h'
  obtain ⟨pvs, hpv, nvs, hnv, _⟩ := h'
  obtain ⟨p1, p2, p3⟩ := getIndexesOf_get hpv
  obtain ⟨n1, n2, n3⟩ := getIndexesOf_get hnv
  obtain ⟨p', v, hp', hv, gv⟩ := p3 i pi hpi
  obtain ⟨q', w, hq', hw, gw⟩ := n3 j nj hnj
  rw [hp] at hp'; rw [hq] at hq'
  obtain rfl := Option.some.inj hp'
  obtain rfl := Option.some.inj hq'
  have mp := List.mem_of_getElem? hp
  have mq := List.mem_of_getElem? hq
  have hne : points ≠ [] := fun e => by rw [e] at mp; simp at mp
  obtain ⟨hmin, _⟩ := extent_finite points hne hf
  obtain ⟨hin, _⟩ := c15_extent_tight_partial points hne hf
  have s := hsmall pvs hpv v (List.mem_of_getElem? hv)
  obtain ⟨x1, x2, x3⟩ := getIndex_eq.mp gv
  obtain ⟨y1, y2, y3⟩ := getIndex_eq.mp gw
  obtain ⟨f1, f2, f3⟩ := hf p mp
  obtain ⟨g1, g2, g3⟩ := hf q mq
  obtain ⟨b1, _, b2, _, b3, _⟩ := hin p mp
  obtain ⟨d1, _, d2, _, d3, _⟩ := hin q mq
  have k1 := index_near_abs f1 g1 hmin.1 hr hpos b1 d1 hclose.1 x1 y1 s.1
  have k2 := index_near_abs f2 g2 hmin.2.1 hr hpos b2 d2 hclose.2.1 x2 y2 s.2.1
  have k3 := index_near_abs f3 g3 hmin.2.2 hr hpos b3 d3 hclose.2.2 x3 y3 s.2.2
  exact c28_complete_adjacent_partial b rng points pis nis radius maxN nss h pvs nvs hpv hnv i j ns hns hless v w hv hw s
    ⟨k1.1, k1.2, k2.1, k2.2, k3.1, k3.2⟩ ⟨pi, nj, p, q, hpi, hnj, hp, hq, hd⟩

end

/-- The hypotheses of `c27_defined` and `c28_complete_partial` hold for a cloud in which neighbours are found. -/
example : let pts : List (Pt F64) := [⟨num 0, num 0, num 0⟩, ⟨⟨0x3FE0000000000000⟩, num 0, num 0⟩, ⟨num 7, num 0, num 0⟩]
    let all := List.range 3
    search .debug (fun _ _ => 5) pts all all F64.one 32 = .ok [[1, 0], [1, 0], [2]]
      ∧ Voxel.getIndexesOf pts all F64.one = .ok [⟨0, 0, 0⟩, ⟨0, 0, 0⟩, ⟨7, 0, 0⟩]
      ∧ CloserThan ⟨num 0, num 0, num 0⟩ ⟨⟨0x3FE0000000000000⟩, num 0, num 0⟩ F64.one := by
  unfold CloserThan; decide +kernel

/-! ## The functions built on the search -/

section
variable {α : Type} [HasXYZ α]

/-- The point with index `j` is within the radius of the point with index `i`. -/
def Near (points : List α) (radius : F64) (i j : Nat) : Prop :=
  ∃ p q, points[i]? = some p ∧ points[j]? = some q ∧ F64.le (Pt.distance (pt p) (pt q)) radius = true

/-- The voxel indexes of all points, when they are defined, leave room for the neighbouring voxels. -/
def SmallVoxels (points : List α) (indexes : List Nat) (radius : F64) : Prop :=
  ∀ pvs, Voxel.getIndexesOf points indexes radius = .ok pvs →
    ∀ v ∈ pvs, v.i.toNat < 2 ^ 31 - 2 ∧ v.j.toNat < 2 ^ 31 - 2 ∧ v.k.toNat < 2 ^ 31 - 2

/-- C27 for `radius_search_indexes`: entry `i` lists positions in `indexes` of points within the radius of the point
`indexes[i]`. -/
theorem c27_indexes (b : Build) (rng : Nat → Nat → Nat) (points : List α) (indexes : List Nat) (radius : F64) (maxN : Nat)
    (nss : List (List Nat)) (h : searchIndexes b rng points indexes radius maxN = .ok nss) :
    nss.length = indexes.length
      ∧ ∀ (i : Nat) ns, nss[i]? = some ns → ns.length ≤ maxN ∧ ns.Nodup
        ∧ ∀ j ∈ ns, ∃ pi pj, indexes[i]? = some pi ∧ indexes[j]? = some pj ∧ Near points radius pi pj := by
  obtain ⟨h1, h2⟩ := c27_sound b rng points indexes indexes radius maxN nss h
  refine ⟨h1, fun i ns hns => ?_⟩
  obtain ⟨a, c, d⟩ := h2 i ns hns
  refine ⟨a, c, fun j hj => ?_⟩
  obtain ⟨_, pi, nj, p, q, e1, e2, e3, e4, e5⟩ := d j hj
  exact ⟨pi, nj, e1, e2, p, q, e3, e4, e5⟩

/-- C27 for `radius_search_all_neighbors`: entry `i` lists indexes of points of the whole cloud within the radius of the
point `indexes[i]`. -/
theorem c27_all_neighbors (b : Build) (rng : Nat → Nat → Nat) (points : List α) (indexes : List Nat) (radius : F64)
    (maxN : Nat) (nss : List (List Nat)) (h : searchAllNeighbors b rng points indexes radius maxN = .ok nss) :
    nss.length = indexes.length
      ∧ ∀ (i : Nat) ns, nss[i]? = some ns → ns.length ≤ maxN ∧ ns.Nodup
        ∧ ∀ j ∈ ns, ∃ pi, indexes[i]? = some pi ∧ Near points radius pi j := by
  obtain ⟨h1, h2⟩ := c27_sound b rng points indexes (List.range points.length) radius maxN nss h
  refine ⟨h1, fun i ns hns => ?_⟩
  obtain ⟨a, c, d⟩ := h2 i ns hns
  refine ⟨a, c, fun j hj => ?_⟩
  obtain ⟨_, pi, nj, p, q, e1, e2, e3, e4, e5⟩ := d j hj
  obtain ⟨hlt, rfl⟩ := List.getElem?_eq_some_iff.mp e2
  rw [List.getElem_range] at e4
  exact ⟨pi, e1, p, q, e3, e4, e5⟩

/-- C27 for `radius_search_all`: entry `i` lists indexes of points within the radius of point `i`. -/
theorem c27_all (b : Build) (rng : Nat → Nat → Nat) (points : List α) (radius : F64) (maxN : Nat)
    (nss : List (List Nat)) (h : searchAll b rng points radius maxN = .ok nss) :
    nss.length = points.length
      ∧ ∀ (i : Nat) ns, nss[i]? = some ns → ns.length ≤ maxN ∧ ns.Nodup ∧ ∀ j ∈ ns, Near points radius i j := by
  obtain ⟨h1, h2⟩ := c27_all_neighbors b rng points (List.range points.length) radius maxN nss h
  refine ⟨by rw [h1, List.length_range], fun i ns hns => ?_⟩
  obtain ⟨a, c, d⟩ := h2 i ns hns
  refine ⟨a, c, fun j hj => ?_⟩
  obtain ⟨pi, e1, e2⟩ := d j hj
  obtain ⟨hlt, rfl⟩ := List.getElem?_eq_some_iff.mp e1
  rw [List.getElem_range] at e2
  exact e2

/-- C27 for `radius_search_get_neighbors`: at most 32 neighbours for every point. -/
theorem c27_get_neighbors (b : Build) (rng : Nat → Nat → Nat) (points : List α) (radius : F64)
    (nss : List (List Nat)) (h : searchGetNeighbors b rng points radius = .ok nss) :
    nss.length = points.length
      ∧ ∀ (i : Nat) ns, nss[i]? = some ns → ns.length ≤ 32 ∧ ns.Nodup ∧ ∀ j ∈ ns, Near points radius i j :=
  c27_all b rng points radius 32 nss h

/-- C28 for `radius_search_all_neighbors` (partial as `c28_complete_partial`): all points of the cloud are candidates. -/
theorem c28_all_neighbors_partial (b : Build) (rng : Nat → Nat → Nat) (points : List α) (indexes : List Nat) (radius : F64)
    (maxN : Nat) (nss : List (List Nat)) (h : searchAllNeighbors b rng points indexes radius maxN = .ok nss)
    (hf : ∀ p ∈ points, Spec.Fin (pt p)) (hr : radius.isFinite = true) (hpos : 0 < radius.fv)
    (hsmall : SmallVoxels points indexes radius)
    (i pi j : Nat) (p q : α) (ns : List Nat) (hns : nss[i]? = some ns) (hless : ns.length < maxN)
    (hpi : indexes[i]? = some pi) (hp : points[pi]? = some p) (hq : points[j]? = some q)
    (hd : F64.le (Pt.distance (pt p) (pt q)) radius = true) (hclose : CloserThan (pt p) (pt q) radius) : j ∈ ns := by
  have hj : (List.range points.length)[j]? = some j := by
    have := (List.getElem?_eq_some_iff.mp hq).1
    rw [List.getElem?_range this]
  exact c28_complete_partial b rng points indexes (List.range points.length) radius maxN nss h hf hr hpos hsmall i j pi j p q
    ns hns hless hpi hj hp hq hd hclose

/-- C28 for `radius_search_all` (partial as `c28_complete_partial`). -/
theorem c28_all_partial (b : Build) (rng : Nat → Nat → Nat) (points : List α) (radius : F64)
    (maxN : Nat) (nss : List (List Nat)) (h : searchAll b rng points radius maxN = .ok nss)
    (hf : ∀ p ∈ points, Spec.Fin (pt p)) (hr : radius.isFinite = true) (hpos : 0 < radius.fv)
    (hsmall : SmallVoxels points (List.range points.length) radius)
    (i j : Nat) (p q : α) (ns : List Nat) (hns : nss[i]? = some ns) (hless : ns.length < maxN)
    (hp : points[i]? = some p) (hq : points[j]? = some q)
    (hd : F64.le (Pt.distance (pt p) (pt q)) radius = true) (hclose : CloserThan (pt p) (pt q) radius) : j ∈ ns := by
  have hi : (List.range points.length)[i]? = some i := by
    have := (List.getElem?_eq_some_iff.mp hp).1
    rw [List.getElem?_range this]
  exact c28_all_neighbors_partial b rng points (List.range points.length) radius maxN nss h hf hr hpos hsmall i i j p q
    ns hns hless hi hp hq hd hclose

/-- C28 for `radius_search_get_neighbors` (partial as `c28_complete_partial`): if fewer than 32 are listed, none is missing. -/
theorem c28_get_neighbors_partial (b : Build) (rng : Nat → Nat → Nat) (points : List α) (radius : F64)
    (nss : List (List Nat)) (h : searchGetNeighbors b rng points radius = .ok nss)
    (hf : ∀ p ∈ points, Spec.Fin (pt p)) (hr : radius.isFinite = true) (hpos : 0 < radius.fv)
    (hsmall : SmallVoxels points (List.range points.length) radius)
    (i j : Nat) (p q : α) (ns : List Nat) (hns : nss[i]? = some ns) (hless : ns.length < 32)
    (hp : points[i]? = some p) (hq : points[j]? = some q)
    (hd : F64.le (Pt.distance (pt p) (pt q)) radius = true) (hclose : CloserThan (pt p) (pt q) radius) : j ∈ ns :=
  c28_all_partial b rng points radius 32 nss h hf hr hpos hsmall i j p q ns hns hless hp hq hd hclose

end

/-- A cloud for which the hypotheses of the theorems about the functions built on the search hold. -/
example : let pts : List (Pt F64) := [⟨num 0, num 0, num 0⟩, ⟨⟨0x3FE0000000000000⟩, num 0, num 0⟩, ⟨num 7, num 0, num 0⟩]
    searchGetNeighbors .debug (fun _ _ => 5) pts F64.one = .ok [[1, 0], [1, 0], [2]]
      ∧ searchIndexes .debug (fun _ _ => 5) pts [2, 1] F64.one 4 = .ok [[0], [1]]
      ∧ searchAllNeighbors .debug (fun _ _ => 5) pts [2, 1] F64.one 4 = .ok [[2], [1, 0]]
      ∧ SmallVoxels pts (List.range pts.length) F64.one := by
  refine ⟨by decide +kernel, by decide +kernel, by decide +kernel, ?_⟩
  intro pvs h
  have : Voxel.getIndexesOf [⟨num 0, num 0, num 0⟩, ⟨⟨0x3FE0000000000000⟩, num 0, num 0⟩, (⟨num 7, num 0, num 0⟩ : Pt F64)]
    (List.range 3) F64.one = .ok [⟨0, 0, 0⟩, ⟨0, 0, 0⟩, ⟨7, 0, 0⟩] := by decide +kernel
  obtain rfl := Res.ok.inj (this.symm.trans h)
  decide

/-- C28 is false: the points 1 - 2^-52 and 2 - 2^-52 have distance exactly 1, but rounding puts them two voxels apart
when the cloud starts at -2^-53. -/
theorem c28_incomplete :
    let a : Pt F64 := ⟨⟨0x3FEFFFFFFFFFFFFE⟩, num 0, num 0⟩
    let c : Pt F64 := ⟨⟨0x3FFFFFFFFFFFFFFF⟩, num 0, num 0⟩
    let pts : List (Pt F64) := [⟨⟨0xBCA0000000000000⟩, num 0, num 0⟩, a, c]
    c.x.fv - a.x.fv = F64.one.fv
      ∧ F64.le (Pt.distance a c) F64.one = true
      ∧ Voxel.getIndexesOf pts [1, 2] F64.one = .ok [⟨0, 0, 0⟩, ⟨2, 0, 0⟩] := by decide +kernel

/-- C28 is false: the search does not report the point at distance 1, for any random numbers. -/
theorem c28_not_reported (b : Build) (rng : Nat → Nat → Nat) :
    let a : Pt F64 := ⟨⟨0x3FEFFFFFFFFFFFFE⟩, num 0, num 0⟩
    let c : Pt F64 := ⟨⟨0x3FFFFFFFFFFFFFFF⟩, num 0, num 0⟩
    let pts : List (Pt F64) := [⟨⟨0xBCA0000000000000⟩, num 0, num 0⟩, a, c]
    search b rng pts [1] [2] F64.one 32 = .ok [[]] := by
  intro a c pts
  have h1 : Voxel.getIndexesOf pts [1] F64.one = .ok [⟨0, 0, 0⟩] := by decide +kernel
  have h2 : Voxel.getIndexesOf pts [2] F64.one = .ok [⟨2, 0, 0⟩] := by decide +kernel
  have hu : ∃ us, voxels27 ⟨0, 0, 0⟩ = .ok us ∧ candidates (Voxel.getMap [⟨2, 0, 0⟩]) us = [] :=
    ⟨_, rfl, by decide +kernel⟩
  obtain ⟨us, hu, hc⟩ := hu
  obtain ⟨drawn, rest, out, e1, e2, e3, _, _⟩ := getNeighbors_spec b rng pts [1] [2] F64.one 32 [⟨0, 0, 0⟩] [⟨2, 0, 0⟩]
    rfl rfl (by decide) (by decide) 0 _ rfl us hu
  rw [hc] at e2
  have : drawn = [] := by
    have := e2.length_eq
    simp only [List.length_nil, List.length_append] at this
    exact List.length_eq_zero_iff.mp (by omega)
  rw [this] at e3
  simp only [List.filter_nil] at e3
  unfold search
  rw [h1, h2, Res.ok_bind, Res.ok_bind]
  show (List.range 1).mapM _ = _
  rw [show List.range 1 = [0] from rfl, List.mapM_cons, e1, e3]
  rfl

end Spoc.Props
