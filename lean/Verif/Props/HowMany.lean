import Verif.Spec.Places
import Verif.Props.Displaced

/-!
# C114: how many points are kept depends on the occupied places only
-/

namespace Spoc.Props

open Spec Text Main AppUtils Transform Spec.Cmd Cmd Getopt

/-- Two lists without duplicates and with the same elements are of the same length. -/
theorem length_of_mem {κ : Type} {l m : List κ} (hl : l.Nodup) (hm : m.Nodup) (h : ∀ v, v ∈ l ↔ v ∈ m) : l.length = m.length := by
  classical exact ((List.perm_ext_iff_of_nodup hl hm).mpr h).length_eq

theorem off_zero {p q : Pt F64} (hp : Spec.Fin p) (hq : Spec.Fin q) (h : SamePlace p q) : Off 0 0 0 p q :=
  ⟨hp, hq, by rw [h.1]; omega, by rw [h.2.1]; omega, by rw [h.2.2]; omega⟩

section
variable {α : Type} [HasXYZ α]

/-- The same places, in terms of the points. -/
theorem places_off {ps qs : List α} (hp : ∀ p ∈ ps, Spec.Fin (pt p)) (hq : ∀ q ∈ qs, Spec.Fin (pt q)) (h : SamePlaces (ps.map pt) (qs.map pt)) :
    (∀ p ∈ ps, ∃ q ∈ qs, Off 0 0 0 (pt p) (pt q)) ∧ ∀ q ∈ qs, ∃ p ∈ ps, Off 0 0 0 (pt p) (pt q) := by
  constructor
  · intro p h'
    obtain ⟨x, hx, e⟩ := h.1 _ (List.mem_map_of_mem h')
    obtain ⟨q, hq', rfl⟩ := List.mem_map.mp hx
    exact ⟨q, hq', off_zero (hp p h') (hq q hq') e⟩
  · intro q h'
    obtain ⟨x, hx, e⟩ := h.2 _ (List.mem_map_of_mem h')
    obtain ⟨p, hp', rfl⟩ := List.mem_map.mp hx
    exact ⟨p, hp', off_zero (hp p hp') (hq q h') e⟩

/-- The same voxels are occupied. -/
theorem voxels_off {ps qs : List α} (a1 : ∀ p ∈ ps, ∃ q ∈ qs, Off 0 0 0 (pt p) (pt q)) (a2 : ∀ q ∈ qs, ∃ p ∈ ps, Off 0 0 0 (pt p) (pt q))
    (res : F64) {vs : List VoxelIndex} (hv : Voxel.getIndexes ps res = .ok vs) :
    ∃ ws, Voxel.getIndexes qs res = .ok ws ∧ ∀ v, v ∈ vs ↔ v ∈ ws := by
  by_cases hne : ps = []
  · subst hne
    have : qs = [] := by
      by_contra hc
      obtain ⟨q, hq⟩ := List.exists_mem_of_ne_nil qs hc
      obtain ⟨p, hp, -⟩ := a2 q hq
      simp at hp
    subst this
    exact ⟨vs, hv, fun _ => Iff.rfl⟩
  · have hmin := (extent_off hne a1 a2).1
    have hv' := mapM_eq_ok.mp hv
    have mem : ∀ {l : List α} {us : List VoxelIndex} {m : Pt F64}, List.Forall₂ (fun p v => Voxel.getIndex (pt p) m res = .ok v) l us →
        ∀ v, v ∈ us ↔ ∃ p ∈ l, Voxel.getIndex (pt p) m res = .ok v := by
      intro l us m h v
      induction h with
      | nil => simp
      | cons h _ ih =>
        simp only [List.mem_cons, ih, exists_eq_or_imp, h, Res.ok.injEq]
        exact or_congr_left eq_comm
    have m1 := mem hv'
    obtain ⟨ws, hw⟩ := mapM_ok_of (f := fun q => Voxel.getIndex (pt q) (Extent.ofPoints qs).minp res) (l := qs) (fun q hq => by
      obtain ⟨p, hp, h⟩ := a2 q hq
      rw [← getIndex_off h hmin res]
      obtain ⟨i, hi, rfl⟩ := List.getElem_of_mem hp
      have hi' : i < vs.length := by rw [← hv'.length_eq]; exact hi
      exact ⟨_, forall₂_get hv' hi hi'⟩)
    have m2 := mem (mapM_eq_ok.mp hw)
    refine ⟨ws, hw, fun v => ?_⟩
    rw [m1, m2]
    constructor
    · rintro ⟨p, hp, e⟩
      obtain ⟨q, hq, h⟩ := a1 p hp
      exact ⟨q, hq, by rw [← getIndex_off h hmin res, e]⟩
    · rintro ⟨q, hq, e⟩
      obtain ⟨p, hp, h⟩ := a2 q hq
      exact ⟨p, hp, by rw [getIndex_off h hmin res, e]⟩

/-- **C114**, subsampling: the number of points that are kept depends only on the places that the points are at: neither on their
order, nor on how many there are at each place, nor on the seed and the random order; nor does it depend on these whether the grid
is fine enough to be numbered. -/
theorem c114_subsample (b b' : Build) (sh sh' : Subsampling.Shuffle) (hsh : sh.Lawful) (hsh' : sh'.Lawful) {ps qs : List α}
    (hp : ∀ p ∈ ps, Spec.Fin (pt p)) (hq : ∀ q ∈ qs, Spec.Fin (pt q)) (h : SamePlaces (ps.map pt) (qs.map pt)) (res : F64) (seed seed' : Nat)
    {ps' : List α} (hs : Subsampling.subsamplePoints b sh ps res seed = .ok ps') :
    ∃ qs', Subsampling.subsamplePoints b' sh' qs res seed' = .ok qs' ∧ qs'.length = ps'.length := by
  obtain ⟨a1, a2⟩ := places_off hp hq h
  cases hv : Voxel.getIndexes ps res with
  | ok vs =>
    obtain ⟨ws, hw, hmem⟩ := voxels_off a1 a2 res hv
    have key : ∀ (b : Build) (sh : Subsampling.Shuffle), sh.Lawful → ∀ (ps : List α) (seed : Nat) (vs : List VoxelIndex),
        Voxel.getIndexes ps res = .ok vs → ∃ (ks : List Nat) (qs : List α), Subsampling.subsamplePoints b sh ps res seed = .ok qs ∧ ks.length = qs.length
          ∧ (ks.map (fun k : Nat => vs[k]?)).Nodup ∧ ∀ v, v ∈ ks.map (fun k : Nat => vs[k]?) ↔ v ∈ vs.map some := by
      intro b sh hsh ps seed vs hv
      obtain ⟨ks, qs, -, h2, h3, h4, h5, h6, h7⟩ := c23_one_per_voxel b sh hsh ps res seed vs hv
      have hlen : vs.length = ps.length := mapM_length hv
      refine ⟨ks, qs, h2, h3.length_eq, List.Nodup.map_on h6 h4, fun v => ?_⟩
      simp only [List.mem_map]
      constructor
      · rintro ⟨k, hk, rfl⟩
        have := h5 k hk
        exact ⟨vs[k], List.getElem_mem (by omega), (List.getElem?_eq_getElem (by omega)).symm⟩
      · rintro ⟨v, hv', rfl⟩
        obtain ⟨i, hi, rfl⟩ := List.getElem_of_mem hv'
        obtain ⟨k, hk, e⟩ := h7 i (by omega)
        exact ⟨k, hk, by rw [e, List.getElem?_eq_getElem hi]⟩
    obtain ⟨ks, us, k1, k2, k3, k4⟩ := key b sh hsh ps seed vs hv
    obtain ⟨ls, us', l1, l2, l3, l4⟩ := key b' sh' hsh' qs seed' ws hw
    rw [hs] at k1
    obtain rfl := Res.ok.inj k1
    refine ⟨us', l1, ?_⟩
    have := length_of_mem l3 k3 (fun v => by rw [l4, k4]; simp [hmem])
    rw [List.length_map, List.length_map] at this
    omega
  | _ =>
    have := c23_undefined b sh ps res seed (by rw [hv]; rfl)
    rw [hs] at this
    simp [Res.isOk] at this

theorem noNaN_of_fin {p : Pt F64} (h : Spec.Fin p) : Spec.NoNaN p :=
  ⟨F64.not_nan_of_finite h.1, F64.not_nan_of_finite h.2.1, F64.not_nan_of_finite h.2.2⟩

/-- One point for each place. -/
theorem unique_places (b : Build) (sh : Subsampling.Shuffle) (hsh : sh.Lawful) {ps : List α} (hp : ∀ p ∈ ps, Spec.Fin (pt p)) (seed : Nat) :
    ∃ us, uniqueXyzPoints b sh ps seed = .ok us ∧ us ⊆ ps ∧ SamePlaces (ps.map pt) (us.map pt)
      ∧ (us.map (fun u => ((pt u).x.fv, (pt u).y.fv, (pt u).z.fv))).Nodup := by
  obtain ⟨ks, h1, h2, h3, h4, h5⟩ := c26_unique b sh hsh ps seed
  obtain ⟨us, hu, hf⟩ := mapM_at ps ks h3
  have hus : us = ks.filterMap (fun k => ps[k]?) := forall₂_filterMap hf
  have hmem : ∀ u, u ∈ us ↔ ∃ k ∈ ks, ps[k]? = some u := by
    intro u
    rw [hus, List.mem_filterMap]
  have hsub : us ⊆ ps := by
    intro u hu
    obtain ⟨k, -, e⟩ := (hmem u).mp hu
    exact List.mem_of_getElem? e
  refine ⟨us, by unfold uniqueXyzPoints; rw [h1, Res.ok_bind]; exact hu, hsub, ⟨?_, ?_⟩, ?_⟩
  · intro x hx
    obtain ⟨p, hp', rfl⟩ := List.mem_map.mp hx
    obtain ⟨i, hi, rfl⟩ := List.getElem_of_mem hp'
    rcases h5 i _ (List.getElem?_eq_getElem hi) with h | ⟨k, hk, q, hq, -, -, e⟩
    · exact ⟨_, List.mem_map_of_mem ((hmem _).mpr ⟨i, h, List.getElem?_eq_getElem hi⟩), rfl, rfl, rfl⟩
    · exact ⟨_, List.mem_map_of_mem ((hmem _).mpr ⟨k, hk, hq⟩), e.1.symm, e.2.1.symm, e.2.2.symm⟩
  · intro x hx
    obtain ⟨u, hu', rfl⟩ := List.mem_map.mp hx
    exact ⟨_, List.mem_map_of_mem (hsub hu'), rfl, rfl, rfl⟩
  · rw [List.Nodup, List.pairwise_map, List.pairwise_iff_getElem]
    intro i j hi hj hij e
    have hi' : i < ks.length := by rw [hf.length_eq]; exact hi
    have hj' : j < ks.length := by rw [hf.length_eq]; exact hj
    simp only [Prod.mk.injEq] at e
    have := h4 _ (List.getElem_mem hi') _ (List.getElem_mem hj') _ _ (forall₂_get hf hi' hi) (forall₂_get hf hj' hj)
      (noNaN_of_fin (hp _ (hsub (List.getElem_mem hi)))) (noNaN_of_fin (hp _ (hsub (List.getElem_mem hj)))) e
    have := (h2.getElem_inj_iff).mp this
    omega

theorem samePlaces_symm {ps qs : List (Pt F64)} (h : SamePlaces ps qs) : SamePlaces qs ps :=
  ⟨fun q hq => by obtain ⟨p, hp, e⟩ := h.2 q hq; exact ⟨p, hp, e.1.symm, e.2.1.symm, e.2.2.symm⟩,
    fun p hp => by obtain ⟨q, hq, e⟩ := h.1 p hp; exact ⟨q, hq, e.1.symm, e.2.1.symm, e.2.2.symm⟩⟩

theorem samePlaces_trans {ps qs rs : List (Pt F64)} (h : SamePlaces ps qs) (h' : SamePlaces qs rs) : SamePlaces ps rs := by
  constructor
  · intro p hp
    obtain ⟨q, hq, e⟩ := h.1 p hp
    obtain ⟨r, hr, e'⟩ := h'.1 q hq
    exact ⟨r, hr, e.1.trans e'.1, e.2.1.trans e'.2.1, e.2.2.trans e'.2.2⟩
  · intro r hr
    obtain ⟨q, hq, e'⟩ := h'.2 r hr
    obtain ⟨p, hp, e⟩ := h.2 q hq
    exact ⟨p, hp, e.1.trans e'.1, e.2.1.trans e'.2.1, e.2.2.trans e'.2.2⟩

/-- **C114**, points at the same place: the number of points that are kept is the number of places. -/
theorem c114_unique (b b' : Build) (sh sh' : Subsampling.Shuffle) (hsh : sh.Lawful) (hsh' : sh'.Lawful) {ps qs : List α}
    (hp : ∀ p ∈ ps, Spec.Fin (pt p)) (hq : ∀ q ∈ qs, Spec.Fin (pt q)) (h : SamePlaces (ps.map pt) (qs.map pt)) (seed seed' : Nat) :
    ∃ ps' qs', uniqueXyzPoints b sh ps seed = .ok ps' ∧ uniqueXyzPoints b' sh' qs seed' = .ok qs' ∧ qs'.length = ps'.length
      ∧ SamePlaces (ps'.map pt) (qs'.map pt) := by
  obtain ⟨us, u1, u2, u3, u4⟩ := unique_places b sh hsh hp seed
  obtain ⟨ws, w1, w2, w3, w4⟩ := unique_places b' sh' hsh' hq seed'
  have hs := samePlaces_trans (samePlaces_trans (samePlaces_symm u3) h) w3
  refine ⟨us, ws, u1, w1, ?_, hs⟩
  have := length_of_mem w4 u4 (fun v => by
    simp only [List.mem_map]
    constructor
    · rintro ⟨a, ha, rfl⟩
      obtain ⟨x, hx, e⟩ := hs.2 _ (List.mem_map_of_mem ha)
      obtain ⟨c, hc, rfl⟩ := List.mem_map.mp hx
      exact ⟨c, hc, by rw [e.1, e.2.1, e.2.2]⟩
    · rintro ⟨a, ha, rfl⟩
      obtain ⟨x, hx, e⟩ := hs.1 _ (List.mem_map_of_mem ha)
      obtain ⟨c, hc, rfl⟩ := List.mem_map.mp hx
      exact ⟨c, hc, by rw [e.1, e.2.1, e.2.2]⟩)
  rw [List.length_map, List.length_map] at this
  exact this

end

/-- The points of a class. -/
def ofClass (n : Nat) (ps : List PointRecord) : List PointRecord := ps.filter (fun q => decide (q.c.toNat = n))

theorem mem_ofClass {n : Nat} {ps : List PointRecord} {q : PointRecord} : q ∈ ofClass n ps ↔ q ∈ ps ∧ q.c.toNat = n := by
  simp [ofClass]

/-- The steps of the filter application. -/
theorem c114_steps (b b' : Build) (sh sh' : Subsampling.Shuffle) (hsh : sh.Lawful) (hsh' : sh'.Lawful) (r : FilterRequest) (seed' : Nat)
    (hr : r.unique = true ∨ r.resolution ≠ none) (hco : r.coords = none) {ps qs : List PointRecord}
    (hp : ∀ p ∈ ps, Spec.Fin (pt p)) (hq : ∀ q ∈ qs, Spec.Fin (pt q))
    (h : ∀ n, SamePlaces ((ofClass n ps).map pt) ((ofClass n qs).map pt)) {ps' : List PointRecord} (hs : FilterSteps b sh r ps ps') :
    ∃ qs', FilterSteps b' sh' { r with seed := seed' } qs qs' ∧ qs'.length = ps'.length := by
  obtain ⟨p1, p2, p3, p4, e1, e2, e3, e4, e5⟩ := hs
  -- by class
  have pick : ∀ (f : Nat → Bool) {ps qs : List PointRecord}, (∀ n, SamePlaces ((ofClass n ps).map pt) ((ofClass n qs).map pt)) →
      ∀ n, SamePlaces ((ofClass n (ps.filter (fun q => f q.c.toNat))).map pt) ((ofClass n (qs.filter (fun q => f q.c.toNat))).map pt) := by
    intro f ps qs h n
    have e : ∀ l : List PointRecord, ofClass n (l.filter (fun q => f q.c.toNat)) = if f n then ofClass n l else [] := by
      intro l
      unfold ofClass
      rw [List.filter_filter]
      split
      · rename_i hf
        refine List.filter_congr fun q _ => ?_
        by_cases hn : q.c.toNat = n <;> simp [hn, hf]
      · rename_i hf
        rw [List.filter_eq_nil_iff]
        intro q _
        by_cases hn : q.c.toNat = n <;> simp [hn, hf]
    rw [e, e]
    split
    · exact h n
    · exact ⟨by simp, by simp⟩
  obtain ⟨q1, f1, g1⟩ : ∃ q1, q1 = (if r.keep = [] then qs else qs.filter (fun p => decide (p.c.toNat ∈ r.keep)))
      ∧ ∀ n, SamePlaces ((ofClass n p1).map pt) ((ofClass n q1).map pt) := by
    refine ⟨_, rfl, ?_⟩
    rw [e1]
    split
    · exact h
    · exact pick (fun n => decide (n ∈ r.keep)) h
  obtain ⟨q2, f2, g2⟩ : ∃ q2, q2 = q1.filter (fun p => decide (p.c.toNat ∉ r.remove))
      ∧ ∀ n, SamePlaces ((ofClass n p2).map pt) ((ofClass n q2).map pt) := by
    refine ⟨_, rfl, ?_⟩
    rw [e2]
    exact pick (fun n => decide (n ∉ r.remove)) g1
  have fin : ∀ {l l1 l2 : List PointRecord}, (∀ p ∈ l, Spec.Fin (pt p)) →
      l1 = (if r.keep = [] then l else l.filter (fun p => decide (p.c.toNat ∈ r.keep))) →
      l2 = l1.filter (fun p => decide (p.c.toNat ∉ r.remove)) → ∀ p ∈ l2, Spec.Fin (pt p) := by
    intro l l1 l2 h a1 a2 p hp
    rw [a2] at hp
    have := (List.mem_filter.mp hp).1
    rw [a1] at this
    split at this
    · exact h p this
    · exact h p (List.mem_filter.mp this).1
  have hp2 := fin hp e1 e2
  have hq2 := fin hq f1 f2
  have hs2 : SamePlaces (p2.map pt) (q2.map pt) := by
    constructor
    · intro x hx
      obtain ⟨p, hp', rfl⟩ := List.mem_map.mp hx
      obtain ⟨y, hy, e⟩ := (g2 p.c.toNat).1 _ (List.mem_map_of_mem (mem_ofClass.mpr ⟨hp', rfl⟩))
      obtain ⟨q, hq', rfl⟩ := List.mem_map.mp hy
      exact ⟨_, List.mem_map_of_mem (mem_ofClass.mp hq').1, e⟩
    · intro x hx
      obtain ⟨q, hq', rfl⟩ := List.mem_map.mp hx
      obtain ⟨y, hy, e⟩ := (g2 q.c.toNat).2 _ (List.mem_map_of_mem (mem_ofClass.mpr ⟨hq', rfl⟩))
      obtain ⟨p, hp', rfl⟩ := List.mem_map.mp hy
      exact ⟨_, List.mem_map_of_mem (mem_ofClass.mp hp').1, e⟩
  -- places
  obtain ⟨us, ws, u1, w1, hl, hs3⟩ := c114_unique b b' sh sh' hsh hsh' hp2 hq2 hs2 r.seed seed'
  have sub : ∀ {b : Build} {sh : Subsampling.Shuffle} {l l' : List PointRecord} {s : Nat}, sh.Lawful → uniqueXyzPoints b sh l s = .ok l' →
      (∀ p ∈ l, Spec.Fin (pt p)) → ∀ p ∈ l', Spec.Fin (pt p) := by
    intro b sh l l' s hsh hu hf p hp
    obtain ⟨us, a1, a2, -⟩ := unique_places b sh hsh hf s
    rw [hu] at a1
    obtain rfl := Res.ok.inj a1
    exact hf p (a2 hp)
  obtain ⟨q3, f3, h3, hp3, hq3, hl3⟩ : ∃ q3, (if r.unique then uniqueXyzPoints b' sh' q2 seed' = .ok q3 else q3 = q2)
      ∧ SamePlaces (p3.map pt) (q3.map pt) ∧ (∀ p ∈ p3, Spec.Fin (pt p)) ∧ (∀ q ∈ q3, Spec.Fin (pt q))
      ∧ (r.unique = true → q3.length = p3.length) := by
    by_cases hu : r.unique = true
    · rw [if_pos hu] at e3
      rw [e3] at u1
      obtain rfl := Res.ok.inj u1
      exact ⟨ws, by rw [if_pos hu]; exact w1, hs3, sub hsh e3 hp2, sub hsh' w1 hq2, fun _ => hl⟩
    · rw [if_neg hu] at e3
      subst e3
      exact ⟨q2, by rw [if_neg hu], hs2, hp2, hq2, fun h => absurd h hu⟩
  have e5' : ps' = p4 := by rw [hco] at e5; exact e5
  subst e5'
  cases hres : r.resolution with
  | none =>
    rw [hres] at e4
    have e4' : ps' = p3 := e4
    subst e4'
    refine ⟨q3, ⟨q1, q2, q3, q3, f1, f2, f3, ?_, ?_⟩, hl3 ?_⟩
    · simp only
    · simp only [hco]
    · rcases hr with hr | hr
      · exact hr
      · exact absurd hres hr
  | some v =>
    rw [hres] at e4
    have e4' : Subsampling.subsamplePoints b sh p3 v r.seed = .ok ps' := e4
    obtain ⟨q4, f4, hl4⟩ := c114_subsample b b' sh sh' hsh hsh' hp3 hq3 h3 v r.seed seed' e4'
    refine ⟨q4, ⟨q1, q2, q3, q4, f1, f2, f3, ?_, ?_⟩, hl4⟩
    · exact f4
    · simp only [hco]

/-! ## Examples -/

/-- The points of the examples twice over, backwards. -/
def cloudTwice : SpocFile := { SpocFile.empty with prs := tilePoints.reverse ++ tilePoints.reverse }

theorem cloudTwice_survives : Survives toyZlib cloudTwice :=
  ⟨⟨rfl, rfl, by decide, by unfold Uniform; decide, by decide, by decide⟩, fun _ => by decide, fun h => by simp [cloudTwice, SpocFile.empty] at h⟩

theorem samePlaces_mem {ps qs : List (Pt F64)} (h : ∀ p, p ∈ ps ↔ p ∈ qs) : SamePlaces ps qs :=
  ⟨fun p hp => ⟨p, (h p).mp hp, rfl, rfl, rfl⟩, fun q hq => ⟨q, (h q).mpr hq, rfl, rfl, rfl⟩⟩

theorem cloudTwice_places (n : Nat) : SamePlaces ((ofClass n cloudA.prs).map pt) ((ofClass n cloudTwice.prs).map pt) := by
  refine samePlaces_mem fun p => ?_
  simp [ofClass, cloudA, cloudTwice]

/-- The standard input is that cloud. -/
def twiceInput : World := { exampleDisk with stdin := { rest := (Io.writeFile .release toyZlib cloudTwice).bytes } }

example {qs : List PointRecord} (h : Subsampling.subsamplePoints .release noShuffle cloudA.prs (num 6) 0 = .ok qs) :
    ∃ us, Subsampling.subsamplePoints .debug noShuffle cloudTwice.prs (num 6) 7 = .ok us ∧ us.length = qs.length :=
  c114_subsample .release .debug noShuffle noShuffle (fun _ l => List.Perm.refl l) (fun _ l => List.Perm.refl l)
    (by unfold Spec.Fin; decide +kernel) (by unfold Spec.Fin; decide +kernel)
    (samePlaces_mem fun p => by simp [cloudA, cloudTwice]) (num 6) 0 7 h

/-- **C114, negation**: with a condition on a coordinate, the number depends on the order of the points. -/
theorem c114_condition : ∃ (p : Params) (f g : SpocFile) (w w' : World) (argv : List Str),
    f.prs.Perm g.prs ∧ w.stdin = { rest := (Io.writeFile p.build p.zlib f).bytes } ∧ w'.stdin = { rest := (Io.writeFile p.build p.zlib g).bytes }
      ∧ (Name.filter.run p argv w).res = .ok 0 ∧ (Name.filter.run p argv w').res = .ok 0
      ∧ (Name.filter.run p argv w).out.length ≠ (Name.filter.run p argv w').out.length :=
  ⟨exampleParams, cloudA, { cloudA with prs := cloudA.prs.reverse }, exampleInput,
    { exampleDisk with stdin := { rest := (Io.writeFile .release toyZlib { cloudA with prs := cloudA.prs.reverse }).bytes } },
    ["-s100".toList, "-cx > 5".toList], (List.reverse_perm _).symm, rfl, rfl, by decide +kernel⟩

end Spoc.Props
