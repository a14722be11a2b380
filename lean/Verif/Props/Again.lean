import Verif.Props.HowMany
import Verif.Props.Pipeline
import Verif.Props.InfoOrder
import Verif.Props.Plain

/-!
# C134: points at places that are taken change nothing

Merging a cloud with itself, with a part of itself or with any cloud whose points are at the same places, and then
thinning out the result, gives what thinning out the cloud itself gives.
-/

namespace Spoc.Props

open Spec Text Main AppUtils Subsampling Spec.Cmd Cmd Getopt

section
variable {α : Type} [HasXYZ α]

/-- Where there is a point of `qs`, there is one of `ps`. -/
def Taken (ps qs : List α) : Prop := ∀ q ∈ qs, ∃ p ∈ ps, SamePlace (pt p) (pt q)

theorem filter_range_add (n m : Nat) (f g : Nat → Bool) (h1 : ∀ i < n, f i = g i) (h2 : ∀ i, n ≤ i → i < n + m → f i = false) :
    (List.range (n + m)).filter f = (List.range n).filter g := by
  rw [List.range_add, List.filter_append]
  have e1 : (List.range n).filter f = (List.range n).filter g :=
    List.filter_congr fun i hi => h1 i (List.mem_range.mp hi)
  have e2 : ((List.range m).map (n + ·)).filter f = [] := by
    rw [List.filter_eq_nil_iff]
    intro i hi
    obtain ⟨k, hk, rfl⟩ := List.mem_map.mp hi
    rw [h2 _ (Nat.le_add_right _ _) (by have := List.mem_range.mp hk; omega)]
    simp
  rw [e1, e2, List.append_nil]

omit [HasXYZ α] in
theorem mapM_at_append (ps qs : List α) (ks : List Nat) (h : ∀ k ∈ ks, k < ps.length) :
    ks.mapM (fun i => Voxel.at' (ps ++ qs) i) = ks.mapM (fun i => Voxel.at' ps i) :=
  mapM_congr' fun k hk => by
    unfold Voxel.at'
    rw [List.getElem?_append_left (h k hk)]

/-- **C134**, unique-xyz without a seed: further points at places that are taken change nothing. -/
theorem c134_unique (b : Build) (sh : Shuffle) (hsh : sh.Lawful) (ps qs : List α) (hp : ∀ p ∈ ps, Spec.NoNaN (pt p))
    (hq : ∀ q ∈ qs, Spec.NoNaN (pt q)) (h : Taken ps qs) :
    uniqueXyzPoints b sh (ps ++ qs) 0 = uniqueXyzPoints b sh ps 0 := by
  classical
  unfold uniqueXyzPoints
  rw [c26_first b sh hsh, c26_first b sh hsh, Res.ok_bind, Res.ok_bind, List.length_append,
    filter_range_add ps.length qs.length _ (fun i => decide (∀ j < i, ¬ AtPlaceOf ps j i))]
  · exact mapM_at_append _ _ _ (fun k hk => List.mem_range.mp (List.mem_filter.mp hk).1)
  · intro i hi
    refine decide_eq_decide.mpr (forall_congr' fun j => forall_congr' fun hj => ?_)
    unfold AtPlaceOf
    rw [List.getElem?_append_left hi, List.getElem?_append_left (by omega)]
  · intro i h1 h2
    refine decide_eq_false fun hc => ?_
    have hi : (ps ++ qs)[i]? = some qs[i - ps.length] := by
      rw [List.getElem?_append_right h1, List.getElem?_eq_getElem (by omega)]
    have hm : qs[i - ps.length] ∈ qs := List.getElem_mem _
    obtain ⟨p, hp', hs⟩ := h _ hm
    obtain ⟨j, hj, e⟩ := List.getElem_of_mem hp'
    refine hc j (by omega) ⟨p, _, ?_, hi, hp p hp', hq _ hm, hs⟩
    rw [List.getElem?_append_left hj, List.getElem?_eq_getElem hj, e]

/-- The voxel numbers of the further points are among those that are there. -/
theorem voxels_append {ps qs : List α} (hp : ∀ p ∈ ps, Spec.Fin (pt p)) (hq : ∀ q ∈ qs, Spec.Fin (pt q)) (h : Taken ps qs)
    (res : F64) {vs : List VoxelIndex} (hv : Voxel.getIndexes ps res = .ok vs) :
    ∃ ws, Voxel.getIndexes (ps ++ qs) res = .ok (vs ++ ws) ∧ ∀ v ∈ ws, v ∈ vs := by
  by_cases hne : ps = []
  · subst hne
    have : qs = [] := by
      by_contra hc
      obtain ⟨q, hq⟩ := List.exists_mem_of_ne_nil qs hc
      obtain ⟨p, hp, -⟩ := h q hq
      simp at hp
    subst this
    exact ⟨[], by rw [List.append_nil, List.append_nil]; exact hv, by simp⟩
  · have a1 : ∀ p ∈ ps, ∃ q ∈ ps ++ qs, Off 0 0 0 (pt p) (pt q) :=
      fun p h' => ⟨p, List.mem_append_left _ h', off_zero (hp p h') (hp p h') ⟨rfl, rfl, rfl⟩⟩
    have a2 : ∀ q ∈ ps ++ qs, ∃ p ∈ ps, Off 0 0 0 (pt p) (pt q) := by
      intro q h'
      rcases List.mem_append.mp h' with h' | h'
      · exact ⟨q, h', off_zero (hp q h') (hp q h') ⟨rfl, rfl, rfl⟩⟩
      · obtain ⟨p, hp', e⟩ := h q h'
        exact ⟨p, hp', off_zero (hp p hp') (hq q h') e⟩
    have hmin := (extent_off hne a1 a2).1
    have hv' := mapM_eq_ok.mp hv
    have e1 : List.Forall₂ (fun q v => Voxel.getIndex (pt q) (Extent.ofPoints (ps ++ qs)).minp res = .ok v) ps vs :=
      by
        have : List.Forall₂ (fun q v => q ∈ ps ∧ Voxel.getIndex (pt q) (Extent.ofPoints ps).minp res = .ok v) ps vs :=
          List.forall₂_iff_get.mpr ⟨hv'.length_eq, fun i h1 h2 => ⟨List.getElem_mem _, (List.forall₂_iff_get.mp hv').2 i h1 h2⟩⟩
        refine this.imp ?_
        rintro q v ⟨hm, e⟩
        rw [← e]
        exact (getIndex_off (off_zero (hp q hm) (hp q hm) ⟨rfl, rfl, rfl⟩) hmin res).symm
    have e2 : ∀ q ∈ qs, ∃ v, Voxel.getIndex (pt q) (Extent.ofPoints (ps ++ qs)).minp res = .ok v ∧ v ∈ vs := by
      intro q hq'
      obtain ⟨p, hp', e⟩ := h q hq'
      obtain ⟨i, hi, rfl⟩ := List.getElem_of_mem hp'
      have hi' : i < vs.length := by rw [← hv'.length_eq]; exact hi
      refine ⟨vs[i], ?_, List.getElem_mem _⟩
      rw [← getIndex_off (off_zero (hp _ hp') (hq q hq') e) hmin res]
      exact forall₂_get hv' hi hi'
    obtain ⟨ws, hw⟩ := mapM_ok_of (f := fun q => Voxel.getIndex (pt q) (Extent.ofPoints (ps ++ qs)).minp res) (l := qs)
      (fun q hq => ⟨_, (e2 q hq).choose_spec.1⟩)
    have hw' := mapM_eq_ok.mp hw
    refine ⟨ws, mapM_eq_ok.mpr (List.rel_append e1 hw'), fun v hv => ?_⟩
    obtain ⟨i, hi, rfl⟩ := List.getElem_of_mem hv
    have hi' : i < qs.length := by rw [hw'.length_eq]; exact hi
    have := forall₂_get hw' hi' hi
    obtain ⟨v, e, hv⟩ := e2 _ (List.getElem_mem hi')
    rw [this] at e
    rw [Res.ok.inj e]
    exact hv

/-- **C134**, subsampling without a seed: further points at places that are taken change nothing, not even whether the
voxels can be numbered. -/
theorem c134_subsample (b : Build) (sh : Shuffle) (hsh : sh.Lawful) (ps qs : List α) (hp : ∀ p ∈ ps, Spec.Fin (pt p))
    (hq : ∀ q ∈ qs, Spec.Fin (pt q)) (h : Taken ps qs) (res : F64) (us : List α) :
    subsamplePoints b sh (ps ++ qs) res 0 = .ok us ↔ subsamplePoints b sh ps res 0 = .ok us := by
  cases hv : Voxel.getIndexes ps res with
  | ok vs =>
    obtain ⟨ws, hw, hm⟩ := voxels_append hp hq h res hv
    have l1 : vs.length = ps.length := mapM_length hv
    have l2 : ws.length = qs.length := by
      have := mapM_length hw
      rw [List.length_append, List.length_append] at this
      omega
    unfold subsamplePoints
    rw [c24_stable b sh hsh _ res _ hv, c24_stable b sh hsh _ res _ hw, Res.ok_bind, Res.ok_bind, List.length_append,
      filter_range_add ps.length qs.length _ (fun i => decide (∀ j < i, vs[j]? ≠ vs[i]?))]
    · rw [mapM_at_append _ _ _ (fun k hk => List.mem_range.mp (List.mem_filter.mp hk).1)]
    · intro i hi
      refine decide_eq_decide.mpr (forall_congr' fun j => forall_congr' fun hj => ?_)
      rw [List.getElem?_append_left (by omega), List.getElem?_append_left (by omega)]
    · intro i h1 h2
      refine decide_eq_false fun hc => ?_
      have hi : (vs ++ ws)[i]? = some ws[i - vs.length] := by
        rw [List.getElem?_append_right (by omega), List.getElem?_eq_getElem (by omega)]
      obtain ⟨j, hj, e⟩ := List.getElem_of_mem (hm _ (List.getElem_mem (by omega : i - vs.length < ws.length)))
      refine hc j (by omega) ?_
      rw [hi, List.getElem?_append_left hj, List.getElem?_eq_getElem hj, e]
  | _ =>
    have n1 := c23_undefined b sh ps res 0 (by rw [hv]; rfl)
    have n2 : (subsamplePoints b sh (ps ++ qs) res 0).isOk = false := by
      refine c23_undefined b sh (ps ++ qs) res 0 ?_
      cases hw : Voxel.getIndexes (ps ++ qs) res with
      | ok ws =>
        obtain ⟨us, hu, -⟩ := voxels_off (ps := ps ++ qs) (qs := ps)
          (fun q h' => by
            rcases List.mem_append.mp h' with h' | h'
            · exact ⟨q, h', off_zero (hp q h') (hp q h') ⟨rfl, rfl, rfl⟩⟩
            · obtain ⟨p, hp', e⟩ := h q h'
              exact ⟨p, hp', off_zero (hq q h') (hp p hp') ⟨e.1.symm, e.2.1.symm, e.2.2.symm⟩⟩)
          (fun p h' => ⟨p, List.mem_append_left _ h', off_zero (hp p h') (hp p h') ⟨rfl, rfl, rfl⟩⟩) res hw
        rw [hv] at hu
        simp at hu
      | _ => rfl
    constructor <;> intro e
    · rw [e] at n2; simp [Res.isOk] at n2
    · rw [e] at n1; simp [Res.isOk] at n1

end

/-- Where there is a point of `qs`, there is one of `ps`, of the same class if the request is about classes. -/
def TakenFor (r : FilterRequest) (ps qs : List PointRecord) : Prop :=
  ∀ q ∈ qs, ∃ p ∈ ps, SamePlace (pt p) (pt q) ∧ ((r.keep = [] ∧ r.remove = []) ∨ p.c = q.c)

/-- **C134**, the steps of filter. -/
theorem c134_steps (b : Build) (sh : Shuffle) (hsh : sh.Lawful) (r : FilterRequest) (hseed : r.seed = 0)
    (hr : r.unique = true ∨ r.resolution ≠ none) (ps qs : List PointRecord) (hp : ∀ p ∈ ps, Spec.Fin (pt p))
    (hq : ∀ q ∈ qs, Spec.Fin (pt q)) (h : TakenFor r ps qs) (us : List PointRecord) :
    FilterSteps b sh r (ps ++ qs) us ↔ FilterSteps b sh r ps us := by
  have cls : ∀ l : List PointRecord, (if r.keep = [] then l else l.filter (fun p => decide (p.c.toNat ∈ r.keep))).filter
      (fun p => decide (p.c.toNat ∉ r.remove))
        = l.filter (fun p => decide ((r.keep = [] ∨ p.c.toNat ∈ r.keep) ∧ p.c.toNat ∉ r.remove)) := by
    intro l
    split
    · rename_i e
      exact List.filter_congr fun p _ => by simp [e]
    · rename_i e
      rw [List.filter_filter]
      exact List.filter_congr fun p _ => by simp only [e, false_or]; rw [Bool.decide_and, Bool.and_comm]
  have key : ∀ (l : List PointRecord), FilterSteps b sh r l us ↔ ∃ p3 p4,
      (if r.unique then uniqueXyzPoints b sh (l.filter (fun p => decide ((r.keep = [] ∨ p.c.toNat ∈ r.keep) ∧ p.c.toNat ∉ r.remove))) 0 = .ok p3
        else p3 = l.filter (fun p => decide ((r.keep = [] ∨ p.c.toNat ∈ r.keep) ∧ p.c.toNat ∉ r.remove)))
      ∧ (match r.resolution with
          | none => p4 = p3
          | some h => Subsampling.subsamplePoints b sh p3 h 0 = .ok p4)
      ∧ (match r.coords with
          | none => us = p4
          | some (c, v) => us = p4.filter (fun q => decide (¬ c.Holds q v))) := by
    intro l
    unfold FilterSteps
    rw [hseed]
    constructor
    · rintro ⟨p1, p2, p3, p4, e1, e2, e3, e4, e5⟩
      rw [e1, cls] at e2
      subst e2
      exact ⟨p3, p4, e3, e4, e5⟩
    · rintro ⟨p3, p4, e3, e4, e5⟩
      exact ⟨_, _, p3, p4, rfl, rfl, by rw [cls]; exact e3, e4, e5⟩
  rw [key, key, List.filter_append]
  have ht : Taken (ps.filter (fun p => decide ((r.keep = [] ∨ p.c.toNat ∈ r.keep) ∧ p.c.toNat ∉ r.remove)))
      (qs.filter (fun p => decide ((r.keep = [] ∨ p.c.toNat ∈ r.keep) ∧ p.c.toNat ∉ r.remove))) := by
    intro q hq
    obtain ⟨m, hq⟩ := List.mem_filter.mp hq
    obtain ⟨p, hp', e, hcl⟩ := h q m
    refine ⟨p, List.mem_filter.mpr ⟨hp', ?_⟩, e⟩
    rcases hcl with ⟨k1, k2⟩ | hcl
    · simp [k1, k2]
    · rw [hcl]; exact hq
  have hp' := fun p (m : p ∈ ps.filter (fun p => decide ((r.keep = [] ∨ p.c.toNat ∈ r.keep) ∧ p.c.toNat ∉ r.remove))) =>
    hp p (List.mem_filter.mp m).1
  have hq' := fun q (m : q ∈ qs.filter (fun p => decide ((r.keep = [] ∨ p.c.toNat ∈ r.keep) ∧ p.c.toNat ∉ r.remove))) =>
    hq q (List.mem_filter.mp m).1
  generalize ps.filter _ = ps' at *
  generalize qs.filter _ = qs' at *
  by_cases hu : r.unique = true
  · simp only [hu, if_true]
    rw [c134_unique b sh hsh ps' qs' (fun p m => noNaN_of_fin (hp' p m)) (fun q m => noNaN_of_fin (hq' q m)) ht]
  · have hres := hr.resolve_left hu
    simp only [hu, Bool.false_eq_true, if_false]
    obtain ⟨v, hv⟩ := Option.ne_none_iff_exists'.mp hres
    simp only [hv]
    constructor
    · rintro ⟨p3, p4, rfl, e4, e5⟩
      exact ⟨_, p4, rfl, (c134_subsample b sh hsh ps' qs' hp' hq' ht v p4).mp e4, e5⟩
    · rintro ⟨p3, p4, rfl, e4, e5⟩
      exact ⟨_, p4, rfl, (c134_subsample b sh hsh _ qs' hp' hq' ht v p4).mpr e4, e5⟩

/-- The cloud of which filter is to keep its share: merge with further files whose points are at places that are taken, if the points
of the first file have the point id that merge gives them. -/
theorem merged_prs (asked : Option Nat) (f : SpocFile) (fs : List SpocFile) (hid : ∀ q ∈ f.prs, q.p = idOf asked 0) :
    ∃ qs, (mergedCloud asked f fs).prs = f.prs ++ qs ∧ ∀ q ∈ qs, ∃ q' ∈ allPoints fs, q = { q' with p := q.p } := by
  unfold mergedCloud mergedPoints
  simp only
  rw [List.mapIdx_cons, List.flatten_cons]
  have e : f.prs.map (fun q => { q with p := idOf asked 0 }) = f.prs := by
    conv_rhs => rw [← List.map_id f.prs]
    refine List.map_congr_left fun q hq => ?_
    rw [← hid q hq]
    rfl
  rw [e]
  refine ⟨_, rfl, fun q hq => ?_⟩
  obtain ⟨l, hl, hq⟩ := List.mem_flatten.mp hq
  obtain ⟨i, hi, rfl⟩ := List.mem_mapIdx.mp hl
  obtain ⟨q', hq', rfl⟩ := List.mem_map.mp hq
  exact ⟨q', List.mem_flatMap.mpr ⟨_, List.getElem_mem hi, hq'⟩, rfl⟩

/-- **C134**, with files: merging a cloud with further clouds whose points are at places that are taken, and filtering the result with
`--unique-xyz` or `--subsample` and without a seed, writes byte for byte what filtering the cloud itself does; and the one fails if the
other does. -/
theorem c134_filter (p : Params) (hz : p.zlib.Correct) (hsh : p.shuffle.Lawful) (w : World) (r : FilterRequest) (hseed : r.seed = 0)
    (hr : r.unique = true ∨ r.resolution ≠ none) (margv fargv fargv' : List Str) (quiet : Bool) (asked : Option Nat) (ha : ∀ n ∈ asked, n < 2 ^ 31)
    (hmo : Cmd.merge.options margv = mergeOptions quiet asked) (f : SpocFile) (fs : List SpocFile) (hfs : fs ≠ [])
    (hf : List.Forall₂ (fun n f => HasCloud p w.fs n f) (Cmd.merge.operands margv) (f :: fs)) (hu : Uniform (allPoints (f :: fs)))
    (hn : (allPoints (f :: fs)).length < 2 ^ 64) (hc : ∀ g ∈ f :: fs, g.compressed = false)
    (hid : ∀ q ∈ f.prs, q.p = idOf asked 0) (hfin : ∀ q ∈ allPoints (f :: fs), Spec.Fin (pt q)) (ht : TakenFor r f.prs (allPoints fs))
    (hfo : Asks (Cmd.filter.options fargv) r) (hfn : Cmd.filter.operands fargv = [])
    (hfo' : Asks (Cmd.filter.options fargv') r) (hfn' : Cmd.filter.operands fargv' = [])
    (w1 w2 : World) (hw1 : w1.stdin = { rest := (Name.merge.run p margv w).out }) (s : IStream)
    (hw2 : Io.readFile p.build p.zlib w2.stdin = .ok (f, s)) :
    (Name.merge.run p margv w).res = .ok 0
      ∧ ((Name.filter.run p fargv w1).res = .ok 0 ↔ (Name.filter.run p fargv' w2).res = .ok 0)
      ∧ ((Name.filter.run p fargv' w2).res = .ok 0 → (Name.filter.run p fargv w1).out = (Name.filter.run p fargv' w2).out) := by
  have hcf : f.compressed = false := hc f (by simp)
  have hm : Survives p.zlib (mergedCloud asked f fs) :=
    merged_survives_of asked (clouds_survive hf hc) hu hn
  have hmc : (mergedCloud asked f fs).compressed = false := by
    unfold mergedCloud
    simp [hcf]
  obtain ⟨m1, -, s', m2⟩ := c76_merge_partial p hz w margv quiet asked ha hmo f fs hf hfs hu hm
  rw [← hw1] at m2
  refine ⟨m1, ?_⟩
  have hv := (readable_survives hw2 hcf).1
  have same : ∀ qs, { mergedCloud asked f fs with prs := qs } = { f with prs := qs } := by
    intro qs
    obtain ⟨fmaj, fmin, fwkt, fc, fprs⟩ := f
    have e1 : fmaj = majorVersion := hv.major
    have e2 : fmin = minorVersion := hv.minor
    have e3 : fc = false := hcf
    subst e1 e2 e3
    simp [mergedCloud]
  obtain ⟨qs, e1, e2⟩ := merged_prs asked f fs hid
  have steps : ∀ us, FilterSteps p.build p.shuffle r (mergedCloud asked f fs).prs us ↔ FilterSteps p.build p.shuffle r f.prs us := by
    intro us
    rw [e1]
    refine c134_steps _ _ hsh r hseed hr f.prs qs (fun q h => hfin q ?_) (fun q h => ?_) (fun q h => ?_) us
    · exact List.mem_flatMap.mpr ⟨f, by simp, h⟩
    · obtain ⟨q', h', e⟩ := e2 q h
      rw [e]
      refine hfin q' ?_
      unfold allPoints at h' ⊢
      rw [List.flatMap_cons]
      exact List.mem_append_right _ h'
    · obtain ⟨q', h', e⟩ := e2 q h
      rw [e]
      exact ht q' h'
  have one : (Name.filter.run p fargv w1).res = .ok 0 → ∃ us, FilterSteps p.build p.shuffle r f.prs us := by
    intro h
    rcases filter_stdin p hsh w1 fargv r hfo hfn _ _ m2 with ⟨us, h1, -⟩ | hbad
    · exact ⟨us, (steps us).mp h1⟩
    · exact absurd h hbad
  have two : (Name.filter.run p fargv' w2).res = .ok 0 → ∃ us, FilterSteps p.build p.shuffle r f.prs us := by
    intro h
    rcases filter_stdin p hsh w2 fargv' r hfo' hfn' _ _ hw2 with ⟨us, h1, -⟩ | hbad
    · exact ⟨us, h1⟩
    · exact absurd h hbad
  have both : ∀ us, FilterSteps p.build p.shuffle r f.prs us →
      (Name.filter.run p fargv w1).res = .ok 0 ∧ (Name.filter.run p fargv' w2).res = .ok 0
        ∧ (Name.filter.run p fargv w1).out = (Name.filter.run p fargv' w2).out := by
    intro us h
    obtain ⟨a1, a2⟩ := filter_run p hsh hfo hfn m2 hmc us ((steps us).mpr h)
    obtain ⟨b1, b2⟩ := filter_run p hsh hfo' hfn' hw2 hcf us h
    exact ⟨a1, b1, by rw [a2, b2, same]⟩
  refine ⟨⟨fun h => ?_, fun h => ?_⟩, fun h => ?_⟩
  · obtain ⟨us, h⟩ := one h
    exact (both us h).2.1
  · obtain ⟨us, h⟩ := two h
    exact (both us h).1
  · obtain ⟨us, h⟩ := two h
    exact (both us h).2.2

/-- **C134**: in particular a cloud that is merged with itself, any number of times. -/
theorem c134_itself (p : Params) (hz : p.zlib.Correct) (hsh : p.shuffle.Lawful) (w : World) (r : FilterRequest) (hseed : r.seed = 0)
    (hr : r.unique = true ∨ r.resolution ≠ none) (margv fargv fargv' : List Str) (quiet : Bool) (asked : Option Nat) (ha : ∀ n ∈ asked, n < 2 ^ 31)
    (hmo : Cmd.merge.options margv = mergeOptions quiet asked) (i : Str) (k : Nat) (hm : Cmd.merge.operands margv = List.replicate (k + 2) i)
    (f : SpocFile) (hf : HasCloud p w.fs i f) (hn : (k + 2) * f.prs.length < 2 ^ 64) (hc : f.compressed = false)
    (hid : ∀ q ∈ f.prs, q.p = idOf asked 0) (hfin : ∀ q ∈ f.prs, Spec.Fin (pt q))
    (hfo : Asks (Cmd.filter.options fargv) r) (hfn : Cmd.filter.operands fargv = [])
    (hfo' : Asks (Cmd.filter.options fargv') r) (hfn' : Cmd.filter.operands fargv' = [])
    (w1 w2 : World) (hw1 : w1.stdin = { rest := (Name.merge.run p margv w).out }) (s : IStream)
    (hw2 : Io.readFile p.build p.zlib w2.stdin = .ok (f, s)) :
    (Name.merge.run p margv w).res = .ok 0
      ∧ ((Name.filter.run p fargv w1).res = .ok 0 ↔ (Name.filter.run p fargv' w2).res = .ok 0)
      ∧ ((Name.filter.run p fargv' w2).res = .ok 0 → (Name.filter.run p fargv w1).out = (Name.filter.run p fargv' w2).out) := by
  have mem : ∀ {n : Nat} {q : PointRecord}, q ∈ allPoints (List.replicate n f) → q ∈ f.prs := by
    intro n q h
    obtain ⟨g, hg, h⟩ := List.mem_flatMap.mp h
    rw [(List.mem_replicate.mp hg).2] at h
    exact h
  have len : ∀ n : Nat, (allPoints (List.replicate n f)).length = n * f.prs.length := by
    intro n
    unfold allPoints
    induction n with
    | zero => simp
    | succ n ih => rw [List.replicate_succ, List.flatMap_cons, List.length_append, ih]; ring
  have huni : Uniform f.prs := (readable_writable hw2).uniform
  refine c134_filter p hz hsh w r hseed hr margv fargv fargv' quiet asked ha hmo f (List.replicate (k + 1) f) (by simp) ?_ ?_ ?_ ?_ hid ?_ ?_
    hfo hfn hfo' hfn' w1 w2 hw1 s hw2
  · rw [hm, ← List.replicate_succ]
    generalize k + 2 = n
    induction n with
    | zero => exact List.Forall₂.nil
    | succ n ih => exact List.Forall₂.cons hf ih
  · rw [← List.replicate_succ]
    exact fun a ha b hb => huni a (mem ha) b (mem hb)
  · rw [← List.replicate_succ, len]
    exact hn
  · intro g hg
    rw [← List.replicate_succ] at hg
    rw [(List.mem_replicate.mp hg).2]
    exact hc
  · intro q hq
    rw [← List.replicate_succ] at hq
    exact hfin q (mem hq)
  · exact fun q hq => ⟨q, mem hq, ⟨rfl, rfl, rfl⟩, .inr rfl⟩

/-- **C134**, limit: with a seed, the point of the other file may be kept. -/
theorem c134_seed : ∃ (sh : Shuffle) (ps qs us us' : List PointRecord), sh.Lawful ∧ Taken ps qs
    ∧ uniqueXyzPoints .release sh ps 1 = .ok us ∧ uniqueXyzPoints .release sh (ps ++ qs) 1 = .ok us' ∧ us ≠ us' :=
  ⟨fun _ l => l.reverse, [{ c := 1 }], [{ c := 2 }], [{ c := 1 }], [{ c := 2 }], fun _ l => List.reverse_perm l,
    fun q hq => ⟨{ c := 1 }, by simp, by simp only [List.mem_singleton] at hq; subst hq; exact ⟨rfl, rfl, rfl⟩⟩,
    by decide +kernel, by decide +kernel, by decide⟩

/-- **C134**, limit: a point with a coordinate that is not a number is at no place, not even its own, and is kept again. -/
theorem c134_nan : ∃ q : PointRecord, q.x.isNaN = true ∧ uniqueXyzPoints .release noShuffle [q] 0 = .ok [q]
    ∧ uniqueXyzPoints .release noShuffle ([q] ++ [q]) 0 = .ok [q, q] :=
  ⟨{ x := ⟨0x7FF8000000000000⟩ }, by decide +kernel, by decide +kernel, by decide +kernel⟩

/-! ## Examples -/

/-- One of the points of the cloud of the examples, with another class. -/
def cloudPart : SpocFile := { SpocFile.empty with prs := [{ x := num 15, y := num 3, c := 9 }] }

/-- The files of the examples, and a file called `e` with that point. -/
def partDisk : World where
  fs := fun n =>
    if n = ['e'] then some { content := (Io.writeFile .release toyZlib cloudPart).bytes, readable := true, writable := true }
    else exampleDisk.fs n
  canCreate _ := true
  stdin := { rest := [] }

theorem part_on_disk : Holds exampleParams partDisk.fs ['a'] cloudA ∧ Holds exampleParams partDisk.fs ['e'] cloudPart :=
  ⟨⟨rfl, cloudA_survives, _, [], rfl, rfl, (List.append_nil _).symm⟩,
    ⟨rfl, ⟨⟨rfl, rfl, by decide, by unfold Uniform; decide, by decide, by decide⟩, fun _ => by decide,
      fun h => by simp [cloudPart, SpocFile.empty] at h⟩, _, [], rfl, rfl, (List.append_nil _).symm⟩⟩

theorem unique_asks {argv : List Str} (h : Cmd.filter.options argv = [("unique-xyz", [])]) : Asks (Cmd.filter.options argv) { unique := true } := by
  rw [h]
  exact ⟨by decide, by decide, by decide, by decide, by decide, by simp, rfl, .inr ⟨rfl, rfl⟩, by decide, .inl rfl⟩

example (w1 : World) (hw : w1.stdin = { rest := (Name.merge.run exampleParams [['a'], ['e']] partDisk).out }) :
    (Name.filter.run exampleParams ["-u".toList] w1).out = (Name.filter.run exampleParams ["-u".toList] (onInput cloudA)).out :=
  (c134_filter exampleParams toyZlib_correct (fun _ l => List.Perm.refl l) partDisk { unique := true } rfl (.inl rfl)
    [['a'], ['e']] ["-u".toList] ["-u".toList] false none (by simp) (by decide +kernel) cloudA [cloudPart] (by simp)
    (by
      rw [show Cmd.merge.operands [['a'], ['e']] = [['a'], ['e']] by decide +kernel]
      exact .cons (holds_cloud toyZlib_correct part_on_disk.1) (.cons (holds_cloud toyZlib_correct part_on_disk.2) .nil))
    (by unfold Uniform; decide) (by decide) (by decide) (by decide) (by unfold Spec.Fin; decide +kernel)
    (fun q hq => ⟨{ x := num 15, y := num 3 }, by simp [cloudA, tilePoints], by
      have : q = { x := num 15, y := num 3, c := 9 } := by simpa [allPoints, cloudPart] using hq
      subst this
      exact ⟨⟨rfl, rfl, rfl⟩, .inl ⟨rfl, rfl⟩⟩⟩)
    (unique_asks (by decide +kernel)) (by decide +kernel) (unique_asks (by decide +kernel)) (by decide +kernel)
    w1 (onInput cloudA) hw _ (reads cloudA_survives)).2.2 (by decide +kernel)

example (w1 : World) (hw : w1.stdin = { rest := (Name.merge.run exampleParams [['a'], ['a'], ['a']] exampleDisk).out }) :
    (Name.filter.run exampleParams ["-u".toList] w1).out = (Name.filter.run exampleParams ["-u".toList] (onInput cloudA)).out :=
  (c134_itself exampleParams toyZlib_correct (fun _ l => List.Perm.refl l) exampleDisk { unique := true } rfl (.inl rfl)
    [['a'], ['a'], ['a']] ["-u".toList] ["-u".toList] false none (by simp) (by decide +kernel) ['a'] 1 (by decide +kernel)
    cloudA cloudA_on_disk.1 (by decide) rfl (by decide) (by unfold Spec.Fin; decide +kernel)
    (unique_asks (by decide +kernel)) (by decide +kernel) (unique_asks (by decide +kernel)) (by decide +kernel)
    w1 (onInput cloudA) hw _ (reads cloudA_survives)).2.2 (by decide +kernel)

/-- `c134_subsample` and `c134_unique`: three points, one of them twice. -/
example : Taken cloudA.prs cloudPart.prs ∧ (∀ p ∈ cloudA.prs, Spec.Fin (pt p)) ∧ (∀ q ∈ cloudPart.prs, Spec.Fin (pt q))
    ∧ subsamplePoints .release noShuffle (cloudA.prs ++ cloudPart.prs) (num 10) 0 = .ok cloudA.prs
    ∧ uniqueXyzPoints .release noShuffle (cloudA.prs ++ cloudPart.prs) 0 = .ok cloudA.prs :=
  ⟨fun q hq => ⟨{ x := num 15, y := num 3 }, by simp [cloudA, tilePoints], by
      have : q = { x := num 15, y := num 3, c := 9 } := by simpa [cloudPart] using hq
      subst this
      exact ⟨rfl, rfl, rfl⟩⟩, by unfold Spec.Fin; decide +kernel, by unfold Spec.Fin; decide +kernel, by decide +kernel, by decide +kernel⟩

end Spoc.Props
