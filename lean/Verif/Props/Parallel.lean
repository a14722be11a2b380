import Verif.Model.Loops
import Verif.Proofs.Par
import Verif.Proofs.ResList

/-!
# C17: parallel loops are schedule independent
-/

namespace Spoc.Props

open Par Loops

/-- The obvious laws of assigning to the members `x`, `y`, `z`. -/
class LawfulXYZ (α : Type) [HasXYZ α] : Prop where
  pt_with : ∀ (a : α) (p : Pt F64), pt (withPt a p) = p
  with_with : ∀ (a : α) (p q : Pt F64), withPt (withPt a p) q = withPt a q

instance : LawfulXYZ (Pt F64) := ⟨fun _ _ => rfl, fun _ _ _ => rfl⟩
instance : LawfulXYZ PointRecord := ⟨fun _ _ => rfl, fun _ _ _ => rfl⟩

attribute [simp] LawfulXYZ.pt_with LawfulXYZ.with_with

theorem compute_local {L σ : Type} (i : Nat) (f : L → L) :
    LocalTo i (compute f : Step L σ) (fun p => (f p.1, p.2)) := by
  intro l m v h
  obtain ⟨h1, h2⟩ := List.getElem?_eq_some_iff.mp h
  simp [compute, ← h2]

section
variable {α : Type} [HasXYZ α] [LawfulXYZ α]

omit [LawfulXYZ α] in
theorem storeAxis_local {L : Type} (a : Axis) (i : Nat) (f : L → F64) :
    LocalTo i (storeAxis a i f : Step L α) (fun p => (p.1, withPt p.2 (a.set (f p.1) (pt p.2)))) :=
  store_local i _

/-- From a per-element result to the map over the vector. -/
theorem loop_eq_map {L σ : Type} {body : Nat → List (Step L σ)} {gs : Nat → List (L × σ → L × σ)} {l0 : L}
    {mem0 : List σ} (hl : ∀ i < mem0.length, List.Forall₂ (LocalTo i) (body i) (gs i)) {f : σ → σ}
    (hf : ∀ i v, (solo (gs i) (l0, v)).2 = f v) {sched : List Nat} (hc : Complete body mem0.length sched) :
    (run body sched (State.init l0 mem0)).mem = mem0.map f := by
  rw [run_local hl hc]
  simp only [hf]
  rw [List.mapIdx_eq_zipIdx_map]
  have h2 := congrArg (List.map f) (List.zipIdx_map_fst 0 mem0)
  rw [List.map_map] at h2
  rw [← h2]; rfl

omit [LawfulXYZ α] in
/-- C17: `add_x`, `add_y`, `add_z` under every schedule. -/
theorem c17_add_axis (a : Axis) (v r0 : F64) (ps : List α) (sched : List Nat)
    (hc : Complete (add1 (α := α) a v) ps.length sched) :
    (run (add1 a v) sched (State.init r0 ps)).mem
      = Affine.onAll (fun p => a.set (F64.add (a.get p) v) p) ps := by
  refine loop_eq_map (gs := fun _ => _)
    (fun i _ => .cons (load_local i _) (.cons (storeAxis_local a i _) .nil)) ?_ hc
  intro i w
  rfl

omit [LawfulXYZ α] in
/-- C17: `scale_x`, `scale_y`, `scale_z` under every schedule. -/
theorem c17_scale_axis (a : Axis) (v r0 : F64) (ps : List α) (sched : List Nat)
    (hc : Complete (scale1 (α := α) a v) ps.length sched) :
    (run (scale1 a v) sched (State.init r0 ps)).mem
      = Affine.onAll (fun p => a.set (F64.mul (a.get p) v) p) ps := by
  refine loop_eq_map (gs := fun _ => _)
    (fun i _ => .cons (load_local i _) (.cons (storeAxis_local a i _) .nil)) ?_ hc
  intro i w
  rfl

/-- C17 (partial: the offset is not an element of the vector itself, see `c17_add_aliased`): `add` under every schedule. -/
theorem c17_add_partial (v : Pt F64) (r0 : F64 × F64) (ps : List α) (sched : List Nat)
    (hc : Complete (addRef (α := α) (.outside v)) ps.length sched) :
    (run (addRef (.outside v)) sched (State.init r0 ps)).mem = Affine.onAll (Affine.addPt v) ps := by
  refine loop_eq_map (gs := fun _ => _)
    (fun i _ =>
      .cons (load_local i _) (.cons (compute_local i _) (.cons (storeAxis_local .x i _)
      (.cons (load_local i _) (.cons (compute_local i _) (.cons (storeAxis_local .y i _)
      (.cons (load_local i _) (.cons (compute_local i _) (.cons (storeAxis_local .z i _) .nil))))))))) ?_ hc
  intro i w
  simp [solo, Axis.set, Axis.get, Affine.addPt]

/-- C17: the rotations under every schedule. -/
theorem c17_rotate (op : Pt F64 → Pt F64) (r0 : Pt F64) (ps : List α) (sched : List Nat)
    (hc : Complete (rotate (α := α) op) ps.length sched) :
    (run (rotate op) sched (State.init r0 ps)).mem = Affine.onAll op ps := by
  refine loop_eq_map (gs := fun _ => _)
    (fun i _ =>
      .cons (load_local i _) (.cons (load_local i _) (.cons (load_local i _)
      (.cons (storeAxis_local .x i _) (.cons (storeAxis_local .y i _) (.cons (storeAxis_local .z i _) .nil)))))) ?_ hc
  intro i w
  simp [solo, Axis.set]

/-- C17: `quantize` under every schedule, for every cloud on which it is defined. -/
theorem c17_quantize (b : Build) (precision r0 : F64) (ps qs : List α)
    (h : Utils.quantize b ps precision = .ok qs) (sched : List Nat)
    (hc : Complete (Loops.quantize (α := α) precision) ps.length sched) :
    (run (Loops.quantize precision) sched (State.init r0 ps)).mem = qs := by
  have hr := loop_eq_map (body := Loops.quantize precision) (f := fun w : α => withPt w
      ⟨okOr (pt w).x (Utils.quantize1 precision (pt w).x), okOr (pt w).y (Utils.quantize1 precision (pt w).y),
        okOr (pt w).z (Utils.quantize1 precision (pt w).z)⟩) (gs := fun _ => _) (l0 := r0)
    (fun i _ =>
      .cons (load_local i _) (.cons (storeAxis_local .x i _) (.cons (load_local i _) (.cons (storeAxis_local .y i _)
      (.cons (load_local i _) (.cons (storeAxis_local .z i _) .nil)))))) ?_ hc
  · rw [hr]
    unfold Utils.quantize at h
    rw [Res.bind_eq_ok] at h
    obtain ⟨_, _, h⟩ := h
    rw [mapM_eq_ok] at h
    clear hr hc
    induction h with
    | nil => rfl
    | cons h1 _ ih =>
      rw [List.map_cons, ih]
      congr 1
      simp only [Utils.quantizePt, Res.bind_eq_ok] at h1
      obtain ⟨q, ⟨x, hx, y, hy, z, hz, hq⟩, h1⟩ := h1
      simp only [Res.ok.injEq] at hq h1
      rw [hx, hy, hz, ← h1, ← hq]; rfl
  · intro i w
    simp [solo, Axis.set, Axis.get]

end

/-- C17: the voxel index loops under every schedule: the result is that of the sequential loop. -/
theorem c17_voxel_indexes (value : Nat → Res VoxelIndex) (n : Nat) (vs : List VoxelIndex)
    (h : (List.range n).mapM value = .ok vs) (r0 : VoxelIndex) (mem0 : List VoxelIndex) (hm : mem0.length = n)
    (sched : List Nat) (hc : Complete (voxelIndex value) n sched) :
    (run (voxelIndex value) sched (State.init r0 mem0)).mem = vs := by
  subst hm
  rw [run_local (body := voxelIndex value) (gs := fun i => _) (fun i _ => .cons (compute_local i _) (.cons (store_local i _)
    (.cons (store_local i _) (.cons (store_local i _) .nil)))) hc]
  apply List.ext_getElem?
  intro i
  rw [List.getElem?_mapIdx]
  by_cases hi : i < mem0.length
  · obtain ⟨b, hb, hv⟩ := mapM_get h (i := i) (a := i) (by simp [hi])
    rw [hb, List.getElem?_eq_getElem hi]
    simp [solo, hv, okOr]
  · have := mapM_length h
    rw [List.getElem?_eq_none (by omega), List.getElem?_eq_none (by simp at this; omega)]; rfl

/-- C17: loops and sections that store one result per iteration, under every schedule: the compression of the
columns in `write_spoc_file_compressed` and the neighbour lists of the radius search. -/
theorem c17_output {β : Type} (value : Nat → Res β) (n : Nat) (vs : List β)
    (h : (List.range n).mapM value = .ok vs) (mem0 : List β) (hm : mem0.length = n)
    (sched : List Nat) (hc : Complete (output value) n sched) :
    (run (output value) sched (State.init none mem0)).mem = vs := by
  subst hm
  rw [run_local (body := output value) (gs := fun i => _) (fun i _ => .cons (compute_local i _) (.cons (store_local i _) .nil)) hc]
  apply List.ext_getElem?
  intro i
  rw [List.getElem?_mapIdx]
  by_cases hi : i < mem0.length
  · obtain ⟨b, hb, hv⟩ := mapM_get h (i := i) (a := i) (by simp [hi])
    rw [hb, List.getElem?_eq_getElem hi]
    simp [solo, hv]
  · have := mapM_length h
    rw [List.getElem?_eq_none (by omega), List.getElem?_eq_none (by simp at this; omega)]; rfl

section
variable {α : Type} [HasXYZ α]

theorem mapM_range {β γ : Type} (f : β → Res γ) (l : List β) :
    (List.range l.length).mapM (fun i => Voxel.at' l i >>= f) = l.mapM f := by
  have : l.mapM f = ((List.range l.length).map (fun i => Voxel.at' l i)).mapM (fun r => r >>= f) := by
    have h2 : (List.range l.length).map (fun i => Voxel.at' l i) = l.map Res.ok := by
      apply List.ext_getElem
      · simp
      · intro i h1 h2
        have : i < l.length := by simpa using h1
        simp [Voxel.at', List.getElem?_eq_getElem this]
    rw [h2, List.mapM_map]
    rfl
  rw [this, List.mapM_map]
  rfl

/-- C17: `get_voxel_indexes (points, extent, resolution)` under every schedule. -/
theorem c17_get_voxel_indexes (ps : List α) (e : Extent) (res : F64) (vs : List VoxelIndex)
    (h : Voxel.getIndexesIn ps e res = .ok vs) (r0 : VoxelIndex) (mem0 : List VoxelIndex)
    (hm : mem0.length = ps.length) (sched : List Nat)
    (hc : Complete (voxelIndex fun i => Voxel.at' ps i >>= fun p => Voxel.getIndex (pt p) e.minp res) ps.length sched) :
    (run (voxelIndex fun i => Voxel.at' ps i >>= fun p => Voxel.getIndex (pt p) e.minp res) sched
      (State.init r0 mem0)).mem = vs :=
  c17_voxel_indexes _ ps.length vs (by rw [mapM_range]; exact h) r0 mem0 hm sched hc

/-- C17: the neighbour lists of the radius search under every schedule: every iteration has its own random
number generator, seeded with the number of candidates, so the lists do not depend on the schedule. -/
theorem c17_radius_search (b : Build) (rng : Nat → Nat → Nat) (points : List α) (pointIndexes neighborIndexes : List Nat)
    (pointVoxels : List VoxelIndex) (vim : Voxel.Map) (radius : F64) (maxNeighbors : Nat) (ns : List (List Nat))
    (h : (List.range pointVoxels.length).mapM (fun i =>
      RadiusSearch.getNeighbors b rng i points pointIndexes neighborIndexes pointVoxels vim radius maxNeighbors) = .ok ns)
    (mem0 : List (List Nat)) (hm : mem0.length = pointVoxels.length) (sched : List Nat)
    (hc : Complete (output fun i =>
      RadiusSearch.getNeighbors b rng i points pointIndexes neighborIndexes pointVoxels vim radius maxNeighbors)
      pointVoxels.length sched) :
    (run (output fun i =>
      RadiusSearch.getNeighbors b rng i points pointIndexes neighborIndexes pointVoxels vim radius maxNeighbors) sched
      (State.init none mem0)).mem = ns :=
  c17_output _ pointVoxels.length ns h mem0 hm sched hc

/-- C17: compressing columns in parallel, under every schedule. -/
theorem c17_compress_columns (zl : Zlib) (cols : List (Io.Elem × List Nat)) (out : List Bytes)
    (h : cols.mapM (fun c => Io.compressField zl c.1 c.2) = .ok out) (mem0 : List Bytes) (hm : mem0.length = cols.length)
    (sched : List Nat)
    (hc : Complete (output fun i => Voxel.at' cols i >>= fun c => Io.compressField zl c.1 c.2) cols.length sched) :
    (run (output fun i => Voxel.at' cols i >>= fun c => Io.compressField zl c.1 c.2) sched (State.init none mem0)).mem
      = out :=
  c17_output _ cols.length out (by rw [mapM_range]; exact h) mem0 hm sched hc

end

/-! ### the loop of the compressed reader -/

/-- What `fillField` does to the element it works on. -/
def fieldFn (col : List Nat) (set : PointRecord → Nat → PointRecord) (n : Nat) (p : Unit × PointRecord) :
    Unit × PointRecord :=
  (p.1, if col.isEmpty then p.2 else set p.2 (okOr 0 (Io.colGet col n)))

theorem fillField_local (n : Nat) (col : List Nat) (set : PointRecord → Nat → PointRecord) :
    LocalTo n (fillField col set n) (fieldFn col set n) :=
  store_local n _

theorem forall₂_map_self {A B C : Type} {R : B → C → Prop} (l : List A) (f : A → B) (g : A → C)
    (h : ∀ a, R (f a) (g a)) : List.Forall₂ R (l.map f) (l.map g) := by
  induction l with
  | nil => exact .nil
  | cons a l ih => exact .cons (h a) ih

/-- Storing the extra fields one after the other. -/
theorem fill_extras (n : Nat) (cols : List (List Nat)) (pre : List UInt64) (vals : List Nat)
    (hv : cols.mapM (fun e => Io.colGet e n) = .ok vals) (q : PointRecord)
    (hq : q.extra = pre ++ List.replicate cols.length 0) :
    ((cols.zipIdx pre.length).map (fun ej => fun p : Unit × PointRecord =>
        (p.1, if ej.1.isEmpty then p.2
          else { p.2 with extra := p.2.extra.set ej.2 (UInt64.ofNat (okOr 0 (Io.colGet ej.1 n))) }))).foldl
        (fun p g => g p) ((), q)
      = ((), { q with extra := pre ++ vals.map UInt64.ofNat }) := by
  induction cols generalizing pre vals q with
  | nil =>
    simp only [List.mapM_nil, Res.pure_def, Res.ok.injEq] at hv
    subst hv
    cases q; simp_all
  | cons c cols ih =>
    rw [List.mapM_cons, Res.bind_eq_ok] at hv
    obtain ⟨v, hv, hv2⟩ := hv
    rw [Res.bind_eq_ok] at hv2
    obtain ⟨vals', hv', e⟩ := hv2
    simp only [Res.pure_def, Res.ok.injEq] at e
    subst e
    simp only [List.zipIdx_cons, List.map_cons, List.foldl_cons]
    have hlen : pre.length + 1 = (pre ++ [UInt64.ofNat v]).length := by simp
    rw [hlen]
    have hq1 : (if c.isEmpty then q
          else { q with extra := q.extra.set pre.length (UInt64.ofNat (okOr 0 (Io.colGet c n))) })
        = { q with extra := (pre ++ [UInt64.ofNat v]) ++ List.replicate cols.length 0 } := by
      rw [hv]
      by_cases hc : c.isEmpty
      · rw [if_pos hc]
        unfold Io.colGet at hv
        rw [if_pos hc] at hv
        have : v = 0 := (Res.ok.inj hv).symm
        subst this
        cases q
        simp only at hq
        simp [hq, List.replicate_succ]
      · rw [if_neg hc, hq]
        simp [okOr, List.replicate_succ]
    rw [hq1, ih (pre ++ [UInt64.ofNat v]) vals' hv' _ rfl]
    simp

theorem colGet_empty {col : List Nat} {n v : Nat} (h : Io.colGet col n = .ok v) (he : col.isEmpty = true) : v = 0 := by
  unfold Io.colGet at h; rw [if_pos he] at h; exact (Res.ok.inj h).symm

theorem fieldFn_eq {col : List Nat} {n v : Nat} (h : Io.colGet col n = .ok v) (set : PointRecord → Nat → PointRecord)
    {q : PointRecord} (h0 : v = 0 → set q v = q) : fieldFn col set n ((), q) = ((), set q v) := by
  unfold fieldFn
  rw [h]
  by_cases hc : col.isEmpty
  · simp only [hc, if_true]; rw [h0 (colGet_empty h hc)]
  · simp [hc, okOr]

/-- What the first ten statements of the loop body do to the element. -/
def baseFns (cs : Io.Columns) (n : Nat) : List (Unit × PointRecord → Unit × PointRecord) :=
  [fieldFn cs.x (fun q v => { q with x := ⟨UInt64.ofNat v⟩ }) n,
    fieldFn cs.y (fun q v => { q with y := ⟨UInt64.ofNat v⟩ }) n,
    fieldFn cs.z (fun q v => { q with z := ⟨UInt64.ofNat v⟩ }) n,
    fieldFn cs.c (fun q v => { q with c := UInt32.ofNat v }) n,
    fieldFn cs.p (fun q v => { q with p := UInt32.ofNat v }) n,
    fieldFn cs.i (fun q v => { q with i := UInt16.ofNat v }) n,
    fieldFn cs.r (fun q v => { q with r := UInt16.ofNat v }) n,
    fieldFn cs.g (fun q v => { q with g := UInt16.ofNat v }) n,
    fieldFn cs.b (fun q v => { q with b := UInt16.ofNat v }) n,
    fun p => (p.1, { p.2 with extra := SpocFile.resizeExtra cs.extra.length p.2.extra })]

/-- What the last statements of the loop body do to the element. -/
def extraFns (cs : Io.Columns) (n : Nat) : List (Unit × PointRecord → Unit × PointRecord) :=
  cs.extra.zipIdx.map (fun ej =>
    fieldFn ej.1 (fun q v => { q with extra := q.extra.set ej.2 (UInt64.ofNat v) }) n)

/-- C17: the loop that fills the records in the compressed reader, under every schedule. -/
theorem c17_fill (cs : Io.Columns) (n : Nat) (prs : List PointRecord)
    (h : (List.range n).mapM (Io.fillRecord cs) = .ok prs) (sched : List Nat)
    (hc : Complete (fill cs) n sched) :
    (run (fill cs) sched (State.init () (List.replicate n (PointRecord.blank 0)))).mem = prs := by
  have hlen : (List.replicate n (PointRecord.blank 0)).length = n := by simp
  rw [← hlen] at hc
  rw [run_local (body := fill cs) (gs := fun i => baseFns cs i ++ extraFns cs i)
    (fun i _ => List.rel_append
      (.cons (fillField_local i _ _) (.cons (fillField_local i _ _) (.cons (fillField_local i _ _)
      (.cons (fillField_local i _ _) (.cons (fillField_local i _ _) (.cons (fillField_local i _ _)
      (.cons (fillField_local i _ _) (.cons (fillField_local i _ _) (.cons (fillField_local i _ _)
      (.cons (store_local i _) .nil))))))))))
      (forall₂_map_self _ _ _ (fun ej => fillField_local i ej.1 _))) hc]
  apply List.ext_getElem?
  intro i
  rw [List.getElem?_mapIdx]
  by_cases hi : i < n
  · obtain ⟨q, hq, hv⟩ := mapM_get h (i := i) (a := i) (by simp [hi])
    rw [hq, List.getElem?_replicate, if_pos hi]
    simp only [Option.map_some, Option.some.injEq]
    unfold Io.fillRecord at hv
    simp only [Res.bind_eq_ok] at hv
    obtain ⟨x, hx, y, hy, z, hz, c, hcc, p, hp, ii, hii, r, hr, g, hg, bb, hbb, ex, hex, e⟩ := hv
    rw [← Res.ok.inj e]
    unfold solo
    rw [List.foldl_append]
    have hb : List.foldl (fun p g => g p) ((), PointRecord.blank 0) (baseFns cs i)
        = ((), ⟨⟨UInt64.ofNat x⟩, ⟨UInt64.ofNat y⟩, ⟨UInt64.ofNat z⟩, UInt32.ofNat c, UInt32.ofNat p, UInt16.ofNat ii,
          UInt16.ofNat r, UInt16.ofNat g, UInt16.ofNat bb, SpocFile.resizeExtra cs.extra.length []⟩) := by
      unfold baseFns
      simp only [List.foldl_cons, List.foldl_nil]
      rw [fieldFn_eq hx _ (by rintro rfl; rfl), fieldFn_eq hy _ (by rintro rfl; rfl),
        fieldFn_eq hz _ (by rintro rfl; rfl), fieldFn_eq hcc _ (by rintro rfl; rfl),
        fieldFn_eq hp _ (by rintro rfl; rfl), fieldFn_eq hii _ (by rintro rfl; rfl),
        fieldFn_eq hr _ (by rintro rfl; rfl), fieldFn_eq hg _ (by rintro rfl; rfl),
        fieldFn_eq hbb _ (by rintro rfl; rfl)]
      rfl
    rw [hb]
    exact congrArg Prod.snd (fill_extras i cs.extra [] ex hex
        ⟨⟨UInt64.ofNat x⟩, ⟨UInt64.ofNat y⟩, ⟨UInt64.ofNat z⟩, UInt32.ofNat c, UInt32.ofNat p, UInt16.ofNat ii,
          UInt16.ofNat r, UInt16.ofNat g, UInt16.ofNat bb, SpocFile.resizeExtra cs.extra.length []⟩
        (by simp [SpocFile.resizeExtra]))
  · have := mapM_length h
    rw [List.getElem?_eq_none (by rw [hlen]; omega), List.getElem?_eq_none (by simp at this; omega)]; rfl

/-! ### consequences -/

/-- C17: in particular the result under any schedule is the result of the sequential loop (shown here for
`rotate`; all theorems above have the same form). -/
theorem c17_same_as_sequential {α : Type} [HasXYZ α] [LawfulXYZ α] (op : Pt F64 → Pt F64) (r0 : Pt F64) (ps : List α)
    (sched : List Nat) (hc : Complete (rotate (α := α) op) ps.length sched) :
    (run (rotate op) sched (State.init r0 ps)).mem
      = (run (rotate op) (sequential (rotate (α := α) op) ps.length) (State.init r0 ps)).mem := by
  rw [c17_rotate op r0 ps sched hc, c17_rotate op r0 ps _ (sequential_complete _ _)]

/-- An interleaved schedule for two iterations that is complete. -/
example : Complete (rotate (α := Pt F64) id) 2 [0, 1, 1, 0, 0, 1, 1, 0, 1, 0, 0, 1] := by
  refine ⟨by decide, fun i hi => ?_⟩
  have : i = 0 ∨ i = 1 := by omega
  rcases this with rfl | rfl <;> decide

/-- C17 is false of `affine::add` when the offset is a reference to an element of the vector: two complete
schedules give different clouds.  In the order of the program the second point gets twice the first one added, in the other order once. -/
theorem c17_add_aliased :
    let ps : List (Pt F64) := [⟨F64.ofInt 1, F64.ofInt 2, F64.ofInt 3⟩, ⟨F64.ofInt 10, F64.ofInt 20, F64.ofInt 30⟩]
    let s1 := sequential (addRef (α := Pt F64) (.element 0)) 2
    let s2 := List.replicate 9 1 ++ List.replicate 9 0
    Complete (addRef (α := Pt F64) (.element 0)) 2 s1 ∧ Complete (addRef (α := Pt F64) (.element 0)) 2 s2
      ∧ (run (addRef (.element 0)) s1 (State.init (F64.zero, F64.zero) ps)).mem
        = [⟨F64.ofInt 2, F64.ofInt 4, F64.ofInt 6⟩, ⟨F64.ofInt 12, F64.ofInt 24, F64.ofInt 36⟩]
      ∧ (run (addRef (.element 0)) s2 (State.init (F64.zero, F64.zero) ps)).mem
        = [⟨F64.ofInt 2, F64.ofInt 4, F64.ofInt 6⟩, ⟨F64.ofInt 11, F64.ofInt 22, F64.ofInt 33⟩] := by
  refine ⟨sequential_complete _ _, ⟨by decide, fun i hi => ?_⟩, by decide +kernel, by decide +kernel⟩
  have : i = 0 ∨ i = 1 := by omega
  rcases this with rfl | rfl <;> decide

/-- Hypotheses of the theorems above on concrete data: columns of two records with an extra field, … -/
example : (List.range 2).mapM (Io.fillRecord ⟨[1, 2], [], [], [5, 6], [], [], [], [], [], [[7, 8], []]⟩)
    = .ok [{ (PointRecord.blank 2) with x := ⟨1⟩, c := 5, extra := [7, 0] },
           { (PointRecord.blank 2) with x := ⟨2⟩, c := 6, extra := [8, 0] }] := by decide +kernel
/-- … two points in a voxel grid, … -/
example : Voxel.getIndexesIn [(⟨F64.one, F64.zero, F64.zero⟩ : Pt F64), ⟨F64.zero, F64.zero, F64.zero⟩]
    ⟨⟨F64.zero, F64.zero, F64.zero⟩, ⟨F64.one, F64.zero, F64.zero⟩⟩ F64.one = .ok [⟨1, 0, 0⟩, ⟨0, 0, 0⟩] := by
  decide +kernel
/-- … a quantised point, … -/
example : Utils.quantize .release [(⟨F64.one, F64.zero, F64.zero⟩ : Pt F64)] F64.one
    = .ok [⟨F64.one, F64.zero, F64.zero⟩] := by decide +kernel
/-- … and a schedule in which the two iterations of the reader alternate. -/
example : Complete (fill ⟨[1, 2], [], [], [5, 6], [], [], [], [], [], []⟩) 2
    [1, 0, 1, 0, 1, 0, 1, 0, 1, 0, 1, 0, 1, 0, 1, 0, 1, 0, 1, 0] := by
  refine ⟨by decide, fun i hi => ?_⟩
  have : i = 0 ∨ i = 1 := by omega
  rcases this with rfl | rfl <;> decide

end Spoc.Props
