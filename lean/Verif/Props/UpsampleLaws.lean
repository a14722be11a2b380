import Verif.Proofs.Assigned
import Verif.Props.HowMany
import Verif.Props.Upsample
import Verif.Props.ToolFiles

/-!
# C126: transferring classes again, from several clouds, and from the cloud itself
-/

namespace Spoc.Props

open Spec Text AppUtils Tool Subsampling Main

/-- The classes of the low-resolution points, with their voxels. -/
def marks (l : SpocFile) (vl : List VoxelIndex) : List (VoxelIndex × UInt32) := vl.zip (l.prs.map (·.c))

/-- The high-resolution points after the transfer. -/
def marked (ms : List (VoxelIndex × UInt32)) (ps : List PointRecord) (vh : List VoxelIndex) : List PointRecord :=
  List.zipWith (fun p v => { p with c := (lastOf ms v).getD p.c }) ps vh

/-- When the transfer succeeds, and with which result. -/
theorem upsample_iff (b : Build) (l f : SpocFile) (r : F64) (g : SpocFile) (n : Nat) : upsample b l f r = .ok (g, n) ↔
    require b l.isValid = .ok () ∧ require b (F64.gt r F64.zero) = .ok () ∧ Uniform f.prs
      ∧ ∃ vh vl, Voxel.getIndexes f.prs r = .ok vh ∧ Voxel.getIndexesIn l.prs (Extent.ofPoints f.prs) r = .ok vl
        ∧ g = { f with prs := marked (marks l vl) f.prs vh } ∧ n = (vl.map (fun v => vh.count v)).sum := by
  have main : Uniform f.prs → ∀ vh vl, Voxel.getIndexes f.prs r = .ok vh → Voxel.getIndexesIn l.prs (Extent.ofPoints f.prs) r = .ok vl →
      upsampleLoop b l (Voxel.getMap vh) vl 0 f 0 = .ok ({ f with prs := marked (marks l vl) f.prs vh }, (vl.map (fun v => vh.count v)).sum) := by
    intro hu vh vl hvh hvl
    have h1 : vh.length = f.prs.length := mapM_length hvh
    have h2 : vl.length = l.prs.length := mapM_length hvl
    obtain ⟨qs, m, h3, h4, h5⟩ := upsampleLoop_ok b l vh vl 0 f 0 hu h1 (by omega)
    have h6 := Messages.upsampleLoop_count b l vh vl 0 f 0 _ m h3
    rw [h3, h6, Nat.zero_add]
    have : qs = marked (marks l vl) f.prs vh := by
      apply List.ext_getElem?
      intro k
      by_cases hk : k < vh.length
      · rw [h5 k _ (List.getElem?_eq_getElem hk), marked, List.getElem?_zipWith, List.getElem?_eq_getElem (show k < f.prs.length by omega),
          List.getElem?_eq_getElem hk, List.drop_zero]
        rfl
      · rw [List.getElem?_eq_none (by omega), List.getElem?_eq_none (by simp [marked]; omega)]
    rw [this]
  constructor
  · intro h
    unfold upsample at h
    have valid : f.copy ≠ .ok f → ∀ x, f.copy ≠ .ok x := by
      intro h' x hx
      unfold SpocFile.copy SpocFile.new at hx h'
      split at hx
      · simp at hx
      · next hc => rw [if_neg hc] at h'; exact h' rfl
    obtain ⟨_, h1, h⟩ := Res.bind_eq_ok.mp h
    obtain ⟨_, h2, h⟩ := Res.bind_eq_ok.mp h
    obtain ⟨_, h3, h⟩ := Res.bind_eq_ok.mp h
    obtain ⟨f', h4, h⟩ := Res.bind_eq_ok.mp h
    obtain ⟨vh, h5, h⟩ := Res.bind_eq_ok.mp h
    obtain ⟨vl, h6, h⟩ := Res.bind_eq_ok.mp h
    have hu : Uniform f.prs := by
      rw [uniform_iff]
      unfold SpocFile.copy SpocFile.new at h4
      unfold SpocFile.isValid
      split at h4
      · simp at h4
      · next hc => simpa using hc
    rw [copy_ok hu] at h4
    cases h4
    rw [main hu vh vl h5 h6] at h
    cases h
    exact ⟨h1, h3, hu, vh, vl, h5, h6, rfl, rfl⟩
  · rintro ⟨h1, h3, hu, vh, vl, h5, h6, rfl, rfl⟩
    unfold upsample
    rw [h1, h3, uniform_valid hu, copy_ok hu]
    simp only [require_true, Res.ok_bind, h5, h6]
    exact main hu vh vl h5 h6

theorem points_congr {ps qs : List PointRecord} (h : ps.map pt = qs.map pt) (r : F64) :
    Extent.ofPoints ps = Extent.ofPoints qs ∧ ∀ e, Voxel.getIndexesIn ps e r = Voxel.getIndexesIn qs e r := by
  have key : ∀ ps : List PointRecord, ∀ e, Voxel.getIndexesIn ps e r = (ps.map pt).mapM (fun p => Voxel.getIndex p e.minp r) := by
    intro ps e
    rw [List.mapM_map]
    rfl
  refine ⟨?_, fun e => by rw [key, key, h]⟩
  have k2 : ∀ g : Pt F64 → F64, ps.map (fun p => g (pt p)) = qs.map (fun p => g (pt p)) := by
    intro g
    have := congrArg (List.map g) h
    simpa [List.map_map, Function.comp_def] using this
  rw [Extent.ofPoints_eq, Extent.ofPoints_eq, k2 (·.x), k2 (·.y), k2 (·.z)]

theorem marked_length {ms : List (VoxelIndex × UInt32)} {ps : List PointRecord} {vh : List VoxelIndex} (h : vh.length = ps.length) :
    (marked ms ps vh).length = ps.length := by simp [marked, h]

theorem marked_pt (ms : List (VoxelIndex × UInt32)) {ps : List PointRecord} {vh : List VoxelIndex} (h : vh.length = ps.length) :
    (marked ms ps vh).map pt = ps.map pt := by
  induction ps generalizing vh with
  | nil => rfl
  | cons p ps ih =>
    cases vh with
    | nil => simp at h
    | cons v vh => 
      rw [marked, List.zipWith_cons_cons, List.map_cons, List.map_cons]
      congr 1
      exact ih (by simpa using h)

theorem marked_extra (ms : List (VoxelIndex × UInt32)) {ps : List PointRecord} {vh : List VoxelIndex} (h : vh.length = ps.length) :
    (marked ms ps vh).map (fun p => p.extra.length) = ps.map (fun p => p.extra.length) := by
  induction ps generalizing vh with
  | nil => rfl
  | cons p ps ih =>
    cases vh with
    | nil => simp at h
    | cons v vh => 
      rw [marked, List.zipWith_cons_cons, List.map_cons, List.map_cons]
      congr 1
      exact ih (by simpa using h)

theorem uniform_of_lengths {ps qs : List PointRecord} (h : ps.map (fun p => p.extra.length) = qs.map (fun p => p.extra.length)) (hu : Uniform ps) :
    Uniform qs := by
  intro p hp q hq
  have h1 : p.extra.length ∈ ps.map (fun p => p.extra.length) := by rw [h]; exact List.mem_map_of_mem hp
  have h2 : q.extra.length ∈ ps.map (fun p => p.extra.length) := by rw [h]; exact List.mem_map_of_mem hq
  obtain ⟨p', hp', e1⟩ := List.mem_map.mp h1
  obtain ⟨q', hq', e2⟩ := List.mem_map.mp h2
  rw [← e1, ← e2]
  exact hu p' hp' q' hq'

theorem marked_marked (ms ms' : List (VoxelIndex × UInt32)) (ps : List PointRecord) (vh : List VoxelIndex) :
    marked ms' (marked ms ps vh) vh = marked (ms ++ ms') ps vh := by
  have hl : ∀ v, lastOf (ms ++ ms') v = (lastOf ms' v).or (lastOf ms v) := by
    intro v
    induction ms with
    | nil => simp [lastOf]
    | cons m ms ih => obtain ⟨w, c⟩ := m; rw [List.cons_append, lastOf, ih, lastOf, Option.or_assoc]
  induction ps generalizing vh with
  | nil => rfl
  | cons p ps ih =>
    cases vh with
    | nil => rfl
    | cons v vh =>
      simp only [marked, List.zipWith_cons_cons] at ih ⊢
      rw [ih, hl]
      cases lastOf ms' v <;> rfl

/-- **C126**: transferring the classes once more changes nothing, and counts the same. -/
theorem c126_again (b : Build) (l f : SpocFile) (r : F64) (g : SpocFile) (n : Nat) (h : upsample b l f r = .ok (g, n)) :
    upsample b l g r = .ok (g, n) := by
  obtain ⟨h1, h2, hu, vh, vl, h3, h4, rfl, rfl⟩ := (upsample_iff b l f r g n).mp h
  have hlen : vh.length = f.prs.length := mapM_length h3
  obtain ⟨e1, e2⟩ := points_congr (marked_pt (marks l vl) hlen) r
  rw [upsample_iff]
  refine ⟨h1, h2, uniform_of_lengths (marked_extra _ hlen).symm hu, vh, vl, ?_, ?_, ?_, rfl⟩
  · rw [Voxel.getIndexes, e1, e2]; exact h3
  · rw [e1]; exact h4
  · simp only
    rw [marked_marked]
    congr 1
    have hl : ∀ ms : List (VoxelIndex × UInt32), ∀ v, lastOf (ms ++ ms) v = lastOf ms v := by
      intro ms v
      have : ∀ ms' : List (VoxelIndex × UInt32), lastOf (ms' ++ ms) v = (lastOf ms v).or (lastOf ms' v) := by
        intro ms'
        induction ms' with
        | nil => simp [lastOf]
        | cons m ms' ih => obtain ⟨w, c⟩ := m; rw [List.cons_append, lastOf, ih, lastOf, Option.or_assoc]
      rw [this, Option.or_self]
    unfold marked
    simp only [hl]

/-- **C126**: transferring the classes of one cloud and then those of another one is transferring those of both clouds together. -/
theorem c126_two_clouds (b : Build) (l l' f : SpocFile) (hl : Uniform (l.prs ++ l'.prs)) (r : F64) (g h : SpocFile) (n m : Nat)
    (h1 : upsample b l f r = .ok (g, n)) (h2 : upsample b l' g r = .ok (h, m)) :
    upsample b { l with prs := l.prs ++ l'.prs } f r = .ok (h, n + m) := by
  obtain ⟨a1, a2, hu, vh, vl, a3, a4, rfl, rfl⟩ := (upsample_iff b l f r g n).mp h1
  obtain ⟨b1, -, hu', vh', vl', b3, b4, rfl, rfl⟩ := (upsample_iff b l' _ r h m).mp h2
  have hlen : vh.length = f.prs.length := mapM_length a3
  obtain ⟨e1, e2⟩ := points_congr (marked_pt (marks l vl) hlen) r
  simp only at b3 b4
  rw [Voxel.getIndexes, e1, e2] at b3
  rw [e1] at b4
  have : vh' = vh := by rw [Voxel.getIndexes] at a3; rw [a3] at b3; cases b3; rfl
  subst this
  rw [upsample_iff]
  refine ⟨?_, a2, hu, vh', vl ++ vl', a3, ?_, ?_, ?_⟩
  · rw [uniform_valid (f := { l with prs := l.prs ++ l'.prs }) hl]; exact require_true b
  · unfold Voxel.getIndexesIn at a4 b4 ⊢
    simp only [List.mapM_append]
    rw [a4, b4]
    rfl
  · simp only
    rw [marked_marked]
    congr 2
    unfold marks
    rw [List.map_append, List.zip_append (by rw [List.length_map]; exact mapM_length a4)]
  · rw [List.map_append, List.sum_append]

theorem lastOf_mem {ms : List (VoxelIndex × UInt32)} {v : VoxelIndex} {c : UInt32} (h : lastOf ms v = some c) : (v, c) ∈ ms := by
  obtain ⟨i, hi, -⟩ := lastOf_some h
  exact List.mem_of_getElem? hi

theorem lastOf_unique {ms : List (VoxelIndex × UInt32)} {v : VoxelIndex} {c : UInt32} (h : ∀ c', (v, c') ∈ ms → c' = c) (hm : (v, c) ∈ ms) :
    lastOf ms v = some c := by
  cases hl : lastOf ms v with
  | none =>
    obtain ⟨i, hi⟩ := List.getElem?_of_mem hm
    exact absurd hi (lastOf_none hl i c)
  | some c' => rw [h c' (lastOf_mem hl)]

theorem lastOf_absent {ms : List (VoxelIndex × UInt32)} {v : VoxelIndex} (h : ∀ c, (v, c) ∉ ms) : lastOf ms v = none := by
  cases hl : lastOf ms v with
  | none => rfl
  | some c => exact absurd (lastOf_mem hl) (h c)

/-- Points in the same voxel have the same class. -/
def OneClassPerVoxel (ps : List PointRecord) (vs : List VoxelIndex) : Prop :=
  ∀ v c c', (v, c) ∈ vs.zip (ps.map (·.c)) → (v, c') ∈ vs.zip (ps.map (·.c)) → c = c'

/-- **C126**: a cloud whose points in the same voxel have the same class keeps its classes when they are transferred from itself. -/
theorem c126_itself (b : Build) (f : SpocFile) (r : F64) (g : SpocFile) (n : Nat) (h : upsample b f f r = .ok (g, n)) (vs : List VoxelIndex)
    (hv : Voxel.getIndexes f.prs r = .ok vs) (ho : OneClassPerVoxel f.prs vs) : g = f := by
  obtain ⟨-, -, -, vh, vl, h3, h4, rfl, -⟩ := (upsample_iff b f f r g n).mp h
  rw [hv] at h3
  cases h3
  rw [Voxel.getIndexes] at hv
  rw [hv] at h4
  cases h4
  have hlen : vs.length = f.prs.length := mapM_length hv
  have key : marked (marks f vs) f.prs vs = f.prs := by
    apply List.ext_getElem (marked_length hlen)
    intro k h1 h2
    have hm : (vs[k]'(by omega), f.prs[k].c) ∈ vs.zip (f.prs.map (·.c)) := by
      have h5 : k < (vs.zip (f.prs.map (·.c))).length := by simp; omega
      have h6 := List.getElem_mem h5
      rw [List.getElem_zip, List.getElem_map] at h6
      exact h6
    simp only [marked, List.getElem_zipWith]
    have e : lastOf (marks f vs) (vs[k]'(by omega)) = some f.prs[k].c := lastOf_unique (fun c' hc' => ho _ _ _ hc' hm) hm
    rw [e]
    rfl
  rw [key]

/-- **C126**: of the low-resolution cloud only the locations and the classes matter. -/
theorem c126_fields (b : Build) (l l' f : SpocFile) (r : F64) (g : SpocFile) (n : Nat) (hl' : Uniform l'.prs)
    (h : l.prs.map (fun q => (pt q, q.c)) = l'.prs.map (fun q => (pt q, q.c))) (hu : upsample b l f r = .ok (g, n)) :
    upsample b l' f r = .ok (g, n) := by
  obtain ⟨-, h2, h3, vh, vl, h4, h5, rfl, rfl⟩ := (upsample_iff b l f r g n).mp hu
  have e1 : l.prs.map pt = l'.prs.map pt := by simpa [List.map_map, Function.comp_def] using congrArg (List.map Prod.fst) h
  have e2 : l.prs.map (·.c) = l'.prs.map (·.c) := by simpa [List.map_map, Function.comp_def] using congrArg (List.map Prod.snd) h
  rw [upsample_iff]
  refine ⟨?_, h2, h3, vh, vl, h4, ?_, ?_, rfl⟩
  · rw [uniform_valid hl']; exact require_true b
  · rw [← (points_congr e1 r).2]; exact h5
  · unfold marks; rw [e2]

theorem mapM_perm {α β : Type} {k : α → Res β} {l l' : List α} (h : l.Perm l') {r : List β} (hr : l.mapM k = .ok r) :
    ∃ r', l'.mapM k = .ok r' ∧ (l.zip r).Perm (l'.zip r') := by
  have hf := mapM_eq_ok.mp hr
  have ok : ∀ a ∈ l', ∃ x, k a = .ok x := by
    intro a ha
    obtain ⟨i, hi, rfl⟩ := List.getElem_of_mem (h.mem_iff.mpr ha)
    exact ⟨_, forall₂_get hf hi (by rw [← hf.length_eq]; exact hi)⟩
  obtain ⟨r', hr'⟩ := mapM_ok_of (f := k) (l := l') ok
  have zip : ∀ {l : List α} {r : List β}, List.Forall₂ (fun a x => k a = .ok x) l r →
      l.zip r = l.filterMap (fun a => match k a with | .ok x => some (a, x) | _ => none) := by
    intro l r hh
    induction hh with
    | nil => rfl
    | cons h1 _ ih => rw [List.zip_cons_cons, List.filterMap_cons, h1, ih]
  refine ⟨r', hr', ?_⟩
  rw [zip hf, zip (mapM_eq_ok.mp hr')]
  exact h.filterMap _

theorem zip_marks (ps : List PointRecord) (vs : List VoxelIndex) : (ps.zip vs).map (fun x => (x.2, x.1.c)) = vs.zip (ps.map (·.c)) := by
  induction ps generalizing vs with
  | nil => simp
  | cons p ps ih => cases vs with
    | nil => rfl
    | cons v vs => simp [ih]

theorem lastOf_perm {ms ms' : List (VoxelIndex × UInt32)} (h : ms.Perm ms') (ho : ∀ v c c', (v, c) ∈ ms → (v, c') ∈ ms → c = c') (v : VoxelIndex) :
    lastOf ms' v = lastOf ms v := by
  cases hl : lastOf ms v with
  | none =>
    refine lastOf_absent fun c hc => ?_
    obtain ⟨i, hi⟩ := List.getElem?_of_mem (h.mem_iff.mpr hc)
    exact lastOf_none hl i c hi
  | some c =>
    have hm := lastOf_mem hl
    exact lastOf_unique (fun c' hc' => ho v _ _ (h.mem_iff.mpr hc') hm) (h.mem_iff.mp hm)

theorem perm_valid (b : Build) {l l' : SpocFile} (h : l.prs.Perm l'.prs) (hv : require b l.isValid = .ok ()) : require b l'.isValid = .ok () := by
  cases b with
  | release => rfl
  | debug =>
    have h1 : l.isValid = true := by
      cases hl : l.isValid with
      | true => rfl
      | false => rw [hl] at hv; simp [require] at hv
    have hu : Uniform l.prs := (uniform_iff l).mpr h1
    rw [uniform_valid (f := l') (fun p hp q hq => hu p (h.mem_iff.mpr hp) q (h.mem_iff.mpr hq))]
    rfl

/-- **C126**: if low-resolution points in the same voxel have the same class, their order does not matter. -/
theorem c126_order (b : Build) (l l' f : SpocFile) (r : F64) (g : SpocFile) (n : Nat) (hp : l.prs.Perm l'.prs)
    (hu : upsample b l f r = .ok (g, n)) (vl : List VoxelIndex) (hvl : Voxel.getIndexesIn l.prs (Extent.ofPoints f.prs) r = .ok vl)
    (ho : OneClassPerVoxel l.prs vl) : upsample b l' f r = .ok (g, n) := by
  obtain ⟨h1, h2, h3, vh, vl', h4, h5, rfl, rfl⟩ := (upsample_iff b l f r g n).mp hu
  rw [hvl] at h5
  cases h5
  obtain ⟨wl, hw, hz⟩ := mapM_perm hp hvl
  have hm : (marks l vl).Perm (marks l' wl) := by
    have := hz.map (fun x => (x.2, x.1.c))
    rwa [zip_marks, zip_marks] at this
  have hvw : vl.Perm wl := by
    have := hz.map Prod.snd
    rwa [List.map_snd_zip (by rw [show vl.length = l.prs.length from mapM_length hvl]),
      List.map_snd_zip (by rw [show wl.length = l'.prs.length from mapM_length hw])] at this
  rw [upsample_iff]
  refine ⟨perm_valid b hp h1, h2, h3, vh, wl, h4, hw, ?_, (hvw.map _).sum_eq⟩
  unfold marked
  simp only [lastOf_perm hm ho]

theorem mapM_agree {α β : Type} {k k' : α → Res β} {l : List α} (h : ∀ a ∈ l, k a = k' a) : l.mapM k = l.mapM k' := by
  induction l with
  | nil => rfl
  | cons a l ih =>
    rw [List.mapM_cons, List.mapM_cons, h a (by simp), ih fun x hx => h x (by simp [hx])]

/-- **C126**: the order of the high-resolution points does not matter: each point is given the same class, whatever its position.  (For finite
coordinates.) -/
theorem c126_points_order (b : Build) (l f f' : SpocFile) (r : F64) (g : SpocFile) (n : Nat) (hp : f.prs.Perm f'.prs)
    (hf : ∀ q ∈ f.prs, Spec.Fin (pt q)) (hl : ∀ q ∈ l.prs, Spec.Fin (pt q)) (hu : upsample b l f r = .ok (g, n)) :
    ∃ g', upsample b l f' r = .ok (g', n) ∧ (f.prs.zip g.prs).Perm (f'.prs.zip g'.prs) := by
  obtain ⟨h1, h2, h3, vh, vl, h4, h5, rfl, rfl⟩ := (upsample_iff b l f r g n).mp hu
  have same : ∀ {ps : List PointRecord}, (∀ q ∈ ps, Spec.Fin (pt q)) → ∀ {vs}, Voxel.getIndexesIn ps (Extent.ofPoints f.prs) r = .ok vs →
      Voxel.getIndexesIn ps (Extent.ofPoints f'.prs) r = .ok vs := by
    intro ps hps vs hv
    by_cases hne : f.prs = []
    · have : f'.prs = [] := by rw [hne] at hp; exact hp.nil_eq.symm
      rw [this, ← hne]; exact hv
    · have off : ∀ {q : PointRecord}, Spec.Fin (pt q) → Off 0 0 0 (pt q) (pt q) := fun h => off_zero h h ⟨rfl, rfl, rfl⟩
      have hmin := (extent_off (D := 0) (E := 0) (F := 0) hne (fun p hp' => ⟨p, hp.mem_iff.mp hp', off (hf p hp')⟩)
        (fun q hq => ⟨q, hp.mem_iff.mpr hq, off (hf q (hp.mem_iff.mpr hq))⟩)).1
      rw [← hv]
      exact mapM_agree fun q hq => (getIndex_off (off (hps q hq)) hmin r).symm
  obtain ⟨vh', h6, hz⟩ := mapM_perm hp h4
  have hvv : vh.Perm vh' := by
    have := hz.map Prod.snd
    rwa [List.map_snd_zip (by rw [show vh.length = f.prs.length from mapM_length h4]),
      List.map_snd_zip (by rw [show vh'.length = f'.prs.length from mapM_length h6])] at this
  refine ⟨{ f' with prs := marked (marks l vl) f'.prs vh' }, ?_, ?_⟩
  · rw [upsample_iff]
    refine ⟨h1, h2, fun p h q h' => h3 p (hp.mem_iff.mpr h) q (hp.mem_iff.mpr h'), vh', vl, ?_, same hl h5, rfl, ?_⟩
    · exact same (fun q hq => hf q (hp.mem_iff.mpr hq)) h6
    · congr 1
      exact List.map_congr_left fun v _ => hvv.count_eq v
  · have zip : ∀ (ps : List PointRecord) (vs : List VoxelIndex), ps.zip (marked (marks l vl) ps vs)
        = (ps.zip vs).map (fun x => (x.1, { x.1 with c := (lastOf (marks l vl) x.2).getD x.1.c })) := by
      intro ps
      induction ps with
      | nil => intro vs; rfl
      | cons p ps ih =>
        intro vs
        cases vs with
        | nil => rfl
        | cons v vs =>
          have := ih vs
          simp only [marked, List.zipWith_cons_cons, List.zip_cons_cons, List.map_cons] at this ⊢
          rw [this]
    simp only
    rw [zip, zip]
    exact hz.map _

/-- The condition of `c126_order` is needed: with points of two classes in one voxel the last one counts. -/
theorem c126_order_matters : ∃ l l' f g g' n, l.prs.Perm l'.prs ∧ upsample .release l f F64.one = .ok (g, n)
    ∧ upsample .release l' f F64.one = .ok (g', n) ∧ g ≠ g' := by
  refine ⟨{ SpocFile.empty with prs := [{ x := num 0, c := 2 }, { x := num 0, c := 3 }] },
    { SpocFile.empty with prs := [{ x := num 0, c := 3 }, { x := num 0, c := 2 }] }, { SpocFile.empty with prs := [{ x := num 0 }] },
    { SpocFile.empty with prs := [{ x := num 0, c := 3 }] }, { SpocFile.empty with prs := [{ x := num 0, c := 2 }] }, 2,
    List.Perm.swap _ _ _, by decide +kernel, by decide +kernel, by decide +kernel⟩

/-- The condition of `c126_itself` is needed: of two points in one voxel the first takes the class of the second. -/
theorem c126_itself_changes : ∃ f g n, upsample .release f f F64.one = .ok (g, n) ∧ g ≠ f :=
  ⟨{ SpocFile.empty with prs := [{ x := num 0, c := 2 }, { x := num 0, c := 3 }] },
    { SpocFile.empty with prs := [{ x := num 0, c := 3 }, { x := num 0, c := 3 }] }, 4, by decide +kernel, by decide +kernel⟩

/-- Two points in one voxel with the same class, and one in another voxel: the classes are transferred to this cloud from itself. -/
def paired : SpocFile := { SpocFile.empty with prs := [{ x := num 0, c := 2 }, { x := num 0, c := 2 }, { x := num 5, c := 3 }] }

example : upsample .release paired paired F64.one = .ok (paired, 5) ∧ Voxel.getIndexes paired.prs F64.one = .ok [⟨0, 0, 0⟩, ⟨0, 0, 0⟩, ⟨5, 0, 0⟩]
    ∧ OneClassPerVoxel paired.prs [⟨0, 0, 0⟩, ⟨0, 0, 0⟩, ⟨5, 0, 0⟩] ∧ (∀ q ∈ paired.prs, Spec.Fin (pt q)) := by
  refine ⟨by decide +kernel, by decide +kernel, ?_, by unfold Spec.Fin; decide +kernel⟩
  intro v c c' h h'
  simp only [paired, List.map_cons, List.map_nil, List.zip_cons_cons, List.zip_nil_right, List.mem_cons, Prod.mk.injEq, List.not_mem_nil, or_false] at h h'
  rcases h with ⟨rfl, rfl⟩ | ⟨rfl, rfl⟩ | ⟨rfl, rfl⟩ <;> simp at h' <;> exact h'.symm

/-- Classes from two clouds: from `lowRes` and from `paired` to `highRes`. -/
example : ∃ g n h m, upsample .release lowRes highRes F64.one = .ok (g, n) ∧ upsample .release paired g F64.one = .ok (h, m)
    ∧ Uniform (lowRes.prs ++ paired.prs) := by
  have h1 : ((upsample .release lowRes highRes F64.one).bind fun x => upsample .release paired x.1 F64.one).isOk = true := by decide +kernel
  cases e : upsample .release lowRes highRes F64.one with
  | ok x =>
    rw [e] at h1
    cases e' : upsample .release paired x.1 F64.one with
    | ok y => exact ⟨x.1, x.2, y.1, y.2, rfl, e', by unfold Uniform; decide +kernel⟩
    | _ => simp [Res.bind, e', Res.isOk] at h1
  | _ => rw [e] at h1; simp [Res.bind, Res.isOk] at h1

/-- What merge makes of clouds has their locations and classes. -/
theorem merged_marks (asked : Option Nat) (fs : List SpocFile) :
    (mergedPoints (idOf asked) fs).map (fun q => (pt q, q.c)) = (allPoints fs).map (fun q => (pt q, q.c)) := by
  have h := congrArg (List.map (fun q : PointRecord => (pt q, q.c))) (c41_nothing_lost (idOf asked) fs)
  rw [List.map_map, List.map_map] at h
  exact h

/-! ## The same from files to files -/

/-- **C126** with files: the low-resolution cloud is in `i`, the high-resolution one in `h`; `o` is what the first run writes, and the second run
transfers the classes to it.  The second output holds the same cloud. -/
theorem c126_files_again (p : Params) (hz : p.zlib.Correct) (w : World) (first second : List Str) (i h t o o' : Str)
    (hopt : Cmd.tool.options first = [("upsample-classifications", h), ("resolution", t)]) (hops : Cmd.tool.operands first = [i, o])
    (hopt' : Cmd.tool.options second = [("upsample-classifications", o), ("resolution", t)]) (hops' : Cmd.tool.operands second = [i, o'])
    (hi : i ≠ []) (ho : o ≠ []) (ho' : o' ≠ []) (hio : i ≠ o) (hc : CanReplace w o) (hc' : CanReplace (after .tool p first w) o')
    (l f : SpocFile) (hl : HasCloud p w.fs i l) (hf : HasCloud p w.fs h f) (hs : Survives p.zlib f) (hr : F64.gt (atof t) F64.zero = true)
    (vh vl : List VoxelIndex) (hvh : Voxel.getIndexes f.prs (atof t) = .ok vh)
    (hvl : Voxel.getIndexesIn l.prs (Extent.ofPoints f.prs) (atof t) = .ok vl) :
    ∃ g, Makes .tool p w first o g ∧ Makes .tool p (after .tool p first w) second o' g := by
  obtain ⟨g, m, h1, h2, h3, -⟩ := c76_upsample_run p hz w first i h t o hopt hops hi ho hc l f hl hf hs hr vh vl hvh hvl
  refine ⟨g, h3, ?_⟩
  have hl' : HasCloud p (after .tool p first w).fs i l := by
    obtain ⟨x, s, e1, e2⟩ := hl
    exact ⟨x, s, by rw [← e1]; exact h3.2.2.2 i hio, e2⟩
  have h4 := c126_again p.build l f (atof t) g m h1
  obtain ⟨-, -, -, vh', vl', h5, h6, -⟩ := (upsample_iff p.build l g (atof t) g m).mp h4
  obtain ⟨g', m', k1, -, k3, -⟩ := c76_upsample_run p hz _ second i o t o' hopt' hops' hi ho' hc' l g hl' h3.2.2.1 h2 hr vh' vl' h5 h6
  rw [h4] at k1
  cases k1
  exact k3

/-- Transferring classes from `a` to `d`. -/
def toD : List Str := ["--upsample-classifications=d".toList, "--resolution=10".toList, ['a'], ['o']]

/-- Transferring classes from `a` to the result. -/
def toO : List Str := ["--upsample-classifications=o".toList, "--resolution=10".toList, ['a'], ['n']]

theorem canReplace_n : CanReplace (after .tool exampleParams toD exampleDisk) ['n'] := by
  have e1 : ((after .tool exampleParams toD exampleDisk).fs ['n']).isNone = true := by decide +kernel
  have e2 : (after .tool exampleParams toD exampleDisk).canCreate ['n'] = true := by decide +kernel
  unfold CanReplace
  rw [Option.isNone_iff_eq_none.mp e1]
  exact e2

/-- Classes are transferred from the cloud in `a` to the cloud in `d`, and then to the result. -/
example : ∃ g, Makes .tool exampleParams exampleDisk toD ['o'] g
    ∧ Makes .tool exampleParams (after .tool exampleParams toD exampleDisk)
        toO ['n'] g := by
  have h1 : (Voxel.getIndexes cloudA.prs (atof ['1', '0'])).isOk = true := by decide +kernel
  have h2 : (Voxel.getIndexesIn cloudA.prs (Extent.ofPoints cloudA.prs) (atof ['1', '0'])).isOk = true := by decide +kernel
  obtain ⟨vh, hvh⟩ : ∃ v, Voxel.getIndexes cloudA.prs (atof ['1', '0']) = .ok v := by
    revert h1
    cases Voxel.getIndexes cloudA.prs (atof ['1', '0']) <;> simp [Res.isOk]
  obtain ⟨vl, hvl⟩ : ∃ v, Voxel.getIndexesIn cloudA.prs (Extent.ofPoints cloudA.prs) (atof ['1', '0']) = .ok v := by
    revert h2
    cases Voxel.getIndexesIn cloudA.prs (Extent.ofPoints cloudA.prs) (atof ['1', '0']) <;> simp [Res.isOk]
  refine c126_files_again exampleParams toyZlib_correct exampleDisk
    toD
    toO ['a'] ['d'] ['1', '0'] ['o'] ['n'] (by decide +kernel)
    (by decide +kernel) (by decide +kernel) (by decide +kernel) (by decide) (by decide) (by decide) (by decide) rfl ?_
    cloudA cloudA cloudA_on_disk.1 cloudA_on_disk.2 cloudA_survives (by decide +kernel) vh vl hvh hvl
  with_reducible exact canReplace_n

/-- **C126** with files: transferring from the cloud in `i`, and then from the one in `j` to the result, gives what transferring from a cloud gives
that has the locations and classes of both, for example what merge makes of them. -/
theorem c126_files_two (p : Params) (hz : p.zlib.Correct) (w : World) (first second once : List Str) (i j m h t o o' o'' : Str)
    (hopt : Cmd.tool.options first = [("upsample-classifications", h), ("resolution", t)]) (hops : Cmd.tool.operands first = [i, o])
    (hopt' : Cmd.tool.options second = [("upsample-classifications", o), ("resolution", t)]) (hops' : Cmd.tool.operands second = [j, o'])
    (hopt'' : Cmd.tool.options once = [("upsample-classifications", h), ("resolution", t)]) (hops'' : Cmd.tool.operands once = [m, o''])
    (hi : i ≠ []) (hj : j ≠ []) (hm : m ≠ []) (ho : o ≠ []) (ho' : o' ≠ []) (ho'' : o'' ≠ []) (hjo : j ≠ o) (hc : CanReplace w o)
    (hc' : CanReplace (after .tool p first w) o') (hc'' : CanReplace w o'')
    (l l' both f : SpocFile) (hl : HasCloud p w.fs i l) (hl' : HasCloud p w.fs j l') (hb : HasCloud p w.fs m both)
    (hboth : both.prs.map (fun q => (pt q, q.c)) = (l.prs ++ l'.prs).map (fun q => (pt q, q.c))) (hu : Uniform (l.prs ++ l'.prs))
    (hf : HasCloud p w.fs h f) (hs : Survives p.zlib f) (hr : F64.gt (atof t) F64.zero = true) (vh vl vl' : List VoxelIndex)
    (hvh : Voxel.getIndexes f.prs (atof t) = .ok vh) (hvl : Voxel.getIndexesIn l.prs (Extent.ofPoints f.prs) (atof t) = .ok vl)
    (hvl' : Voxel.getIndexesIn l'.prs (Extent.ofPoints f.prs) (atof t) = .ok vl') :
    ∃ g g', Makes .tool p w first o g ∧ Makes .tool p (after .tool p first w) second o' g' ∧ Makes .tool p w once o'' g' := by
  obtain ⟨g, n, h1, h2, h3, -⟩ := c76_upsample_run p hz w first i h t o hopt hops hi ho hc l f hl hf hs hr vh vl hvh hvl
  have hj' : HasCloud p (after .tool p first w).fs j l' := by
    obtain ⟨x, s, e1, e2⟩ := hl'
    exact ⟨x, s, by rw [← e1]; exact h3.2.2.2 j hjo, e2⟩
  obtain ⟨-, -, -, vh', vl'', a1, a2, a3, -⟩ := (upsample_iff p.build l f (atof t) g n).mp h1
  rw [hvh] at a1
  rw [hvl] at a2
  cases a1
  cases a2
  have hlen : vh.length = f.prs.length := mapM_length hvh
  obtain ⟨e1, e2⟩ := points_congr (marked_pt (marks l vl) hlen) (atof t)
  have a4 : g.prs = marked (marks l vl) f.prs vh := by rw [a3]
  obtain ⟨g', n', k1, -, k3, -⟩ := c76_upsample_run p hz _ second j o t o' hopt' hops' hj ho' hc' l' g hj' h3.2.2.1 h2 hr vh vl'
    (by rw [a4, Voxel.getIndexes, e1, e2]; exact hvh) (by rw [a4, e1]; exact hvl')
  have k4 := c126_two_clouds p.build l l' f hu (atof t) g g' n n' h1 k1
  have hub : Uniform both.prs := by
    obtain ⟨x, s, -, -, e⟩ := hb
    exact (readable_writable e).uniform
  have k5 := c126_fields p.build { l with prs := l.prs ++ l'.prs } both f (atof t) g' (n + n') hub hboth.symm k4
  obtain ⟨-, -, -, wh, wl, b1, b2, -⟩ := (upsample_iff p.build both f (atof t) g' (n + n')).mp k5
  obtain ⟨g2, n2, c1, -, c3, -⟩ := c76_upsample_run p hz w once m h t o'' hopt'' hops'' hm ho'' hc'' both f hb hf hs hr wh wl b1 b2
  rw [k5] at c1
  cases c1
  exact ⟨g, g', h3, k3, c3⟩

/-- Merging first: the file `m` that merge makes of `i` and `j` serves as the cloud that has the locations and classes of both. -/
theorem c126_files_merged (asked : Option Nat) (l l' both : SpocFile) (hb : both.prs = mergedPoints (idOf asked) [l, l']) :
    both.prs.map (fun q => (pt q, q.c)) = (l.prs ++ l'.prs).map (fun q => (pt q, q.c)) := by
  rw [hb, merged_marks]
  simp [allPoints]

end Spoc.Props
