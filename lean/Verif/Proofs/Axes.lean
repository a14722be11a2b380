import Verif.Spec.Axes
import Verif.Model.Subsampling
import Verif.Model.Utils
import Verif.Proofs.Subsampling
import Mathlib.Tactic.FinCases
import Mathlib.Data.Fintype.Basic

/-!
# Helper lemmas for C116
-/

namespace Spoc

open Spec

theorem coord_reorder {β : Type} (σ : Equiv.Perm (Fin 3)) (p : Pt β) (i : Fin 3) : coord (reorder σ p) i = coord p (σ i) := by
  fin_cases i <;> rfl

theorem pt_ext {β : Type} {p q : Pt β} (h : ∀ i, coord p i = coord q i) : p = q := by
  have h0 : p.x = q.x := h 0
  have h1 : p.y = q.y := h 1
  have h2 : p.z = q.z := h 2
  cases p; cases q; simp only at h0 h1 h2; rw [h0, h1, h2]

theorem reorder_eq_iff {β : Type} (σ : Equiv.Perm (Fin 3)) {p q : Pt β} : q = reorder σ p ↔ ∀ i, coord q i = coord p (σ i) := by
  constructor
  · rintro rfl i; exact coord_reorder σ p i
  · intro h; exact pt_ext (fun i => by rw [coord_reorder, h])

theorem reorder_inj {β : Type} (σ : Equiv.Perm (Fin 3)) {p q : Pt β} : reorder σ p = reorder σ q ↔ p = q := by
  constructor
  · intro h
    refine pt_ext (fun i => ?_)
    have := congrArg (fun p => coord p (σ.symm i)) h
    simpa only [coord_reorder, Equiv.apply_symm_apply] using this
  · rintro rfl; rfl

/-- A statement about each coordinate is one about each coordinate in another order. -/
theorem all_coord {σ : Equiv.Perm (Fin 3)} {P : Fin 3 → Prop} : (∀ i, P (σ i)) ↔ ∀ i, P i := by
  constructor
  · intro h i; have := h (σ.symm i); rwa [Equiv.apply_symm_apply] at this
  · intro h i; exact h _

/-- Three results, one after the other. -/
def seq3 {β : Type} (f : Fin 3 → Res β) : Res (Pt β) := do
  let x ← f 0
  let y ← f 1
  let z ← f 2
  .ok ⟨x, y, z⟩

theorem seq3_ok {β : Type} {f : Fin 3 → Res β} {g : Fin 3 → β} (h : ∀ i, f i = .ok (g i)) : seq3 f = .ok ⟨g 0, g 1, g 2⟩ := by
  unfold seq3
  rw [h 0, Res.ok_bind, h 1, Res.ok_bind, h 2, Res.ok_bind]

theorem ub_bind' {β γ : Type} (m : String) (k : β → Res γ) : ((Res.ub m : Res β) >>= k) = .ub m := rfl

theorem seq3_ub {β : Type} {f : Fin 3 → Res β} {m : String} (h : ∀ i, (∃ v, f i = .ok v) ∨ f i = .ub m) (i : Fin 3) (hi : f i = .ub m) :
    seq3 f = .ub m := by
  unfold seq3
  rcases h 0 with ⟨v, h0⟩ | h0
  · rw [h0, Res.ok_bind]
    rcases h 1 with ⟨w, h1⟩ | h1
    · rw [h1, Res.ok_bind]
      rcases h 2 with ⟨u, h2⟩ | h2
      · fin_cases i
        · exact absurd (h0.symm.trans hi) (by simp)
        · exact absurd (h1.symm.trans hi) (by simp)
        · exact absurd (h2.symm.trans hi) (by simp)
      · rw [h2]; rfl
    · rw [h1]; rfl
  · rw [h0]; rfl

/-- The order of three computations with one common way of failing does not matter. -/
theorem seq3_reorder {β : Type} {f : Fin 3 → Res β} {m : String} (h : ∀ i, (∃ v, f i = .ok v) ∨ f i = .ub m) (σ : Equiv.Perm (Fin 3)) :
    seq3 (fun i => f (σ i)) = (seq3 f).bind (fun p => .ok (reorder σ p)) := by
  by_cases hall : ∀ i, ∃ v, f i = .ok v
  · choose g hg using hall
    rw [seq3_ok hg, seq3_ok (g := fun i => g (σ i)) (fun i => hg (σ i))]
    show _ = Res.ok (reorder σ ⟨g 0, g 1, g 2⟩)
    rw [Res.ok.injEq, reorder_eq_iff]
    have e : ∀ j, coord (⟨g 0, g 1, g 2⟩ : Pt β) j = g j := by intro j; fin_cases j <;> rfl
    intro i
    rw [e]
    fin_cases i <;> rfl
  · rw [not_forall] at hall
    obtain ⟨i, hi⟩ := hall
    have hi : f i = .ub m := (h i).resolve_left hi
    rw [seq3_ub h i hi, seq3_ub (fun j => h (σ j)) (σ.symm i) (by rw [Equiv.apply_symm_apply]; exact hi)]
    rfl

/-! ## Voxels -/

def asPt (v : VoxelIndex) : Pt UInt64 := ⟨v.i, v.j, v.k⟩

def ofPt (p : Pt UInt64) : VoxelIndex := ⟨p.x, p.y, p.z⟩

def reorderV (σ : Equiv.Perm (Fin 3)) (v : VoxelIndex) : VoxelIndex := ofPt (reorder σ (asPt v))

theorem reorderV_inj (σ : Equiv.Perm (Fin 3)) {v w : VoxelIndex} : reorderV σ v = reorderV σ w ↔ v = w := by
  have inj1 : ∀ {p q : Pt UInt64}, ofPt p = ofPt q → p = q := by
    intro p q h; cases p; cases q; unfold ofPt at h; simp only [VoxelIndex.mk.injEq] at h; rw [h.1, h.2.1, h.2.2]
  have inj2 : ∀ {v w : VoxelIndex}, asPt v = asPt w → v = w := by
    intro p q h; cases p; cases q; unfold asPt at h; simp only [Pt.mk.injEq] at h; rw [h.1, h.2.1, h.2.2]
  exact ⟨fun h => inj2 ((reorder_inj σ).mp (inj1 h)), fun h => by rw [h]⟩

theorem toU64_two (x : F64) : (∃ v, F64.toU64 x = .ok v) ∨ F64.toU64 x = .ub "double out of range of uint64_t" := by
  unfold F64.toU64
  split
  · split
    · exact .inl ⟨_, rfl⟩
    · exact .inr rfl
  · exact .inr rfl

theorem getIndex_seq (p m : Pt F64) (r : F64) :
    Voxel.getIndex p m r = (seq3 (fun i => Voxel.index1 (coord p i) (coord m i) r)).bind (fun q => .ok (ofPt q)) := by
  show ((Voxel.index1 p.x m.x r) >>= fun i => (Voxel.index1 p.y m.y r) >>= fun j => (Voxel.index1 p.z m.z r) >>= fun k => Res.ok (⟨i, j, k⟩ : VoxelIndex))
    = ((Voxel.index1 p.x m.x r) >>= fun i => (Voxel.index1 p.y m.y r) >>= fun j => (Voxel.index1 p.z m.z r) >>= fun k => Res.ok (⟨i, j, k⟩ : Pt UInt64)) >>= fun q => Res.ok (ofPt q)
  cases Voxel.index1 p.x m.x r <;> try rfl
  cases Voxel.index1 p.y m.y r <;> try rfl
  cases Voxel.index1 p.z m.z r <;> rfl

theorem getIndex_reorder (σ : Equiv.Perm (Fin 3)) (p m : Pt F64) (r : F64) :
    Voxel.getIndex (reorder σ p) (reorder σ m) r = (Voxel.getIndex p m r).bind (fun v => .ok (reorderV σ v)) := by
  rw [getIndex_seq, getIndex_seq]
  simp only [coord_reorder]
  rw [seq3_reorder (f := fun i => Voxel.index1 (coord p i) (coord m i) r) (m := "double out of range of uint64_t") (fun i => toU64_two _) σ]
  cases seq3 (fun i => Voxel.index1 (coord p i) (coord m i) r) <;> rfl

section
variable {α : Type} [HasXYZ α]

/-- The points of `qs` are those of `ps` with the axes exchanged. -/
abbrev AxesOf (σ : Equiv.Perm (Fin 3)) (ps qs : List α) : Prop := List.Forall₂ (fun p q => pt q = reorder σ (pt p)) ps qs

theorem coord_grow_min (e : Extent) (p : Pt F64) (i : Fin 3) : coord (Extent.grow e p).minp i = F64.stdMin (coord p i) (coord e.minp i) := by
  fin_cases i <;> rfl

theorem coord_grow_max (e : Extent) (p : Pt F64) (i : Fin 3) : coord (Extent.grow e p).maxp i = F64.stdMax (coord p i) (coord e.maxp i) := by
  fin_cases i <;> rfl

theorem extent_reorder {σ : Equiv.Perm (Fin 3)} {ps qs : List α} (h : AxesOf σ ps qs) :
    (Extent.ofPoints qs).minp = reorder σ (Extent.ofPoints ps).minp ∧ (Extent.ofPoints qs).maxp = reorder σ (Extent.ofPoints ps).maxp := by
  have key : ∀ (e e' : Extent), e'.minp = reorder σ e.minp → e'.maxp = reorder σ e.maxp →
      (qs.foldl (fun e p => Extent.grow e (pt p)) e').minp = reorder σ (ps.foldl (fun e p => Extent.grow e (pt p)) e).minp
      ∧ (qs.foldl (fun e p => Extent.grow e (pt p)) e').maxp = reorder σ (ps.foldl (fun e p => Extent.grow e (pt p)) e).maxp := by
    induction h with
    | nil => intro e e' h1 h2; exact ⟨h1, h2⟩
    | cons hp _ ih =>
      intro e e' h1 h2
      refine ih _ _ ?_ ?_
      · rw [reorder_eq_iff]; intro i
        rw [coord_grow_min, coord_grow_min, hp, h1, coord_reorder, coord_reorder]
      · rw [reorder_eq_iff]; intro i
        rw [coord_grow_max, coord_grow_max, hp, h2, coord_reorder, coord_reorder]
  refine key _ _ ?_ ?_
  · rw [reorder_eq_iff]; intro i; generalize hj : σ i = j; fin_cases i <;> fin_cases j <;> rfl
  · rw [reorder_eq_iff]; intro i; generalize hj : σ i = j; fin_cases i <;> fin_cases j <;> rfl

theorem mapM_rel {β γ δ : Type} {R : β → γ → Prop} {f : β → Res δ} {g : γ → Res δ} {k : δ → δ} {ps : List β} {qs : List γ}
    (h : List.Forall₂ R ps qs) (hfg : ∀ p q, R p q → g q = (f p).bind (fun v => .ok (k v))) :
    qs.mapM g = (ps.mapM f).bind (fun vs => .ok (vs.map k)) := by
  induction h with
  | nil => rfl
  | cons hp _ ih =>
    rename_i p q ps qs _
    rw [List.mapM_cons, List.mapM_cons, hfg _ _ hp, ih]
    cases f p <;> try rfl
    cases ps.mapM f <;> rfl

theorem indexes_reorder {σ : Equiv.Perm (Fin 3)} {ps qs : List α} (h : AxesOf σ ps qs) (r : F64) :
    Voxel.getIndexes qs r = (Voxel.getIndexes ps r).bind (fun vs => .ok (vs.map (reorderV σ))) := by
  unfold Voxel.getIndexes Voxel.getIndexesIn
  refine mapM_rel h (fun p q hpq => ?_)
  rw [hpq, (extent_reorder h).1]
  exact getIndex_reorder σ _ _ r

end

theorem at_map {β γ : Type} (k : β → γ) (vs : List β) (j : Nat) :
    Voxel.at' (vs.map k) j = (Voxel.at' vs j).bind (fun v => .ok (k v)) := by
  unfold Voxel.at'
  rw [List.getElem?_map]
  cases vs[j]? <;> rfl

/-- Renaming the voxels changes nothing. -/
theorem steps_rename (b : Build) (n : Nat) (k : VoxelIndex → VoxelIndex) (hk : ∀ v w, k v = k w → v = w) (vs : List VoxelIndex) (js : List Nat)
    (a : Subsampling.Acc VoxelIndex) :
    js.foldlM (Subsampling.stepVoxel b n (vs.map k)) { seen := a.seen.map k, kept := a.kept }
      = (js.foldlM (Subsampling.stepVoxel b n vs) a).bind (fun a => .ok { seen := a.seen.map k, kept := a.kept }) := by
  induction js generalizing a with
  | nil => rfl
  | cons j js ih =>
    rw [List.foldlM_cons, List.foldlM_cons]
    have e : Subsampling.stepVoxel b n (vs.map k) { seen := a.seen.map k, kept := a.kept } j
        = (Subsampling.stepVoxel b n vs a j).bind (fun a => .ok { seen := a.seen.map k, kept := a.kept }) := by
      unfold Subsampling.stepVoxel
      rw [at_map, List.length_map]
      cases cassert b (decide (j < n)) <;> try rfl
      cases cassert b (decide (j < vs.length)) <;> try rfl
      cases Voxel.at' vs j <;> try rfl
      rename_i v
      show (if k v ∈ a.seen.map k then _ else _) = (if v ∈ a.seen then _ else _ : Res _).bind _
      by_cases hm : v ∈ a.seen
      · rw [if_pos hm, if_pos (List.mem_map_of_mem hm)]; rfl
      · rw [if_neg hm, if_neg]
        · rfl
        · intro hc
          obtain ⟨w, hw, e⟩ := List.mem_map.mp hc
          rw [hk _ _ e] at hw
          exact hm hw
    rw [e]
    cases Subsampling.stepVoxel b n vs a j <;> try rfl
    exact ih _

end Spoc
