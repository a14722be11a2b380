import Verif.Proofs.Written
import Verif.Proofs.Upsample

/-!
# How many assignments upsampling counts
-/

namespace Spoc.Messages

open Text Main Spec

theorem members_length (vs : List VoxelIndex) (v : VoxelIndex) : (Voxel.members vs v).length = vs.count v := by
  have key : ∀ l : List VoxelIndex, ((List.range l.length).filter (fun j => decide (l[j]? = some v))).length = l.count v := by
    intro l
    induction l with
    | nil => rfl
    | cons w l ih =>
      rw [List.length_cons, List.range_succ_eq_map, List.filter_cons, List.filter_map, List.count_cons, ← ih]
      have e : ((fun j => decide ((w :: l)[j]? = some v)) ∘ Nat.succ) = (fun j => decide (l[j]? = some v)) := by
        funext j; simp
      rw [e]
      by_cases h : w = v <;> simp [h]
  exact key vs

theorem upsampleLoop_count (b : Build) (l : SpocFile) (vh vl : List VoxelIndex) : ∀ (i : Nat) (h : SpocFile) (n : Nat) (g : SpocFile) (m : Nat),
    Tool.upsampleLoop b l (Voxel.getMap vh) vl i h n = .ok (g, m) → m = n + (vl.map (fun v => vh.count v)).sum := by
  induction vl with
  | nil => intro i h n g m e; cases e; simp
  | cons w vl ih =>
    intro i h n g m e
    rw [Tool.upsampleLoop, Voxel.find_getMap] at e
    rw [List.map_cons, List.sum_cons]
    by_cases hm : Voxel.members vh w = []
    · rw [if_pos hm] at e
      rw [ih _ _ _ _ _ e, ← members_length vh w, hm]
      simp
    · rw [if_neg hm] at e
      dsimp only at e
      cases h1 : cassert b (!(Voxel.members vh w).isEmpty) with
      | ok u =>
        rw [h1, Res.ok_bind] at e
        cases h2 : l.getPointRecord b i with
        | ok p =>
          rw [h2, Res.ok_bind] at e
          cases h3 : Tool.assignClass b p.c (Voxel.members vh w) h with
          | ok h' =>
            rw [h3, Res.ok_bind] at e
            rw [ih _ _ _ _ _ e, members_length]
            omega
          | _ => rw [h3] at e; cases e
        | _ => rw [h2] at e; cases e
      | _ => rw [h1] at e; cases e

/-- With at most one low-resolution point for each voxel, the assignments are the points that get one. -/
theorem sum_count_nodup (vh vl : List VoxelIndex) (hd : vl.Nodup) : (vl.map (fun v => vh.count v)).sum = vh.countP (fun v => decide (v ∈ vl)) := by
  induction vl with
  | nil => simp
  | cons w vl ih =>
    rw [List.nodup_cons] at hd
    rw [List.map_cons, List.sum_cons, ih hd.2]
    clear ih
    induction vh with
    | nil => simp
    | cons x vh ih =>
      rw [List.count_cons, List.countP_cons, List.countP_cons]
      generalize List.countP (fun v => decide (v ∈ w :: vl)) vh = A at ih ⊢
      generalize List.countP (fun v => decide (v ∈ vl)) vh = B at ih ⊢
      by_cases h1 : x = w
      · subst h1
        have : x ∉ vl := hd.1
        simp [this]
        omega
      · have h2 : (x ∈ w :: vl) ↔ x ∈ vl := by simp [h1]
        by_cases h3 : x ∈ vl
        · simp [h1, h3]; omega
        · simp [h1, h3]; omega

end Spoc.Messages
