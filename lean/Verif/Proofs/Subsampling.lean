import Verif.Model.Subsampling
import Verif.Proofs.ResList
import Mathlib.Data.List.Perm.Basic
import Mathlib.Data.List.Nodup
import Mathlib.Data.List.Induction

/-!
# Helper lemmas for subsampling
-/

namespace Spoc.Subsampling

/-- Keep an element unless an element kept before is its duplicate. -/
def dedupe (dup : Nat → Nat → Bool) (l kept : List Nat) : List Nat :=
  l.foldl (fun kept j => if kept.any (fun i => dup i j) then kept else kept ++ [j]) kept

variable {dup : Nat → Nat → Bool}

theorem dedupe_concat (l : List Nat) (x : Nat) :
    dedupe dup (l ++ [x]) [] =
      if (dedupe dup l []).any (fun i => dup i x) then dedupe dup l [] else dedupe dup l [] ++ [x] := by
  unfold dedupe; rw [List.foldl_append]; rfl

theorem dedupe_sublist (l : List Nat) : (dedupe dup l []).Sublist l := by
  induction l using List.reverseRecOn with
  | nil => exact List.Sublist.refl _
  | append_singleton l x ih =>
    rw [dedupe_concat]
    split
    · exact ih.trans (List.sublist_append_left _ _)
    · exact ih.append (List.Sublist.refl _)

theorem dedupe_pairwise (l : List Nat) : (dedupe dup l []).Pairwise (fun a b => dup a b = false) := by
  induction l using List.reverseRecOn with
  | nil => exact List.Pairwise.nil
  | append_singleton l x ih =>
    rw [dedupe_concat]
    split
    · exact ih
    · rename_i h
      rw [List.pairwise_append]
      refine ⟨ih, List.pairwise_singleton _ _, ?_⟩
      intro a ha b hb
      rw [List.mem_singleton] at hb
      subst hb
      by_contra hc
      exact h (List.any_eq_true.mpr ⟨a, ha, by simpa using hc⟩)

theorem dedupe_covers (l : List Nat) {j : Nat} (hj : j ∈ l) :
    j ∈ dedupe dup l [] ∨ ∃ i ∈ dedupe dup l [], dup i j = true := by
  induction l using List.reverseRecOn with
  | nil => simp at hj
  | append_singleton l x ih =>
    rw [dedupe_concat]
    rcases List.mem_append.mp hj with h | h
    · rcases ih h with h' | ⟨i, hi, hd⟩
      · left; split
        · exact h'
        · exact List.mem_append_left _ h'
      · right; refine ⟨i, ?_, hd⟩
        split
        · exact hi
        · exact List.mem_append_left _ hi
    · rw [List.mem_singleton] at h
      subst h
      split
      · rename_i hd; right; exact List.any_eq_true.mp hd
      · left; simp

/-- In file order, and if being a duplicate is transitive, exactly the first of each group is kept. -/
theorem dedupe_range (htrans : ∀ a b c, dup a b = true → dup b c = true → dup a c = true) (n : Nat) :
    dedupe dup (List.range n) [] = (List.range n).filter (fun i => decide (∀ j < i, dup j i = false)) := by
  induction n with
  | zero => rfl
  | succ n ih =>
    rw [List.range_succ, dedupe_concat, List.filter_append]
    by_cases h : (dedupe dup (List.range n) []).any (fun i => dup i n) = true
    · rw [if_pos h, ih]
      obtain ⟨i, hi, hd⟩ := List.any_eq_true.mp h
      have hin : i < n := List.mem_range.mp ((dedupe_sublist _).subset hi)
      have : ¬ ∀ j < n, dup j n = false := fun hc => by rw [hc i hin] at hd; simp at hd
      simp [this]
    · rw [if_neg h, ih]
      have : ∀ j < n, dup j n = false := by
        intro j hj
        by_contra hc
        have hc' : dup j n = true := by simpa using hc
        apply h
        rw [List.any_eq_true]
        rcases dedupe_covers (dup := dup) (List.range n) (List.mem_range.mpr hj) with h1 | ⟨i, hi, hd⟩
        · exact ⟨j, h1, hc'⟩
        · exact ⟨i, hi, htrans _ _ _ hd hc'⟩
      have e : ([n].filter fun i => decide (∀ j < i, dup j i = false)) = [n] := by
        rw [List.filter_eq_self]; intro a ha; rw [List.mem_singleton] at ha; subst ha; simpa using this
      rw [e]

/-- Nothing is removed from a list without duplicates. -/
theorem dedupe_id (l : List Nat) (h : l.Pairwise (fun a b => dup a b = false)) : dedupe dup l [] = l := by
  induction l using List.reverseRecOn with
  | nil => rfl
  | append_singleton l x ih =>
    rw [List.pairwise_append] at h
    obtain ⟨h1, _, h3⟩ := h
    rw [dedupe_concat, ih h1, if_neg]
    intro hc
    obtain ⟨i, hi, hd⟩ := List.any_eq_true.mp hc
    rw [h3 i hi x (by simp)] at hd
    simp at hd

theorem order_perm {sh : Shuffle} (h : sh.Lawful) (seed n : Nat) : (order sh seed n).Perm (List.range n) := by
  unfold order; split
  · exact h _ _
  · exact List.Perm.refl _

theorem order_zero (sh : Shuffle) (n : Nat) : order sh 0 n = List.range n := rfl

/-- The loop of `get_subsample_indexes`. -/
theorem foldlM_voxel (b : Build) (n : Nat) (v : List VoxelIndex) (hlen : v.length = n) (l : List Nat)
    (hl : ∀ j ∈ l, j < n) (a : Acc VoxelIndex)
    (hinv : ∀ x, x ∈ a.seen ↔ ∃ i ∈ a.kept, v[i]? = some x) :
    ∃ a', l.foldlM (stepVoxel b n v) a = .ok a'
      ∧ a'.kept = dedupe (fun i j => decide (v[i]? = v[j]?)) l a.kept := by
  induction l generalizing a with
  | nil => exact ⟨a, rfl, rfl⟩
  | cons j l ih =>
    have hj := hl j (by simp)
    have hjv : j < v.length := by omega
    have hg : v[j]? = some v[j] := List.getElem?_eq_getElem hjv
    have hstep : stepVoxel b n v a j =
        .ok (if v[j] ∈ a.seen then a else { seen := v[j] :: a.seen, kept := a.kept ++ [j] }) := by
      unfold stepVoxel Voxel.at'
      simp only [hj, hjv, decide_true, cassert_true, Res.ok_bind, hg]
      split <;> rfl
    rw [List.foldlM_cons, hstep, Res.ok_bind]
    have hany : (a.kept.any (fun i => decide (v[i]? = v[j]?))) = decide (v[j] ∈ a.seen) := by
      rw [Bool.eq_iff_iff, List.any_eq_true, decide_eq_true_iff, hinv, hg]
      simp
    have hd : dedupe (fun i j => decide (v[i]? = v[j]?)) (j :: l) a.kept
        = dedupe (fun i j => decide (v[i]? = v[j]?)) l
          (if v[j] ∈ a.seen then a.kept else a.kept ++ [j]) := by
      unfold dedupe
      rw [List.foldl_cons, hany]
      congr 1
      by_cases h : v[j] ∈ a.seen <;> simp [h]
    rw [hd]
    by_cases h : v[j] ∈ a.seen
    · simp only [h, if_true]
      exact ih (fun x hx => hl x (by simp [hx])) a hinv
    · simp only [h, if_false]
      apply ih (fun x hx => hl x (by simp [hx]))
      intro x
      simp only [List.mem_cons, List.mem_append]
      constructor
      · rintro (rfl | hx)
        · exact ⟨j, Or.inr (by simp), hg⟩
        · obtain ⟨i, hi, e⟩ := (hinv x).mp hx
          exact ⟨i, Or.inl hi, e⟩
      · rintro ⟨i, hi | hi, e⟩
        · exact Or.inr ((hinv x).mpr ⟨i, hi, e⟩)
        · simp at hi
          subst hi
          rw [hg] at e
          exact Or.inl (Option.some.inj e).symm

variable {α : Type} [HasXYZ α]

/-- `operator==` on the locations of two records of a cloud. -/
def sameLoc (ps : List α) (i j : Nat) : Bool :=
  match ps[i]?, ps[j]? with
  | some p, some q => Pt.beq (pt p) (pt q)
  | _, _ => false

/-- The loop of `get_unique_xyz_indexes`. -/
theorem foldlM_xyz (b : Build) (ps : List α) (l : List Nat)
    (hl : ∀ j ∈ l, j < ps.length) (a : Acc (Pt F64))
    (hinv : ∀ q : Pt F64, a.seen.any (fun s => Pt.beq s q) =
      a.kept.any (fun i => match ps[i]? with | some p => Pt.beq (pt p) q | none => false)) :
    ∃ a', l.foldlM (stepXyz b ps) a = .ok a' ∧ a'.kept = dedupe (sameLoc ps) l a.kept := by
  induction l generalizing a with
  | nil => exact ⟨a, rfl, rfl⟩
  | cons j l ih =>
    have hj := hl j (by simp)
    have hg : ps[j]? = some ps[j] := List.getElem?_eq_getElem hj
    have hstep : stepXyz b ps a j =
        .ok (if a.seen.any (fun s => Pt.beq s (pt ps[j])) then a
          else { seen := pt ps[j] :: a.seen, kept := a.kept ++ [j] }) := by
      unfold stepXyz Voxel.at'
      simp only [hj, decide_true, cassert_true, Res.ok_bind, hg]
      split <;> rfl
    rw [List.foldlM_cons, hstep, Res.ok_bind]
    have hany : a.kept.any (fun i => sameLoc ps i j) = a.seen.any (fun s => Pt.beq s (pt ps[j])) := by
      rw [hinv]
      apply congrArg (fun f => a.kept.any f)
      funext i
      unfold sameLoc
      rw [hg]
      cases ps[i]? <;> rfl
    have hd : dedupe (sameLoc ps) (j :: l) a.kept
        = dedupe (sameLoc ps) l
          (if a.seen.any (fun s => Pt.beq s (pt ps[j])) then a.kept else a.kept ++ [j]) := by
      conv_lhs => unfold dedupe
      rw [List.foldl_cons, hany]
      rfl
    rw [hd]
    by_cases h : a.seen.any (fun s => Pt.beq s (pt ps[j])) = true
    · simp only [h, if_true]
      exact ih (fun x hx => hl x (by simp [hx])) a hinv
    · simp only [h]
      apply ih (fun x hx => hl x (by simp [hx]))
      intro q
      simp [hinv q, hg, Bool.or_comm]

end Spoc.Subsampling
