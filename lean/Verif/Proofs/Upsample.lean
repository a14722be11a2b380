import Verif.Proofs.ToolPoints
import Verif.Proofs.RadiusSearch

/-!
# Lemmas about the transfer of classes
-/

namespace Spoc.Tool

open Spec

theorem uniform_set {ps : List PointRecord} (hu : Uniform ps) {j : Nat} {q : PointRecord}
    (hq : ∀ p ∈ ps, q.extra.length = p.extra.length) : Uniform (ps.set j q) := by
  intro a ha b hb
  have key : ∀ a ∈ ps.set j q, (∃ p ∈ ps, a.extra.length = p.extra.length) ∨ a = q := by
    intro a ha
    rcases List.mem_or_eq_of_mem_set ha with h | h
    · exact Or.inl ⟨a, h, rfl⟩
    · exact Or.inr h
  rcases key a ha with ⟨p, hp, e⟩ | e <;> rcases key b hb with ⟨p', hp', e'⟩ | e'
  · rw [e, e', hu p hp p' hp']
  · rw [e, e', hq p hp]
  · rw [e, e', hq p' hp']
  · rw [e, e']

theorem extraFields_eq {f : SpocFile} (hu : Uniform f.prs) {p : PointRecord} (hp : p ∈ f.prs) : f.extraFields = p.extra.length := by
  unfold SpocFile.extraFields
  cases h : f.prs with
  | nil => rw [h] at hp; simp at hp
  | cons q ps => exact hu q (by rw [h]; simp) p hp

/-- The inner loop sets the class of the given points. -/
theorem assignClass_ok (b : Build) (c : UInt32) (js : List Nat) (h : SpocFile) (hu : Uniform h.prs) (hj : ∀ j ∈ js, j < h.prs.length) :
    ∃ qs, assignClass b c js h = .ok { h with prs := qs } ∧ Uniform qs ∧ qs.length = h.prs.length
      ∧ ∀ k : Nat, qs[k]? = (h.prs[k]?).map (fun p => if k ∈ js then { p with c := c } else p) := by
  induction js generalizing h with
  | nil => exact ⟨h.prs, rfl, hu, rfl, fun k => by simp⟩
  | cons j js ih =>
    have hlt := hj j (by simp)
    obtain ⟨r, hr⟩ : ∃ r, h.prs[j]? = some r := ⟨h.prs[j], List.getElem?_eq_getElem hlt⟩
    have hmem := List.mem_of_getElem? hr
    have hx : r.extra.length = h.extraFields := (extraFields_eq hu hmem).symm
    have hu2 : Uniform (h.prs.set j { r with c := c }) := uniform_set hu (fun p hp => hu r hmem p hp)
    obtain ⟨qs, h1, h2, h3, h4⟩ := ih { h with prs := h.prs.set j { r with c := c } } hu2 (fun i hi => by
      rw [List.length_set]; exact hj i (by simp [hi]))
    refine ⟨qs, ?_, h2, by rw [h3, List.length_set], ?_⟩
    · unfold assignClass SpocFile.getPointRecord SpocFile.setPointRecord
      simp only [decide_eq_true hlt, cassert_true, require_true, Res.ok_bind, hr]
      rw [if_neg (by simpa using hx), if_pos hlt, Res.ok_bind]
      exact h1
    · intro k
      rw [h4 k, List.getElem?_set]
      by_cases hk : j = k
      · subst hk
        rw [if_pos rfl, if_pos hlt, hr]
        simp
      · have : k ≠ j := fun e => hk e.symm
        simp [hk, this]

/-- The class of the last entry for a voxel. -/
def lastOf : List (VoxelIndex × UInt32) → VoxelIndex → Option UInt32
  | [], _ => none
  | (w, c) :: t, v => (lastOf t v).or (if w = v then some c else none)

theorem lastOf_some {l : List (VoxelIndex × UInt32)} {v : VoxelIndex} {c : UInt32} (h : lastOf l v = some c) :
    ∃ i : Nat, l[i]? = some (v, c) ∧ ∀ i' : Nat, i < i' → ∀ c', l[i']? ≠ some (v, c') := by
  induction l with
  | nil => simp [lastOf] at h
  | cons a t ih =>
    obtain ⟨w, d⟩ := a
    unfold lastOf at h
    cases ht : lastOf t v with
    | some e =>
      rw [ht] at h
      obtain rfl : e = c := by simpa using h
      obtain ⟨i, h1, h2⟩ := ih ht
      refine ⟨i + 1, by simpa using h1, fun i' hi' c' => ?_⟩
      obtain ⟨k, rfl⟩ : ∃ k, i' = k + 1 := ⟨i' - 1, by omega⟩
      simpa using h2 k (by omega) c'
    | none =>
      rw [ht] at h
      by_cases hw : w = v
      · subst hw
        obtain rfl : d = c := by simpa using h
        refine ⟨0, rfl, fun i' hi' c' hc' => ?_⟩
        obtain ⟨k, rfl⟩ : ∃ k, i' = k + 1 := ⟨i' - 1, by omega⟩
        have hc' : t[k]? = some (w, c') := by simpa using hc'
        have : ∀ (t : List (VoxelIndex × UInt32)) (k : Nat), t[k]? = some (w, c') → lastOf t w ≠ none := by
          intro t
          induction t with
          | nil => intro k hk; simp at hk
          | cons a t ih2 =>
            intro k hk
            obtain ⟨u, e⟩ := a
            unfold lastOf
            cases k with
            | zero =>
              simp only [List.length_cons, Nat.zero_lt_succ, List.getElem?_cons_zero, Option.some.injEq, Prod.mk.injEq] at hk
              rw [if_pos hk.1]
              simp
            | succ k =>
              have := ih2 k (by simpa using hk)
              simp [this]
        exact this t k hc' ht
      · simp [hw] at h

theorem lastOf_none {l : List (VoxelIndex × UInt32)} {v : VoxelIndex} (h : lastOf l v = none) : ∀ (i : Nat) (c : UInt32), l[i]? ≠ some (v, c) := by
  induction l with
  | nil => simp
  | cons a t ih =>
    obtain ⟨w, d⟩ := a
    unfold lastOf at h
    rw [Option.or_eq_none_iff] at h
    intro i c hc
    cases i with
    | zero =>
      simp only [List.getElem?_cons_zero, Option.some.injEq, Prod.mk.injEq] at hc
      rw [if_pos hc.1] at h
      simp at h
    | succ i => exact ih h.1 i c (by simpa using hc)

theorem mem_members {vs : List VoxelIndex} {v : VoxelIndex} {j : Nat} : j ∈ Voxel.members vs v ↔ vs[j]? = some v := by
  unfold Voxel.members
  simp only [List.mem_filter, List.mem_range, decide_eq_true_eq]
  constructor
  · exact fun h => h.2
  · exact fun h => ⟨(List.getElem?_eq_some_iff.mp h).1, h⟩

/-- The outer loop. -/
theorem upsampleLoop_ok (b : Build) (l : SpocFile) (vh vl : List VoxelIndex) (i : Nat) (h : SpocFile) (n : Nat) (hu : Uniform h.prs)
    (hlen : vh.length = h.prs.length) (hl : l.prs.length = i + vl.length) :
    ∃ qs m, upsampleLoop b l (Voxel.getMap vh) vl i h n = .ok ({ h with prs := qs }, m) ∧ qs.length = h.prs.length
      ∧ ∀ (k : Nat) v, vh[k]? = some v →
        qs[k]? = (h.prs[k]?).map (fun p => { p with c := (lastOf (vl.zip ((l.prs.drop i).map (·.c))) v).getD p.c }) := by
  induction vl generalizing i h n with
  | nil =>
    refine ⟨h.prs, n, rfl, rfl, fun k v _ => ?_⟩
    simp [lastOf]
  | cons w vl ih =>
    have hi : i < l.prs.length := by rw [hl]; simp
    obtain ⟨p, hp⟩ : ∃ p, l.prs[i]? = some p := ⟨l.prs[i], List.getElem?_eq_getElem hi⟩
    have hdrop : l.prs.drop i = p :: l.prs.drop (i + 1) := by
      rw [List.drop_eq_getElem_cons hi]
      congr 1
      exact (List.getElem?_eq_some_iff.mp hp).2
    unfold upsampleLoop
    rw [Voxel.find_getMap]
    rw [hdrop]
    simp only [List.map_cons, List.zip_cons_cons]
    by_cases hm : Voxel.members vh w = []
    · simp only [hm, if_true]
      obtain ⟨qs, m, h1, h2, h3⟩ := ih (i + 1) h n hu hlen (by rw [hl]; simp; omega)
      refine ⟨qs, m, h1, h2, fun k v hv => ?_⟩
      rw [h3 k v hv]
      have hwv : w ≠ v := by
        rintro rfl
        have : k ∈ Voxel.members vh w := mem_members.mpr hv
        rw [hm] at this
        simp at this
      simp [lastOf, hwv]
    · simp only [hm, if_false]
      have he : (!(Voxel.members vh w).isEmpty) = true := by simpa using hm
      obtain ⟨qs, a1, a2, a3, a4⟩ := assignClass_ok b p.c (Voxel.members vh w) h hu (fun j hj => by
        rw [← hlen]; exact (List.getElem?_eq_some_iff.mp (mem_members.mp hj)).1)
      obtain ⟨rs, m, h1, h2, h3⟩ := ih (i + 1) { h with prs := qs } (n + (Voxel.members vh w).length) a2 (by rw [hlen, a3])
        (by rw [hl]; simp; omega)
      refine ⟨rs, m, ?_, by rw [h2, a3], fun k v hv => ?_⟩
      · unfold SpocFile.getPointRecord
        simp only [he, cassert_true, Res.ok_bind, decide_eq_true hi, hp, a1]
        exact h1
      · rw [h3 k v hv, a4 k]
        cases hk : h.prs[k]? with
        | none => rfl
        | some q =>
          simp only [Option.map_some, Option.some.injEq, mem_members, hv]
          rw [lastOf.eq_2]
          generalize lastOf (vl.zip ((l.prs.drop (i + 1)).map (·.c))) v = o
          by_cases hwv : w = v
          · subst hwv
            cases o <;> simp
          · have : v ≠ w := fun e => hwv e.symm
            cases o <;> simp [hwv, this]

end Spoc.Tool
