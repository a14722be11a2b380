import Verif.Props.Diff

/-!
# C55: comparing files is transitive, except for single fields
-/

namespace Spoc.Props

open Spec Diff

theorem sameRecord_trans {a b c : PointRecord} (h1 : SameRecord a b) (h2 : SameRecord b c) : SameRecord a c := by
  obtain ⟨a1, -, ⟨a3, a4, a5⟩, a6, a7, a8, a9, a10, a11, a12⟩ := h1
  obtain ⟨-, b2, ⟨b3, b4, b5⟩, b6, b7, b8, b9, b10, b11, b12⟩ := h2
  exact ⟨a1, b2, ⟨a3.trans b3, a4.trans b4, a5.trans b5⟩, a6.trans b6, a7.trans b7, a8.trans b8, a9.trans b9, a10.trans b10,
    a11.trans b11, a12.trans b12⟩

theorem sameData_trans {f g h : SpocFile} (h1 : SameData f g) (h2 : SameData g h) : SameData f h := by
  unfold SameData at *
  generalize f.prs = xs at h1
  generalize g.prs = ys at h1 h2
  generalize h.prs = zs at h2
  induction h1 generalizing zs with
  | nil => cases h2; exact .nil
  | cons hab _ ih =>
    cases h2 with
    | cons hbc hr => exact .cons (sameRecord_trans hab hbc) (ih _ hr)

theorem sameHeader_trans {f g h : SpocFile} (h1 : SameHeader f g) (h2 : SameHeader g h) : SameHeader f h :=
  ⟨h1.1.trans h2.1, h1.2.1.trans h2.2.1, h1.2.2.1.trans h2.2.2.1, h1.2.2.2.1.trans h2.2.2.2.1, h1.2.2.2.2.1.trans h2.2.2.2.2.1,
    h1.2.2.2.2.2.trans h2.2.2.2.2.2⟩

/-- **C55**: if the first file is the same as the second and the second the same as the third, then the first is the same as the third,
whether headers, data or both are compared. -/
theorem c55_transitive (b : Build) (f g h : SpocFile) (hf : Describable f) (hg : Describable g) (hh : Describable h)
    (headerOnly dataOnly : Bool) (h1 : diff b f g headerOnly dataOnly [] false = .ok 0)
    (h2 : diff b g h headerOnly dataOnly [] false = .ok 0) : diff b f h headerOnly dataOnly [] false = .ok 0 := by
  have fin : ∀ {same : Prop} {code : Int}, verdict false same code → (same ↔ code = 0) := by
    intro same code hv
    simp only [verdict, Bool.false_eq_true, if_false] at hv
    rcases hv with ⟨h, e⟩ | ⟨h, e⟩
    · exact iff_of_true h e
    · exact iff_of_false h (by rw [e]; decide)
  have key : ∀ R : SpocFile → SpocFile → Prop, (∀ {f g h}, R f g → R g h → R f h) →
      (∀ f g, Describable f → Describable g → ∃ code, diff b f g headerOnly dataOnly [] false = .ok code ∧ verdict false (R f g) code) →
      diff b f h headerOnly dataOnly [] false = .ok 0 := by
    intro R ht hR
    obtain ⟨c1, e1, v1⟩ := hR f g hf hg
    obtain ⟨c2, e2, v2⟩ := hR g h hg hh
    obtain ⟨c3, e3, v3⟩ := hR f h hf hh
    rw [h1] at e1
    rw [h2] at e2
    injection e1 with e1
    injection e2 with e2
    rw [e3, (fin v3).mp (ht ((fin v1).mpr e1.symm) ((fin v2).mpr e2.symm))]
  cases dataOnly with
  | true => exact key SameData sameData_trans (fun f g hf hg => c54_data_only b f g hf.uniform hg.uniform headerOnly false)
  | false =>
    cases headerOnly with
    | true => exact key SameHeader sameHeader_trans (fun f g hf hg => c54_header_only b f g hf hg false)
    | false =>
      exact key (fun f g => SameHeader f g ∧ SameData f g) (fun h1 h2 => ⟨sameHeader_trans h1.1 h2.1, sameData_trans h1.2 h2.2⟩)
        (fun f g hf hg => c54_full b f g hf hg false)

/-- A point with an extra field. -/
def withExtra (e : List UInt64) : SpocFile := { SpocFile.empty with prs := [{ extra := e }] }

theorem withExtra_writable {e : List UInt64} (h : e.length ≤ 255) : Writable (withExtra e) where
  major := rfl
  minor := rfl
  wkt := by simp [withExtra, SpocFile.empty]
  uniform := by
    intro p hp q hq
    simp only [withExtra, List.mem_singleton] at hp hq
    rw [hp, hq]
  extra := by
    intro q hq
    simp only [withExtra, List.mem_singleton] at hq
    rw [hq]; exact h
  count := by simp [withExtra]

/-- **C55, negation**: the comparison of an extra field is not transitive, because a file that does not have the field is taken to be the
same as every other. -/
theorem c55_fields_not_transitive : ∃ f g h : SpocFile, Writable f ∧ Writable g ∧ Writable h ∧ ∀ b : Build,
    diff b f g false false ['0'] false = .ok 0 ∧ diff b g h false false ['0'] false = .ok 0
      ∧ diff b f h false false ['0'] false = .ok (-1) :=
  ⟨withExtra [1], withExtra [], withExtra [2], withExtra_writable (by decide), withExtra_writable (by decide), withExtra_writable (by decide),
    fun b => by cases b <;> decide +kernel⟩

example : ∀ b : Build, ∃ f g h : SpocFile, Describable f ∧ Describable g ∧ Describable h ∧ f ≠ g ∧ g ≠ h
    ∧ diff b f g false false [] false = .ok 0 ∧ diff b g h false false [] false = .ok 0 :=
  fun b => ⟨exampleFile, { exampleFile with prs := exampleFile.prs.map (fun q => if q.y = F64.negZero then { q with y := F64.zero } else q) },
    exampleFile, describable_of_writable exampleFile_writable, ⟨by decide, by unfold Uniform; decide +kernel, by decide +kernel, by decide⟩,
    describable_of_writable exampleFile_writable, by decide +kernel, by decide +kernel, by cases b <;> decide +kernel,
    by cases b <;> decide +kernel⟩

end Spoc.Props
