import Verif.Proofs.WriteSafe
import Verif.Props.File

/-!
# C84: every consistent file can be written
-/

namespace Spoc

/-- a normal return -/
def Out.Fine {α : Type} (x : Out α) : Prop := ∃ a, x.res = .ok a

theorem Out.Fine.bind {α β : Type} {x : Out α} {f : α → Out β} (hx : x.Fine) (hf : ∀ a, x.res = .ok a → (f a).Fine) : (x >>= f).Fine := by
  obtain ⟨bs, r⟩ := x
  obtain ⟨a, h⟩ := hx
  dsimp only at h
  subst h
  exact hf a rfl

namespace Props

open Spec Io

theorem compressField_fine (z : Zlib) (t : Elem) (x : List Nat) : ∃ c, compressField z t x = .ok c := by
  unfold compressField
  split
  · exact ⟨_, rfl⟩
  · unfold Compression.compress
    exact ⟨_, Compression.drain_eq (by decide) _ _ _ (Nat.lt_succ_self _)⟩

theorem mapM_fine {α β : Type} {f : α → Res β} {l : List α} (h : ∀ a ∈ l, ∃ b, f a = .ok b) : ∃ bs, l.mapM f = .ok bs := by
  induction l with
  | nil => exact ⟨[], rfl⟩
  | cons a l ih =>
    obtain ⟨b, hb⟩ := h a (by simp)
    obtain ⟨bs, hbs⟩ := ih fun x hx => h x (by simp [hx])
    exact ⟨b :: bs, by rw [List.mapM_cons, hb, hbs]; rfl⟩

theorem writeFields_fine (l : List Bytes) : (writeFields l).Fine := by
  induction l with
  | nil => exact ⟨(), rfl⟩
  | cons x l ih =>
    refine Out.Fine.bind ?_ fun _ _ => ih
    unfold writeCompressed
    split
    · exact ⟨(), rfl⟩
    · exact ⟨(), rfl⟩

theorem writeRecords_fine (l : List PointRecord) : (writeRecords l).Fine := by
  induction l with
  | nil => exact ⟨(), rfl⟩
  | cons q l ih =>
    refine Out.Fine.bind ?_ fun _ _ => ih
    rw [PointRecord.write_eq]
    exact ⟨(), rfl⟩

/-- **C84**: writing a file whose records agree in the number of extra fields succeeds exactly if its text fits into the header; otherwise
an exception is thrown and nothing has been written. -/
theorem c84_write_succeeds (b : Build) (z : Zlib) (f : SpocFile) (hu : Uniform f.prs) :
    (f.wkt.length ≤ 65535 → (writeFile b z f).res = .ok ()) ∧
    (65535 < f.wkt.length → (∃ e, (writeFile b z f).res = .throw e) ∧ (writeFile b z f).bytes = []) := by
  have hv := (uniform_iff f).mp hu
  constructor
  · intro hw
    suffices h : (writeFile b z f).Fine from h.choose_spec
    cases hc : f.compressed with
    | false => rw [writeFile_uncompressed_eq b z hc hv hw]; exact ⟨(), rfl⟩
    | true =>
      have hrec := (isValid_iff f).mp hv
      unfold writeFile
      rw [getHeader_eq hw, Out.lift_ok_bind, if_pos (by simp [hdr, hc])]
      unfold writeFileCompressed
      rw [hv, require_true, Out.lift_ok_bind, if_neg (by simp [hc])]
      have hf : ∀ {α : Type} {r : Res α}, (∃ a, r = .ok a) → (Out.lift r).Fine := fun h => h
      refine Out.Fine.bind (hf (mapM_fine fun j hj => ⟨_, extraColumn_eq hrec (List.mem_range.mp hj)⟩)) fun e _ => ?_
      iterate 9 refine Out.Fine.bind (hf (compressField_fine _ _ _)) fun _ _ => ?_
      refine Out.Fine.bind (hf (mapM_fine fun x _ => compressField_fine _ _ x)) fun _ _ => ?_
      rw [getHeader_eq hw, Out.lift_ok_bind, hdr_write]
      refine Out.Fine.bind ⟨(), rfl⟩ fun _ _ => ?_
      exact (writeFields_fine _).bind fun _ _ => writeFields_fine _
  · intro hw
    unfold writeFile
    rw [getHeader_throw hw, Out.lift_throw_bind]
    exact ⟨⟨_, rfl⟩, rfl⟩

example : Uniform exampleFile.prs ∧ exampleFile.wkt.length ≤ 65535 := ⟨exampleFile_writable.uniform, by decide⟩

/-- **C84**: a file whose records disagree is refused with an exception in a debug build, whatever its text, and nothing has been written. -/
theorem c84_inconsistent_refused (z : Zlib) (f : SpocFile) (hu : ¬ Uniform f.prs) :
    (∃ e, (writeFile .debug z f).res = .throw e) ∧ (writeFile .debug z f).bytes = [] := by
  have hv : f.isValid = false := by
    cases h : f.isValid with
    | false => rfl
    | true => exact absurd ((uniform_iff f).mpr h) hu
  unfold writeFile
  by_cases hw : 65535 < f.wkt.length
  · rw [getHeader_throw hw, Out.lift_throw_bind]
    exact ⟨⟨_, rfl⟩, rfl⟩
  · rw [getHeader_eq (by omega), Out.lift_ok_bind]
    have hr : require .debug f.isValid = .throw "Contract failed" := by rw [hv]; rfl
    split
    · unfold writeFileCompressed
      rw [hr, Out.lift_throw_bind]
      exact ⟨⟨_, rfl⟩, rfl⟩
    · unfold writeFileUncompressed
      rw [hr, Out.lift_throw_bind]
      exact ⟨⟨_, rfl⟩, rfl⟩

example : ¬ Uniform [({ extra := [1] } : PointRecord), {}] := by unfold Uniform; decide

end Props

end Spoc
