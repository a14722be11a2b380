import Verif.Proofs.IoCompressed
import Verif.Props.Io

/-!
# Writing a consistent file returns or throws
-/

namespace Spoc

/-- a value or an exception -/
def Res.Tame {α : Type} (r : Res α) : Prop := (∃ a, r = .ok a) ∨ ∃ e, r = .throw e

/-- the same for output -/
def Out.Tame {α : Type} (x : Out α) : Prop := x.res.Tame

theorem Res.Tame.of_ok {α : Type} {a : α} : (Res.ok a).Tame := .inl ⟨a, rfl⟩
theorem Res.Tame.of_throw {α : Type} {e : String} : (Res.throw e : Res α).Tame := .inr ⟨e, rfl⟩

theorem Res.Tame.bind {α β : Type} {x : Res α} {f : α → Res β} (hx : x.Tame) (hf : ∀ a, (f a).Tame) : (x >>= f).Tame := by
  rcases hx with ⟨a, rfl⟩ | ⟨e, rfl⟩
  · exact hf a
  · exact .of_throw

theorem Res.Tame.mapM {α β : Type} {f : α → Res β} (hf : ∀ a, (f a).Tame) (l : List α) : (l.mapM f).Tame := by
  induction l with
  | nil => exact .of_ok
  | cons a l ih =>
    rw [List.mapM_cons]
    exact (hf a).bind fun _ => ih.bind fun _ => .of_ok

theorem Out.Tame.bind {α β : Type} {x : Out α} {f : α → Out β} (hx : x.Tame) (hf : ∀ a, (f a).Tame) : (x >>= f).Tame := by
  obtain ⟨bs, r⟩ := x
  rcases hx with ⟨a, h⟩ | ⟨e, h⟩
  · dsimp only at h
    subst h
    exact hf a
  · dsimp only at h
    subst h
    exact Res.Tame.of_throw

theorem Out.Tame.lift {α : Type} {r : Res α} (h : r.Tame) : (Out.lift r).Tame := h
theorem Out.Tame.emit {bs : Bytes} : (Out.emit bs).Tame := Res.Tame.of_ok

namespace Io

theorem compressField_tame (z : Zlib) (t : Elem) (x : List Nat) : (compressField z t x).Tame := by
  unfold compressField
  split
  · exact .of_ok
  · unfold Compression.compress
    rw [Compression.drain_eq (by decide) _ _ _ (Nat.lt_succ_self _)]
    exact .of_ok

theorem writeCompressed_tame (x : Bytes) : (writeCompressed x).Tame := by
  unfold writeCompressed
  split
  · exact .emit
  · exact Out.Tame.emit.bind fun _ => .emit

theorem writeFields_tame (l : List Bytes) : (writeFields l).Tame := by
  induction l with
  | nil => exact Res.Tame.of_ok
  | cons x l ih => exact (writeCompressed_tame x).bind fun _ => ih

theorem header_tame (h : Header) : h.write.Tame := by
  unfold Header.write
  split
  · exact Out.Tame.lift .of_throw
  · exact Out.Tame.emit

theorem getHeader_tame (f : SpocFile) : f.getHeader.Tame := by
  unfold SpocFile.getHeader Header.new
  split
  · exact .of_throw
  · exact .of_ok

theorem require_tame (b : Build) (c : Bool) : (require b c).Tame := by
  unfold require
  cases b with
  | debug =>
    dsimp only
    split
    · exact .of_ok
    · exact .of_throw
  | release => exact .of_ok

theorem extraColumns_tame {f : SpocFile} (h : f.isValid = true) : ((List.range f.extraFields).mapM (extraColumn f.prs)).Tame := by
  have h1 := (isValid_iff f).mp h
  have h2 : ∀ l : List Nat, (∀ j ∈ l, j < f.extraFields) → (l.mapM (extraColumn f.prs)).Tame := by
    intro l
    induction l with
    | nil => exact fun _ => .of_ok
    | cons j l ih =>
      intro hl
      rw [List.mapM_cons, extraColumn_eq h1 (hl j (by simp)), Res.ok_bind]
      exact (ih fun k hk => hl k (by simp [hk])).bind fun _ => .of_ok
  exact h2 _ fun j hj => List.mem_range.mp hj

theorem writeFile_tame (b : Build) (z : Zlib) {f : SpocFile} (h : f.isValid = true) : (writeFile b z f).Tame := by
  unfold writeFile
  refine (Out.Tame.lift (getHeader_tame f)).bind fun hd => ?_
  split
  · unfold writeFileCompressed
    refine (Out.Tame.lift (require_tame _ _)).bind fun _ => ?_
    split
    · exact Out.Tame.lift .of_throw
    · refine (Out.Tame.lift (extraColumns_tame h)).bind fun _ => ?_
      iterate 9 refine (Out.Tame.lift (compressField_tame _ _ _)).bind fun _ => ?_
      refine (Out.Tame.lift (Res.Tame.mapM (compressField_tame _ _) _)).bind fun _ => ?_
      refine (Out.Tame.lift (getHeader_tame f)).bind fun _ => ?_
      refine (header_tame _).bind fun _ => ?_
      exact (writeFields_tame _).bind fun _ => writeFields_tame _
  · unfold writeFileUncompressed
    refine (Out.Tame.lift (require_tame _ _)).bind fun _ => ?_
    split
    · exact Out.Tame.lift .of_throw
    · refine (Out.Tame.lift (getHeader_tame f)).bind fun _ => ?_
      refine (header_tame _).bind fun _ => ?_
      generalize f.prs = l
      induction l with
      | nil => exact Res.Tame.of_ok
      | cons q l ih =>
        refine Out.Tame.bind ?_ fun _ => ih
        rw [PointRecord.write_eq]
        exact Res.Tame.of_ok

end Io

end Spoc
