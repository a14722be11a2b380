import Verif.Proofs.NamedMessages
import Verif.Props.EndToEnd

/-!
# C127: an application reads and writes only the files that its command line names
-/

namespace Spoc.Props

open Text Main Spec.Named

/-- **C127**: nothing but the files that the command line names matters.  In two situations in which these are the same, the results are the same: the
standard output, the outcome and the named files afterwards. -/
theorem c127_reads (n : Name) (p : Params) (argv : List Str) (w w' : World) (h : Alike (Concerned n argv) w w') :
    SameOn (Concerned n argv) (n.run p argv w) (n.run p argv w') := by
  cases n
  case compress => exact compress_alike _ _ h
  case decompress => exact decompress_alike _ _ h
  case diff => exact diff_alike _ _ h
  case filter => exact filter_alike _ _ _ h
  case info => exact info_alike _ _ _ h
  case merge => exact merge_alike _ _ h
  case srs => exact srs_alike _ _ h
  case tile => exact tile_alike _ _ h
  case tool => exact tool_alike _ _ h
  case transform => exact transform_alike _ _ h

/-- **C127**: nor do other files matter for the messages. -/
theorem c127_messages (n : Name) (p : Params) (st : Messages.Style) (hu : st.usage ≠ []) (argv : List Str) (w w' : World)
    (h : Alike (Concerned n argv) w w') : Messages.standardError n p st argv w = Messages.standardError n p st argv w' := by
  unfold Messages.standardError
  rw [Messages.messages_alike n p st hu argv w w' h]

/-- **C127**: whether the application succeeds or not, a file that is changed is one that the application may write: the second of two operands, a
tile; for diff, info and merge there is none.  It was writable, or did not exist and could be created, and it exists afterwards with the same
permissions. -/
theorem c127_writes (n : Name) (p : Params) (argv : List Str) (w : World) (fn : Str) (h : (n.run p argv w).fs fn ≠ w.fs fn) :
    MayWrite n argv fn ∧ Replaced w.canCreate w.fs (n.run p argv w).fs fn := by
  revert fn
  change Writes n argv w (n.run p argv w)
  cases n
  case compress => exact compress_writes _ _
  case decompress => exact decompress_writes _ _
  case diff =>
    intro fn h
    refine absurd ?_ h
    simp only [Name.run, diff]
    split
    · split_ifs <;> rfl
    · rfl
  case filter => exact filter_writes _ _ _
  case info => exact fun fn h => absurd rfl h
  case merge => exact fun fn h => absurd rfl h
  case srs => exact srs_writes _ _
  case tile => exact tile_writes _ _
  case tool => exact tool_writes _ _
  case transform => exact transform_writes _ _

/-- **C127**: no file is ever removed, and a file that may not be written never changes. -/
theorem c127_kept (n : Name) (p : Params) (argv : List Str) (w : World) (fn : Str) (x : Tile.File) (hx : w.fs fn = some x) :
    (∃ y, (n.run p argv w).fs fn = some y ∧ y.readable = x.readable ∧ y.writable = x.writable)
      ∧ (x.writable = false → (n.run p argv w).fs fn = some x) := by
  by_cases h : (n.run p argv w).fs fn = w.fs fn
  · rw [h, hx]
    exact ⟨⟨x, rfl, rfl, rfl⟩, fun _ => rfl⟩
  · obtain ⟨-, y, h1, h2⟩ := c127_writes n p argv w fn h
    rw [hx] at h2
    obtain ⟨h3, h4, h5⟩ := h2
    exact ⟨⟨y, h1, h5, by rw [h4, h3]⟩, fun hf => by rw [hf] at h3; cases h3⟩

/-- **C127**: the inputs of an application are not changed unless they are outputs as well. -/
theorem c127_inputs (n : Name) (p : Params) (argv : List Str) (w : World) (fn : Str) (h : ¬MayWrite n argv fn) :
    (n.run p argv w).fs fn = w.fs fn := by
  by_contra hc
  exact h (c127_writes n p argv w fn hc).1

/-- A file that nothing is said about on the command line. -/
def withStranger : World := { exampleDisk with fs := exampleDisk.fs.set ['z'] { content := [1, 2, 3], readable := true, writable := true } }

/-- What compress makes of `a` does not depend on the file `z`, and `z` is not changed. -/
example : SameOn (Concerned .compress [['a'], ['o']]) (Name.compress.run exampleParams [['a'], ['o']] exampleDisk)
      (Name.compress.run exampleParams [['a'], ['o']] withStranger)
    ∧ (Name.compress.run exampleParams [['a'], ['o']] withStranger).fs ['z'] = withStranger.fs ['z']
    ∧ (Name.compress.run exampleParams [['a'], ['o']] exampleDisk).fs ['o'] ≠ exampleDisk.fs ['o'] := by
  have e : Name.compress.table.operands [['a'], ['o']] = [['a'], ['o']] := by decide +kernel
  refine ⟨c127_reads _ _ _ _ _ ⟨rfl, fun fn h => ⟨?_, rfl⟩⟩, c127_inputs _ _ _ _ _ ?_, by decide +kernel⟩
  · have hz : fn ≠ ['z'] := by
      rintro rfl
      rcases h with (h | ⟨h, -⟩) | ⟨i, h⟩
      · rw [e] at h; revert h; decide
      · cases h
      · rw [e] at h; revert h; simp
    simp [withStranger, Tile.FS.set, hz]
  · rintro ⟨i, h⟩
    rw [e] at h
    revert h
    simp

/-! ## C128: independent runs can be done in any order -/

/-- A run: an application, what it takes as parameters, and a command line. -/
abbrev Task := Name × Params × List Str

/-- Neither of two runs writes a file that concerns the other one. -/
def Unrelated (j k : Task) : Prop :=
  (∀ fn, MayWrite j.1 j.2.2 fn → ¬Concerned k.1 k.2.2 fn) ∧ ∀ fn, MayWrite k.1 k.2.2 fn → ¬Concerned j.1 j.2.2 fn

/-- What a run gives in a world. -/
def Task.result (j : Task) (w : World) : Result := j.1.run j.2.1 j.2.2 w

/-- The world after a run. -/
def Task.after (j : Task) (w : World) : World := Props.after j.1 j.2.1 j.2.2 w

/-- The world after several runs, one after the other. -/
def afterTasks (js : List Task) (w : World) : World := js.foldl (fun w j => j.after w) w

theorem Unrelated.symm {j k : Task} (h : Unrelated j k) : Unrelated k j := ⟨h.2, h.1⟩

/-- For a run, a world after an independent run is like the one before. -/
theorem alike_after {j k : Task} (h : Unrelated j k) (w : World) : Alike (Concerned k.1 k.2.2) (j.after w) w := by
  refine ⟨rfl, fun fn hc => ⟨?_, rfl⟩⟩
  by_contra hn
  exact h.1 fn (c127_writes j.1 j.2.1 j.2.2 w fn hn).1 hc

/-- **C128**: of two independent runs each gives what it gives without the other one. -/
theorem c128_undisturbed {j k : Task} (h : Unrelated j k) (w : World) :
    (k.result (j.after w)).out = (k.result w).out ∧ (k.result (j.after w)).res = (k.result w).res :=
  let r := c127_reads k.1 k.2.1 k.2.2 _ _ (alike_after h w)
  ⟨r.1, r.2.1⟩

theorem after_fs_written {j k : Task} (h : Unrelated j k) (w : World) (fn : Str) (hm : MayWrite k.1 k.2.2 fn) :
    (k.after (j.after w)).fs fn = (k.after w).fs fn :=
  (c127_reads k.1 k.2.1 k.2.2 _ _ (alike_after h w)).2.2 fn (.inr hm)

theorem after_fs_kept {j : Task} (w : World) (fn : Str) (hm : ¬MayWrite j.1 j.2.2 fn) : (j.after w).fs fn = w.fs fn :=
  c127_inputs j.1 j.2.1 j.2.2 w fn hm

/-- **C128**: two independent runs leave the same files behind in both orders. -/
theorem c128_two {j k : Task} (h : Unrelated j k) (w : World) : k.after (j.after w) = j.after (k.after w) := by
  have key : (k.after (j.after w)).fs = (j.after (k.after w)).fs := by
    funext fn
    by_cases hk : MayWrite k.1 k.2.2 fn
    · have hj : ¬MayWrite j.1 j.2.2 fn := fun hj => h.2 fn hk (.inr hj)
      rw [after_fs_written h w fn hk, after_fs_kept (k.after w) fn hj]
    · rw [after_fs_kept (j.after w) fn hk]
      by_cases hj : MayWrite j.1 j.2.2 fn
      · rw [after_fs_written h.symm w fn hj]
      · rw [after_fs_kept w fn hj, after_fs_kept (k.after w) fn hj, after_fs_kept w fn hk]
  show ({ w with fs := _ } : World) = { w with fs := _ }
  exact congrArg (fun fs => ({ w with fs := fs } : World)) key

/-- **C128**: runs that are pairwise independent leave the same files behind in every order. -/
theorem c128_any_order {js ks : List Task} (hp : js.Perm ks) (hi : js.Pairwise Unrelated) (w : World) : afterTasks js w = afterTasks ks w := by
  induction hp generalizing w with
  | nil => rfl
  | cons j _ ih => exact ih (List.pairwise_cons.mp hi).2 (j.after w)
  | swap j k l =>
    have h : Unrelated k j := (List.pairwise_cons.mp hi).1 j (by simp)
    show afterTasks l (j.after (k.after w)) = afterTasks l (k.after (j.after w))
    rw [c128_two h w]
  | trans h1 h2 ih1 ih2 => rw [ih1 hi w, ih2 ((h1.pairwise_iff (Unrelated.symm)).mp hi) w]

theorem alike_afterTasks (js : List Task) (k : Task) (hi : ∀ j ∈ js, Unrelated j k) (w : World) :
    Alike (Concerned k.1 k.2.2) (afterTasks js w) w := by
  induction js generalizing w with
  | nil => exact ⟨rfl, fun _ _ => ⟨rfl, rfl⟩⟩
  | cons j js ih =>
    have h1 := ih (fun x hx => hi x (by simp [hx])) (j.after w)
    have h2 := alike_after (hi j (by simp)) w
    exact ⟨h1.1.trans h2.1, fun fn hf => ⟨(h1.2 fn hf).1.trans (h2.2 fn hf).1, (h1.2 fn hf).2.trans (h2.2 fn hf).2⟩⟩

/-- **C128**: and each of them gives the output and the outcome that it gives alone. -/
theorem c128_as_alone (js : List Task) (k : Task) (hi : ∀ j ∈ js, Unrelated j k) (w : World) :
    (k.result (afterTasks js w)).out = (k.result w).out ∧ (k.result (afterTasks js w)).res = (k.result w).res
      ∧ ∀ fn, MayWrite k.1 k.2.2 fn → (k.result (afterTasks js w)).fs fn = (k.result w).fs fn := by
  obtain ⟨h1, h2, h3⟩ := c127_reads k.1 k.2.1 k.2.2 _ _ (alike_afterTasks js k hi w)
  exact ⟨h1, h2, fun fn hm => h3 fn (.inr hm)⟩

/-- **C128**: the same for the messages. -/
theorem c128_messages (js : List Task) (k : Task) (hi : ∀ j ∈ js, Unrelated j k) (st : Messages.Style) (hu : st.usage ≠ []) (w : World) :
    Messages.standardError k.1 k.2.1 st k.2.2 (afterTasks js w) = Messages.standardError k.1 k.2.1 st k.2.2 w :=
  c127_messages k.1 k.2.1 st hu k.2.2 _ _ (alike_afterTasks js k hi w)

/-- Compressing `a` to `o` and filtering `d` to `n` are independent. -/
example : Unrelated (.compress, exampleParams, [['a'], ['o']]) (.filter, exampleParams, ["--keep-class=2".toList, ['d'], ['n']]) := by
  have e1 : Name.compress.table.operands [['a'], ['o']] = [['a'], ['o']] := by decide +kernel
  have e2 : Name.filter.table.operands ["--keep-class=2".toList, ['d'], ['n']] = [['d'], ['n']] := by decide +kernel
  constructor
  · rintro fn ⟨i, h⟩ hc
    have h : fn = ['o'] := by simp only [e1] at h; simp at h; exact h.2.symm
    subst h
    rcases hc with (hc | ⟨hc, -⟩) | ⟨i, hc⟩
    · simp only [e2] at hc; revert hc; decide
    · cases hc
    · simp only [e2] at hc; revert hc; simp
  · rintro fn ⟨i, h⟩ hc
    have h : fn = ['n'] := by simp only [e2] at h; simp at h; exact h.2.symm
    subst h
    rcases hc with (hc | ⟨hc, -⟩) | ⟨i, hc⟩
    · simp only [e1] at hc; revert hc; decide
    · cases hc
    · simp only [e1] at hc; revert hc; simp

end Spoc.Props
