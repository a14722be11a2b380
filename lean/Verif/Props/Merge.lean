import Verif.Proofs.Merge
import Verif.Props.Filter

/-!
# C41, C42: the merge application
-/

namespace Spoc.Props

open Spec Merge Text

/-- The options as they are written on a command line. -/
def mergeOptions (quiet : Bool) (asked : Option Nat) : List (String × Str) :=
  (if quiet then [("quiet", [])] else []) ++ match asked with
    | none => []
    | some n => [("point-id", Nat.toDigits 10 n)]

theorem mergeOptions_args (quiet : Bool) (asked : Option Nat) (h : ∀ n ∈ asked, n < 2 ^ 31) :
    ∃ a, Merge.getArgs (mergeOptions quiet asked) {} = .ok a ∧ a.quiet = quiet ∧ a.version = false ∧ a.help = false
      ∧ ∀ i, pointId a i = idOf asked i := by
  cases asked with
  | none => cases quiet <;> exact ⟨_, rfl, rfl, rfl, rfl, fun i => rfl⟩
  | some n =>
    have hn := h n rfl
    have e : atoi (Nat.toDigits 10 n) = n := by
      have := Filter.atoi_showNat (n := n) (by omega)
      rw [show Nat.toDigits 10 n = showNat n from rfl, this]
      exact Int.bmod_eq_of_le (by omega) (by omega)
    have key : ∀ a : Args, a.pointId = atoi (Nat.toDigits 10 n) → ∀ i, pointId a i = idOf (some n) i := by
      intro a ha i
      unfold pointId idOf
      rw [ha, e, if_neg (by omega)]
      unfold UInt32.ofInt
      congr 1
      omega
    cases quiet <;> exact ⟨_, rfl, rfl, rfl, rfl, key _ rfl⟩

/-- The whole run, with the log. -/
theorem merge_run (b : Build) (zl : Zlib) (files : List (Option IStream)) (f : SpocFile) (fs : List SpocFile)
    (hr : Contain b zl files (f :: fs)) (h2 : fs ≠ []) (hu : Uniform (allPoints (f :: fs)))
    (quiet : Bool) (asked : Option Nat) (ha : ∀ n ∈ asked, n < 2 ^ 31) :
    ∃ a : Args, a.quiet = quiet ∧ Merge.main b zl (mergeOptions quiet asked) files
      = (warnings quiet f.wkt fs ++ areaLog a
          { g := { major := majorVersion, minor := minorVersion, wkt := f.wkt
                   compressed := (f :: fs).all (fun f => f.compressed)
                   prs := mergedPoints (idOf asked) (f :: fs) }
            areaSum := areaTotal F64.zero (f :: fs), log := warnings quiet f.wkt fs },
        Io.writeFile b zl
          { major := majorVersion, minor := minorVersion, wkt := f.wkt
            compressed := (f :: fs).all (fun f => f.compressed)
            prs := mergedPoints (idOf asked) (f :: fs) }) := by
  obtain ⟨a, e1, hq, hv, hh, hid⟩ := mergeOptions_args quiet asked ha
  have hlen : ¬ files.length < 2 := by
    rw [hr.length_eq, List.length_cons]
    have := List.length_pos_of_ne_nil h2
    omega
  obtain ⟨o, os, ho, hos, rfl⟩ := List.forall₂_cons_right_iff.mp hr
  obtain ⟨s, rest, rfl, hs⟩ := ho
  have hfw := (readable_writable hs).wkt
  have hfu := (readable_writable hs).uniform
  set st0 : State := { g := SpocFile.empty.setCompressed true, areaSum := F64.zero, log := [] } with hst0
  have hpr : prepare 0 st0.g f
      = { major := majorVersion, minor := minorVersion, wkt := f.wkt, compressed := f.compressed, prs := [] } := by
    unfold prepare; simp [hst0, SpocFile.empty, SpocFile.setCompressed]
  have hap := append_eq (f1 := f) (f2 := prepare 0 st0.g f) hfw (by rw [hpr]; exact hfw) (pointId a 0) a.quiet (by
    rw [hpr]; exact hfu)
  have hw0 : warn a.quiet f.wkt (prepare 0 st0.g f).wkt = [] := by
    rw [hpr]; simp [warn]
  have el := mergeLoop_pos b zl a hos 1 (le_refl _)
    { g := { (prepare 0 st0.g f) with prs := (prepare 0 st0.g f).prs ++ f.prs.map (setId (pointId a 0)) }
      areaSum := F64.add st0.areaSum (area (Extent.ofPoints f.prs))
      log := st0.log ++ warn a.quiet f.wkt (prepare 0 st0.g f).wkt } (by
        rw [hpr]
        have := uniform_setId (l := allPoints fs) (m := f.prs) (id := pointId a 0) (by
          intro x hx y hy
          exact hu x (by simp [allPoints] at hx ⊢; tauto) y (by simp [allPoints] at hy ⊢; tauto))
        intro x hx y hy
        exact this x (by simp at hx ⊢; tauto) y (by simp at hy ⊢; tauto)) (by rw [hpr]; exact hfw)
  have hloop : mergeLoop b zl a 0 (some s :: os) st0
      = ({ g := { major := majorVersion, minor := minorVersion, wkt := f.wkt
                  compressed := (f :: fs).all (fun f => f.compressed)
                  prs := mergedPoints (idOf asked) (f :: fs) }
           areaSum := areaTotal F64.zero (f :: fs), log := warnings a.quiet f.wkt fs }, .ok ()) := by
    unfold mergeLoop
    rw [hs]
    simp only [Apps.fileOf, Res.ok_bind]
    rw [mergeOne_prepare, hap]
    simp only
    rw [el, hw0, hpr]
    have hpts : mergedPoints (idOf asked) (f :: fs) = pointsFrom a 0 (f :: fs) := by
      unfold pointsFrom
      congr 1
      funext k
      rw [hid, Nat.zero_add]
    rw [hpts, pointsFrom_cons]
    simp [hst0, areaTotal]
  refine ⟨a, hq, ?_⟩
  unfold Merge.main
  rw [e1]
  simp only [hv, hh, Bool.false_eq_true, if_false]
  rw [if_neg hlen, hloop]
  rw [hq]

/-- **C41**: merging at least two files with the same number of extra fields writes all points of all files, in command-line order
and file order, with the position of the file or the number asked for as point id.  (Also **C42**: the result is compressed exactly if
every file is, has the spatial reference of the first one; there is a warning about the spatial reference exactly if it is not
suppressed and some file has another one than the first.) -/
theorem c41_merge (b : Build) (zl : Zlib) (files : List (Option IStream)) (f : SpocFile) (fs : List SpocFile)
    (hr : Contain b zl files (f :: fs)) (h2 : fs ≠ []) (hu : Uniform (allPoints (f :: fs)))
    (quiet : Bool) (asked : Option Nat) (ha : ∀ n ∈ asked, n < 2 ^ 31) :
    ∃ log, Merge.main b zl (mergeOptions quiet asked) files
      = (log, Io.writeFile b zl
          { major := majorVersion, minor := minorVersion, wkt := f.wkt
            compressed := (f :: fs).all (fun f => f.compressed)
            prs := mergedPoints (idOf asked) (f :: fs) })
      ∧ (srsWarning ∈ log ↔ quiet = false ∧ ∃ g ∈ fs, g.wkt ≠ f.wkt) := by
  obtain ⟨a, hq, e⟩ := merge_run b zl files f fs hr h2 hu quiet asked ha
  rw [e]
  refine ⟨_, rfl, ?_⟩
  simp only [List.mem_append]
  have harea : ∀ st : State, srsWarning ∉ areaLog a st := by
    intro st
    unfold areaLog
    split
    · simp
    · split
      · simp [srsWarning, areaWarning]
      · simp
  simp only [harea, or_false]
  unfold warnings warn
  rw [List.mem_flatMap]
  constructor
  · rintro ⟨g, hg, hm⟩
    split at hm
    · next hc =>
      simp only [Bool.and_eq_true, Bool.not_eq_true', decide_eq_true_eq] at hc
      exact ⟨hc.1, g, hg, hc.2⟩
    · simp at hm
  · rintro ⟨hf, g, hg, hne⟩
    exact ⟨g, hg, by simp [hf, hne]⟩

/-- **C41**: nothing but the point id of a point is changed and no point is lost: ignoring point ids, the merged points are exactly
the points of the inputs one after the other. -/
theorem c41_nothing_lost (id : Nat → UInt32) (fs : List SpocFile) :
    (mergedPoints id fs).map (fun q => { q with p := 0 }) = (allPoints fs).map (fun q => { q with p := 0 }) := by
  induction fs generalizing id with
  | nil => rfl
  | cons f fs ih =>
    have e : mergedPoints id (f :: fs) = f.prs.map (fun q => { q with p := id 0 }) ++ mergedPoints (fun k => id (k + 1)) fs := by
      unfold mergedPoints
      rw [List.mapIdx_cons, List.flatten_cons]
    rw [e, List.map_append, ih, show allPoints (f :: fs) = f.prs ++ allPoints fs from List.flatMap_cons ..,
      List.map_append, List.map_map]
    rfl

/-- Two copies of the example file, both readable, and points with the same number of extra fields. -/
example : ∃ s, Contain .release toyZlib [some s, some s] [exampleFile, exampleFile]
    ∧ Uniform (allPoints [exampleFile, exampleFile]) ∧ ∀ n ∈ (some 7 : Option Nat), n < 2 ^ 31 := by
  have h1 : Survives toyZlib exampleFile := ⟨exampleFile_writable, fun _ => by decide, fun h => by simp [exampleFile] at h⟩
  have := (survives_roundtrip .release toyZlib toyZlib_correct exampleFile h1).2 []
  rw [List.append_nil] at this
  refine ⟨_, .cons ⟨_, _, rfl, this⟩ (.cons ⟨_, _, rfl, this⟩ .nil), ?_, by simp⟩
  intro p hp q hq
  simp [allPoints] at hp hq
  exact h1.1.uniform p hp q hq

/-- **C42**: appending a file either adds all its points, or, if the numbers of extra fields differ, fails and leaves the accumulated file
as it was. -/
theorem c42_all_or_nothing {f1 f2 : SpocFile} (h1 : f1.wkt.length ≤ 65535) (h2 : f2.wkt.length ≤ 65535) (id : UInt32) (quiet : Bool)
    (u1 : Uniform f1.prs) (u2 : Uniform f2.prs) :
    (Uniform (f2.prs ++ f1.prs) →
      (append f1 f2 id quiet).1 = { f2 with prs := f2.prs ++ f1.prs.map (fun q => { q with p := id }) }
      ∧ (append f1 f2 id quiet).2.2 = .ok ())
    ∧ (¬ Uniform (f2.prs ++ f1.prs) →
      (append f1 f2 id quiet).1 = f2 ∧ (append f1 f2 id quiet).2.2.isThrow = true) := by
  constructor
  · intro h
    rw [append_eq h1 h2 id quiet h]
    exact ⟨rfl, rfl⟩
  · intro h
    rw [append_fail h1 h2 id quiet u1 u2 h]
    exact ⟨rfl, rfl⟩

example : let f1 : SpocFile := { SpocFile.empty with prs := [{ extra := [1] }, { extra := [2] }] }
    let f2 : SpocFile := { SpocFile.empty with prs := [{ extra := [] }] }
    Uniform f1.prs ∧ Uniform f2.prs ∧ ¬ Uniform (f2.prs ++ f1.prs) := by
  refine ⟨by unfold Uniform; decide, by unfold Uniform; decide, by unfold Uniform; decide⟩

/-- **C42**: merging files whose numbers of extra fields differ fails and writes nothing. -/
theorem c42_mismatch_writes_nothing (b : Build) (zl : Zlib) (files : List (Option IStream)) (fs : List SpocFile)
    (hr : Contain b zl files fs) (h2 : 2 ≤ files.length) (hu : ¬ Uniform (allPoints fs))
    (quiet : Bool) (asked : Option Nat) (ha : ∀ n ∈ asked, n < 2 ^ 31) :
    (Merge.main b zl (mergeOptions quiet asked) files).2 = ⟨[], .throw "The number of extra fields is incorrect"⟩ := by
  obtain ⟨a, e1, hq, hv, hh, hid⟩ := mergeOptions_args quiet asked ha
  obtain ⟨st', e⟩ := mergeLoop_fail b zl a hr 0 { g := SpocFile.empty.setCompressed true, areaSum := F64.zero, log := [] }
    (by intro p hp; simp [SpocFile.empty, SpocFile.setCompressed] at hp) (by
      simpa [SpocFile.empty, SpocFile.setCompressed] using hu) (by simp [SpocFile.empty, SpocFile.setCompressed])
  unfold Merge.main
  rw [e1]
  simp only [hv, hh, Bool.false_eq_true, if_false]
  rw [if_neg (by omega), e]
  rfl

example : ∃ s t fs, Contain .release toyZlib [some s, some t] fs ∧ ¬ Uniform (allPoints fs) := by
  have key : ∀ e : List UInt64, e.length ≤ 1 → ∃ s rest, Io.readFile .release toyZlib s
      = .ok ({ SpocFile.empty with prs := [{ extra := e }] }, rest) := by
    intro e he
    have h1 : Survives toyZlib { SpocFile.empty with prs := [{ extra := e }] } := by
      refine ⟨⟨rfl, rfl, by simp [SpocFile.empty], ?_, ?_, by simp⟩, ?_, fun h => by simp [SpocFile.empty] at h⟩
      · intro p hp q hq; simp at hp hq; rw [hp, hq]
      · intro p hp; simp at hp; rw [hp]; simp; omega
      · intro _ p hp; simp at hp; rw [hp]; simp; omega
    have := (survives_roundtrip .release toyZlib toyZlib_correct _ h1).2 []
    exact ⟨_, _, this⟩
  obtain ⟨s, r, hs⟩ := key [] (by simp)
  obtain ⟨t, r', ht⟩ := key [1] (by simp)
  refine ⟨s, t, _, .cons ⟨_, _, rfl, hs⟩ (.cons ⟨_, _, rfl, ht⟩ .nil), ?_⟩
  intro h
  have := h { extra := [] } (by simp [allPoints]) { extra := [1] } (by simp [allPoints])
  simp at this

/-- A file that cannot be opened or read, or fewer than two files: nothing is written. -/
theorem c42_too_few_files (b : Build) (zl : Zlib) (files : List (Option IStream)) (h : files.length < 2)
    (quiet : Bool) (asked : Option Nat) (ha : ∀ n ∈ asked, n < 2 ^ 31) :
    (Merge.main b zl (mergeOptions quiet asked) files).2 = ⟨[], .throw "At least two input files are required to merge"⟩ := by
  obtain ⟨a, e1, hq, hv, hh, hid⟩ := mergeOptions_args quiet asked ha
  unfold Merge.main
  rw [e1]
  simp only [hv, hh, Bool.false_eq_true, if_false]
  rw [if_pos h]
  rfl

example : ([] : List (Option IStream)).length < 2 := by decide

theorem mergeLoop_inputs {b : Build} {zl : Zlib} {a : Args} {files : List (Option IStream)} {i : Nat} {st st' : State}
    (h : mergeLoop b zl a i files st = (st', .ok ())) : ∃ fs, Contain b zl files fs := by
  induction files generalizing i st with
  | nil => exact ⟨[], .nil⟩
  | cons x files ih =>
    cases x with
    | none => simp [mergeLoop] at h
    | some s =>
      unfold mergeLoop at h
      cases hr : Io.readFile b zl s with
      | ok fr =>
        obtain ⟨f, rest⟩ := fr
        simp only [Apps.fileOf, hr, Res.ok_bind] at h
        split at h
        · next st1 e1 =>
          obtain ⟨fs, hfs⟩ := ih h
          exact ⟨f :: fs, .cons ⟨s, rest, rfl, hr⟩ hfs⟩
        · next st1 r hne e1 =>
          simp only [Prod.mk.injEq] at h
          obtain ⟨rfl, rfl⟩ := h
          exact absurd rfl hne
      | _ => simp [Apps.fileOf, hr, failWith] at h

/-- **C42**: if the application writes anything or succeeds, all the files that are named could be read: none of them is left out
silently. -/
theorem c42_needs_all_inputs (b : Build) (zl : Zlib) (files : List (Option IStream))
    (quiet : Bool) (asked : Option Nat) (ha : ∀ n ∈ asked, n < 2 ^ 31)
    (h : (Merge.main b zl (mergeOptions quiet asked) files).2.res = .ok ()
      ∨ (Merge.main b zl (mergeOptions quiet asked) files).2.bytes ≠ []) :
    2 ≤ files.length ∧ ∃ fs, Contain b zl files fs ∧ Uniform (allPoints fs) := by
  by_cases hl : files.length < 2
  · rw [c42_too_few_files b zl files hl quiet asked ha] at h
    simp at h
  refine ⟨by omega, ?_⟩
  have key : ∃ fs, Contain b zl files fs := by
    obtain ⟨a, e1, hq, hv, hh, hid⟩ := mergeOptions_args quiet asked ha
    unfold Merge.main at h
    rw [e1] at h
    simp only [hv, hh, Bool.false_eq_true, if_false] at h
    rw [if_neg hl] at h
    cases e : mergeLoop b zl a 0 files { g := SpocFile.empty.setCompressed true, areaSum := F64.zero, log := [] } with
    | mk st r =>
      rw [e] at h
      cases r with
      | ok => exact mergeLoop_inputs e
      | _ => simp [Out.lift] at h
  obtain ⟨fs, hfs⟩ := key
  refine ⟨fs, hfs, ?_⟩
  by_contra hu
  rw [c42_mismatch_writes_nothing b zl files fs hfs (by omega) hu quiet asked ha] at h
  simp at h

example : ∃ s, (Merge.main .release toyZlib (mergeOptions false none) [some s, some s]).2.bytes ≠ [] := by
  have h1 : Survives toyZlib exampleFile := ⟨exampleFile_writable, fun _ => by decide, fun h => by simp [exampleFile] at h⟩
  have := (survives_roundtrip .release toyZlib toyZlib_correct exampleFile h1).2 []
  rw [List.append_nil] at this
  have hu : Uniform (allPoints [exampleFile, exampleFile]) := by
    intro p hp q hq
    simp [allPoints] at hp hq
    exact h1.1.uniform p hp q hq
  obtain ⟨log, e, _⟩ := c41_merge .release toyZlib _ exampleFile [exampleFile] (.cons ⟨_, _, rfl, this⟩ (.cons ⟨_, _, rfl, this⟩ .nil))
    (by simp) hu false none (by simp)
  exact ⟨_, by rw [e]; clear e; dsimp only; decide +kernel⟩

end Spoc.Props
