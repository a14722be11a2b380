import Verif.Props.Messages
import Verif.Props.MergeWarnings

/-!
# C124, C125: the warnings of merge

What was said about the warnings that merge logs holds for what it prints on the standard error.
-/

namespace Spoc.Props

open Text Main Messages Getopt Cmd Spec

theorem said_mergeLoop (b : Build) (zl : Zlib) {a : Merge.Args} (hv : a.verbose = false) (fs : Tile.FS) (fns : List Str) :
    ∀ (i : Nat) (st st' : Merge.State), st.g = st'.g → st.areaSum = st'.areaSum →
    ∃ l, (Merge.mergeLoop b zl a i (fns.map (openRead fs)) st').1.log = st'.log ++ l
      ∧ (Messages.mergeLoop b zl a fs i fns st).said = l.map (fun x => str x ++ ['\n']) := by
  induction fns with
  | nil => intro i st st' h1 h2; exact ⟨[], by simp [Merge.mergeLoop], rfl⟩
  | cons fn fns ih =>
    intro i st st' h1 h2
    have ho : ∀ o, (openFile a.verbose fn o).said = [] := by
      intro o; rw [hv]; cases o <;> rfl
    rw [Messages.mergeLoop, List.map_cons]
    cases h : openRead fs fn with
    | none => exact ⟨[], by simp [Merge.mergeLoop], by rw [hv]; rfl⟩
    | some s =>
      rw [Merge.mergeLoop]
      cases hf : Apps.fileOf (Io.readFile b zl s) with
      | ok f =>
        obtain ⟨x, y, z, r, e⟩ := mergeOne_eq a i f
        have e' : Messages.mergeOne a i st f
            = ⟨(z st.g).map (fun l => str l ++ ['\n']), r st.g >>= fun _ => .ok { g := x st.g, areaSum := y st.areaSum, log := [] ++ z st.g }⟩ := by
          unfold Messages.mergeOne
          rw [e]
          rfl
        have e3 : (openFile a.verbose fn (some s) >>= fun s => (Messages.quietly (Apps.fileOf (Io.readFile b zl s)) >>= fun f =>
            Messages.mergeOne a i st f >>= fun st => Messages.mergeLoop b zl a fs (i + 1) fns st))
            = (Messages.mergeOne a i st f >>= fun st => Messages.mergeLoop b zl a fs (i + 1) fns st) := by
          rw [hv]
          show Log.bind _ _ = _
          simp only [openFile, Log.bind, Messages.tell, quietly, bind, hf]
          simp
        simp only
        rw [e3, e', e]
        rw [← h1, ← h2]
        cases hr : r st.g with
        | ok _ =>
          obtain ⟨l, g1, g2⟩ := ih (i + 1) { g := x st.g, areaSum := y st.areaSum, log := [] ++ z st.g }
            { g := x st.g, areaSum := y st.areaSum, log := st'.log ++ z st.g } rfl rfl
          refine ⟨z st.g ++ l, ?_, ?_⟩
          · simp only
            rw [g1, List.append_assoc]
          · simp only [Bind.bind, Log.bind, Res.bind]
            rw [g2, List.map_append]
        | _ => exact ⟨z st.g, rfl, by simp [Bind.bind, Log.bind, Res.bind]⟩
      | _ => exact ⟨[], by simp, by rw [hv]; simp [openFile, Bind.bind, Log.bind, Messages.tell, quietly, hf]⟩

/-- The whole log of merge. -/
theorem said_merge (b : Build) (st : Style) (hu : st.usage ≠ []) (zl : Zlib) (argv : List Str) (w : World)
    (hv : ¬HasOption .merge argv "verbose") (hh : ¬HasOption .merge argv "help")
    (hr : (Messages.merge b st zl argv w).res ≠ .throw "Invalid option") :
    (Messages.merge b st zl argv w).said
      = (Merge.main b zl (Name.merge.table.options argv) ((Name.merge.table.operands argv).map (openRead w.fs))).1.map (fun x => x.toList ++ ['\n']) := by
  have hv := hasOption_false hv
  have hh := hasOption_false hh
  have hc := res_commandLine Name.merge b st hu (fun x : Merge.Args => x.help) (Merge.getArgs (Name.merge.table.options argv) {})
  unfold Messages.merge at hr ⊢
  unfold Merge.main
  rw [show Cmd.merge = Name.merge.table from rfl] at hr ⊢
  have hfl := flags_merge (Name.merge.table.options argv) hh {}
  have hcs : ∀ a, Merge.getArgs (Name.merge.table.options argv) {} = .ok a → a.help = false ∧ a.verbose = false := by
    intro a ha
    obtain ⟨h1, h2, -⟩ := hfl a ha
    exact ⟨h1, by rw [h2, hv]; rfl⟩
  generalize Merge.getArgs (Name.merge.table.options argv) {} = r at hr hc hcs ⊢
  generalize Name.merge.table.operands argv = fns at hr ⊢
  rcases r with a | e | e | _ | _
  · obtain ⟨h1, h2⟩ := hcs a rfl
    have e1 : commandLine b st Name.merge.table (fun x : Merge.Args => x.help) (.ok a) = pure a := by
      simp [commandLine, h1]
    rw [e1]
    show Log.said (Log.bind _ _) = _
    simp only [Log.bind, pure, Log.ret, List.nil_append, Bool.false_eq_true, if_false, h1, h2, Bool.or_false]
    cases a.version with
    | true => rfl
    | false =>
      simp only [Bool.false_eq_true, if_false, List.length_map]
      by_cases hlen : fns.length < 2
      · rw [if_pos hlen, if_pos hlen]; rfl
      · rw [if_neg hlen, if_neg hlen]
        obtain ⟨l, g1, g2⟩ := said_mergeLoop b zl h2 w.fs fns 0 { g := SpocFile.empty.setCompressed true, areaSum := F64.zero, log := [] }
          { g := SpocFile.empty.setCompressed true, areaSum := F64.zero, log := [] } rfl rfl
        have key := res_mergeLoop b zl a w.fs fns 0
          { g := SpocFile.empty.setCompressed true, areaSum := F64.zero, log := [] } _ rfl rfl
        generalize Messages.mergeLoop b zl a w.fs 0 fns
          { g := SpocFile.empty.setCompressed true, areaSum := F64.zero, log := [] } = x at key g2 ⊢
        generalize Merge.mergeLoop b zl a 0 (fns.map (openRead w.fs))
          { g := SpocFile.empty.setCompressed true, areaSum := F64.zero, log := [] } = y at key g1 ⊢
        obtain ⟨m, r⟩ := y
        obtain ⟨xs, xr⟩ := x
        have ha : ∀ m m' : Merge.State, m.g = m'.g → m.areaSum = m'.areaSum → Merge.areaLog a m = Merge.areaLog a m' := by
          intro m m' e1 e2; unfold Merge.areaLog; rw [e1, e2]
        simp only [List.nil_append] at g1 g2
        cases r <;> cases xr <;>
          simp_all [Res.bind, failWith, Bind.bind, Log.bind, Messages.tell, quietly, str, Function.comp_def]
        exact congrArg (List.map _) (ha _ _ key.1 key.2)
  · have : e ≠ "Invalid option" := fun h => hr (by rw [Log.res_bind, hc, h]; rfl)
    simp [commandLine, this, Bind.bind, Log.bind, quietly]
  all_goals simp [commandLine, Bind.bind, Log.bind, quietly]

theorem contain_of_clouds {p : Params} {fs : Tile.FS} {ns : List Str} {l : List SpocFile} (h : List.Forall₂ (fun n f => HasCloud p fs n f) ns l) :
    Merge.Contain p.build p.zlib (ns.map (openRead fs)) l := by
  induction h with
  | nil => exact .nil
  | cons h _ ih =>
    obtain ⟨s, s', h1, h2⟩ := hasCloud_open h
    exact .cons ⟨s, s', h1, h2⟩ ih

/-- **C124** for merge: without `--verbose` and `--help` the standard error has the warnings that the model of merge logs, one per line, and after an
exception what it says. -/
theorem c124_merge_log (p : Params) (st : Style) (hu : st.usage ≠ []) (argv : List Str) (w : World) (hv : ¬HasOption .merge argv "verbose")
    (hh : ¬HasOption .merge argv "help") (hr : (Name.merge.run p argv w).res ≠ .throw "Invalid option") :
    standardError .merge p st argv w
      = (Merge.main p.build p.zlib (Name.merge.table.options argv) ((Name.merge.table.operands argv).map (openRead w.fs))).1.map
          (fun x => x.toList ++ ['\n'])
        ++ (match (Name.merge.run p argv w).res with
          | .throw e => [e.toList ++ ['\n']]
          | _ => []) := by
  have hr' := hr
  rw [← c124_outcome .merge p st hu] at hr'
  rw [standardError, c124_outcome .merge p st hu]
  congr 1
  exact said_merge p.build st hu p.zlib argv w hv hh hr'

theorem merge_options {argv : List Str} {quiet : Bool} {asked : Option Nat} (hopt : Name.merge.table.options argv = mergeOptions quiet asked)
    (x : String) (h1 : x ≠ "quiet") (h2 : x ≠ "point-id") : ¬HasOption .merge argv x := by
  rintro ⟨o, ho, rfl⟩
  rw [hopt] at ho
  unfold mergeOptions at ho
  rcases List.mem_append.mp ho with h | h
  · cases quiet <;> simp at h
    exact h1 (by rw [h])
  · cases asked <;> simp at h
    exact h2 (by rw [h])

/-- C125, merge: if it succeeds, a warning is on the standard error exactly if it is in the log that C42 and C91 speak about. -/
theorem c125_merge_warnings (p : Params) (st : Style) (hu : st.usage ≠ []) (w : World) (argv : List Str) (quiet : Bool) (asked : Option Nat)
    (hopt : Name.merge.table.options argv = mergeOptions quiet asked) (hok : (Name.merge.run p argv w).res = .ok 0) (x : String) :
    x.toList ++ ['\n'] ∈ standardError .merge p st argv w
      ↔ x ∈ (Merge.main p.build p.zlib (mergeOptions quiet asked) ((Name.merge.table.operands argv).map (openRead w.fs))).1 := by
  rw [c124_merge_log p st hu argv w (merge_options hopt _ (by decide) (by decide)) (merge_options hopt _ (by decide) (by decide))
    (by rw [hok]; exact (throw_ne_ok _ _).symm), hok, hopt]
  simp only [List.append_nil, List.mem_map]
  constructor
  · rintro ⟨y, hy, e⟩
    rwa [← String.ext (List.append_cancel_right e)]
  · exact fun h => ⟨_, h, rfl⟩

/-- **C125**, merge: if it succeeds, the warning about the spatial reference systems is on the standard error exactly if it was not suppressed and
some file has another one than the first. -/
theorem c125_merge (p : Params) (st : Style) (hu : st.usage ≠ []) (w : World) (argv : List Str) (quiet : Bool) (asked : Option Nat)
    (ha : ∀ n ∈ asked, n < 2 ^ 31) (hopt : Name.merge.table.options argv = mergeOptions quiet asked) (f : SpocFile) (fs : List SpocFile)
    (hf : List.Forall₂ (fun n f => HasCloud p w.fs n f) (Name.merge.table.operands argv) (f :: fs)) (h2 : fs ≠ [])
    (hp : Uniform (allPoints (f :: fs))) (hok : (Name.merge.run p argv w).res = .ok 0) :
    "WARNING: The spatial reference systems differ\n".toList ∈ standardError .merge p st argv w ↔ quiet = false ∧ ∃ g ∈ fs, g.wkt ≠ f.wkt := by
  obtain ⟨log, h3, h4⟩ := c41_merge p.build p.zlib _ f fs (contain_of_clouds hf) h2 hp quiet asked ha
  have := c125_merge_warnings p st hu w argv quiet asked hopt hok Merge.srsWarning
  rw [h3] at this
  exact this.trans h4

/-- Merging two files with the same spatial reference: no warning. -/
example : "WARNING: The spatial reference systems differ\n".toList ∉ standardError .merge exampleParams plainStyle [['a'], ['d']] exampleDisk := by
  rw [c125_merge exampleParams plainStyle (by decide) exampleDisk [['a'], ['d']] false none (by simp) (by decide +kernel) cloudA [cloudA]
    (.cons cloudA_on_disk.1 (.cons cloudA_on_disk.2 .nil)) (by simp) (by unfold Uniform; decide +kernel) (by decide +kernel)]
  simp

end Spoc.Props
