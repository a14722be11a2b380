import Verif.Model.Messages
import Verif.Props.Cmd

/-!
# Helper lemmas about messages
-/

namespace Spoc.Messages

open Text Main

namespace Log

variable {α β : Type}

@[simp] theorem res_pure (a : α) : (pure a : Log α).res = .ok a := rfl
@[simp] theorem said_pure (a : α) : (pure a : Log α).said = [] := rfl

@[simp] theorem res_bind (x : Log α) (f : α → Log β) : (x >>= f).res = x.res >>= fun a => (f a).res := by
  show (Log.bind x f).res = _
  unfold Log.bind
  cases x.res <;> rfl

theorem said_ok {x : Log α} {a : α} (h : x.res = .ok a) (f : α → Log β) : (x >>= f).said = x.said ++ (f a).said := by
  show (Log.bind x f).said = _
  unfold Log.bind
  rw [h]

theorem said_fail {x : Log α} (h : ∀ a, x.res ≠ .ok a) (f : α → Log β) : (x >>= f).said = x.said := by
  show (Log.bind x f).said = _
  unfold Log.bind
  cases hx : x.res with
  | ok a => exact absurd hx (h a)
  | _ => rfl

end Log

@[simp] theorem res_quietly {α : Type} (r : Res α) : (quietly r).res = r := rfl
@[simp] theorem said_quietly {α : Type} (r : Res α) : (quietly r).said = [] := rfl
@[simp] theorem res_tell (v : Bool) (l : List Str) : (tell v l).res = .ok () := rfl
@[simp] theorem res_say (t : Str) : (say t).res = .ok () := rfl

theorem help_ok (n : Name) (b : Build) {usage : Str} (hu : usage ≠ []) : ∃ t, n.table.help b usage = .ok t :=
  ⟨_, Props.c70_help_text n b usage hu⟩

theorem res_commandLine {α : Type} (n : Name) (b : Build) (st : Style) (hu : st.usage ≠ []) (asked : α → Bool) (r : Res α) :
    (commandLine b st n.table asked r).res = r := by
  obtain ⟨t, ht⟩ := help_ok n b hu
  unfold commandLine
  cases r with
  | ok a => by_cases h : asked a = true <;> simp [h, ht]
  | throw e => by_cases h : e = "Invalid option" <;> simp [h, ht]
  | _ => rfl

/-! ## The outcomes are those of the models without messages -/

theorem res_inputStream (v : Bool) (w : World) (fn : Str) : (inputStream v w fn).res = Main.inputStream w fn := by
  simp [inputStream]

theorem res_outputStream (v : Bool) (w : World) (fn : Str) (o : Out Unit) : (outputStream v w fn o).res = (Main.outputStream w fn o).res := by
  simp [outputStream]

theorem res_readThenWrite (v : Bool) (w : World) (i o : Str) (read : IStream → Log SpocFile) (write : SpocFile → Out Unit) :
    (readThenWrite v w i o read write).res = (Main.readThenWrite w i o (fun s => (read s).res) write).res := by
  unfold readThenWrite Main.readThenWrite
  simp only [Log.res_bind, res_inputStream, res_outputStream]
  cases h : Main.inputStream w i with
  | ok s => cases h2 : (read s).res <;> simp [h2, failWith]
  | _ => simp [failWith]

theorem res_compress (b : Build) (st : Style) (hu : st.usage ≠ []) (zl : Zlib) (argv : List Str) (w : World) :
    (compress b st zl argv w).res = (Main.compress b zl argv w).res := by
  have hc := fun r => res_commandLine Name.compress b st hu (fun x : Cmd.Basic × Str × Str => x.1.help) r
  unfold compress Main.compress
  simp only [Log.res_bind]
  rw [show Cmd.compress = Name.compress.table from rfl, hc]
  rcases basicArgs Name.compress.table argv with ⟨a, i, o⟩ | _ | _ | _ | _ <;> simp [failWith]
  by_cases h1 : a.version <;> by_cases h2 : a.help <;> simp [h1, h2, res_readThenWrite]

theorem res_decompress (b : Build) (st : Style) (hu : st.usage ≠ []) (zl : Zlib) (argv : List Str) (w : World) :
    (decompress b st zl argv w).res = (Main.decompress b zl argv w).res := by
  have hc := fun r => res_commandLine Name.decompress b st hu (fun x : Cmd.Basic × Str × Str => x.1.help) r
  unfold decompress Main.decompress
  simp only [Log.res_bind]
  rw [show Cmd.decompress = Name.decompress.table from rfl, hc]
  rcases basicArgs Name.decompress.table argv with ⟨a, i, o⟩ | _ | _ | _ | _ <;> simp [failWith]
  by_cases h1 : a.version <;> by_cases h2 : a.help <;> simp [h1, h2, res_readThenWrite]

theorem res_filter (b : Build) (st : Style) (hu : st.usage ≠ []) (zl : Zlib) (sh : Subsampling.Shuffle) (argv : List Str) (w : World) :
    (filter b st zl sh argv w).res = (Main.filter b zl sh argv w).res := by
  have hc := fun r => res_commandLine Name.filter b st hu (fun x : Filter.Args × Str × Str => x.1.help) r
  unfold filter Main.filter
  simp only [Log.res_bind]
  rw [show Cmd.filter = Name.filter.table from rfl, hc]
  rcases filterArgs argv with ⟨a, i, o⟩ | _ | _ | _ | _ <;> simp [failWith]
  by_cases h1 : a.version <;> by_cases h2 : a.help <;> simp [h1, h2, res_readThenWrite]

theorem res_upsampled (v : Bool) (k n : Nat) : (upsampled v k n).res = .ok () := by
  unfold upsampled
  by_cases h : v <;> by_cases h2 : k = n <;> simp [h, h2]

theorem res_toolRun (b : Build) (zl : Zlib) (files : Tool.Files) (a : Tool.Args) (f : SpocFile) :
    (toolRun b zl files a f).res = Tool.run b zl files a f := by
  unfold toolRun
  split
  · simp
  · split
    · rename_i h
      obtain ⟨h1, h2⟩ := h
      unfold Tool.run
      simp only [h1, h2, Log.res_bind, res_tell, res_quietly, Log.res_pure, Res.ok_bind, res_upsampled]
      simp
      cases files.spoc a.command.params with
      | none => rfl
      | some s => rfl
    · rfl

theorem res_tool (b : Build) (st : Style) (hu : st.usage ≠ []) (zl : Zlib) (argv : List Str) (w : World) :
    (tool b st zl argv w).res = (Main.tool b zl argv w).res := by
  have hc := fun r => res_commandLine Name.tool b st hu (fun x : Tool.Args × Str × Str => x.1.help) r
  unfold tool Main.tool
  simp only [Log.res_bind]
  rw [show Cmd.tool = Name.tool.table from rfl, hc]
  rcases toolArgs argv with ⟨a, i, o⟩ | _ | _ | _ | _ <;> simp [failWith]
  by_cases h1 : a.version
  · simp [h1]
  · by_cases h2 : a.help
    · simp [h1, h2]
    · by_cases h3 : a.command.name = ""
      · simp [h1, h2, h3]
      · by_cases h4 : a.command.name = "get-field"
        · simp [h1, h2, h4, res_inputStream]
          cases Main.inputStream w i with
          | ok s =>
            simp only [Res.ok_bind]
            cases Apps.fileOf (Io.readFile b zl s) with
            | ok f =>
              simp only [Res.ok_bind]
              cases AppUtils.consumeFieldName b a.command.params with
              | ok x => cases h5 : Tool.getField b f x.1 <;> simp [h5]
              | _ => rfl
            | _ => rfl
          | _ => rfl
        · simp [h1, h2, h3, h4, res_readThenWrite, res_toolRun]

theorem res_transform (b : Build) (st : Style) (hu : st.usage ≠ []) (env : Transform.Env) (argv : List Str) (w : World) :
    (transform b st env argv w).res = (Main.transform b env argv w).res := by
  have hc := fun r => res_commandLine Name.transform b st hu (fun x : Transform.Args × Str × Str => x.1.help) r
  unfold transform Main.transform
  simp only [Log.res_bind]
  rw [show Cmd.transform = Name.transform.table from rfl, hc]
  rcases transformArgs argv with ⟨a, i, o⟩ | _ | _ | _ | _ <;> simp [failWith]
  by_cases h1 : a.version
  · simp [h1]
  · by_cases h2 : a.help
    · simp [h1, h2]
    · by_cases h3 : a.commands = []
      · simp [h1, h2, h3]
      · simp [h1, h2, h3, res_inputStream]
        cases Main.inputStream w i <;> simp [res_outputStream]

theorem res_openFile (v : Bool) (fn : Str) (x : Option IStream) :
    (openFile v fn x).res = (match x with
      | some s => .ok s
      | none => .throw "Could not open file for reading") := by
  unfold openFile
  cases x <;> rfl

theorem res_showSrsLoop (v : Bool) (fs : Tile.FS) (fns : List Str) : (showSrsLoop v fs fns).res = (Main.showSrsLoop fs fns).res := by
  induction fns with
  | nil => rfl
  | cons fn fns ih =>
    rw [showSrsLoop, Main.showSrsLoop]
    simp only [Log.res_bind, res_openFile, res_quietly, ih]
    cases openRead fs fn with
    | none => rfl
    | some s =>
      simp
      show _ = (Out.bind _ _).res
      unfold Out.bind
      cases (Apps.showSrs s).res <;> rfl

theorem res_srs (b : Build) (st : Style) (hu : st.usage ≠ []) (zl : Zlib) (argv : List Str) (w : World) :
    (srs b st zl argv w).res = (Main.srs b zl argv w).res := by
  have hc := fun r => res_commandLine Name.srs b st hu (fun x : Cmd.SrsArgs => x.help) r
  unfold srs Main.srs
  simp only [Log.res_bind]
  rw [show Cmd.srs = Name.srs.table from rfl, hc]
  rcases Cmd.srsArgs (Name.srs.table.options argv) {} with a | _ | _ | _ | _ <;> simp [failWith]
  by_cases h1 : a.version
  · simp [h1]
  · by_cases h2 : a.help
    · simp [h1, h2]
    · simp [h1, h2]
      generalize Name.srs.table.operands argv = fns
      generalize a.srs = t
      match fns, t with
      | [], some t =>
        simp [Main.outputStream, Apps.setSrs]
        cases Apps.fileOf (Io.readFile b zl w.stdin) <;> first | (simp [zero]; done) | rfl
      | [], none => simp [Main.outputStream]
      | [i, o], some t =>
        simp [res_openFile]
        cases openRead w.fs i with
        | none => rfl
        | some s =>
          simp
          cases Apps.fileOf (Io.readFile b zl s) with
          | ok f => cases Tile.openWrite w.canCreate w.fs o <;> simp
          | _ => rfl
      | [_], some _ => simp
      | _ :: _ :: _ :: _, some _ => simp
      | fn :: fns, none =>
        simp [Main.outputStream, res_showSrsLoop, zero]

theorem res_diff (b : Build) (st : Style) (hu : st.usage ≠ []) (zl : Zlib) (argv : List Str) (w : World) :
    (diff b st zl argv w).res = (Main.diff b zl argv w).res := by
  have hc := fun r => res_commandLine Name.diff b st hu (fun x : Diff.Args × Str × Str => x.1.help) r
  unfold diff Main.diff Diff.main
  simp only [Log.res_bind]
  rw [show Cmd.diff = Name.diff.table from rfl, hc]
  unfold withOperands
  rcases Diff.getArgs (Name.diff.table.options argv) {} with a | _ | _ | _ | _ <;> simp [failWith]
  by_cases h2 : a.help
  · simp [h2]
    by_cases h1 : a.version <;> simp [h1]
  · simp [h2]
    rcases Cmd.two (Name.diff.table.operands argv) with ⟨i, j⟩ | _ | _ | _ | _ <;> simp
    by_cases h1 : a.version
    · simp [h1]
    · simp [h1, h2]
      split
      · simp
      · simp [res_openFile]
        cases openRead w.fs i with
        | none => rfl
        | some s1 =>
          cases openRead w.fs j with
          | none => rfl
          | some s2 =>
            simp only [Res.ok_bind]
            cases Apps.fileOf (Io.readFile b zl s1) with
            | ok f1 =>
              simp only [Res.ok_bind]
              cases Apps.fileOf (Io.readFile b zl s2) with
              | ok f2 =>
                simp only [Res.ok_bind]
                cases Diff.diff b f1 f2 a.headerOnly a.dataOnly a.fields a.reverse <;> rfl
              | _ => rfl
            | _ => rfl

theorem res_infoLoop (b : Build) (zl : Zlib) (sort : List F64 → List F64) (a : Info.Args) (fs : Tile.FS) (fns : List Str) :
    (infoLoop b zl sort a fs fns).res = (Info.processAll b zl sort a (fns.map (openRead fs))).2 := by
  induction fns with
  | nil => rfl
  | cons fn fns ih =>
    rw [infoLoop, List.map_cons]
    simp only [Log.res_bind, res_openFile, res_quietly, ih]
    cases openRead fs fn with
    | none => rfl
    | some s =>
      rw [Info.processAll, Res.ok_bind]
      cases Apps.fileOf (Io.readFile b zl s) >>= Info.process b sort a <;> rfl

theorem res_info (b : Build) (st : Style) (hu : st.usage ≠ []) (zl : Zlib) (sort : List F64 → List F64) (argv : List Str) (w : World) :
    (info b st zl sort argv w).res = (Main.info b zl sort argv w).res := by
  have hc := fun r => res_commandLine Name.info b st hu (fun x : Info.Args => x.help) r
  unfold info Main.info Info.main
  simp only [Log.res_bind]
  rw [show Cmd.info = Name.info.table from rfl, hc]
  generalize Name.info.table.operands argv = fns
  generalize Info.getArgs ((Name.info.table.options argv).map (·.1)) {} = r
  rcases r with a | _ | _ | _ | _ <;> try rfl
  simp only [Res.ok_bind, zero]
  by_cases h1 : a.version = true
  · rw [h1]; rfl
  · by_cases h2 : a.help = true
    · simp only [h1, h2]; rfl
    · simp only [h1, h2, Bool.false_eq_true, if_false, Bool.or_self, List.isEmpty_map, List.isEmpty_iff, Log.res_bind, res_tell, Res.ok_bind]
      by_cases h3 : fns = []
      · simp only [h3, if_true, Res.ok_bind, Info.processAll, Log.res_bind, res_quietly, res_tell, Log.res_pure]
        cases Apps.fileOf (Io.readFile b zl w.stdin) >>= Info.process b sort a <;> rfl
      · simp [h3, res_infoLoop]

theorem mergeOne_eq (a : Merge.Args) (i : Nat) (f : SpocFile) : ∃ (x : SpocFile → SpocFile) (y : F64 → F64) (z : SpocFile → Merge.Log)
    (r : SpocFile → Res Unit), ∀ st : Merge.State, Merge.mergeOne a i st f
      = ({ g := x st.g, areaSum := y st.areaSum, log := st.log ++ z st.g }, r st.g) := by
  let h : SpocFile → SpocFile := fun g =>
    if i = 0 then (if f.compressed = false then g.setCompressed false else g).setWkt f.wkt
    else if f.compressed = false then g.setCompressed false else g
  exact ⟨fun g => (Merge.append f (h g) (Merge.pointId a i) a.quiet).1, fun s => F64.add s (Merge.area (Extent.ofPoints f.prs)),
    fun g => (Merge.append f (h g) (Merge.pointId a i) a.quiet).2.1, fun g => (Merge.append f (h g) (Merge.pointId a i) a.quiet).2.2,
    fun st => rfl⟩

/-- The state without the log. -/
theorem res_mergeLoop (b : Build) (zl : Zlib) (a : Merge.Args) (fs : Tile.FS) (fns : List Str) : ∀ (i : Nat) (st st' : Merge.State),
    st.g = st'.g → st.areaSum = st'.areaSum →
    ((mergeLoop b zl a fs i fns st).res.bind fun m => .ok (m.g, m.areaSum))
      = (match Merge.mergeLoop b zl a i (fns.map (openRead fs)) st' with
        | (m, .ok ()) => .ok (m.g, m.areaSum)
        | (_, r) => failWith r) := by
  induction fns with
  | nil => intro i st st' h1 h2; rw [mergeLoop, List.map_nil, Merge.mergeLoop]; show Res.ok (st.g, st.areaSum) = Res.ok (st'.g, st'.areaSum); rw [h1, h2]
  | cons fn fns ih =>
    intro i st st' h1 h2
    rw [mergeLoop, List.map_cons]
    simp only [Log.res_bind, res_openFile, res_quietly]
    cases openRead fs fn with
    | none => rfl
    | some s =>
      rw [Merge.mergeLoop, Res.ok_bind]
      cases Apps.fileOf (Io.readFile b zl s) with
      | ok f =>
        obtain ⟨x, y, z, r, h⟩ := mergeOne_eq a i f
        have e : (mergeOne a i st f).res = r st.g >>= fun _ => .ok { g := x st.g, areaSum := y st.areaSum, log := [] ++ z st.g } := by
          unfold mergeOne
          rw [h]
        simp only [Res.ok_bind]
        rw [e, h, ← h1, ← h2]
        cases r st.g with
        | ok _ => exact ih (i + 1) _ _ rfl rfl
        | _ => rfl
      | _ => rfl

theorem res_merge (b : Build) (st : Style) (hu : st.usage ≠ []) (zl : Zlib) (argv : List Str) (w : World) :
    (merge b st zl argv w).res = (Main.merge b zl argv w).res := by
  have hc := fun r => res_commandLine Name.merge b st hu (fun x : Merge.Args => x.help) r
  unfold merge Main.merge Merge.main
  simp only [Log.res_bind]
  rw [show Cmd.merge = Name.merge.table from rfl, hc]
  generalize Name.merge.table.operands argv = fns
  generalize Merge.getArgs (Name.merge.table.options argv) {} = r
  rcases r with a | _ | _ | _ | _ <;> simp [zero, Main.outputStream, Merge.failWith, Out.lift]
  by_cases h1 : a.version
  · simp [h1, Out.emit]
  · by_cases h2 : a.help
    · simp [h1, h2, Out.ret]
    · simp [h1, h2]
      by_cases h3 : fns.length < 2
      · simp [h3]
      · simp [h3]
        have key := res_mergeLoop b zl a w.fs fns 0
          { g := SpocFile.empty.setCompressed true, areaSum := F64.zero, log := [] } _ rfl rfl
        generalize (mergeLoop b zl a w.fs 0 fns
          { g := SpocFile.empty.setCompressed true, areaSum := F64.zero, log := [] }).res = x at key ⊢
        generalize Merge.mergeLoop b zl a 0 (fns.map (openRead w.fs))
          { g := SpocFile.empty.setCompressed true, areaSum := F64.zero, log := [] } = y at key ⊢
        obtain ⟨m, r⟩ := y
        cases r <;> cases x <;> simp_all [Res.bind, failWith]

theorem res_writeTiles (b : Build) (zl : Zlib) (canCreate : Str → Bool) (a : Tile.Args) (name : UInt64 → Str) (f : SpocFile) (m : Tile.TileMap)
    (ks : List UInt64) : ∀ fs : Tile.FS,
    (writeTiles b zl canCreate a name f m ks fs).res = (Tile.writeTiles b zl canCreate a.force name f m ks fs).2 := by
  induction ks with
  | nil => intro fs; rfl
  | cons k ks ih =>
    intro fs
    rw [writeTiles, Tile.writeTiles]
    simp only [Log.res_bind, res_quietly, res_tell]
    cases Tile.tileFile b f m k with
    | ok t =>
      simp only [Res.ok_bind]
      by_cases h : (!a.force && fs.present (name k)) = true
      · rw [if_pos h]
        unfold Tile.writeTile
        rw [if_pos h]
        rfl
      · rw [if_neg h]
        simp only [Log.res_bind, res_quietly, res_tell, Res.ok_bind, ih]
        rcases Tile.writeTile b zl canCreate a.force fs (name k) t with ⟨fs', r⟩
        cases r <;> rfl
    | _ => rfl

theorem res_tile (b : Build) (st : Style) (hu : st.usage ≠ []) (zl : Zlib) (argv : List Str) (w : World) :
    (tile b st zl argv w).res = (Main.tile b zl argv w).res := by
  have hc := fun r => res_commandLine Name.tile b st hu (fun x : Tile.Args × Str => x.1.help) r
  unfold tile Main.tile Tile.main
  simp only [Log.res_bind]
  rw [show Cmd.tile = Name.tile.table from rfl, hc]
  unfold withOperands
  rcases Tile.getArgs (Name.tile.table.options argv) {} with a | _ | _ | _ | _ <;> simp [failWith]
  by_cases h2 : a.help
  · simp [h2]
    by_cases h1 : a.version <;> simp [h1, zero]
  · simp [h2]
    rcases Cmd.one (Name.tile.table.operands argv) with fn | _ | _ | _ | _ <;> simp
    by_cases h1 : a.version
    · simp [h1]
    · simp [h1, zero]
      by_cases h3 : fn = [] ∧ a.pre = []
      · simp [h3]
      · simp only [h3, if_false, Log.res_bind, res_inputStream]
        rcases h4 : Main.inputStream w fn with s | e | e | _ | _
        all_goals
          unfold Main.inputStream openRead at h4
          by_cases h5 : fn = []
          all_goals simp only [h5, List.isEmpty_nil, if_true, List.isEmpty_iff, if_false] at h4 ⊢
          all_goals try (rcases h6 : w.fs fn with _ | x)
          all_goals try (rw [h6] at h4)
          all_goals try (by_cases h7 : x.readable = true)
          all_goals try (simp only [h7, if_true, if_false, Bool.false_eq_true] at h4 ⊢)
          all_goals try cases h4
          all_goals try rfl
        all_goals
          simp only [Res.ok_bind, res_quietly, res_tell]
          generalize hf : Apps.fileOf (Io.readFile b zl _) = r
          rcases r with f | _ | _ | _ | _ <;> try rfl
          simp only [Res.ok_bind]
          unfold Tile.tileAll
          generalize hx : Tile.tileSizes _ (Extent.ofPoints f.prs) = r
          rcases r with x | _ | _ | _ | _ <;> (try simp only [hx]) <;> (try rfl)
          simp only [Res.ok_bind]
          generalize hy : Tile.getTileIndexes f.prs (Extent.ofPoints f.prs) x.1 x.2 = r
          rcases r with ix | _ | _ | _ | _ <;> (try rfl)
          simp only [Res.ok_bind, Log.res_pure, List.isEmpty_iff]
          generalize (if a.pre = [] then Tile.stem _ else a.pre) = pre
          rcases cassert b (!List.isEmpty pre) with _ | _ | _ | _ | _ <;> try rfl
          simp only [Res.ok_bind, res_writeTiles]

/-- Going through an application for its messages gives the same outcome as going through it for its output. -/
theorem res_messages (n : Name) (p : Params) (st : Style) (hu : st.usage ≠ []) (argv : List Str) (w : World) :
    (messages n p st argv w).res = (n.run p argv w).res := by
  cases n
  · exact res_compress _ _ hu _ _ _
  · exact res_decompress _ _ hu _ _ _
  · exact res_diff _ _ hu _ _ _
  · exact res_filter _ _ hu _ _ _ _
  · exact res_info _ _ hu _ _ _ _
  · exact res_merge _ _ hu _ _ _
  · exact res_srs _ _ hu _ _ _
  · exact res_tile _ _ hu _ _ _
  · exact res_tool _ _ hu _ _ _
  · exact res_transform _ _ hu _ _ _

end Spoc.Messages
