import Verif.Proofs.Builds
import Verif.Proofs.AppSafe2

/-!
# Debug build and release build of the applications
-/

namespace Spoc

open AppSafe

variable {c : Bool}

theorem Res.Agree.mono {α : Type} {d r : Res α} (h : d.Agree false r) : d.Agree c r := by
  rcases h with (h | ⟨h, -⟩) | h
  · exact .inl (.inl h)
  · exact absurd h (by decide)
  · exact .inr h

/-- The first stops at a check, or both are the same. -/
def Result.Agree (c : Bool) (d r : Main.Result) : Prop := d.res.Stopped c ∨ d = r

theorem Result.Agree.refl (x : Main.Result) : Result.Agree c x x := .inr rfl

theorem zero_stopped {x : Res Unit} (h : x.Stopped c) : (Main.zero x).Stopped c := by
  rcases h with rfl | ⟨hc, rfl⟩
  · exact .inl rfl
  · exact .inr ⟨hc, rfl⟩

theorem mainFailWith_stopped {α β : Type} {x : Res α} (h : x.Stopped c) : (Main.failWith x : Res β).Stopped c := by
  rcases h with rfl | ⟨hc, rfl⟩
  · exact .inl rfl
  · exact .inr ⟨hc, rfl⟩

theorem outputStream_agree (w : Main.World) (fn : Str) {d r : Out Unit} (h : d.Agree c r) :
    Result.Agree c (Main.outputStream w fn d) (Main.outputStream w fn r) := by
  rcases h with h | rfl
  · unfold Main.outputStream
    split
    · exact .inl (zero_stopped h)
    · split
      · exact .inl (zero_stopped h)
      · exact .refl _
  · exact .refl _

theorem stopped_bind {α β : Type} {x : Res α} (h : x.Stopped c) (f : α → Res β) : (x >>= f).Stopped c := by
  rcases h with rfl | ⟨hc, rfl⟩
  · exact .inl rfl
  · exact .inr ⟨hc, rfl⟩

theorem readThenWrite_agree (w : Main.World) (i o : Str) {read read' : IStream → Res SpocFile} {write write' : SpocFile → Out Unit}
    (hr : ∀ s, (read s).Agree c (read' s)) (hw : ∀ s f, read s = .ok f → (write f).Agree c (write' f)) :
    Result.Agree c (Main.readThenWrite w i o read write) (Main.readThenWrite w i o read' write') := by
  unfold Main.readThenWrite
  have h : (Main.inputStream w i >>= read).Agree c (Main.inputStream w i >>= read') := .bind (.refl _) hr
  have h2 : ∀ f, Main.inputStream w i >>= read = .ok f → (write f).Agree c (write' f) := fun f hf => by
    obtain ⟨s, -, hf⟩ := Res.bind_eq_ok.mp hf
    exact hw s f hf
  generalize (Main.inputStream w i >>= read) = d at h h2 ⊢
  generalize (Main.inputStream w i >>= read') = r at h ⊢
  rcases h with (rfl | ⟨hc, rfl⟩) | rfl
  · exact .inl (.inl rfl)
  · exact .inl (.inr ⟨hc, rfl⟩)
  · cases d with
    | ok f => exact outputStream_agree w o (h2 f rfl)
    | _ => exact .refl _

/-! ## Writing a valid file -/

theorem require_same {a : Bool} (h : a = true) : require .debug a = require .release a := by
  subst h; rfl

theorem writeUncompressed_same {f : SpocFile} (h : f.isValid = true) : Io.writeFileUncompressed .debug f = Io.writeFileUncompressed .release f := by
  unfold Io.writeFileUncompressed
  rw [require_same h]

theorem writeCompressed_same (z : Zlib) {f : SpocFile} (h : f.isValid = true) :
    Io.writeFileCompressed .debug z f = Io.writeFileCompressed .release z f := by
  unfold Io.writeFileCompressed
  rw [require_same h]

theorem write_same (z : Zlib) {f : SpocFile} (h : f.isValid = true) : Io.writeFile .debug z f = Io.writeFile .release z f := by
  unfold Io.writeFile
  rw [writeUncompressed_same h, writeCompressed_same z h]

theorem setCompressed_valid {f : SpocFile} (h : f.isValid = true) (b : Bool) : (f.setCompressed b).isValid = true := by
  exact h

theorem setWkt_valid {f : SpocFile} (h : f.isValid = true) (t : Bytes) : (f.setWkt t).isValid = true := by
  exact h

/-! ## The applications in which no contract can fail -/

theorem compress_agree (z : Zlib) (argv : List Str) (w : Main.World) :
    Result.Agree c (Main.compress .debug z argv w) (Main.compress .release z argv w) := by
  unfold Main.compress
  cases Main.basicArgs Cmd.compress argv with
  | throw => exact .refl _
  | ub => exact .refl _
  | abort => exact .refl _
  | hang => exact .refl _
  | ok x => ?_
  obtain ⟨a, i, o⟩ := x
  dsimp only
  split
  · exact .refl _
  split
  · exact .refl _
  exact readThenWrite_agree w i o (fun s => fileOf_agree (readFileUncompressed_agree s)) fun s f h =>
    .inr (writeCompressed_same z (setCompressed_valid (readUncompressed_valid h) _))

theorem decompress_agree (z : Zlib) (argv : List Str) (w : Main.World) :
    Result.Agree c (Main.decompress .debug z argv w) (Main.decompress .release z argv w) := by
  unfold Main.decompress
  cases Main.basicArgs Cmd.decompress argv with
  | throw => exact .refl _
  | ub => exact .refl _
  | abort => exact .refl _
  | hang => exact .refl _
  | ok x => ?_
  obtain ⟨a, i, o⟩ := x
  dsimp only
  split
  · exact .refl _
  split
  · exact .refl _
  exact readThenWrite_agree w i o (fun s => .refl _) fun s f h => .inr (writeUncompressed_same (setCompressed_valid (readCompressed_valid h) _))

theorem filter_agree (z : Zlib) (sh : Subsampling.Shuffle) (argv : List Str) (w : Main.World) :
    Result.Agree c (Main.filter .debug z sh argv w) (Main.filter .release z sh argv w) := by
  unfold Main.filter
  cases Main.filterArgs argv with
  | throw => exact .refl _
  | ub => exact .refl _
  | abort => exact .refl _
  | hang => exact .refl _
  | ok x => ?_
  obtain ⟨a, i, o⟩ := x
  dsimp only
  split
  · exact .refl _
  split
  · exact .refl _
  refine readThenWrite_agree w i o (fun s => .bind (fileOf_agree (readFile_agree z s)) fun f => filterProcess_agree sh a f) fun s f h => ?_
  obtain ⟨f0, h0, h⟩ := Res.bind_eq_ok.mp h
  exact .inr (write_same z (process_valid (read_valid h0) h))

theorem diffApp_agree (z : Zlib) (argv : List Str) (w : Main.World) :
    Result.Agree c (Main.diff .debug z argv w) (Main.diff .release z argv w) := by
  unfold Main.diff
  cases Main.withOperands (Diff.getArgs (Cmd.diff.options argv) {}) (·.help) ([], []) (Cmd.two (Cmd.diff.operands argv)) with
  | throw => exact .refl _
  | ub => exact .refl _
  | abort => exact .refl _
  | hang => exact .refl _
  | ok x => ?_
  obtain ⟨a, i, j⟩ := x
  dsimp only
  split
  · exact .refl _
  split
  · exact .refl _
  rcases diffMain_agree z (Cmd.diff.options argv) (Main.openRead w.fs i) (Main.openRead w.fs j) with h | h
  · exact .inl h
  · exact .inr (by rw [h])

theorem info_agree (z : Zlib) (sort : List F64 → List F64) (argv : List Str) (w : Main.World) :
    Result.Agree c (Main.info .debug z sort argv w) (Main.info .release z sort argv w) := by
  unfold Main.info
  rcases infoMain_agree z sort ((Cmd.info.options argv).map (·.1)) ((Cmd.info.operands argv).map (Main.openRead w.fs)) w.stdin with h | h
  · exact .inl (zero_stopped h)
  · exact .inr (by rw [h])

theorem setSrs_agree (z : Zlib) (t : Bytes) (s : IStream) : (Apps.setSrs .debug z t s).Agree c (Apps.setSrs .release z t s) := by
  unfold Apps.setSrs
  have h := fileOf_agree (readFile_agree (c := c) z s)
  have h2 : ∀ f, Apps.fileOf (Io.readFile .debug z s) = .ok f → f.isValid = true := fun f => read_valid
  generalize Apps.fileOf (Io.readFile .debug z s) = d at h h2 ⊢
  generalize Apps.fileOf (Io.readFile .release z s) = r at h ⊢
  rcases h with (rfl | ⟨hc, rfl⟩) | rfl
  · exact .inl (.inl rfl)
  · exact .inl (.inr ⟨hc, rfl⟩)
  · cases d with
    | ok f =>
      rw [Out.lift_ok_bind, Out.lift_ok_bind]
      exact .inr (write_same z (setWkt_valid (h2 f rfl) t))
    | _ => exact .refl _

theorem srs_agree (z : Zlib) (argv : List Str) (w : Main.World) :
    Result.Agree c (Main.srs .debug z argv w) (Main.srs .release z argv w) := by
  unfold Main.srs
  rcases Cmd.srsArgs (Cmd.srs.options argv) {} with a | _ | _ | _ | _
  rotate_left
  iterate 4 exact .refl _
  dsimp only
  split
  · exact .refl _
  split
  · exact .refl _
  split
  · exact outputStream_agree w _ (setSrs_agree z _ _)
  · exact .refl _
  · rename_i i o t _ _
    rcases Main.openRead w.fs i with _ | s
    · exact .refl _
    dsimp only
    have h := fileOf_agree (readFile_agree (c := c) z s)
    have h2 : ∀ f, Apps.fileOf (Io.readFile .debug z s) = .ok f → f.isValid = true := fun f => read_valid
    generalize Apps.fileOf (Io.readFile .debug z s) = d at h h2 ⊢
    generalize Apps.fileOf (Io.readFile .release z s) = r at h ⊢
    rcases h with (rfl | ⟨hc, rfl⟩) | rfl
    · exact .inl (.inl rfl)
    · exact .inl (.inr ⟨hc, rfl⟩)
    · cases d with
      | ok f =>
        dsimp only
        rw [write_same z (setWkt_valid (h2 f rfl) _)]
        exact .refl _
      | _ => exact .refl _
  · exact .refl _
  · exact .refl _

theorem merge_agree (z : Zlib) (argv : List Str) (w : Main.World) :
    Result.Agree c (Main.merge .debug z argv w) (Main.merge .release z argv w) := by
  unfold Main.merge
  refine outputStream_agree w _ ?_
  unfold Merge.main
  split
  · split
    · exact .inr rfl
    · split
      · exact .inr rfl
      · split
        · exact .inr rfl
        · rename_i a _ _ _ _
          have hfs : ∀ s, some s ∈ (Cmd.merge.operands argv).map (Main.openRead w.fs) → Input w s := by
            intro s hs
            obtain ⟨n, -, hn⟩ := List.mem_map.mp hs
            exact openRead_input hn
          have hv := (mergeLoop_within .debug z a _ hfs 0 { g := SpocFile.empty.setCompressed true, areaSum := F64.zero, log := [] } rfl).2
          rcases mergeLoop_agree (c := c) z a 0 ((Cmd.merge.operands argv).map (Main.openRead w.fs))
            { g := SpocFile.empty.setCompressed true, areaSum := F64.zero, log := [] } with h | h
          · generalize Merge.mergeLoop .debug z a 0 _ _ = x at h
            obtain ⟨st, r⟩ := x
            rcases h with h | ⟨hc, h⟩ <;> dsimp only at h <;> subst h
            · exact .inl (.inl rfl)
            · exact .inl (.inr ⟨hc, rfl⟩)
          · rw [← h]
            generalize Merge.mergeLoop .debug z a 0 _ _ = x at hv
            obtain ⟨st, r⟩ := x
            cases r with
            | ok u => exact .inr (write_same z hv)
            | _ => exact .inr rfl
  · exact .inr rfl

/-! ## The applications in which a contract may fail -/

theorem tile_agree (z : Zlib) (argv : List Str) (w : Main.World) :
    Result.Agree true (Main.tile .debug z argv w) (Main.tile .release z argv w) := by
  unfold Main.tile
  split
  · split
    · exact .refl _
    · rename_i a fn _ _
      rcases tileMain_agree z w.canCreate (Cmd.tile.options argv) fn w.stdin w.fs with h | h
      · exact .inl (zero_stopped h)
      · exact .inr (by rw [h])
  · exact .refl _

theorem toolApp_agree (z : Zlib) (argv : List Str) (w : Main.World) :
    Result.Agree true (Main.tool .debug z argv w) (Main.tool .release z argv w) := by
  unfold Main.tool
  rcases Main.toolArgs argv with ⟨a, i, o⟩ | _ | _ | _ | _
  rotate_left
  iterate 4 exact .refl _
  dsimp only
  split
  · exact .refl _
  split
  · exact .refl _
  split
  · exact .refl _
  split
  · have h : (do
        let s ← Main.inputStream w i
        let f ← Apps.fileOf (Io.readFile .debug z s)
        let (name, _) ← AppUtils.consumeFieldName .debug a.command.params
        Tool.getField .debug f name).Agree true (do
        let s ← Main.inputStream w i
        let f ← Apps.fileOf (Io.readFile .release z s)
        let (name, _) ← AppUtils.consumeFieldName .release a.command.params
        Tool.getField .release f name) :=
      .bind (.refl _) fun s => .bind (fileOf_agree (readFile_agree z s)) fun f => .bind (consumeFieldName_agree _) fun x => getField_agree f x.1
    generalize (do
        let s ← Main.inputStream w i
        let f ← Apps.fileOf (Io.readFile .debug z s)
        let (name, _) ← AppUtils.consumeFieldName .debug a.command.params
        Tool.getField .debug f name) = d at h ⊢
    generalize (do
        let s ← Main.inputStream w i
        let f ← Apps.fileOf (Io.readFile .release z s)
        let (name, _) ← AppUtils.consumeFieldName .release a.command.params
        Tool.getField .release f name) = r at h ⊢
    rcases h with (rfl | ⟨hc, rfl⟩) | rfl
    · exact .inl (.inl rfl)
    · exact .inl (.inr ⟨hc, rfl⟩)
    · exact .refl _
  · exact readThenWrite_agree w i o (fun s => .bind (fileOf_agree (readFile_agree z s)) fun f => toolRun_agree z _ a f)
      fun _ f _ => writeFile_agree z f

theorem transform_agree (env : Transform.Env) (argv : List Str) (w : Main.World) :
    Result.Agree true (Main.transform .debug env argv w) (Main.transform .release env argv w) := by
  unfold Main.transform
  split
  · split
    · exact .refl _
    split
    · exact .refl _
    split
    · exact .refl _
    split
    · exact outputStream_agree w _ (apply_agree env _ _ _)
    · exact .refl _
  · exact .refl _

end Spoc
