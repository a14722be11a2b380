import Verif.Proofs.Silence

/-!
# With `verbose` each file that is changed is named
-/

namespace Spoc.Messages

open Text Main

section Mem

variable {α β : Type}

theorem mem_left {x : Log α} {m : Str} (h : m ∈ x.said) (f : α → Log β) : m ∈ (x >>= f).said := by
  by_cases hx : ∃ a, x.res = .ok a
  · obtain ⟨a, hx⟩ := hx
    rw [Log.said_ok hx]
    exact List.mem_append_left _ h
  · rw [Log.said_fail (fun a ha => hx ⟨a, ha⟩)]
    exact h

theorem mem_right {x : Log α} {a : α} {m : Str} (hx : x.res = .ok a) {f : α → Log β} (h : m ∈ (f a).said) : m ∈ (x >>= f).said := by
  rw [Log.said_ok hx]
  exact List.mem_append_right _ h

end Mem

/-- The message about the output file. -/
def writingTo (fn : Str) : Str := str "Writing to " ++ fn ++ ['\n']

/-- The same in srs and tile. -/
def writing (fn : Str) : Str := str "Writing " ++ fn ++ ['\n']

theorem written_outputStream (w : World) (o fn : Str) (out : Out Unit) (h : (Main.outputStream w o out).fs fn ≠ w.fs fn) :
    writingTo fn ∈ (outputStream true w o out).said := by
  unfold Main.outputStream at h
  split_ifs at h with h1
  · exact absurd rfl h
  · have hn : fn = o := by
      by_contra hn
      refine h ?_
      cases Tile.openWrite w.canCreate w.fs o with
      | none => rfl
      | some f => simp [Tile.FS.set, hn]
    subst hn
    refine mem_left ?_ _
    simp [tell, h1, writingTo]

theorem written_readThenWrite (w : World) (i o fn : Str) (read : IStream → Log SpocFile) (write : SpocFile → Out Unit)
    (h : (Main.readThenWrite w i o (fun s => (read s).res) write).fs fn ≠ w.fs fn) :
    writingTo fn ∈ (readThenWrite true w i o read write).said := by
  unfold Main.readThenWrite at h
  cases h1 : Main.inputStream w i with
  | ok s =>
    rw [h1, Res.ok_bind] at h
    cases h2 : (read s).res with
    | ok f =>
      rw [h2] at h
      refine mem_right (a := s) (by rw [res_inputStream, h1]) (mem_right h2 ?_)
      exact written_outputStream w o fn _ h
    | _ => rw [h2] at h; exact absurd rfl h
  | _ => rw [h1] at h; exact absurd rfl h

theorem written_command {α : Type} (n : Name) (b : Build) (st : Style) (hu : st.usage ≠ []) (asked : α → Bool) {r : Res α} {a : α}
    (hr : r = .ok a) {k : α → Log Int} {m : Str} (h : m ∈ (k a).said) : m ∈ (commandLine b st n.table asked r >>= k).said :=
  mem_right (by rw [res_commandLine n b st hu, hr]) h

theorem written_compress (b : Build) (st : Style) (hu : st.usage ≠ []) (zl : Zlib) (argv : List Str) (w : World) (fn : Str)
    (hv : given "verbose" (Cmd.compress.options argv) = true) (hh : given "help" (Cmd.compress.options argv) = false)
    (h : (Main.compress b zl argv w).fs fn ≠ w.fs fn) : writingTo fn ∈ (compress b st zl argv w).said := by
  unfold Main.compress at h
  unfold compress
  rcases hr : basicArgs Cmd.compress argv with ⟨a, i, o⟩ | _ | _ | _ | _ <;> rw [hr] at h <;> try exact absurd rfl h
  obtain ⟨-, h2, -⟩ := flags_basic _ hh _ _ (withOperands_ok hr)
  try dsimp only at h
  dsimp only at h2
  rw [hv, Bool.or_true] at h2
  refine written_command .compress b st hu _ rfl ?_
  split_ifs at h with h3 h4
  · exact absurd rfl h
  · exact absurd rfl h
  · dsimp only
    rw [if_neg (by simp [h3, h4]), h2]
    exact written_readThenWrite w i o fn (fun s => quietly (Apps.fileOf (Io.readFileUncompressed b s))) _ h

theorem written_decompress (b : Build) (st : Style) (hu : st.usage ≠ []) (zl : Zlib) (argv : List Str) (w : World) (fn : Str)
    (hv : given "verbose" (Cmd.decompress.options argv) = true) (hh : given "help" (Cmd.decompress.options argv) = false)
    (h : (Main.decompress b zl argv w).fs fn ≠ w.fs fn) : writingTo fn ∈ (decompress b st zl argv w).said := by
  unfold Main.decompress at h
  unfold decompress
  rcases hr : basicArgs Cmd.decompress argv with ⟨a, i, o⟩ | _ | _ | _ | _ <;> rw [hr] at h <;> try exact absurd rfl h
  obtain ⟨-, h2, -⟩ := flags_basic _ hh _ _ (withOperands_ok hr)
  try dsimp only at h
  dsimp only at h2
  rw [hv, Bool.or_true] at h2
  refine written_command .decompress b st hu _ rfl ?_
  split_ifs at h with h3 h4
  · exact absurd rfl h
  · exact absurd rfl h
  · dsimp only
    rw [if_neg (by simp [h3, h4]), h2]
    exact written_readThenWrite w i o fn (fun s => quietly (Apps.fileOf (Io.readFileCompressed zl s))) _ h

theorem written_filter (b : Build) (st : Style) (hu : st.usage ≠ []) (zl : Zlib) (sh : Subsampling.Shuffle) (argv : List Str) (w : World) (fn : Str)
    (hv : given "verbose" (Cmd.filter.options argv) = true) (hh : given "help" (Cmd.filter.options argv) = false)
    (h : (Main.filter b zl sh argv w).fs fn ≠ w.fs fn) : writingTo fn ∈ (filter b st zl sh argv w).said := by
  unfold Main.filter at h
  unfold filter
  rcases hr : filterArgs argv with ⟨a, i, o⟩ | _ | _ | _ | _ <;> rw [hr] at h <;> try exact absurd rfl h
  obtain ⟨-, h2, -⟩ := flags_filter _ hh _ _ (withOperands_ok hr)
  try dsimp only at h
  dsimp only at h2
  rw [hv, Bool.or_true] at h2
  refine written_command .filter b st hu _ rfl ?_
  split_ifs at h with h3 h4
  · exact absurd rfl h
  · exact absurd rfl h
  · dsimp only
    rw [if_neg (by simp [h3, h4])]
    refine mem_right rfl ?_
    rw [h2]
    exact written_readThenWrite w i o fn (fun s => quietly (do
        let f ← Apps.fileOf (Io.readFile b zl s)
        Filter.process b sh a f)) _ h

theorem written_tool (b : Build) (st : Style) (hu : st.usage ≠ []) (zl : Zlib) (argv : List Str) (w : World) (fn : Str)
    (hv : given "verbose" (Cmd.tool.options argv) = true) (hh : given "help" (Cmd.tool.options argv) = false)
    (h : (Main.tool b zl argv w).fs fn ≠ w.fs fn) : writingTo fn ∈ (tool b st zl argv w).said := by
  unfold Main.tool at h
  unfold tool
  rcases hr : toolArgs argv with ⟨a, i, o⟩ | _ | _ | _ | _ <;> rw [hr] at h <;> try exact absurd rfl h
  obtain ⟨-, h2, -⟩ := flags_tool _ hh _ _ (withOperands_ok hr)
  try dsimp only at h
  dsimp only at h2
  rw [hv, Bool.or_true] at h2
  refine written_command .tool b st hu _ rfl ?_
  split_ifs at h with h3 h4 h5 h6
  · exact absurd rfl h
  · exact absurd rfl h
  · exact absurd rfl h
  · exfalso
    refine h ?_
    split <;> rfl
  · dsimp only
    rw [if_neg (by simp [h3, h4]), if_neg h5]
    refine mem_right rfl ?_
    rw [if_neg h6]
    simp only [h2]
    refine written_readThenWrite w i o fn (fun s => do
        let f ← quietly (Apps.fileOf (Io.readFile b zl s))
        toolRun b zl (toolFiles w.fs) a f) _ ?_
    simp only [Log.res_bind, res_quietly, res_toolRun]
    exact h

theorem written_transform (b : Build) (st : Style) (hu : st.usage ≠ []) (env : Transform.Env) (argv : List Str) (w : World) (fn : Str)
    (hv : given "verbose" (Cmd.transform.options argv) = true) (hh : given "help" (Cmd.transform.options argv) = false)
    (h : (Main.transform b env argv w).fs fn ≠ w.fs fn) : writingTo fn ∈ (transform b st env argv w).said := by
  unfold Main.transform at h
  unfold transform
  rcases hr : transformArgs argv with ⟨a, i, o⟩ | _ | _ | _ | _ <;> rw [hr] at h <;> try exact absurd rfl h
  obtain ⟨-, h2, -⟩ := flags_transform _ hh _ _ (withOperands_ok hr)
  try dsimp only at h
  dsimp only at h2
  rw [hv, Bool.or_true] at h2
  refine written_command .transform b st hu _ rfl ?_
  by_cases h3 : a.version = true
  · rw [if_pos h3] at h; exact absurd rfl h
  · rw [if_neg h3] at h
    by_cases h4 : a.help = true
    · rw [if_pos h4] at h; exact absurd rfl h
    rw [if_neg h4] at h
    by_cases h5 : a.commands.isEmpty = true
    · rw [if_pos h5] at h; exact absurd rfl h
    rw [if_neg h5] at h
    dsimp only
    rw [if_neg (by simp [h3, h4]), if_neg h5]
    refine mem_right rfl ?_
    cases h6 : Main.inputStream w i with
    | ok s =>
      rw [h6] at h
      refine mem_right (a := s) (by rw [res_inputStream, h6]) ?_
      rw [h2]
      exact written_outputStream w o fn _ h
    | _ => rw [h6] at h; exact absurd rfl h

theorem written_srs (b : Build) (st : Style) (hu : st.usage ≠ []) (zl : Zlib) (argv : List Str) (w : World) (fn : Str)
    (hv : given "verbose" (Cmd.srs.options argv) = true) (hh : given "help" (Cmd.srs.options argv) = false)
    (h : (Main.srs b zl argv w).fs fn ≠ w.fs fn) : writing fn ∈ (srs b st zl argv w).said := by
  unfold Main.srs at h
  unfold srs
  rcases hr : Cmd.srsArgs (Cmd.srs.options argv) {} with a | _ | _ | _ | _ <;> rw [hr] at h <;> try exact absurd rfl h
  obtain ⟨-, h2, -⟩ := flags_srs _ hh _ _ hr
  try dsimp only at h
  dsimp only at h2
  rw [hv, Bool.or_true] at h2
  refine written_command .srs b st hu _ rfl ?_
  split_ifs at h with h3 h4
  · exact absurd rfl h
  · exact absurd rfl h
  · rw [if_neg (by simp [h3, h4])]
    refine mem_right rfl ?_
    generalize Cmd.srs.operands argv = ops at h ⊢
    generalize a.srs = t at h ⊢
    rcases t with _ | t
    · rcases ops with _ | ⟨i, _ | ⟨o, _ | ⟨z, ops⟩⟩⟩ <;> exact absurd rfl h
    · rcases ops with _ | ⟨i, _ | ⟨o, _ | ⟨z, ops⟩⟩⟩
      · exact absurd rfl h
      · exact absurd rfl h
      · dsimp only at h ⊢
        cases h5 : openRead w.fs i with
        | none => rw [h5] at h; exact absurd rfl h
        | some s =>
          rw [h5] at h
          dsimp only at h
          cases h6 : Apps.fileOf (Io.readFile b zl s) with
          | ok f =>
            rw [h6] at h
            dsimp only at h
            refine mem_right (a := s) (by rw [res_openFile]) (mem_right (a := f) (by rw [res_quietly, h6]) ?_)
            refine mem_left ?_ _
            cases h7 : Tile.openWrite w.canCreate w.fs o with
            | none => rw [h7] at h; exact absurd rfl h
            | some g =>
              rw [h7] at h
              have hn : fn = o := by
                by_contra hn
                exact h (by simp [Tile.FS.set, hn])
              subst hn
              simp [tell, h2, writing]
          | _ => rw [h6] at h; exact absurd rfl h
      · exact absurd rfl h

theorem written_writeTiles (b : Build) (zl : Zlib) (cc : Str → Bool) {a : Tile.Args} (hv : a.verbose = true) (name : UInt64 → Str)
    (f : SpocFile) (m : Tile.TileMap) (fn : Str) (ks : List UInt64) : ∀ fs : Tile.FS,
    (Tile.writeTiles b zl cc a.force name f m ks fs).1 fn ≠ fs fn → writing fn ∈ (writeTiles b zl cc a name f m ks fs).said := by
  induction ks with
  | nil => intro fs h; exact absurd rfl h
  | cons k ks ih =>
    intro fs h
    rw [Tile.writeTiles] at h
    rw [writeTiles]
    cases h1 : Tile.tileFile b f m k with
    | ok t =>
      rw [h1] at h
      dsimp only at h
      refine mem_right rfl (mem_right rfl ?_)
      by_cases h2 : (!a.force && fs.present (name k)) = true
      · rw [Tile.writeTile, if_pos h2] at h
        exact absurd rfl h
      · rw [if_neg h2]
        by_cases h3 : (Tile.writeTile b zl cc a.force fs (name k) t).1 fn = fs fn
        · rcases h4 : Tile.writeTile b zl cc a.force fs (name k) t with ⟨fs', r⟩
          rw [h4] at h h3
          rcases r with _ | _ | _ | _ | _ <;> try exact absurd h3 h
          dsimp only at h h3
          refine mem_right rfl (mem_right (a := ()) rfl (ih fs' ?_))
          rw [h3]
          exact h
        · refine mem_left ?_ _
          have hn : fn = name k := by
            by_contra hn
            refine h3 ?_
            rw [Tile.writeTile, if_neg h2]
            cases Tile.openWrite cc fs (name k) with
            | none => rfl
            | some x => simp [Tile.FS.set, hn]
          simp [tell, hv, writing, hn]
    | _ => rw [h1] at h; exact absurd rfl h

theorem written_tile (b : Build) (st : Style) (hu : st.usage ≠ []) (zl : Zlib) (argv : List Str) (w : World) (fn : Str)
    (hv : given "verbose" (Cmd.tile.options argv) = true) (hh : given "help" (Cmd.tile.options argv) = false)
    (h : (Main.tile b zl argv w).fs fn ≠ w.fs fn) : writing fn ∈ (tile b st zl argv w).said := by
  unfold Main.tile at h
  unfold tile
  rcases hr : withOperands (Tile.getArgs (Cmd.tile.options argv) {}) (·.help) [] (Cmd.one (Cmd.tile.operands argv)) with ⟨a, i⟩ | _ | _ | _ | _ <;> rw [hr] at h <;> try exact absurd rfl h
  obtain ⟨-, h2, -⟩ := flags_tile _ hh _ _ (withOperands_ok hr)
  try dsimp only at h
  dsimp only at h2
  rw [hv, Bool.or_true] at h2
  refine written_command .tile b st hu _ rfl ?_
  have hg : Tile.getArgs (Cmd.tile.options argv) {} = .ok a := withOperands_ok hr
  by_cases h3 : a.version = true
  · rw [if_pos h3] at h; exact absurd rfl h
  rw [if_neg h3] at h
  unfold Tile.main at h
  rw [hg] at h
  dsimp only at h ⊢
  by_cases h4 : a.help = true
  · rw [if_pos (by rw [h4, Bool.or_true])] at h; exact absurd rfl h
  have h34 : ¬((a.version || a.help) = true) := by simp [h3, h4]
  rw [if_neg h34] at h ⊢
  refine mem_right rfl ?_
  by_cases h5 : (List.isEmpty i && List.isEmpty a.pre) = true
  · rw [if_pos h5] at h; exact absurd rfl h
  rw [if_neg h5] at h ⊢
  have key : ∀ (r : Res IStream), (match (do Apps.fileOf (Io.readFile b zl (← r))) with
      | .ok f => Tile.tileAll b zl w.canCreate { a with fn := i } f w.fs
      | r => (w.fs, Tile.failWith r)).1 fn ≠ w.fs fn → ∃ s f, r = .ok s ∧ Apps.fileOf (Io.readFile b zl s) = .ok f
        ∧ (Tile.tileAll b zl w.canCreate { a with fn := i } f w.fs).1 fn ≠ w.fs fn := by
    intro r hk
    rcases r with s | _ | _ | _ | _ <;> try exact absurd rfl hk
    rw [Res.ok_bind] at hk
    cases hf : Apps.fileOf (Io.readFile b zl s) with
    | ok f => rw [hf] at hk; exact ⟨s, f, rfl, hf, hk⟩
    | _ => rw [hf] at hk; exact absurd rfl hk
  obtain ⟨s, f, hs, hf, h⟩ := key _ h
  have hs' : Main.inputStream w i = .ok s := by
    unfold Main.inputStream openRead
    rcases hw : w.fs i with _ | x
    · rw [hw] at hs
      simpa using hs
    · rw [hw] at hs
      by_cases hx : x.readable = true
      · simpa [hx] using hs
      · simpa [hx] using hs
  refine mem_right (a := s) (by rw [res_inputStream, hs']) (mem_right (a := f) (by rw [res_quietly, hf]) (mem_right rfl ?_))
  unfold Tile.tileAll at h
  dsimp only at h
  cases h6 : Tile.tileSizes { a with fn := i } (Extent.ofPoints f.prs) with
  | ok x =>
    rw [h6] at h
    rw [Res.ok_bind] at h
    cases h7 : Tile.getTileIndexes f.prs (Extent.ofPoints f.prs) x.1 x.2 with
    | ok ix =>
      rw [h7, Res.ok_bind] at h
      dsimp only at h
      refine mem_right (a := x) rfl (mem_right rfl (mem_right (a := ix) (by rw [res_quietly, h7]) (mem_right rfl ?_)))
      cases h8 : cassert b (!List.isEmpty (if List.isEmpty a.pre = true then Tile.stem i else a.pre)) with
      | ok u =>
        rw [h8] at h
        refine mem_right (a := u) (by rw [res_quietly]) (mem_left ?_ _)
        exact written_writeTiles (a := { a with fn := i }) b zl w.canCreate h2 _ f _ fn _ w.fs h
      | _ => rw [h8] at h; exact absurd rfl h
    | _ => rw [h7] at h; exact absurd rfl h
  | _ => rw [h6] at h; exact absurd rfl h

end Spoc.Messages
