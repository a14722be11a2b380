import Verif.Props.Main
import Verif.Props.FilterSteps
import Verif.Props.Merge
import Verif.Props.Diff
import Verif.Props.Tile
import Verif.Props.Info
import Verif.Props.Transform

/-!
# C76: the applications on files, from the command line to the file that is written

A command line is given by what `getopt_long` makes of it, which is C67 and C68.
-/

namespace Spoc.Props

open Getopt Cmd Main Spec Spec.Cmd Text

/-- There is a readable file of this name that contains this cloud. -/
def HasCloud (p : Params) (fs : Tile.FS) (n : Str) (f : SpocFile) : Prop :=
  ∃ x s, fs n = some x ∧ x.readable = true ∧ Io.readFile p.build p.zlib { rest := x.content } = .ok (f, s)

/-- The file can be written, and read afterwards. -/
def CanReplace (w : World) (n : Str) : Prop :=
  match w.fs n with
  | some f => f.writable = true ∧ f.readable = true
  | none => w.canCreate n = true

/-- The run succeeds, prints nothing, and leaves the cloud `g` in the file `o` and all other files as they were. -/
def Makes (n : Name) (p : Params) (w : World) (argv : List Str) (o : Str) (g : SpocFile) : Prop :=
  (n.run p argv w).res = .ok 0 ∧ (n.run p argv w).out = [] ∧ HasCloud p (n.run p argv w).fs o g
    ∧ ∀ m, m ≠ o → (n.run p argv w).fs m = w.fs m

theorem hasCloud_open {p : Params} {fs : Tile.FS} {n : Str} {f : SpocFile} (h : HasCloud p fs n f) :
    ∃ s s', openRead fs n = some s ∧ Io.readFile p.build p.zlib s = .ok (f, s') := by
  obtain ⟨x, s, h1, h2, h3⟩ := h
  exact ⟨_, s, by simp only [openRead, h1, h2, if_true], h3⟩

theorem openWrite_readable {w : World} {o : Str} (h : CanReplace w o) :
    ∃ f, Tile.openWrite w.canCreate w.fs o = some f ∧ f.readable = true := by
  unfold CanReplace at h
  unfold Tile.openWrite
  cases hf : w.fs o with
  | some f =>
    simp only [hf] at h
    exact ⟨_, if_pos h.1, h.2⟩
  | none =>
    simp only [hf] at h
    exact ⟨_, if_pos h, rfl⟩

/-- What is left behind when `x` is written to the file `o`. -/
theorem outputStream_leaves {w : World} {o : Str} (ho : o ≠ []) (hc : CanReplace w o) {x : Out Unit} (hx : x.res = .ok ()) :
    (outputStream w o x).res = .ok 0 ∧ (outputStream w o x).out = []
      ∧ (∃ f, (outputStream w o x).fs o = some f ∧ f.readable = true ∧ f.content = x.bytes)
      ∧ ∀ m, m ≠ o → (outputStream w o x).fs m = w.fs m := by
  obtain ⟨f, h1, h2⟩ := openWrite_readable hc
  have he : o.isEmpty = false := by simpa using ho
  simp only [outputStream, he, Bool.false_eq_true, if_false, h1, hx]
  exact ⟨rfl, trivial, ⟨{ f with content := x.bytes }, by simp [Tile.FS.set], h2, rfl⟩, fun m hm => by simp [Tile.FS.set, hm]⟩

theorem outputStream_cloud {p : Params} (hz : p.zlib.Correct) {w : World} {o : Str} (ho : o ≠ []) (hc : CanReplace w o) {g : SpocFile}
    (hg : Survives p.zlib g) {r : Result} (hr : r = outputStream w o (Io.writeFile p.build p.zlib g)) :
    r.res = .ok 0 ∧ r.out = [] ∧ HasCloud p r.fs o g ∧ ∀ m, m ≠ o → r.fs m = w.fs m := by
  subst hr
  obtain ⟨h1, h2⟩ := survives_roundtrip p.build p.zlib hz g hg
  obtain ⟨h3, h4, ⟨f, h5, h6, h7⟩, h8⟩ := outputStream_leaves ho hc h1
  refine ⟨h3, h4, ⟨f, { rest := [] }, h5, h6, ?_⟩, h8⟩
  rw [h7]
  simpa using h2 []

theorem inputStream_cloud {p : Params} {w : World} {i : Str} (hi : i ≠ []) {f : SpocFile} (h : HasCloud p w.fs i f) :
    ∃ s s', inputStream w i = .ok s ∧ Io.readFile p.build p.zlib s = .ok (f, s') := by
  obtain ⟨s, s', h1, h2⟩ := hasCloud_open h
  exact ⟨s, s', by simp [inputStream, hi, h1], h2⟩

/-- Only `--verbose` is given. -/
def OnlyVerbose (os : List (String × Str)) : Prop := ∀ o ∈ os, o.1 = "verbose"

theorem basicArgs_verbose {os : List (String × Str)} (h : OnlyVerbose os) (a : Basic) :
    ∃ v, Cmd.basicArgs os a = .ok { a with verbose := v } := by
  induction os generalizing a with
  | nil => exact ⟨a.verbose, rfl⟩
  | cons o os ih =>
    obtain ⟨name, arg⟩ := o
    obtain rfl : name = "verbose" := h _ List.mem_cons_self
    obtain ⟨v, hv⟩ := ih (fun o ho => h o (List.mem_cons_of_mem _ ho)) { a with verbose := true }
    exact ⟨v, by simpa (decide := true) [Cmd.basicArgs] using hv⟩

/-- **C76**, compress: the output holds the same cloud, compressed.  (The limits are those of C02.) -/
theorem c76_compress_partial (p : Params) (hz : p.zlib.Correct) (w : World) (argv : List Str) (i o : Str)
    (hopt : OnlyVerbose (Cmd.compress.options argv)) (hops : Cmd.compress.operands argv = [i, o]) (hi : i ≠ []) (ho : o ≠ [])
    (hc : CanReplace w o) (f : SpocFile) (hf : HasCloud p w.fs i f) (hu : f.compressed = false)
    (hfit : FitsZlib p.zlib f.prs.length) (h0 : NoHiddenNegZero f.prs) :
    Makes .compress p w argv o { f with compressed := true } := by
  obtain ⟨s, s', h1, h2⟩ := inputStream_cloud hi hf
  obtain ⟨v, hv⟩ := basicArgs_verbose hopt {}
  have hw := readable_writable h2
  refine outputStream_cloud hz ho hc ⟨writable_flag hw true, fun h => by simp at h, fun _ => ⟨hfit, h0⟩⟩ ?_
  have h3 := (readFileUncompressed_eq (z := p.zlib)).mpr ⟨h2, hu⟩
  have h4 : Io.writeFileCompressed p.build p.zlib (f.setCompressed true)
      = Io.writeFile p.build p.zlib { f with compressed := true } := writeFile_of_compressed hw.wkt rfl
  simp only [Name.run, Main.compress, Main.basicArgs, withOperands, hv, hops, inOut, Res.ok_bind, Bool.false_eq_true, if_false,
    readThenWrite, h1, Apps.fileOf, h3, h4]

/-- **C76**, decompress: the output holds the same cloud, not compressed. -/
theorem c76_decompress_partial (p : Params) (hz : p.zlib.Correct) (w : World) (argv : List Str) (i o : Str)
    (hopt : OnlyVerbose (Cmd.decompress.options argv)) (hops : Cmd.decompress.operands argv = [i, o]) (hi : i ≠ []) (ho : o ≠ [])
    (hc : CanReplace w o) (f : SpocFile) (hf : HasCloud p w.fs i f) (hu : f.compressed = true)
    (hx : ∀ q ∈ f.prs, q.extra.length ≤ 123) :
    Makes .decompress p w argv o { f with compressed := false } := by
  obtain ⟨s, s', h1, h2⟩ := inputStream_cloud hi hf
  obtain ⟨v, hv⟩ := basicArgs_verbose hopt {}
  have hw := readable_writable h2
  refine outputStream_cloud hz ho hc ⟨writable_flag hw false, fun _ => hx, fun h => by simp at h⟩ ?_
  have h3 := (readFileCompressed_eq (b := p.build)).mpr ⟨h2, hu⟩
  have h4 : Io.writeFileUncompressed p.build (f.setCompressed false)
      = Io.writeFile p.build p.zlib { f with compressed := false } := writeFile_of_uncompressed hw.wkt rfl
  simp only [Name.run, Main.decompress, Main.basicArgs, withOperands, hv, hops, inOut, Res.ok_bind, Bool.false_eq_true, if_false,
    readThenWrite, h1, Apps.fileOf, h3, h4]

/-- The state of the world after a run. -/
def after (n : Name) (p : Params) (argv : List Str) (w : World) : World := { w with fs := (n.run p argv w).fs }

/-- **C76**: compressing a file and decompressing the result, with two command lines, gives a file with the same cloud. -/
theorem c76_there_and_back_partial (p : Params) (hz : p.zlib.Correct) (w : World) (argv argv' : List Str) (i t o : Str)
    (hopt : OnlyVerbose (Cmd.compress.options argv)) (hops : Cmd.compress.operands argv = [i, t])
    (hopt' : OnlyVerbose (Cmd.decompress.options argv')) (hops' : Cmd.decompress.operands argv' = [t, o])
    (hi : i ≠ []) (ht : t ≠ []) (ho : o ≠ []) (hto : t ≠ o) (hct : CanReplace w t) (hco : CanReplace w o) (f : SpocFile)
    (hf : HasCloud p w.fs i f) (hu : f.compressed = false) (hx : ∀ q ∈ f.prs, q.extra.length ≤ 123)
    (hfit : FitsZlib p.zlib f.prs.length) (h0 : NoHiddenNegZero f.prs) :
    Makes .compress p w argv t { f with compressed := true }
      ∧ Makes .decompress p (after .compress p argv w) argv' o f := by
  have h1 := c76_compress_partial p hz w argv i t hopt hops hi ht hct f hf hu hfit h0
  refine ⟨h1, ?_⟩
  have hc : CanReplace (after .compress p argv w) o := by
    have e : (after .compress p argv w).fs o = w.fs o := h1.2.2.2 o (Ne.symm hto)
    unfold CanReplace
    rw [e]
    exact hco
  have h2 := c76_decompress_partial p hz (after .compress p argv w) argv' t o hopt' hops' ht ho hc _ h1.2.2.1 rfl hx
  have e : ({ { f with compressed := true } with compressed := false } : SpocFile) = f := by
    obtain ⟨a, b, c, d, e⟩ := f
    simp only at hu
    rw [hu]
  rw [e] at h2
  exact h2

/-- **C76**, filter: the output holds what the steps of C75 leave. -/
theorem c76_filter_partial (p : Params) (hz : p.zlib.Correct) (hsh : p.shuffle.Lawful) (w : World) (argv : List Str) (i o : Str)
    (r : FilterRequest) (hopt : Asks (Cmd.filter.options argv) r) (hops : Cmd.filter.operands argv = [i, o]) (hi : i ≠ []) (ho : o ≠ [])
    (hc : CanReplace w o) (f : SpocFile) (hf : HasCloud p w.fs i f) (qs : List PointRecord)
    (hq : FilterSteps p.build p.shuffle r f.prs qs) (hs : Survives p.zlib { f with prs := qs }) :
    Makes .filter p w argv o { f with prs := qs } := by
  obtain ⟨s, s', h1, h2⟩ := inputStream_cloud hi hf
  refine outputStream_cloud hz ho hc hs ?_
  obtain ⟨a, ha, av, ah, hp⟩ := filter_process p.build p.shuffle hsh f (readable_writable h2).uniform _ r hopt
  rcases hp with ⟨qs', h3, h4⟩ | ⟨h3, -⟩
  · obtain rfl := filterSteps_unique hq h3
    simp only [Name.run, Main.filter, filterArgs, withOperands, ha, hops, inOut, Res.ok_bind, av, ah, Bool.false_eq_true, if_false,
      readThenWrite, h1, Apps.fileOf, h2, h4]
  · exact absurd ⟨qs, hq⟩ h3

/-- **C76**, srs: the output holds the same cloud with the new text. -/
theorem c76_srs_partial (p : Params) (hz : p.zlib.Correct) (w : World) (argv : List Str) (i o t : Str)
    (hopt : Cmd.srs.options argv = [("srs", t)]) (hops : Cmd.srs.operands argv = [i, o])
    (hc : CanReplace w o) (f : SpocFile) (hf : HasCloud p w.fs i f) (hs : Survives p.zlib { f with wkt := Main.bytes t }) :
    Makes .srs p w argv o { f with wkt := Main.bytes t } := by
  obtain ⟨s, s', h1, h2⟩ := hasCloud_open hf
  obtain ⟨g, h3, h4⟩ := openWrite_readable hc
  obtain ⟨h5, h6⟩ := survives_roundtrip p.build p.zlib hz _ hs
  have ha : Cmd.srsArgs [("srs", t)] {} = .ok { srs := some t } := rfl
  have e : f.setWkt (Main.bytes t) = { f with wkt := Main.bytes t } := rfl
  unfold Makes
  simp only [Name.run, Main.srs, hopt, hops, ha, Bool.false_eq_true, if_false, h1, h2, Apps.fileOf, Res.ok_bind, h3, e, h5]
  refine ⟨rfl, trivial, ⟨{ g with content := (Io.writeFile p.build p.zlib { f with wkt := Main.bytes t }).bytes }, { rest := [] },
    by simp [Tile.FS.set], h4, by simpa using h6 []⟩, fun m hm => by simp [Tile.FS.set, hm]⟩

theorem showSrs_cloud {p : Params} {s s' : IStream} {f : SpocFile} (h : Io.readFile p.build p.zlib s = .ok (f, s')) :
    Apps.showSrs s = ⟨f.wkt ++ [10], .ok ()⟩ := by
  obtain ⟨h, s1, h1, _, _, h4, _⟩ := (c09_reader_safe p.build p.zlib s).2.2 f s' h
  unfold Apps.showSrs
  rw [h1]
  simp [Out.emit, ← h4]

/-- **C76**, srs without `--srs`: the texts of all the files, one per line, in the order of the command line. -/
theorem c76_show_srs (p : Params) (w : World) (argv : List Str) (hopt : Cmd.srs.options argv = []) (hne : Cmd.srs.operands argv ≠ [])
    (fs : List SpocFile) (hf : List.Forall₂ (fun n f => HasCloud p w.fs n f) (Cmd.srs.operands argv) fs) :
    Name.srs.run p argv w = ⟨w.fs, fs.flatMap (fun f => f.wkt ++ [10]), .ok 0⟩ := by
  have key : ∀ (ns : List Str) (fs : List SpocFile), List.Forall₂ (fun n f => HasCloud p w.fs n f) ns fs →
      showSrsLoop w.fs ns = ⟨fs.flatMap (fun f => f.wkt ++ [10]), .ok ()⟩ := by
    intro ns fs h
    induction h with
    | nil => rfl
    | cons h _ ih =>
      obtain ⟨s, s', h1, h2⟩ := hasCloud_open h
      unfold showSrsLoop
      rw [h1]
      simp only [Out.lift_ok_bind]
      rw [showSrs_cloud h2, ih, Out.mk_ok_bind]
      rfl
  have k := key _ _ hf
  have ha : Cmd.srsArgs [] {} = .ok {} := rfl
  simp only [Name.run, Main.srs, hopt, ha, Bool.false_eq_true, if_false]
  cases ho : Cmd.srs.operands argv with
  | nil => exact absurd ho hne
  | cons n ns =>
    rw [ho] at k
    cases ns with
    | nil => simp only [outputStream, k]; rfl
    | cons m ms => cases ms <;> (simp only [outputStream, k]; rfl)

/-- The cloud of C41. -/
def mergedCloud (asked : Option Nat) (f : SpocFile) (fs : List SpocFile) : SpocFile where
  major := majorVersion
  minor := minorVersion
  wkt := f.wkt
  compressed := (f :: fs).all (fun f => f.compressed)
  prs := mergedPoints (idOf asked) (f :: fs)

/-- **C76**, merge: the standard output receives the cloud of C41. -/
theorem c76_merge_partial (p : Params) (hz : p.zlib.Correct) (w : World) (argv : List Str) (quiet : Bool) (asked : Option Nat)
    (ha : ∀ n ∈ asked, n < 2 ^ 31) (hopt : Cmd.merge.options argv = mergeOptions quiet asked) (f : SpocFile) (fs : List SpocFile)
    (hf : List.Forall₂ (fun n f => HasCloud p w.fs n f) (Cmd.merge.operands argv) (f :: fs)) (h2 : fs ≠ [])
    (hu : Uniform (allPoints (f :: fs)))
    (hs : Survives p.zlib (mergedCloud asked f fs)) :
    (Name.merge.run p argv w).res = .ok 0 ∧ (Name.merge.run p argv w).fs = w.fs
      ∧ ∃ s, Io.readFile p.build p.zlib { rest := (Name.merge.run p argv w).out }
        = .ok (mergedCloud asked f fs, s) := by
  have hin : Merge.Contain p.build p.zlib ((Cmd.merge.operands argv).map (openRead w.fs)) (f :: fs) := by
    generalize Cmd.merge.operands argv = ns at hf
    generalize f :: fs = l at hf
    clear hs hu h2
    induction hf with
    | nil => exact .nil
    | cons h _ ih =>
      obtain ⟨s, s', h1, h2⟩ := hasCloud_open h
      exact .cons ⟨s, s', h1, h2⟩ ih
  obtain ⟨log, h3, -⟩ := c41_merge p.build p.zlib _ f fs hin h2 hu quiet asked ha
  obtain ⟨h4, h5⟩ := survives_roundtrip p.build p.zlib hz _ hs
  unfold mergedCloud at h4 h5 ⊢
  simp only [Name.run, Main.merge, hopt, h3, outputStream, List.isEmpty_nil, if_true, h4]
  exact ⟨rfl, trivial, _, by simpa using h5 []⟩

/-- **C76**, diff: the status is 0 exactly if what was asked to be compared is the same (with the reverse option, exactly if not). -/
theorem c76_diff (p : Params) (w : World) (argv : List Str) (m : Mode) (reverse : Bool)
    (hopt : Cmd.diff.options argv = modeOptions m reverse) (i j : Str) (hops : Cmd.diff.operands argv = [i, j]) (f g : SpocFile)
    (hf : HasCloud p w.fs i f) (hg : HasCloud p w.fs j g) :
    (Diff.exitStatus (Name.diff.run p argv w).res = some 0 ↔ (Same m f g ↔ reverse = false))
      ∧ (Name.diff.run p argv w).fs = w.fs ∧ (Name.diff.run p argv w).out = [] := by
  obtain ⟨s, s', h1, h2⟩ := hasCloud_open hf
  obtain ⟨t, t', h3, h4⟩ := hasCloud_open hg
  have h5 := c54_app p.build p.zlib m reverse s t s' t' f g h2 h4
  have h6 : ∃ a, Diff.getArgs (modeOptions m reverse) {} = .ok a ∧ a.version = false ∧ a.help = false := by
    cases m <;> cases reverse <;> exact ⟨_, rfl, rfl, rfl⟩
  obtain ⟨a, h6, h7, h8⟩ := h6
  simp only [Name.run, Main.diff, withOperands, hopt, hops, h6, h7, h8, two, Res.ok_bind, Bool.false_eq_true, if_false, h1, h3]
  exact ⟨h5, trivial, trivial⟩

/-- **C76**, info: the reports on the files, one after the other, in the order of the command line. -/
theorem c76_info (p : Params) (w : World) (argv : List Str) (a : Info.Args)
    (hopt : Info.getArgs ((Cmd.info.options argv).map (·.1)) {} = .ok a) (hv : a.version = false) (hh : a.help = false)
    (hne : Cmd.info.operands argv ≠ []) (fts : List (SpocFile × Str))
    (hf : List.Forall₂ (fun n (ft : SpocFile × Str) => HasCloud p w.fs n ft.1 ∧ Info.process p.build p.sort a ft.1 = .ok ft.2)
      (Cmd.info.operands argv) fts) :
    Name.info.run p argv w = ⟨w.fs, fts.flatMap (fun ft => Main.bytes ft.2), .ok 0⟩ := by
  have key : ∀ (ns : List Str) (fts : List (SpocFile × Str)),
      List.Forall₂ (fun n (ft : SpocFile × Str) => HasCloud p w.fs n ft.1 ∧ Info.process p.build p.sort a ft.1 = .ok ft.2) ns fts →
      Info.processAll p.build p.zlib p.sort a (ns.map (openRead w.fs)) = (fts.flatMap (·.2), .ok ()) := by
    intro ns fts h
    induction h with
    | nil => rfl
    | cons h _ ih =>
      obtain ⟨s, s', h1, h2⟩ := hasCloud_open h.1
      rw [List.map_cons, h1]
      unfold Info.processAll
      simp only [Apps.fileOf, h2, Res.ok_bind, h.2, ih, List.flatMap_cons]
  have k := key _ _ hf
  have he : ((Cmd.info.operands argv).map (openRead w.fs)).isEmpty = false := by
    cases h : Cmd.info.operands argv with
    | nil => exact absurd h hne
    | cons => rfl
  simp only [Name.run, Main.info, Info.main, hopt, hv, hh, he, Bool.false_eq_true, if_false, k]
  simp only [Main.bytes, List.map_flatMap]
  rfl

/-- **C76**, tool: a command that prints a text prints it to the standard output; a command that makes a file leaves it in the output file.
What these are is said in C47 to C53. -/
theorem c76_tool (p : Params) (w : World) (argv : List Str) (i o : Str) (hops : Cmd.tool.operands argv = [i, o]) (hi : i ≠ []) (ho : o ≠ [])
    (hc : CanReplace w o) (x : Tile.File) (hx : w.fs i = some x) (hr : x.readable = true) (y : Tool.Output)
    (hm : Tool.main p.build p.zlib (toolFiles w.fs) (Cmd.tool.options argv) { rest := x.content } = .ok y) :
    (∀ t, y = .text t → Name.tool.run p argv w = ⟨w.fs, Main.bytes t, .ok 0⟩)
    ∧ ∀ z, y = .file z → z.res = .ok () →
        (Name.tool.run p argv w).res = .ok 0 ∧ (Name.tool.run p argv w).out = [] ∧ content (Name.tool.run p argv w).fs o = some z.bytes
        ∧ ∀ m, m ≠ o → (Name.tool.run p argv w).fs m = w.fs m := by
  unfold Tool.main at hm
  obtain ⟨a, ha, hm⟩ := Res.bind_eq_ok.mp hm
  have hin : inputStream w i = .ok { rest := x.content } := by simp [inputStream, hi, openRead, hx, hr]
  by_cases hv : a.version = true
  · rw [if_pos hv] at hm
    obtain rfl := Res.ok.inj hm
    exact ⟨fun t h => by simp at h, fun z h => by simp at h⟩
  rw [if_neg hv] at hm
  by_cases hh : a.help = true
  · rw [if_pos hh] at hm
    obtain rfl := Res.ok.inj hm
    exact ⟨fun t h => by simp at h, fun z h => by simp at h⟩
  rw [if_neg hh] at hm
  by_cases hn : a.command.name = ""
  · rw [if_pos hn] at hm
    simp at hm
  rw [if_neg hn] at hm
  obtain ⟨f, hf, hm⟩ := Res.bind_eq_ok.mp hm
  by_cases hg : a.command.name = "get-field"
  · rw [if_pos hg] at hm
    obtain ⟨⟨name, rest⟩, h1, hm⟩ := Res.bind_eq_ok.mp hm
    obtain ⟨t, h2, hm⟩ := Res.bind_eq_ok.mp hm
    obtain rfl := Res.ok.inj hm
    refine ⟨?_, fun z h => by simp at h⟩
    rintro t' h
    obtain rfl : t = t' := by simpa using h
    simp only [Name.run, Main.tool, toolArgs, withOperands, ha, hops, inOut, Res.ok_bind, hv, hh, hg, hin, hf, h1, h2,
      Bool.false_eq_true, if_false, if_true]
    rw [if_neg (by decide)]
  · rw [if_neg hg] at hm
    obtain ⟨g, h1, hm⟩ := Res.bind_eq_ok.mp hm
    obtain rfl := Res.ok.inj hm
    refine ⟨fun t h => by simp at h, ?_⟩
    rintro z h hz
    obtain rfl : Io.writeFile p.build p.zlib g = z := by simpa using h
    have e : Name.tool.run p argv w = outputStream w o (Io.writeFile p.build p.zlib g) := by
      simp only [Name.run, Main.tool, toolArgs, withOperands, ha, hops, inOut, Res.ok_bind, hv, hh, hn, hg, hin, hf, h1, readThenWrite,
        Bool.false_eq_true, if_false]
    obtain ⟨h3, h4, ⟨f', h5, h6, h7⟩, h8⟩ := outputStream_leaves ho hc hz
    rw [e]
    exact ⟨h3, h4, by rw [content, h5, Option.map_some, h7], h8⟩

/-- **C76**, transform: the output holds what the streaming application writes (C31 to C38), if input and output are different files. -/
theorem c76_transform (p : Params) (w : World) (argv : List Str) (i o : Str) (hops : Cmd.transform.operands argv = [i, o])
    (hi : i ≠ []) (ho : o ≠ []) (hio : i ≠ o) (hc : CanReplace w o) (x : Tile.File) (hx : w.fs i = some x) (hr : x.readable = true)
    (a : Transform.Args) (ha : Transform.getArgs (Cmd.transform.options argv) {} = .ok a) (hv : a.version = false) (hh : a.help = false)
    (hm : (Transform.main p.build p.env (Cmd.transform.options argv) { rest := x.content }).res = .ok ()) :
    (Name.transform.run p argv w).res = .ok 0 ∧ (Name.transform.run p argv w).out = []
      ∧ content (Name.transform.run p argv w).fs o
          = some (Transform.main p.build p.env (Cmd.transform.options argv) { rest := x.content }).bytes
      ∧ ∀ m, m ≠ o → (Name.transform.run p argv w).fs m = w.fs m := by
  have hin : inputStream w i = .ok { rest := x.content } := by simp [inputStream, hi, openRead, hx, hr]
  have he : (decide (i = o)) = false := by simpa using hio
  unfold Transform.main at hm ⊢
  rw [ha] at hm ⊢
  simp only [Out.lift_ok_bind, hv, hh, Bool.false_eq_true, if_false] at hm ⊢
  by_cases hk : a.commands.isEmpty = true
  · rw [if_pos hk] at hm
    exact absurd hm (by simp [Out.lift])
  rw [if_neg hk] at hm ⊢
  have e : Name.transform.run p argv w
      = outputStream w o (Transform.apply p.build p.env { rest := x.content } a.commands (UInt64.ofInt a.seed).toNat) := by
    simp only [Name.run, Main.transform, transformArgs, withOperands, ha, hops, inOut, Res.ok_bind, hv, hh, hk, hin, he, Bool.and_false,
      Bool.false_eq_true, if_false]
  obtain ⟨h3, h4, ⟨f', h5, h6, h7⟩, h8⟩ := outputStream_leaves ho hc hm
  rw [e]
  exact ⟨h3, h4, by rw [content, h5, Option.map_some, h7], h8⟩

/-- **C76**, tile: every tile of C43 is in a file of its own. -/
theorem c76_tile_partial (p : Params) (hz : p.zlib.Correct) (w : World) (argv : List Str) (i : Str)
    (hops : Cmd.tile.operands argv = [i]) (hi : i ≠ []) (f : SpocFile) (hf : HasCloud p w.fs i f) (hs : Survives p.zlib f)
    (hu : f.compressed = false) (a : Tile.Args) (ha : Tile.getArgs (Cmd.tile.options argv) {} = .ok a) (hv : a.version = false)
    (hh : a.help = false) {sx sy : F64} {numbers : List UInt64} (hsz : Tile.tileSizes a (Extent.ofPoints f.prs) = .ok (sx, sy))
    (hn : Tile.getTileIndexes f.prs (Extent.ofPoints f.prs) sx sy = .ok numbers)
    (hpre : (if a.pre.isEmpty then Tile.stem i else a.pre) ≠ [])
    (hnew : ∀ k ∈ numbers, w.fs (tileName { a with fn := i } f k) = none)
    (hcc : ∀ k ∈ numbers, w.canCreate (tileName { a with fn := i } f k) = true) :
    (Name.tile.run p argv w).res = .ok 0 ∧ (Name.tile.run p argv w).out = []
      ∧ (∀ k ∈ numbers, HasCloud p (Name.tile.run p argv w).fs (tileName { a with fn := i } f k) (tileOf f numbers k))
      ∧ ∀ m, (∀ k ∈ numbers, m ≠ tileName { a with fn := i } f k) → (Name.tile.run p argv w).fs m = w.fs m := by
  obtain ⟨x, s', h1, h2, h3⟩ := hf
  have hin : tileInput i w.stdin w.fs = some { rest := x.content } := by
    have hi' : i.isEmpty = false := by simpa using hi
    simp only [tileInput, hi', Bool.false_eq_true, if_false, h1, h2, if_true]
  have hb := fun k => c43_tile_read_back p.build p.zlib hz f hs hu numbers k
  obtain ⟨fs', e, h4, h5⟩ := c43_tiles_written p.build p.zlib w.canCreate (Cmd.tile.options argv) i w.stdin _ s' w.fs a f ha hv hh
    (Or.inl hi) hin h3 hsz hn hpre hnew hcc (fun k _ => (hb k).1)
  have er : Name.tile.run p argv w = ⟨fs', [], .ok 0⟩ := by
    simp only [Name.run, Main.tile, withOperands, ha, hh, hops, one, Res.ok_bind, hv, Bool.false_eq_true, if_false, e]
    rfl
  rw [er]
  exact ⟨rfl, rfl, fun k hk => ⟨_, _, h4 k hk, rfl, (hb k).2⟩, h5⟩

/-- A point without its point id. -/
def withoutId (q : PointRecord) : PointRecord := { q with p := 0 }

theorem mergedPoints_withoutId (id : Nat → UInt32) (fs : List SpocFile) :
    (mergedPoints id fs).map withoutId = (allPoints fs).map withoutId := by
  unfold mergedPoints allPoints
  induction fs generalizing id with
  | nil => rfl
  | cons f fs ih =>
    rw [List.mapIdx_cons, List.flatten_cons, List.map_append, ih (fun i => id (i + 1)), List.flatMap_cons, List.map_append]
    rw [List.map_map]
    rfl

theorem mergedPoints_extra (id : Nat → UInt32) (fs : List SpocFile) (P : Nat → Prop) (h : ∀ q ∈ allPoints fs, P q.extra.length) :
    ∀ q ∈ mergedPoints id fs, P q.extra.length := by
  intro q hq
  have h1 := List.mem_map_of_mem (f := withoutId) hq
  rw [mergedPoints_withoutId] at h1
  obtain ⟨q', h2, h3⟩ := List.mem_map.mp h1
  have h4 : (withoutId q').extra = (withoutId q).extra := congrArg PointRecord.extra h3
  change q'.extra = q.extra at h4
  rw [← h4]
  exact h q' h2

/-- **C76**: splitting a file into tiles and merging these, with two command lines, gives all the points of the file, in another order and
with other point ids, and its spatial reference. -/
theorem c76_tile_merge_partial (p : Params) (hz : p.zlib.Correct) (w : World) (argv : List Str) (i : Str)
    (hops : Cmd.tile.operands argv = [i]) (hi : i ≠ []) (f : SpocFile) (hf : HasCloud p w.fs i f) (hs : Survives p.zlib f)
    (hu : f.compressed = false) (a : Tile.Args) (ha : Tile.getArgs (Cmd.tile.options argv) {} = .ok a) (hv : a.version = false)
    (hh : a.help = false) {sx sy : F64} {numbers : List UInt64} (hsz : Tile.tileSizes a (Extent.ofPoints f.prs) = .ok (sx, sy))
    (hn : Tile.getTileIndexes f.prs (Extent.ofPoints f.prs) sx sy = .ok numbers)
    (hpre : (if a.pre.isEmpty then Tile.stem i else a.pre) ≠ [])
    (hnew : ∀ k ∈ numbers, w.fs (tileName { a with fn := i } f k) = none)
    (hcc : ∀ k ∈ numbers, w.canCreate (tileName { a with fn := i } f k) = true)
    (argv' : List Str) (quiet : Bool) (asked : Option Nat) (hid : ∀ n ∈ asked, n < 2 ^ 31)
    (hopt' : Cmd.merge.options argv' = mergeOptions quiet asked) (ks : List UInt64) (hnd : ks.Nodup) (hk : ∀ k, k ∈ ks ↔ k ∈ numbers)
    (h2 : 2 ≤ ks.length) (hops' : Cmd.merge.operands argv' = ks.map (tileName { a with fn := i } f)) :
    (Name.merge.run p argv' (after .tile p argv w)).res = .ok 0
      ∧ ∃ g s, Io.readFile p.build p.zlib { rest := (Name.merge.run p argv' (after .tile p argv w)).out } = .ok (g, s)
        ∧ g.wkt = f.wkt ∧ g.compressed = false ∧ (g.prs.map withoutId).Perm (f.prs.map withoutId) := by
  obtain ⟨h3, h4, h5, h6⟩ := c76_tile_partial p hz w argv i hops hi f hf hs hu a ha hv hh hsz hn hpre hnew hcc
  have hl : numbers.length = f.prs.length := by
    unfold Tile.getTileIndexes at hn
    rw [Res.bind_eq_ok] at hn
    obtain ⟨st, _, hm⟩ := hn
    exact mapM_length hm
  have hperm := Tile.tiles_perm f.prs numbers hl ks hnd hk
  match ks, h2 with
  | k :: k' :: ks, _ =>
    have hall : allPoints (tileOf f numbers k :: (k' :: ks).map (tileOf f numbers)) = (k :: k' :: ks).flatMap (pointsNumbered f.prs numbers) := by
      rw [← List.map_cons (f := tileOf f numbers), allPoints, List.flatMap_map]
      rfl
    have hmem : ∀ q ∈ allPoints (tileOf f numbers k :: (k' :: ks).map (tileOf f numbers)), q ∈ f.prs := by
      intro q hq
      rw [hall] at hq
      exact hperm.subset hq
    have hlen : (mergedPoints (idOf asked) (tileOf f numbers k :: (k' :: ks).map (tileOf f numbers))).length = f.prs.length := by
      have := congrArg List.length (mergedPoints_withoutId (idOf asked) (tileOf f numbers k :: (k' :: ks).map (tileOf f numbers)))
      rw [List.length_map, List.length_map, hall] at this
      rw [this, hperm.length_eq]
    have hcmp : (tileOf f numbers k :: (k' :: ks).map (tileOf f numbers)).all (fun f => f.compressed) = false := by
      simp [tileOf, hu]
    have hsv : Survives p.zlib (mergedCloud asked (tileOf f numbers k) ((k' :: ks).map (tileOf f numbers))) := by
      refine ⟨⟨rfl, rfl, hs.1.wkt, ?_, ?_, ?_⟩, fun _ => ?_, fun h => ?_⟩
      · cases hp : f.prs with
        | nil =>
          rw [hp] at hlen
          have : (mergedCloud asked (tileOf f numbers k) ((k' :: ks).map (tileOf f numbers))).prs = [] := List.eq_nil_of_length_eq_zero hlen
          rw [this]
          intro q hq
          cases hq
        | cons q0 l =>
          have hq0 : q0 ∈ f.prs := by rw [hp]; exact List.mem_cons_self
          have := mergedPoints_extra (idOf asked) _ (fun n => n = q0.extra.length) (fun q hq => hs.1.uniform q (hmem q hq) q0 hq0)
          exact fun q hq r hr => (this q hq).trans (this r hr).symm
      · exact mergedPoints_extra (idOf asked) _ (· ≤ 255) (fun q hq => hs.1.extra q (hmem q hq))
      · exact hlen ▸ hs.1.count
      · exact mergedPoints_extra (idOf asked) _ (· ≤ 123) (fun q hq => hs.2.1 hu q (hmem q hq))
      · exact absurd (hcmp.symm.trans h) (by simp)
    obtain ⟨h7, -, s, h8⟩ := c76_merge_partial p hz (after .tile p argv w) argv' quiet asked hid hopt' (tileOf f numbers k)
      ((k' :: ks).map (tileOf f numbers)) (by
        rw [hops', ← List.map_cons (f := tileOf f numbers), List.forall₂_map_left_iff, List.forall₂_map_right_iff, List.forall₂_same]
        exact fun k hm => h5 k ((hk k).mp hm)) (by simp) (fun q hq r hr => hs.1.uniform q (hmem q hq) r (hmem r hr)) hsv
    refine ⟨h7, _, s, h8, rfl, hcmp, ?_⟩
    show ((mergedPoints (idOf asked) _).map withoutId).Perm _
    rw [mergedPoints_withoutId, hall]
    exact hperm.map withoutId

/-! ## Examples -/

/-- A cloud. -/
def cloudA : SpocFile := { SpocFile.empty with prs := tilePoints }

theorem cloudA_survives : Survives toyZlib cloudA :=
  ⟨⟨rfl, rfl, by decide, by unfold Uniform; decide, by decide, by decide⟩, fun _ => by decide, fun h => by simp [cloudA, SpocFile.empty] at h⟩

theorem cloudA_zeros : NoHiddenNegZero cloudA.prs := by
  rintro axis (rfl | rfl | rfl) <;> intro h <;> revert h <;> unfold OnlyZeros <;> decide +kernel

def exampleParams : Params := ⟨.release, toyZlib, noShuffle, exampleSort, exampleEnv⟩

/-- Two readable files, one called `a` and one called `d`, with the same cloud, and a compressed one, called `z`. -/
def exampleDisk : World where
  fs := fun n =>
    if n = ['a'] ∨ n = ['d'] then some { content := (Io.writeFile .release toyZlib cloudA).bytes, readable := true, writable := true }
    else if n = ['z'] then
      some { content := (Io.writeFile .release toyZlib { cloudA with compressed := true }).bytes, readable := true, writable := true }
    else none
  canCreate _ := true
  stdin := { rest := [] }

theorem cloudA_on_disk : HasCloud exampleParams exampleDisk.fs ['a'] cloudA ∧ HasCloud exampleParams exampleDisk.fs ['d'] cloudA := by
  have h := (survives_roundtrip .release toyZlib toyZlib_correct cloudA cloudA_survives).2 []
  rw [List.append_nil] at h
  exact ⟨⟨_, _, rfl, rfl, h⟩, ⟨_, _, rfl, rfl, h⟩⟩

theorem cloudZ_on_disk : HasCloud exampleParams exampleDisk.fs ['z'] { cloudA with compressed := true } := by
  have h := (survives_roundtrip .release toyZlib toyZlib_correct { cloudA with compressed := true }
    ⟨writable_flag cloudA_survives.1 true, fun h => by simp at h, fun _ => ⟨toyZlib_fits (by decide), cloudA_zeros⟩⟩).2 []
  rw [List.append_nil] at h
  exact ⟨_, _, rfl, rfl, h⟩

example : Makes .compress exampleParams exampleDisk [['-', 'v'], ['a'], ['o']] ['o'] { cloudA with compressed := true } :=
  c76_compress_partial exampleParams toyZlib_correct exampleDisk _ ['a'] ['o'] (by unfold OnlyVerbose; decide +kernel) (by decide +kernel)
    (by decide) (by decide) rfl cloudA cloudA_on_disk.1 rfl (toyZlib_fits (by decide)) cloudA_zeros

example : Makes .decompress exampleParams exampleDisk [['z'], ['a']] ['a'] cloudA :=
  c76_decompress_partial exampleParams toyZlib_correct exampleDisk _ ['z'] ['a'] (by unfold OnlyVerbose; decide +kernel) (by decide +kernel)
    (by decide) (by decide) ⟨rfl, rfl⟩ _ cloudZ_on_disk rfl (by decide)

example : Makes .decompress exampleParams (after .compress exampleParams [['a'], ['o']] exampleDisk) [['o'], ['u']] ['u'] cloudA :=
  (c76_there_and_back_partial exampleParams toyZlib_correct exampleDisk _ _ ['a'] ['o'] ['u'] (by unfold OnlyVerbose; decide +kernel)
    (by decide +kernel) (by unfold OnlyVerbose; decide +kernel) (by decide +kernel) (by decide) (by decide) (by decide) (by decide) rfl rfl
    cloudA cloudA_on_disk.1 rfl (by decide) (toyZlib_fits (by decide)) cloudA_zeros).2

example : Makes .filter exampleParams exampleDisk [['-', 'k', '2'], ['a'], ['o']] ['o'] { cloudA with prs := [] } := by
  have e : Cmd.filter.options [['-', 'k', '2'], ['a'], ['o']] = [("keep-class", ['2'])] := by decide +kernel
  refine c76_filter_partial exampleParams toyZlib_correct (fun _ l => List.Perm.refl l) exampleDisk _ ['a'] ['o'] { keep := [2] } ?_
    (by decide +kernel) (by decide) (by decide) rfl cloudA cloudA_on_disk.1 [] ⟨_, _, _, _, rfl, rfl, rfl, rfl, ?_⟩ ?_
  · rw [e]
    exact ⟨by decide, by decide, by decide, by decide, by decide, by simp, rfl, .inr ⟨rfl, rfl⟩, by decide, .inl rfl⟩
  · decide
  · exact survives_sublist cloudA_survives rfl (List.nil_sublist _)

example : Makes .srs exampleParams exampleDisk (srsLine ['W'] ['a'] ['o']) ['o'] { cloudA with wkt := [87] } :=
  c76_srs_partial exampleParams toyZlib_correct exampleDisk _ ['a'] ['o'] ['W'] (srsLine_parse _ _ _).1 (srsLine_parse _ _ _).2 rfl cloudA
    cloudA_on_disk.1 ⟨⟨rfl, rfl, by decide, cloudA_survives.1.uniform, by decide, by decide⟩, fun _ => by decide,
      fun h => by simp [cloudA, SpocFile.empty] at h⟩

example : Name.srs.run exampleParams [['a'], ['d']] exampleDisk = ⟨exampleDisk.fs, [10, 10], .ok 0⟩ :=
  c76_show_srs exampleParams exampleDisk _ (by decide +kernel) (by decide +kernel) [cloudA, cloudA]
    (.cons cloudA_on_disk.1 (.cons cloudA_on_disk.2 .nil))

example : (Name.merge.run exampleParams [['a'], ['d']] exampleDisk).res = .ok 0 :=
  (c76_merge_partial exampleParams toyZlib_correct exampleDisk [['a'], ['d']] false none (by simp) (by decide +kernel) cloudA [cloudA]
    (.cons cloudA_on_disk.1 (.cons cloudA_on_disk.2 .nil)) (by simp) (by unfold Uniform; decide +kernel)
    ⟨⟨rfl, rfl, by decide, by unfold Uniform; decide +kernel, by decide +kernel, by decide +kernel⟩, fun _ => by decide +kernel,
      fun h => by simp [mergedCloud, cloudA, SpocFile.empty] at h⟩).1

example : Diff.exitStatus (Name.diff.run exampleParams [['a'], ['d']] exampleDisk).res = some 0 ↔ (Same .full cloudA cloudA ↔ false = false) :=
  (c76_diff exampleParams exampleDisk _ .full false (by decide +kernel) ['a'] ['d'] (by decide +kernel) cloudA cloudA cloudA_on_disk.1
    cloudA_on_disk.2).1

example : (Name.info.run exampleParams [['-', 's'], ['-', 'l'], ['-', 'm'], ['a'], ['d']] exampleDisk).res = .ok 0 := by
  obtain ⟨t, ht⟩ : ∃ t, Info.process .release exampleSort { summaryInfo := false, classInfo := false, metricInfo := false } cloudA = .ok t :=
    ⟨_, rfl⟩
  rw [c76_info exampleParams exampleDisk _ { summaryInfo := false, classInfo := false, metricInfo := false } (by decide +kernel) rfl rfl
    (by decide +kernel) [(cloudA, t), (cloudA, t)] (.cons ⟨cloudA_on_disk.1, ht⟩ (.cons ⟨cloudA_on_disk.2, ht⟩ .nil))]

/-- The options of `--get-field=c` and `--recenter-xy`. -/
example : Name.tool.run exampleParams [['-', 'g', 'c'], ['a'], ['o']] exampleDisk
    = ⟨exampleDisk.fs, [48, 10, 48, 10, 48, 10], .ok 0⟩ := by
  refine (c76_tool exampleParams exampleDisk [['-', 'g', 'c'], ['a'], ['o']] ['a'] ['o'] (by decide +kernel) (by decide) (by decide) rfl _
    rfl rfl (.text ['0', '\n', '0', '\n', '0', '\n']) ?_).1 _ rfl
  decide +kernel

example : content (Name.tool.run exampleParams ["--subtract-min-xy".toList, ['a'], ['o']] exampleDisk).fs ['o']
    = some (Io.writeFile .release toyZlib cloudA).bytes := by
  refine ((c76_tool exampleParams exampleDisk ["--subtract-min-xy".toList, ['a'], ['o']] ['a'] ['o'] (by decide +kernel) (by decide)
    (by decide) rfl _ rfl rfl (.file (Io.writeFile .release toyZlib cloudA)) ?_).2 _ rfl ?_).2.2.1 <;> decide +kernel

example : (Name.transform.run exampleParams (transformLine ['a'] ['o']) exampleDisk).res = .ok 0 := by
  refine (c76_transform exampleParams exampleDisk _ ['a'] ['o'] (by decide +kernel) (by decide) (by decide) (by decide) rfl _
    rfl rfl { commands := [⟨"copy-field", "i,c".toList⟩] } ?_ rfl rfl ?_).1 <;> decide +kernel

theorem tile_merge_example : ∃ g s, Io.readFile .release toyZlib { rest := (Name.merge.run exampleParams
        ["a000".toList, "a001".toList, "a003".toList]
        (after .tile exampleParams ["-s10".toList, "-d3".toList, ['a']] exampleDisk)).out } = .ok (g, s)
      ∧ g.wkt = [] ∧ g.compressed = false ∧ (g.prs.map withoutId).Perm (tilePoints.map withoutId) :=
  (c76_tile_merge_partial exampleParams toyZlib_correct exampleDisk ["-s10".toList, "-d3".toList, ['a']] ['a'] (by decide +kernel) (by decide)
    cloudA cloudA_on_disk.1 cloudA_survives rfl { tileSize := num 10 } (by decide +kernel) rfl rfl (sx := num 10) (sy := num 10)
    (numbers := [0, 1, 3]) (by decide +kernel) (by decide +kernel) (by decide) (by decide +kernel) (fun _ _ => rfl)
    ["a000".toList, "a001".toList, "a003".toList] false none (by simp) (by decide +kernel) [0, 1, 3] (by decide)
    (fun _ => Iff.rfl) (by decide) (by decide +kernel)).2

end Spoc.Props
