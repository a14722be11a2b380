import Verif.Proofs.AppSafe3
import Verif.Props.EndToEnd
import Verif.Props.Switches

/-!
# C85: no file and no command line makes an application misbehave

The outcomes other than a return and an exception are: undefined behaviour, a failed `assert` and a loop that does not end.
-/

namespace Spoc.Props

open Main Io Spec AppSafe

theorem resWithin_iff {α : Type} {H : Prop} {r : Res α} : r.Within H ↔ r.Returns ∨ (r = .hang ∧ H) := by
  unfold Res.Within Res.Returns
  rw [or_assoc]

theorem resWithin_returns {α : Type} {H : Prop} {r : Res α} (h : r.Within H) (hn : ¬ H) : r.Returns :=
  (resWithin_iff.mp h).resolve_right fun k => hn k.2

/-- **C85** for compress, decompress, diff, merge and srs: whatever the command line, the files and the standard input contain, in either build,
the application returns or throws an exception, except that it may not end if one of the inputs has points with more than 123 extra fields
and is not compressed. -/
theorem c85_five_partial (n : Name) (hn : n ∈ [Name.compress, .decompress, .diff, .merge, .srs]) (p : Params) (argv : List Str) (w : World) :
    (n.run p argv w).res.Returns ∨ ((n.run p argv w).res = .hang ∧ SomeEndless w) := by
  rw [← resWithin_iff]
  simp only [List.mem_cons, List.not_mem_nil, or_false] at hn
  rcases hn with rfl | rfl | rfl | rfl | rfl
  · exact compress_within p.build p.zlib argv w
  · exact decompress_within p.build p.zlib argv w
  · exact diff_within p.build p.zlib argv w
  · exact merge_within p.build p.zlib argv w
  · exact srs_within p.build p.zlib argv w

/-- **C85** for decompress: it always returns or throws an exception. -/
theorem c85_decompress (p : Params) (argv : List Str) (w : World) : (Name.decompress.run p argv w).res.Returns :=
  resWithin_returns (decompress_within p.build p.zlib argv w) id

/-- **C85** for filter: the same for every command line without the option `subsample`. -/
theorem c85_filter_partial (p : Params) (hsh : p.shuffle.Lawful) (argv : List Str) (w : World)
    (hs : ∀ o ∈ Cmd.filter.options argv, o.1 ≠ "subsample") :
    (Name.filter.run p argv w).res.Returns ∨ ((Name.filter.run p argv w).res = .hang ∧ SomeEndless w) :=
  resWithin_iff.mp (filter_within p.build p.zlib hsh argv w hs)

/-- **C85** for tool: the same for every command line without the option `upsample-classifications`, without a `get-field` that asks for an
extra field, and without an empty argument of `get-field` and `set-field`; the last is harmless in the release build. -/
theorem c85_tool_partial (p : Params) (argv : List Str) (w : World)
    (ho : ∀ o ∈ Cmd.tool.options argv, o.1 ≠ "upsample-classifications" ∧ (o.1 = "get-field" → o.2.head? ≠ some 'e')
      ∧ (o.1 = "get-field" ∨ o.1 = "set-field" → p.build = .release ∨ o.2 ≠ [])) :
    (Name.tool.run p argv w).res.Returns ∨ ((Name.tool.run p argv w).res = .hang ∧ SomeEndless w) := by
  refine resWithin_iff.mp (tool_within p.build p.zlib argv w fun a i o ha => ?_)
  rcases tool_command (toolArgs_args ha) with h | h
  · have h : a.command.name = "" := by rw [h]
    refine ⟨?_, fun h' => ?_, fun h' => ?_⟩
    · rw [h]
      decide
    · rw [h] at h'
      exact absurd h' (by decide)
    · rw [h] at h'
      exact absurd h' (by decide)
  · obtain ⟨h1, h2, h3⟩ := ho _ h
    exact ⟨h1, fun e => ⟨h3 (.inl e), h2 e⟩, fun e => h3 (.inr e)⟩

/-- **C85** for transform, release build: for every command line without the options `quantize-xyz` and `set`, it returns or throws an exception. -/
theorem c85_transform_partial (p : Params) (hb : p.build = .release) (argv : List Str) (w : World)
    (ho : ∀ o ∈ Cmd.transform.options argv, o.1 ≠ "quantize-xyz" ∧ o.1 ≠ "set") : (Name.transform.run p argv w).res.Returns := by
  refine resWithin_returns (H := False) ?_ id
  show (Main.transform p.build p.env argv w).res.Within False
  rw [hb]
  exact transform_within p.env argv w ho

/-- **C85** for info, every command line: if every input that is a readable file has finite coordinates and covers less than 2^64 units in each
direction, info returns or throws an exception. -/
theorem c85_info_partial (p : Params) (hs : Info.SortsF64 p.sort) (argv : List Str) (w : World)
    (hf : ∀ s, Input w s → ∀ f s', Io.readFile p.build p.zlib s = .ok (f, s') →
      f.prs = [] ∨ (AllFinite f.prs ∧ GridFits (Extent.ofPoints f.prs) F64.one ∧ f.prs.length < 2 ^ 62)) :
    (Name.info.run p argv w).res.Returns ∨ ((Name.info.run p argv w).res = .hang ∧ SomeEndless w) := by
  refine resWithin_iff.mp (info_within p.build p.zlib p.sort argv w fun a _ s hi f h => ?_)
  obtain ⟨s', h⟩ := fileOf_eq_ok h
  rcases hf s hi f s' h with e | ⟨h1, h2, h3⟩
  · refine ⟨fun _ => ⟨hs, ?_, ?_⟩, fun _ => .inl e⟩
    · rw [e]
      intro q hq
      simp at hq
    · rw [e]
      decide
  · exact ⟨fun _ => ⟨hs, fun q hq => ⟨finite_noNaN (h1 q hq).1, finite_noNaN (h1 q hq).2.1, finite_noNaN (h1 q hq).2.2⟩, h3⟩,
      fun _ => .inr ⟨h1, h2⟩⟩

/-- **C85** for info, every input: if the densities are switched off (`metric-info` an odd number of times) and the quartiles are not
switched on, info returns or throws an exception. -/
theorem c85_info_safe_switches (p : Params) (argv : List Str) (w : World)
    (ho : ∀ o ∈ (Cmd.info.options argv).map (·.1), o ∈ switchNames ∨ o = "verbose")
    (hm : ((Cmd.info.options argv).map (·.1)).count "metric-info" % 2 = 1)
    (hq : ((Cmd.info.options argv).map (·.1)).count "quartiles" % 2 = 0) :
    (Name.info.run p argv w).res.Returns ∨ ((Name.info.run p argv w).res = .hang ∧ SomeEndless w) := by
  obtain ⟨a', h1, -, -, h4⟩ := c78_switches _ ho
  have e1 : a'.quartiles = false := (h4 "quartiles" (by decide)).mpr hq
  have e2 : a'.metricInfo = false := by
    have := (h4 "metric-info" (by decide)).not.mpr (by omega)
    simpa [switchOf, switchDefault] using this
  refine resWithin_iff.mp (info_within p.build p.zlib p.sort argv w fun a ha s _ f _ => ?_)
  rw [h1] at ha
  cases ha
  exact ⟨fun h => absurd (e1.symm.trans h) (by simp), fun h => absurd (e2.symm.trans h) (by simp)⟩

theorem tileArgs_plain {l : List (String × Str)} {a0 a : Tile.Args} (h : Tile.getArgs l a0 = .ok a)
    (ho : ∀ o ∈ l, o.1 ≠ "tile-size" ∧ o.1 ≠ "tile-size-x" ∧ o.1 ≠ "tile-size-y"
      ∧ (o.1 = "tiles" → 0 < (UInt32.ofInt (Text.atoi o.2)).toNat))
    (h0 : a0.tileSize = F64.negOne ∧ a0.tileSizeX = F64.negOne ∧ a0.tileSizeY = F64.negOne ∧ 0 < a0.tiles.toNat) :
    a.tileSize = F64.negOne ∧ a.tileSizeX = F64.negOne ∧ a.tileSizeY = F64.negOne ∧ 0 < a.tiles.toNat := by
  induction l generalizing a0 with
  | nil =>
    unfold Tile.getArgs at h
    cases h
    exact h0
  | cons o l ih =>
    obtain ⟨name, arg⟩ := o
    obtain ⟨o1, o2, o3, o4⟩ := ho (name, arg) (by simp)
    have ih := fun a0 h h0 => ih (a0 := a0) h (fun o hm => ho o (by simp [hm])) h0
    unfold Tile.getArgs at h
    split at h
    · cases h
      exact h0
    split at h
    · exact ih _ h h0
    split at h
    · exact ih _ h h0
    split at h
    · exact ih _ h h0
    split at h
    · rename_i e
      exact ih _ h ⟨h0.1, h0.2.1, h0.2.2.1, o4 e⟩
    split at h
    · exact ih _ h h0
    split at h
    · exact ih _ h h0
    · exact absurd h (by simp)

/-- **C85** for tile, release build: for command lines without the tile size options and with a positive number of tiles, if the inputs
have finite coordinates that extend over at most 2^28 units, tile returns or throws an exception. -/
theorem c85_tile_partial (p : Params) (hb : p.build = .release) (argv : List Str) (w : World)
    (ho : ∀ o ∈ Cmd.tile.options argv, o.1 ≠ "tile-size" ∧ o.1 ≠ "tile-size-x" ∧ o.1 ≠ "tile-size-y"
      ∧ (o.1 = "tiles" → 0 < (UInt32.ofInt (Text.atoi o.2)).toNat))
    (hf : ∀ s, Input w s → ∀ f s', Io.readFile .release p.zlib s = .ok (f, s') → f.prs = [] ∨ (AllFinite f.prs
      ∧ (Extent.ofPoints f.prs).maxp.x.val - (Extent.ofPoints f.prs).minp.x.val ≤ 2 ^ 28
      ∧ (Extent.ofPoints f.prs).maxp.y.val - (Extent.ofPoints f.prs).minp.y.val ≤ 2 ^ 28)) :
    (Name.tile.run p argv w).res.Returns ∨ ((Name.tile.run p argv w).res = .hang ∧ SomeEndless w) := by
  rw [← resWithin_iff]
  show (Main.tile p.build p.zlib argv w).res.Within _
  rw [hb]
  refine tile_within p.zlib argv w fun a ha s hi f h => ?_
  obtain ⟨s', h⟩ := fileOf_eq_ok h
  obtain ⟨t1, t2, t3, t4⟩ := tileArgs_plain ha ho (by decide)
  intro sx sy hs
  have hneg : F64.gt F64.negOne F64.zero = false := by decide +kernel
  have e : (Tile.getTileSize (Extent.ofPoints f.prs) a.tiles.toNat, Tile.getTileSize (Extent.ofPoints f.prs) a.tiles.toNat) = (sx, sy) := by
    unfold Tile.tileSizes at hs
    simp only [t1, t2, t3, hneg, Bool.false_and, Bool.or_false, Bool.false_eq_true, if_false, Res.ok.injEq] at hs
    exact hs
  simp only [Prod.mk.injEq] at e
  rw [← e.1, ← e.2]
  by_cases h1 : f.prs = []
  · refine .inl ⟨h1, ?_⟩
    rw [h1]
    have hx : F64.add (F64.sub (Extent.ofPoints ([] : List PointRecord)).maxp.x (Extent.ofPoints ([] : List PointRecord)).minp.x) Tile.epsilon
        = F64.inf true := by decide +kernel
    have hy : F64.add (F64.sub (Extent.ofPoints ([] : List PointRecord)).maxp.y (Extent.ofPoints ([] : List PointRecord)).minp.y) Tile.epsilon
        = F64.inf true := by decide +kernel
    obtain ⟨n1, -, n3⟩ := ofNat_pos t4 (by have := a.tiles.toNat_lt; omega)
    have hd := F64.div_inf true n1 n3
    have hg : F64.gt (F64.inf true) F64.zero = false := by decide +kernel
    unfold Tile.getTileSize
    simp only [hx, hy, hd, ite_self, hg]
  · obtain ⟨h2, h3, h4⟩ := (hf s hi f s' h).resolve_left h1
    obtain ⟨c1, -, c3, c4, -⟩ := c45_at_most_n_partial f.prs h1 h2 a.tiles.toNat t4 a.tiles.toNat_lt h3 h4
    exact .inr ⟨h1, h2, c1, c1, c3, c4⟩

/-! ## The exceptions are real -/

theorem read_endless (b : Build) {s : IStream} (h : Endless s) : Io.readFileUncompressed b s = .hang := by
  obtain ⟨hd, s', h1, h2, h3, h4⟩ := h
  unfold Io.readFileUncompressed
  rw [h1, Res.ok_bind]
  dsimp only
  rw [if_neg (by simp [h2]), readUncompressedPoints,
    readLoop_stuck b _ _ (recordsPerBuffer_zero (by omega)) _ _ _ _ _ (by simpa using h4) h4]
  rfl

/-- **C85, negation**: with such a file as standard input compress does not end, in either build and whatever follows the header. -/
theorem c85_endless (p : Params) (w : World) (h : Endless w.stdin) : (Name.compress.run p [] w).res = .hang := by
  show (Main.compress p.build p.zlib [] w).res = .hang
  have h1 : Main.basicArgs Cmd.compress [] = .ok ({}, [], []) := by decide
  unfold Main.compress
  rw [h1]
  simp only [Bool.false_eq_true, if_false, readThenWrite, inputStream, List.isEmpty_nil, if_true, Res.ok_bind, read_endless _ h]
  rfl

/-- A cloud on the standard input, nothing else. -/
def pipe (f : SpocFile) : World where
  fs := fun _ => none
  canCreate _ := true
  stdin := { rest := (Io.writeFile .release toyZlib f).bytes }

/-- A cloud of points. -/
def cloudOf (ps : List PointRecord) : SpocFile := { SpocFile.empty with prs := ps }

/-- There is such a file: its points have 124 extra fields. -/
theorem endless_exists : Endless (pipe (cloudOf [{ extra := List.replicate 124 0 }])).stdin :=
  ⟨⟨Header.sig, 0, 1, [], 124, 1, 0⟩, { rest := List.replicate (40 + 8 * 124) 0 }, by decide +kernel, by decide, by decide, by decide⟩

/-- **C85, negation**: asking for an extra field that the points do not have is undefined in the release build and stops the debug build. -/
theorem c85_get_field_extra :
    (Name.tool.run exampleParams ["--get-field=e5".toList] (pipe (cloudOf [{}]))).res = .ub "vector index out of range"
    ∧ (Name.tool.run { exampleParams with build := .debug } ["--get-field=e5".toList] (pipe (cloudOf [{}]))).res = .abort := by
  decide +kernel

/-- **C85, negation**: an empty argument stops the debug build. -/
theorem c85_empty_argument :
    (Name.tool.run { exampleParams with build := .debug } ["--get-field=".toList] (pipe (cloudOf [{}]))).res = .abort
    ∧ (Name.transform.run { exampleParams with build := .debug } ["--copy-field=c".toList] (pipe (cloudOf [{}]))).res = .abort := by
  decide +kernel

/-- **C85, negation**: subsampling with a tiny voxel size is undefined, even of small clouds. -/
theorem c85_subsample :
    (Name.filter.run exampleParams ["--subsample=1e-300".toList] (pipe (cloudOf [{}, { x := F64.one }]))).res
      = .ub "double out of range of uint64_t" := by
  decide +kernel

/-- **C85, negation**: info, without any option, is undefined for a cloud that has a NaN coordinate. -/
theorem c85_info_nan : (Name.info.run exampleParams [] (pipe (cloudOf [{ x := F64.nan }]))).res = .ub "double out of range of uint64_t" := by
  decide +kernel

/-- **C85, negation**: tile with a tile size is undefined for an empty cloud. -/
theorem c85_tile_empty :
    (Name.tile.run exampleParams ["--prefix=t".toList, "--tile-size=10".toList] (pipe (cloudOf []))).res = .ub "double out of range of uint64_t" := by
  decide +kernel

/-- **C85, negation**: setting a class to a negative number is undefined. -/
theorem c85_set_negative :
    (Name.transform.run exampleParams ["--set=c,-1".toList] (pipe (cloudOf [{}]))).res = .ub "double out of range of uint32_t" := by
  decide +kernel

/-- **C85, negation**: quantizing with a small number is undefined, even of small clouds. -/
theorem c85_quantize :
    (Name.transform.run { exampleParams with env := { exampleEnv with stod := Text.stod } } ["--quantize-xyz=1e-10".toList]
      (pipe (cloudOf [{ x := F64.one }]))).res = .ub "double out of range of int" := by
  decide +kernel

/-- **C85, negation**: a small tile size is undefined, even for small clouds that are not empty. -/
theorem c85_tile_small :
    (Name.tile.run exampleParams ["--prefix=t".toList, "--tile-size=1e-20".toList] (pipe (cloudOf [{}, { x := F64.one }]))).res
      = .ub "double out of range of uint64_t" := by
  decide +kernel

/-- **C85, negation**: upsampling is undefined if the cloud with the classes has a point one voxel below the box of the other cloud. -/
theorem c85_upsample_outside :
    (Name.tool.run exampleParams ["--upsample-classifications=h".toList, "--resolution=1".toList]
      { pipe (cloudOf [{ x := num (-2), c := 7 }, { c := 8 }]) with
        fs := fun n => if n = ['h'] then some ⟨(Io.writeFile .release toyZlib (cloudOf [{}, { x := F64.one }])).bytes, true, true⟩ else none }).res
      = .ub "double out of range of uint64_t" := by
  decide +kernel

/-- **C85, negation**: upsampling with a small resolution is undefined, even for small clouds. -/
theorem c85_upsample :
    (Name.tool.run exampleParams ["--upsample-classifications=l".toList, "--resolution=1e-20".toList]
      { pipe (cloudOf [{}, { x := F64.one }]) with
        fs := fun n => if n = ['l'] then some ⟨(Io.writeFile .release toyZlib (cloudOf [{}, { x := F64.one }])).bytes, true, true⟩ else none }).res
      = .ub "double out of range of uint64_t" := by
  decide +kernel

/-! ## Examples -/

/-- The main theorem applied: merging something that is not a cloud. -/
example (b : Build) : (Name.merge.run { exampleParams with build := b } [['j', 'u', 'n', 'k']] ⟨fun _ => some ⟨[1, 2, 3], true, true⟩,
    fun _ => true, { rest := [1, 2, 3] }⟩).res.Returns := by
  refine (c85_five_partial .merge (by decide) _ _ _).resolve_right fun ⟨_, s, hs, hd, s', h, _⟩ => ?_
  have e2 : ¬ ∃ x, Header.read { rest := [1, 2, 3] } = .ok x := fun ⟨x, hx⟩ => by
    have : (match Header.read { rest := [1, 2, 3] } with | .ok _ => true | _ => false) = false := by decide +kernel
    rw [hx] at this
    exact absurd this (by simp)
  rcases hs with rfl | ⟨n, f, hf, rfl⟩
  · exact e2 ⟨_, h⟩
  · cases hf
    exact e2 ⟨_, h⟩

example : ∀ o ∈ Cmd.filter.options ["--unique-xyz".toList, "-k".toList, "2".toList], o.1 ≠ "subsample" := by decide +kernel

example : ∀ o ∈ Cmd.tool.options ["--get-field=c".toList, "--set-field".toList, "e0".toList], o.1 ≠ "upsample-classifications"
    ∧ (o.1 = "get-field" → o.2.head? ≠ some 'e') ∧ (o.1 = "get-field" ∨ o.1 = "set-field" → Build.debug = .release ∨ o.2 ≠ []) := by
  decide +kernel

example : ∀ o ∈ Cmd.transform.options ["--replace-not=e0,1,2".toList, "--rotate-x=1".toList], o.1 ≠ "quantize-xyz" ∧ o.1 ≠ "set" := by
  decide +kernel

example : (∀ o ∈ (Cmd.info.options ["--metric-info".toList, "--json".toList]).map (·.1), o ∈ switchNames ∨ o = "verbose")
    ∧ ((Cmd.info.options ["--metric-info".toList, "--json".toList]).map (·.1)).count "metric-info" % 2 = 1
    ∧ ((Cmd.info.options ["--metric-info".toList, "--json".toList]).map (·.1)).count "quartiles" % 2 = 0 := by decide +kernel

theorem pipe_cloudA : ∀ s, Input (pipe cloudA) s → ∀ f s', Io.readFile .release toyZlib s = .ok (f, s') → f = cloudA := by
  intro s hs f s' h
  rcases hs with rfl | ⟨n, f, hf, rfl⟩
  · have e : Io.readFile .release toyZlib (pipe cloudA).stdin = .ok (cloudA, { rest := [] }) := by decide +kernel
    rw [e] at h
    cases h
    rfl
  · exact absurd hf (by simp [pipe])

/-- The hypotheses of `c85_info_partial`. -/
example : Info.SortsF64 exampleParams.sort ∧ ∀ s, Input (pipe cloudA) s → ∀ f s', Io.readFile exampleParams.build exampleParams.zlib s = .ok (f, s') →
      f.prs = [] ∨ (AllFinite f.prs ∧ GridFits (Extent.ofPoints f.prs) F64.one ∧ f.prs.length < 2 ^ 62) := by
  refine ⟨exampleSort_sorts, fun s hs f s' h => ?_⟩
  rw [pipe_cloudA s hs f s' h]
  exact .inr ⟨by unfold AllFinite; decide +kernel, by decide +kernel, by decide⟩

/-- The hypotheses of `c85_tile_partial`. -/
example : (∀ o ∈ Cmd.tile.options ["--tiles=7".toList, "-p".toList, "t".toList], o.1 ≠ "tile-size" ∧ o.1 ≠ "tile-size-x" ∧ o.1 ≠ "tile-size-y"
      ∧ (o.1 = "tiles" → 0 < (UInt32.ofInt (Text.atoi o.2)).toNat))
    ∧ ∀ s, Input (pipe cloudA) s → ∀ f s', Io.readFile .release exampleParams.zlib s = .ok (f, s') → f.prs = [] ∨ (AllFinite f.prs
      ∧ (Extent.ofPoints f.prs).maxp.x.val - (Extent.ofPoints f.prs).minp.x.val ≤ 2 ^ 28
      ∧ (Extent.ofPoints f.prs).maxp.y.val - (Extent.ofPoints f.prs).minp.y.val ≤ 2 ^ 28) := by
  refine ⟨by decide +kernel, fun s hs f s' h => ?_⟩
  rw [pipe_cloudA s hs f s' h]
  refine .inr ⟨by unfold AllFinite; decide +kernel, ?_, ?_⟩
  · have h1 : (Extent.ofPoints cloudA.prs).maxp.x = num 15 := by decide +kernel
    have h2 : (Extent.ofPoints cloudA.prs).minp.x = num 0 := by decide +kernel
    rw [h1, h2, num, num, F64.ofInt_val (by decide), F64.ofInt_val (by decide)]
    norm_num
  · have h1 : (Extent.ofPoints cloudA.prs).maxp.y = num 17 := by decide +kernel
    have h2 : (Extent.ofPoints cloudA.prs).minp.y = num 0 := by decide +kernel
    rw [h1, h2, num, num, F64.ofInt_val (by decide), F64.ofInt_val (by decide)]
    norm_num

end Spoc.Props
