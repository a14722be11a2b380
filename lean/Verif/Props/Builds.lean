import Verif.Proofs.BuildsSame
import Verif.Props.AppSafe

/-!
# C92: the debug build differs from the release build only in that it stops at a failed check
-/

namespace Spoc.Props

open Main Io Spec AppSafe

/-- **C92** for all applications, whatever the command line, the files and the standard input are: the debug build stops at a failed check, that
is at a failed `assert` or with the exception of the macros of `contracts.h`, or both builds leave the same files, write the same bytes and
end in the same way. -/
theorem c92_stops_or_same (n : Name) (p : Params) (argv : List Str) (w : World) :
    (n.run { p with build := .debug } argv w).res = .abort
    ∨ (n.run { p with build := .debug } argv w).res = .throw "Contract failed"
    ∨ n.run { p with build := .debug } argv w = n.run { p with build := .release } argv w := by
  have key : Result.Agree true (n.run { p with build := .debug } argv w) (n.run { p with build := .release } argv w) := by
    cases n with
    | compress => exact compress_agree p.zlib argv w
    | decompress => exact decompress_agree p.zlib argv w
    | diff => exact diffApp_agree p.zlib argv w
    | filter => exact filter_agree p.zlib p.shuffle argv w
    | info => exact info_agree p.zlib p.sort argv w
    | merge => exact merge_agree p.zlib argv w
    | srs => exact srs_agree p.zlib argv w
    | tile => exact tile_agree p.zlib argv w
    | tool => exact toolApp_agree p.zlib argv w
    | transform => exact transform_agree p.env argv w
  rcases key with (h | ⟨-, h⟩) | h
  · exact .inl h
  · exact .inr (.inl h)
  · exact .inr (.inr h)

/-- **C92** for compress, decompress, diff, info, merge and srs: no check can fail, so both builds always do the same. -/
theorem c92_same (n : Name) (hn : n ∈ [Name.compress, .decompress, .diff, .info, .merge, .srs]) (p : Params) (argv : List Str) (w : World) :
    n.run { p with build := .debug } argv w = n.run { p with build := .release } argv w := by
  simp only [List.mem_cons, List.not_mem_nil, or_false] at hn
  rcases hn with rfl | rfl | rfl | rfl | rfl | rfl
  · exact result_same (compress_agree p.zlib argv w) (compress_within .debug p.zlib argv w)
  · exact result_same (decompress_agree p.zlib argv w) (decompress_within (H := True) .debug p.zlib argv w)
  · exact result_same (diffApp_agree p.zlib argv w) (diff_within .debug p.zlib argv w)
  · exact info_same p.zlib p.sort argv w
  · exact result_same (merge_agree p.zlib argv w) (merge_within .debug p.zlib argv w)
  · exact result_same (srs_agree p.zlib argv w) (srs_within .debug p.zlib argv w)

/-- **C92** for filter: both builds always do the same, if shuffling permutes. -/
theorem c92_filter (p : Params) (hsh : p.shuffle.Lawful) (argv : List Str) (w : World) :
    Name.filter.run { p with build := .debug } argv w = Name.filter.run { p with build := .release } argv w :=
  filter_same p.zlib hsh argv w

/-- **C92** for tile: both builds do the same, unless the name of the input ends with a slash. -/
theorem c92_tile (p : Params) (argv : List Str) (w : World) (h : ∀ n ∈ Cmd.tile.operands argv, n.getLast? ≠ some '/') :
    Name.tile.run { p with build := .debug } argv w = Name.tile.run { p with build := .release } argv w :=
  tile_same p.zlib argv w h

/-- **C92** for reading a stream: both builds do the same, whatever the bytes are. -/
theorem c92_read (z : Zlib) (s : IStream) : readFile .debug z s = readFile .release z s := by
  rcases readFile_agree (c := false) z s with (h | ⟨h, -⟩) | h
  · exact absurd h (c09_reader_safe .debug z s).2.1
  · exact absurd h (by decide)
  · exact h

/-- **C92** for writing a file: the debug build throws an exception before it writes anything, or both builds do the same; for files whose
points have equally many extra fields the latter. -/
theorem c92_write (z : Zlib) (f : SpocFile) :
    (writeFile .debug z f = ⟨[], .throw "Contract failed"⟩ ∨ writeFile .debug z f = writeFile .release z f)
    ∧ (Uniform f.prs → writeFile .debug z f = writeFile .release z f) := by
  refine ⟨?_, fun hu => write_same z (valid_of_uniform hu)⟩
  by_cases hv : f.isValid = true
  · exact .inr (write_same z hv)
  · have hv : f.isValid = false := by simpa using hv
    unfold writeFile
    rcases f.getHeader with h | e | e | _ | _
    rotate_left
    iterate 4 exact .inr rfl
    left
    rw [Out.lift_ok_bind]
    unfold writeFileCompressed writeFileUncompressed
    rw [hv]
    split <;> rfl

/-- **C92** for the functions on clouds: each of them stops at a failed check in the debug build, or both builds return the same. -/
theorem c92_library {α : Type} [HasXYZ α] (ps : List α) (pts : List (Pt F64)) (us : List (Pt UInt64)) (e : Extent) (x : F64) (seed m : Nat)
    (sh : Subsampling.Shuffle) (rng : Nat → Nat → Nat) (js ks : List Nat) :
    (RadiusSearch.search .debug rng ps js ks x m = .abort ∨ RadiusSearch.search .debug rng ps js ks x m = RadiusSearch.search .release rng ps js ks x m)
    ∧ (Subsampling.subsampleIndexes .debug sh ps x seed = .abort
      ∨ Subsampling.subsampleIndexes .debug sh ps x seed = Subsampling.subsampleIndexes .release sh ps x seed)
    ∧ (Subsampling.uniqueXyzIndexes .debug sh ps seed = .abort
      ∨ Subsampling.uniqueXyzIndexes .debug sh ps seed = Subsampling.uniqueXyzIndexes .release sh ps seed)
    ∧ (Extent.rescale .debug pts e = .abort ∨ Extent.rescale .debug pts e = Extent.rescale .release pts e)
    ∧ (Extent.restore .debug us e = .abort ∨ Extent.restore .debug us e = Extent.restore .release us e)
    ∧ (Utils.quantize .debug ps x = .throw "Contract failed" ∨ Utils.quantize .debug ps x = Utils.quantize .release ps x) := by
  have key : ∀ {β : Type} {d r : Res β}, d.Agree false r → d = .abort ∨ d = r := by
    intro β d r h
    rcases h with (h | ⟨h, -⟩) | h
    · exact .inl h
    · exact absurd h (by decide)
    · exact .inr h
  refine ⟨key (search_agree ..), key (subsampleIndexes_agree ..), key (uniqueXyzIndexes_agree ..), key (rescale_agree ..), key (restore_agree ..), ?_⟩
  unfold Utils.quantize
  cases F64.fne x F64.zero
  · exact .inl rfl
  · exact .inr rfl

/-! ## Concrete cases -/

/-- The two builds do differ where a check fails: a resolution that is not a number makes upsampling throw an exception in the debug build, and
its behaviour is undefined in the release build. -/
theorem c92_differ :
    (Name.tool.run { exampleParams with build := .debug }
      ["--upsample-classifications=a".toList, "--resolution=nan".toList, "a".toList] exampleDisk).res = .throw "Contract failed"
    ∧ (Name.tool.run { exampleParams with build := .release }
      ["--upsample-classifications=a".toList, "--resolution=nan".toList, "a".toList] exampleDisk).res = .ub "double out of range of uint64_t" := by
  decide +kernel

/-- The other two outcomes of `c92_stops_or_same`: a failed `assert`, and the same. -/
example : (Name.tool.run { exampleParams with build := .debug } ["--get-field=".toList] (pipe (cloudOf [{}]))).res = .abort
    ∧ (Name.tool.run { exampleParams with build := .debug } ["--get-field=c".toList] (pipe (cloudOf [{ c := 7 }]))).out = [55, 10] := by
  decide +kernel

example : (∀ n ∈ Cmd.tile.operands ["--prefix=t".toList, "a.d/cloud.spoc".toList], n.getLast? ≠ some '/')
    ∧ Cmd.tile.operands ["--prefix=t".toList, "a.d/cloud.spoc".toList] = ["a.d/cloud.spoc".toList] := by decide +kernel

example : exampleParams.shuffle.Lawful := fun _ _ => List.Perm.refl _

/-- A file that the debug build does not write. -/
example : writeFile .debug toyZlib (cloudOf [{}, { extra := [1] }]) = ⟨[], .throw "Contract failed"⟩
    ∧ writeFile .debug toyZlib (cloudOf [{}, { extra := [1] }]) ≠ writeFile .release toyZlib (cloudOf [{}, { extra := [1] }]) := by decide +kernel

end Spoc.Props
