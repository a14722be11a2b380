import Verif.Model.TestUtils
import Verif.Model.Main

/-!
# Model of the benchmark programs

`/repo/spoc/benchmark_utils.h`, `/repo/benchmarks/benchmark_spoc_file.cpp` and `/repo/benchmarks/benchmark_io.cpp`.  The clock is a parameter:
every call of `system_clock::now` gets a reading in nanoseconds.  What the programs print (the numbers of milliseconds) is left out.
-/

namespace Spoc.Benchmarks

/-! ## `/repo/spoc/benchmark_utils.h` -/

/-- The data members of `timer` (`/repo/spoc/benchmark_utils.h` lines 15-17). -/
structure Timer where
  t1 : Int
  t2 : Int
  running : Bool
  deriving DecidableEq, Repr

namespace Timer

/-- `start` (`/repo/spoc/benchmark_utils.h` lines 24-28). -/
def start (now : Int) (t : Timer) : Timer := { t with t1 := now, running := true }

/-- `stop` (`/repo/spoc/benchmark_utils.h` lines 29-33). -/
def stop (now : Int) (t : Timer) : Timer := { t with t2 := now, running := false }

/-- The constructor (`/repo/spoc/benchmark_utils.h` lines 20-23); time points are zero by default. -/
def new (now : Int) : Timer := start now { t1 := 0, t2 := 0, running := false }

/-- `elapsed_ms` (`/repo/spoc/benchmark_utils.h` lines 34-40): `duration_cast` rounds towards zero and the number is converted to a double.
The differences of the readings are assumed to fit 64 bits. -/
def elapsedMs (now : Int) (t : Timer) : F64 :=
  F64.ofInt (if t.running then (now - t.t1).tdiv 1000000 else (t.t2 - t.t1).tdiv 1000000)

end Timer

/-! ## `/repo/benchmarks/benchmark_spoc_file.cpp` -/

/-- What is done to a record (`/repo/benchmarks/benchmark_spoc_file.cpp` lines 64-65, 78-79 and 93-94); the constant is 1.23. -/
def bump (extraFields : Nat) (r : PointRecord) : Res PointRecord :=
  match r.extra[extraFields - 1]? with
  | some v => .ok { r with x := F64.add r.x ⟨0x3FF3AE147AE147AE⟩, extra := r.extra.set (extraFields - 1) (v + 123) }
  | none => .ub "vector index out of range"

/-- Changing the records one by one (`/repo/benchmarks/benchmark_spoc_file.cpp` lines 59-68), with `change` for lines 64-65: `n` records are left
and `i` is the loop variable.  The file as it is left, and how the loop ends. -/
def oneByOne (b : Build) (change : PointRecord → Res PointRecord) : Nat → Nat → SpocFile → SpocFile × Res Unit
  | 0, _, f => (f, .ok ())
  | n + 1, i, f =>
    match (do f.setPointRecord b i (← change (← f.getPointRecord b i))) with
    | .ok f' => oneByOne b change n (i + 1) f'
    | .throw e => (f, .throw e)
    | .ub e => (f, .ub e)
    | .abort => (f, .abort)
    | .hang => (f, .hang)

/-- Changing a copy of all records and setting them (`/repo/benchmarks/benchmark_spoc_file.cpp` lines 73-82). -/
def allAtOnce (change : PointRecord → Res PointRecord) (f : SpocFile) : SpocFile × Res Unit :=
  match (do f.setPointRecords (← f.prs.mapM change)) with
  | .ok f' => (f', .ok ())
  | .throw e => (f, .throw e)
  | .ub e => (f, .ub e)
  | .abort => (f, .abort)
  | .hang => (f, .hang)

/-- Moving the records out of the file, changing them and moving them back (`/repo/benchmarks/benchmark_spoc_file.cpp` lines 89-97). -/
def movedOut (change : PointRecord → Res PointRecord) (f : SpocFile) : SpocFile × Res Unit :=
  let (prs, g) := f.moveOut
  match (do g.moveIn (← prs.mapM change)) with
  | .ok f' => (f', .ok ())
  | .throw e => (g, .throw e)
  | .ub e => (g, .ub e)
  | .abort => (g, .abort)
  | .hang => (g, .hang)

/-- The inner loop of `benchmark_push_back` (`/repo/benchmarks/benchmark_spoc_file.cpp` lines 36-37). -/
def pushAll (f : SpocFile) (ps : List PointRecord) : Res SpocFile := ps.foldlM (fun f q => f.pushBack q) f

/-- The outer loop of `benchmark_push_back` (`/repo/benchmarks/benchmark_spoc_file.cpp` lines 35-37). -/
def pushRepeatedly (ps : List PointRecord) : Nat → SpocFile → Res SpocFile
  | 0, f => .ok f
  | n + 1, f => do pushRepeatedly ps n (← pushAll f ps)

/-- `benchmark_push_back` (`/repo/benchmarks/benchmark_spoc_file.cpp` lines 13-41): the vector (lines 24-26) and the file (lines 33-37) that
are filled. -/
def pushBenchmark (ps : List PointRecord) (iterations : Nat) : Res (List PointRecord × SpocFile) := do
  let f ← SpocFile.new' [0x57, 0x4B, 0x54] false []
  let f ← pushRepeatedly ps iterations f
  .ok (iterations.repeat (fun q => q ++ ps) [], f)

/-- `benchmark_change_point_records` (`/repo/benchmarks/benchmark_spoc_file.cpp` lines 43-101) on the records `ps`: the three ways one after the
other.  The result is the file at the end. -/
def changeBenchmark (b : Build) (ps : List PointRecord) (extraFields : Nat) : Res SpocFile := do
  let f ← SpocFile.new' [0x57, 0x4B, 0x54] false ps
  match oneByOne b (bump extraFields) f.prs.length 0 f with
  | (f, .ok _) =>
    match allAtOnce (bump extraFields) f with
    | (f, .ok _) =>
      match movedOut (bump extraFields) f with
      | (f, .ok _) => .ok f
      | (_, .throw e) => .throw e
      | (_, .ub e) => .ub e
      | (_, .abort) => .abort
      | (_, .hang) => .hang
    | (_, .throw e) => .throw e
    | (_, .ub e) => .ub e
    | (_, .abort) => .abort
    | (_, .hang) => .hang
  | (_, .throw e) => .throw e
  | (_, .ub e) => .ub e
  | (_, .abort) => .abort
  | (_, .hang) => .hang

/-- The body of `main` of `benchmark_spoc_file` (`/repo/benchmarks/benchmark_spoc_file.cpp` lines 103-117) for any two lists of records. -/
def fileRun (b : Build) (ps : List PointRecord) (iterations : Nat) (qs : List PointRecord) (extraFields : Nat) : Res Int :=
  match (do
    let _ ← pushBenchmark ps iterations
    changeBenchmark b qs extraFields) with
  | .ok _ => .ok 0
  | .throw _ => .ok (-1)
  | .ub e => .ub e
  | .abort => .abort
  | .hang => .hang

/-- `main` of `benchmark_spoc_file` (`/repo/benchmarks/benchmark_spoc_file.cpp` lines 15-18, 45-50 and 103-117): the records come from the
generator of the tests. -/
def fileMain (b : Build) : Res Int :=
  fileRun b (TestUtils.randomRecords 1000 3) 100000 (TestUtils.randomRecords 100000000 5) 5

/-! ## `/repo/benchmarks/benchmark_io.cpp` -/

/-- The name of the file (`/repo/benchmarks/benchmark_io.cpp` line 17). -/
def fileName : Str := "/tmp/benchmark_io.tmp".toList

/-- The text "WKT" (`/repo/benchmarks/benchmark_io.cpp` line 93). -/
def wktRead : Bytes := [0x57, 0x4B, 0x54]

/-- The text "Test wkt" (`/repo/benchmarks/benchmark_io.cpp` line 74). -/
def wktWrite : Bytes := [0x54, 0x65, 0x73, 0x74, 0x20, 0x77, 0x6B, 0x74]

/-- Open the file and write to it (`/repo/benchmarks/benchmark_io.cpp` lines 22-32, 41-47, 68-79 and 88-93). -/
def writeTo (canCreate : Str → Bool) (fs : Tile.FS) (o : Out Unit) : Tile.FS × Res Unit :=
  match Tile.openWrite canCreate fs fileName with
  | none => (fs, .throw "Can't open file for writing")
  | some x => (fs.set fileName { x with content := o.bytes }, o.res)

/-- Open the file and read from it (`/repo/benchmarks/benchmark_io.cpp` lines 52-60 and 98-105). -/
def readFrom {α : Type} (fs : Tile.FS) (read : IStream → Res (α × IStream)) : Res α :=
  match Main.openRead fs fileName with
  | none => .throw "Can't open file for reading"
  | some s => do .ok (← read s).1

/-- `benchmark_write_uncompressed` (`/repo/benchmarks/benchmark_io.cpp` lines 19-35). -/
def writeUncompressed (canCreate : Str → Bool) (fs : Tile.FS) (ps : List PointRecord) : Tile.FS × Res Unit :=
  writeTo canCreate fs (Io.writeRecords ps)

/-- `benchmark_read_uncompressed` (`/repo/benchmarks/benchmark_io.cpp` lines 37-63). -/
def readUncompressed (b : Build) (canCreate : Str → Bool) (fs : Tile.FS) (ps : List PointRecord) (extraFields : Nat) :
    Tile.FS × Res (List PointRecord) :=
  let (fs, r) := writeTo canCreate fs (Io.writeRecords ps)
  (fs, do r; readFrom fs (fun s => Io.readUncompressedPoints b s ps.length extraFields))

/-- `write_spoc_file_compressed (ofs, spoc_file (wkt, true, p))` (`/repo/benchmarks/benchmark_io.cpp` lines 79 and 93). -/
def compressedFile (b : Build) (zl : Zlib) (wkt : Bytes) (ps : List PointRecord) : Out Unit := do
  let f ← Out.lift (SpocFile.new' wkt true ps)
  Io.writeFileCompressed b zl f

/-- `benchmark_write_compressed` (`/repo/benchmarks/benchmark_io.cpp` lines 65-82). -/
def writeCompressed (b : Build) (zl : Zlib) (canCreate : Str → Bool) (fs : Tile.FS) (ps : List PointRecord) : Tile.FS × Res Unit :=
  writeTo canCreate fs (compressedFile b zl wktWrite ps)

/-- `benchmark_read_compressed` (`/repo/benchmarks/benchmark_io.cpp` lines 84-108). -/
def readCompressed (b : Build) (zl : Zlib) (canCreate : Str → Bool) (fs : Tile.FS) (ps : List PointRecord) : Tile.FS × Res SpocFile :=
  let (fs, r) := writeTo canCreate fs (compressedFile b zl wktRead ps)
  (fs, do r; readFrom fs (Io.readFileCompressed zl))

/-- The four benchmarks (`/repo/benchmarks/benchmark_io.cpp` lines 121-124) on the records `ps`. -/
def ioBenchmarks (b : Build) (zl : Zlib) (canCreate : Str → Bool) (fs : Tile.FS) (ps : List PointRecord) (extraFields : Nat) :
    Tile.FS × Res Unit :=
  match writeUncompressed canCreate fs ps with
  | (fs, .ok _) =>
    match readUncompressed b canCreate fs ps extraFields with
    | (fs, .ok _) =>
      match writeCompressed b zl canCreate fs ps with
      | (fs, .ok _) =>
        match readCompressed b zl canCreate fs ps with
        | (fs, r) => (fs, do let _ ← r; .ok ())
      | r => r
    | (fs, r) => (fs, do let _ ← r; .ok ())
  | r => r

/-- The body of `main` of `benchmark_io` (`/repo/benchmarks/benchmark_io.cpp` lines 110-133) for any records. -/
def ioRun (b : Build) (zl : Zlib) (canCreate : Str → Bool) (fs : Tile.FS) (ps : List PointRecord) (extraFields : Nat) : Tile.FS × Res Int :=
  match ioBenchmarks b zl canCreate fs ps extraFields with
  | (fs, .ok _) => (fs, .ok 0)
  | (fs, .throw _) => (fs, .ok (-1))
  | (fs, .ub e) => (fs, .ub e)
  | (fs, .abort) => (fs, .abort)
  | (fs, .hang) => (fs, .hang)

/-- `main` of `benchmark_io` (`/repo/benchmarks/benchmark_io.cpp` lines 110-133): the records come from the generator of the tests. -/
def ioMain (b : Build) (zl : Zlib) (canCreate : Str → Bool) (fs : Tile.FS) : Tile.FS × Res Int :=
  ioRun b zl canCreate fs (TestUtils.randomRecords 10000000 8) 8

end Spoc.Benchmarks
