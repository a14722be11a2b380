import Verif.Model.Cmd
import Verif.Model.Diff
import Verif.Model.Filter
import Verif.Model.Info
import Verif.Model.Merge
import Verif.Model.Tile
import Verif.Model.Tool
import Verif.Model.Transform

/-!
# The applications on a file system

From the command line, the file system and the standard input to the file system afterwards, the standard output and the value of `main`.
An exception makes `main` return -1.

The file system is that of the tile model (`Tile.FS`); different names are different files (no links).  Messages to `std::clog`
have a model of their own (`Messages`).
-/

namespace Spoc.Main

open Text Cmd

/-- What an application finds. -/
structure World where
  fs : Tile.FS
  canCreate : Str → Bool
  stdin : IStream

/-- What it leaves behind. -/
structure Result where
  fs : Tile.FS
  out : Bytes
  res : Res Int

/-- Give up with the outcome of `r`. -/
def failWith {α β : Type} (r : Res α) : Res β :=
  match r with
  | .ok _ => .hang
  | .throw e => .throw e
  | .ub w => .ub w
  | .abort => .abort
  | .hang => .hang

/-- `return 0` after something that may fail. -/
def zero (r : Res Unit) : Res Int := do
  r
  .ok 0

/-- `ifstream` -/
def openRead (fs : Tile.FS) (fn : Str) : Option IStream :=
  match fs fn with
  | some f => if f.readable then some { rest := f.content } else none
  | none => none

/-- `input_stream` (`/repo/spoc/app_utils.h` lines 18-46). -/
def inputStream (w : World) (fn : Str) : Res IStream :=
  if fn.isEmpty then .ok w.stdin
  else match openRead w.fs fn with
    | some s => .ok s
    | none => .throw "Could not open file for reading"

/-- `output_stream` (`/repo/spoc/app_utils.h` lines 49-77) and what is written to it. -/
def outputStream (w : World) (fn : Str) (o : Out Unit) : Result :=
  if fn.isEmpty then ⟨w.fs, o.bytes, zero o.res⟩
  else match Tile.openWrite w.canCreate w.fs fn with
    | some f => ⟨w.fs.set fn { f with content := o.bytes }, [], zero o.res⟩
    | none => ⟨w.fs, [], .throw "Could not open file for writing"⟩

/-- The version that is printed (`/repo/apps/compress/compress.cpp` lines 23-31 and the same in the others). -/
def version : Bytes := "Version 0.1\n".toUTF8.toList

/-- Text as bytes. -/
def bytes (t : Str) : Bytes := t.map (fun c => UInt8.ofNat c.toNat)

/-- Read and change a file, and only then open the output and write to it. -/
def readThenWrite (w : World) (inFn outFn : Str) (read : IStream → Res SpocFile) (write : SpocFile → Out Unit) : Result :=
  match inputStream w inFn >>= read with
  | .ok f => outputStream w outFn (write f)
  | r => ⟨w.fs, [], failWith r⟩

/-- Arguments and file names: a command line with the option `help` is not looked at any further. -/
def withOperands {α β : Type} (r : Res α) (help : α → Bool) (d : β) (operands : Res β) : Res (α × β) := do
  let a ← r
  if help a then .ok (a, d)
  else do
    let o ← operands
    .ok (a, o)

/-- `get_args` of compress and decompress (`/repo/apps/compress/compress_cmd.h` lines 22-69). -/
def basicArgs (a : App) (argv : List Str) : Res (Basic × Str × Str) :=
  withOperands (Cmd.basicArgs (a.options argv) {}) (·.help) ([], []) (inOut (a.operands argv))

/-- compress (`/repo/apps/compress/compress.cpp` lines 8-59). -/
def compress (b : Build) (zl : Zlib) (argv : List Str) (w : World) : Result :=
  match basicArgs Cmd.compress argv with
  | .ok (a, i, o) =>
    if a.version then ⟨w.fs, version, .ok 0⟩
    else if a.help then ⟨w.fs, [], .ok 0⟩
    else readThenWrite w i o (fun s => Apps.fileOf (Io.readFileUncompressed b s))
      (fun f => Io.writeFileCompressed b zl (f.setCompressed true))
  | r => ⟨w.fs, [], failWith r⟩

/-- decompress (`/repo/apps/decompress/decompress.cpp` lines 8-59). -/
def decompress (b : Build) (zl : Zlib) (argv : List Str) (w : World) : Result :=
  match basicArgs Cmd.decompress argv with
  | .ok (a, i, o) =>
    if a.version then ⟨w.fs, version, .ok 0⟩
    else if a.help then ⟨w.fs, [], .ok 0⟩
    else readThenWrite w i o (fun s => Apps.fileOf (Io.readFileCompressed zl s))
      (fun f => Io.writeFileUncompressed b (f.setCompressed false))
  | r => ⟨w.fs, [], failWith r⟩

/-- `get_args` of filter (`/repo/apps/filter/filter_cmd.h` lines 31-90). -/
def filterArgs (argv : List Str) : Res (Filter.Args × Str × Str) :=
  withOperands (Filter.getArgs (Cmd.filter.options argv) {}) (·.help) ([], []) (inOut (Cmd.filter.operands argv))

/-- filter (`/repo/apps/filter/filter.cpp` lines 9-88). -/
def filter (b : Build) (zl : Zlib) (sh : Subsampling.Shuffle) (argv : List Str) (w : World) : Result :=
  match filterArgs argv with
  | .ok (a, i, o) =>
    if a.version then ⟨w.fs, version, .ok 0⟩
    else if a.help then ⟨w.fs, [], .ok 0⟩
    else readThenWrite w i o (fun s => do
        let f ← Apps.fileOf (Io.readFile b zl s)
        Filter.process b sh a f)
      (Io.writeFile b zl)
  | r => ⟨w.fs, [], failWith r⟩

/-- The files that the tool application opens by name. -/
def toolFiles (fs : Tile.FS) : Tool.Files where
  text n := (openRead fs n).map (fun s => Info.chars s.rest)
  spoc n := openRead fs n

/-- `get_args` of tool (`/repo/apps/tool/tool_cmd.h` lines 57-164). -/
def toolArgs (argv : List Str) : Res (Tool.Args × Str × Str) :=
  withOperands (Tool.getArgs (Cmd.tool.options argv) {}) (·.help) ([], []) (inOut (Cmd.tool.operands argv))

/-- tool (`/repo/apps/tool/tool.cpp` lines 9-132). -/
def tool (b : Build) (zl : Zlib) (argv : List Str) (w : World) : Result :=
  match toolArgs argv with
  | .ok (a, i, o) =>
    if a.version then ⟨w.fs, version, .ok 0⟩
    else if a.help then ⟨w.fs, [], .ok 0⟩
    else if a.command.name = "" then ⟨w.fs, [], .throw "No command was specified"⟩
    else if a.command.name = "get-field" then
      match (do
        let s ← inputStream w i
        let f ← Apps.fileOf (Io.readFile b zl s)
        let (name, _) ← AppUtils.consumeFieldName b a.command.params
        Tool.getField b f name) with
      | .ok t => ⟨w.fs, bytes t, .ok 0⟩
      | r => ⟨w.fs, [], failWith r⟩
    else readThenWrite w i o (fun s => do
        let f ← Apps.fileOf (Io.readFile b zl s)
        Tool.run b zl (toolFiles w.fs) a f)
      (Io.writeFile b zl)
  | r => ⟨w.fs, [], failWith r⟩

/-- `get_args` of transform (`/repo/apps/transform/transform_cmd.h` lines 67-212). -/
def transformArgs (argv : List Str) : Res (Transform.Args × Str × Str) :=
  withOperands (Transform.getArgs (Cmd.transform.options argv) {}) (·.help) ([], []) (inOut (Cmd.transform.operands argv))

/-- transform (`/repo/apps/transform/transform.cpp` lines 9-67).  Input and output are opened before anything is read: if they are the same
file, the input is empty by then. -/
def transform (b : Build) (env : Transform.Env) (argv : List Str) (w : World) : Result :=
  match transformArgs argv with
  | .ok (a, i, o) =>
    if a.version then ⟨w.fs, version, .ok 0⟩
    else if a.help then ⟨w.fs, [], .ok 0⟩
    else if a.commands.isEmpty then ⟨w.fs, [], .throw "No command was specified"⟩
    else
      match inputStream w i with
      | .ok s =>
        let s := if !i.isEmpty && decide (i = o) then { rest := [] } else s
        outputStream w o (Transform.apply b env s a.commands (UInt64.ofInt a.seed).toNat)
      | r => ⟨w.fs, [], failWith r⟩
  | r => ⟨w.fs, [], failWith r⟩

/-- The loop of srs without `--srs` (`/repo/apps/srs/srs.cpp` lines 107-122): the text that is printed and the outcome. -/
def showSrsLoop (fs : Tile.FS) : List Str → Out Unit
  | [] => pure ()
  | fn :: fns => do
    let s ← Out.lift (match openRead fs fn with
      | some s => .ok s
      | none => .throw "Could not open file for reading")
    Apps.showSrs s
    showSrsLoop fs fns

/-- srs (`/repo/apps/srs/srs.cpp` lines 8-127).  The output file is opened after the input has been read. -/
def srs (b : Build) (zl : Zlib) (argv : List Str) (w : World) : Result :=
  match Cmd.srsArgs (Cmd.srs.options argv) {} with
  | .ok a =>
    if a.version then ⟨w.fs, version, .ok 0⟩
    else if a.help then ⟨w.fs, [], .ok 0⟩
    else
      match Cmd.srs.operands argv, a.srs with
      | [], some t => outputStream w [] (Apps.setSrs b zl (bytes t) w.stdin)
      | [], none => outputStream w [] (Apps.showSrs w.stdin)
      | [i, o], some t =>
        match (match openRead w.fs i with
          | some s => Apps.fileOf (Io.readFile b zl s)
          | none => .throw "Could not open file for reading") with
        | .ok f =>
          match Tile.openWrite w.canCreate w.fs o with
          | some g => ⟨w.fs.set o { g with content := (Io.writeFile b zl (f.setWkt (bytes t))).bytes }, [],
              zero (Io.writeFile b zl (f.setWkt (bytes t))).res⟩
          | none => ⟨w.fs, [], .throw "Could not open file for writing"⟩
        | r => ⟨w.fs, [], failWith r⟩
      | _, some _ => ⟨w.fs, [], .throw "When setting the SRS, you need to specify one input file and one output file"⟩
      | fns, none => outputStream w [] (showSrsLoop w.fs fns)
  | r => ⟨w.fs, [], failWith r⟩

/-- merge (`/repo/apps/merge/merge.cpp` lines 8-145). -/
def merge (b : Build) (zl : Zlib) (argv : List Str) (w : World) : Result :=
  outputStream w [] (Merge.main b zl (Cmd.merge.options argv) ((Cmd.merge.operands argv).map (openRead w.fs))).2

/-- diff (`/repo/apps/diff/diff.cpp` lines 8-88). -/
def diff (b : Build) (zl : Zlib) (argv : List Str) (w : World) : Result :=
  match withOperands (Diff.getArgs (Cmd.diff.options argv) {}) (·.help) ([], []) (two (Cmd.diff.operands argv)) with
  | .ok (a, i, j) =>
    if a.version then ⟨w.fs, version, .ok 0⟩
    else if a.help then ⟨w.fs, [], .ok 0⟩
    else ⟨w.fs, [], Diff.main b zl (Cmd.diff.options argv) (openRead w.fs i) (openRead w.fs j)⟩
  | r => ⟨w.fs, [], failWith r⟩

/-- info (`/repo/apps/info/info.cpp` lines 8-93). -/
def info (b : Build) (zl : Zlib) (sort : List F64 → List F64) (argv : List Str) (w : World) : Result :=
  let (t, r) := Info.main b zl sort ((Cmd.info.options argv).map (·.1)) ((Cmd.info.operands argv).map (openRead w.fs)) w.stdin
  ⟨w.fs, bytes t, zero r⟩

/-- tile (`/repo/apps/tile/tile.cpp` lines 12-203). -/
def tile (b : Build) (zl : Zlib) (argv : List Str) (w : World) : Result :=
  match withOperands (Tile.getArgs (Cmd.tile.options argv) {}) (·.help) [] (one (Cmd.tile.operands argv)) with
  | .ok (a, fn) =>
    if a.version then ⟨w.fs, version, .ok 0⟩
    else
      let (fs, r) := Tile.main b zl w.canCreate (Cmd.tile.options argv) fn w.stdin w.fs
      ⟨fs, [], zero r⟩
  | r => ⟨w.fs, [], failWith r⟩

/-! ## All applications

Not code of the repository: names for the applications, to be able to state something about all of them. -/

/-- An application. -/
inductive Name
  | compress | decompress | diff | filter | info | merge | srs | tile | tool | transform
  deriving DecidableEq, Repr

/-- Its option table. -/
def Name.table : Name → App
  | .compress => Cmd.compress
  | .decompress => Cmd.decompress
  | .diff => Cmd.diff
  | .filter => Cmd.filter
  | .info => Cmd.info
  | .merge => Cmd.merge
  | .srs => Cmd.srs
  | .tile => Cmd.tile
  | .tool => Cmd.tool
  | .transform => Cmd.transform

/-- What the models take as parameters. -/
structure Params where
  build : Build
  zlib : Zlib
  shuffle : Subsampling.Shuffle
  sort : List F64 → List F64
  env : Transform.Env

/-- Run an application. -/
def Name.run (n : Name) (p : Params) (argv : List Str) (w : World) : Result :=
  match n with
  | .compress => Main.compress p.build p.zlib argv w
  | .decompress => Main.decompress p.build p.zlib argv w
  | .diff => Main.diff p.build p.zlib argv w
  | .filter => Main.filter p.build p.zlib p.shuffle argv w
  | .info => Main.info p.build p.zlib p.sort argv w
  | .merge => Main.merge p.build p.zlib argv w
  | .srs => Main.srs p.build p.zlib argv w
  | .tile => Main.tile p.build p.zlib argv w
  | .tool => Main.tool p.build p.zlib argv w
  | .transform => Main.transform p.build p.env argv w

end Spoc.Main
