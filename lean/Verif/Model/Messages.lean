import Verif.Model.Main

/-!
# What the applications print on the standard error

The models of the applications (`Main`) leave out the messages.  Here the applications are gone through once more for what they write to `std::clog` and
`std::cerr`; both go to the standard error.  A message is the text of one statement, with the end of the line if there is one.

Not modelled: the message that `getopt_long` prints itself for an option that it does not know, and that of a failed assertion.
-/

namespace Spoc.Messages

open Text Main

/-- Messages, and outcome. -/
structure Log (α : Type) where
  said : List Str
  res : Res α

namespace Log

variable {α β : Type}

/-- Say nothing and return. -/
def ret (a : α) : Log α := ⟨[], .ok a⟩

/-- Sequential composition. -/
def bind (x : Log α) (f : α → Log β) : Log β :=
  match x.res with
  | .ok a => ⟨x.said ++ (f a).said, (f a).res⟩
  | .throw e => ⟨x.said, .throw e⟩
  | .ub w => ⟨x.said, .ub w⟩
  | .abort => ⟨x.said, .abort⟩
  | .hang => ⟨x.said, .hang⟩

instance : Monad Log where
  pure := ret
  bind := bind

end Log

/-- Code without messages. -/
def quietly {α : Type} (r : Res α) : Log α := ⟨[], r⟩

/-- `clog << text` -/
def say (text : Str) : Log Unit := ⟨[text], .ok ()⟩

/-- `if (args.verbose) clog << … << endl` for each line. -/
def tell (verbose : Bool) (lines : List Str) : Log Unit := ⟨if verbose then lines.map (· ++ ['\n']) else [], .ok ()⟩

/-- How numbers are printed by default, in which order a set of classes is gone through, and the usage that is passed to `get_args`. -/
structure Style where
  double : F64 → Str
  set : List Int → List Int
  usage : Str

/-- A `bool`. -/
def showBool (b : Bool) : Str := if b then ['1'] else ['0']

/-- The text of a string literal. -/
def str (s : String) : Str := s.toList

/-- A setting, its name and its value. -/
def setting (name : String) (value : Str) : Str := str name ++ ['\t'] ++ value

/-- A setting in quotation marks. -/
def quoted (name : String) (value : Str) : Str := str name ++ ['\t', '\''] ++ value ++ ['\'']

/-- `get_args` prints the help text if it is asked for and if there is an invalid option (`/repo/apps/compress/compress_cmd.h` lines 39-50 and the
same in the others). -/
def commandLine {α : Type} (b : Build) (st : Style) (app : Cmd.App) (asked : α → Bool) (r : Res α) : Log α :=
  match r with
  | .ok a =>
    if asked a then do
      say (← quietly (app.help b st.usage))
      pure a
    else pure a
  | .throw e =>
    if e = "Invalid option" then do
      say (← quietly (app.help b st.usage))
      quietly (.throw e)
    else quietly (.throw e)
  | r => quietly r

/-- `input_stream` (`/repo/spoc/app_utils.h` lines 18-46). -/
def inputStream (verbose : Bool) (w : World) (fn : Str) : Log IStream := do
  tell verbose [if fn.isEmpty then str "Reading from stdin" else str "Reading from " ++ fn]
  quietly (Main.inputStream w fn)

/-- `output_stream` (`/repo/spoc/app_utils.h` lines 49-77) and what is written to it. -/
def outputStream (verbose : Bool) (w : World) (fn : Str) (o : Out Unit) : Log Int := do
  tell verbose [if fn.isEmpty then str "Writing to stdout" else str "Writing to " ++ fn]
  quietly (Main.outputStream w fn o).res

/-- Read and change a file, and then write it. -/
def readThenWrite (verbose : Bool) (w : World) (inFn outFn : Str) (read : IStream → Log SpocFile) (write : SpocFile → Out Unit) : Log Int := do
  let s ← inputStream verbose w inFn
  let f ← read s
  outputStream verbose w outFn (write f)

/-- compress (`/repo/apps/compress/compress.cpp` lines 8-59). -/
def compress (b : Build) (st : Style) (zl : Zlib) (argv : List Str) (w : World) : Log Int := do
  let (a, i, o) ← commandLine b st Cmd.compress (·.1.help) (basicArgs Cmd.compress argv)
  if a.version || a.help then pure 0
  else do
    readThenWrite a.verbose w i o (fun s => quietly (Apps.fileOf (Io.readFileUncompressed b s)))
      (fun f => Io.writeFileCompressed b zl (f.setCompressed true))

/-- decompress (`/repo/apps/decompress/decompress.cpp` lines 8-59). -/
def decompress (b : Build) (st : Style) (zl : Zlib) (argv : List Str) (w : World) : Log Int := do
  let (a, i, o) ← commandLine b st Cmd.decompress (·.1.help) (basicArgs Cmd.decompress argv)
  if a.version || a.help then pure 0
  else do
    readThenWrite a.verbose w i o (fun s => quietly (Apps.fileOf (Io.readFileCompressed zl s)))
      (fun f => Io.writeFileUncompressed b (f.setCompressed false))

/-- The settings of filter (`/repo/apps/filter/filter.cpp` lines 42-54); the classes are sets. -/
def filterSettings (st : Style) (a : Filter.Args) (i o : Str) : List Str :=
  [setting "verbose" (showBool a.verbose), setting "keep-classes" (showNat (st.set a.keepClasses).length)]
    ++ (st.set a.keepClasses).map (fun c => ['\t'] ++ showInt c)
    ++ [setting "random-seed" (showNat (UInt64.ofInt a.seed).toNat), setting "remove-classes" (showNat (st.set a.removeClasses).length)]
    ++ (st.set a.removeClasses).map (fun c => ['\t'] ++ showInt c)
    ++ [setting "unique-xyz" (showBool a.uniqueXyz), setting "subsample" (st.double a.subsample), setting "remove-coords" a.removeCoords,
      setting "input-filename" i, setting "output-filename" o]

/-- filter (`/repo/apps/filter/filter.cpp` lines 9-88). -/
def filter (b : Build) (st : Style) (zl : Zlib) (sh : Subsampling.Shuffle) (argv : List Str) (w : World) : Log Int := do
  let (a, i, o) ← commandLine b st Cmd.filter (·.1.help) (filterArgs argv)
  if a.version || a.help then pure 0
  else do
    tell a.verbose (filterSettings st a i o)
    readThenWrite a.verbose w i o (fun s => quietly (do
        let f ← Apps.fileOf (Io.readFile b zl s)
        Filter.process b sh a f))
      (Io.writeFile b zl)

/-- The settings of tool (`/repo/apps/tool/tool.cpp` lines 46-51). -/
def toolSettings (st : Style) (a : Tool.Args) (i o : Str) : List Str :=
  [setting "verbose" (showBool a.verbose), quoted "field_fn" a.fieldFn, quoted "input_fn" i, quoted "output_fn" o,
   quoted "resolution" (st.double a.resolution), str "command: " ++ str a.command.name ++ ['='] ++ a.command.params]

/-- What `upsample_classifications` says about `count` assignments to `n` records (`/repo/apps/tool/tool.h` lines 336-347); there is no end of
line after the second message. -/
def upsampled (verbose : Bool) (count n : Nat) : Log Unit :=
  if verbose then do
    say (showNat count ++ str " of " ++ showNat n
      ++ str " upsampled point record classifications were assigned a value from the subsampled point records.\n")
    if count ≠ n then
      say (str "Was the low resolution spoc file subsampled from the high resolution spoc file and at the same resolution?")
    else pure ()
  else pure ()

/-- The commands that change the file (`/repo/apps/tool/tool.cpp` lines 67-119). -/
def toolRun (b : Build) (zl : Zlib) (files : Tool.Files) (a : Tool.Args) (f : SpocFile) : Log SpocFile :=
  if a.command.name = "set-field" ∧ a.fieldFn.isEmpty = false then do
    tell a.verbose [str "Opening " ++ a.fieldFn ++ str " for reading"]
    quietly (Tool.run b zl files a f)
  else if a.command.name = "upsample-classifications" ∧ F64.le a.resolution F64.zero = false then do
    tell a.verbose [str "Opening " ++ a.command.params ++ str " for reading"]
    let s ← quietly (match files.spoc a.command.params with
      | none => .throw "Could not open file for reading"
      | some s => .ok s)
    let g ← quietly (Apps.fileOf (Io.readFile b zl s))
    let (h, count) ← quietly (Tool.upsample b f g a.resolution)
    upsampled a.verbose count h.prs.length
    pure h
  else quietly (Tool.run b zl files a f)

/-- tool (`/repo/apps/tool/tool.cpp` lines 9-132). -/
def tool (b : Build) (st : Style) (zl : Zlib) (argv : List Str) (w : World) : Log Int := do
  let (a, i, o) ← commandLine b st Cmd.tool (·.1.help) (toolArgs argv)
  if a.version || a.help then pure 0
  else if a.command.name = "" then quietly (.throw "No command was specified")
  else do
    tell a.verbose (toolSettings st a i o)
    if a.command.name = "get-field" then do
      let s ← inputStream a.verbose w i
      let _ ← quietly (do
        let f ← Apps.fileOf (Io.readFile b zl s)
        let (name, _) ← AppUtils.consumeFieldName b a.command.params
        Tool.getField b f name)
      pure 0
    else do
      readThenWrite a.verbose w i o (fun s => do
          let f ← quietly (Apps.fileOf (Io.readFile b zl s))
          toolRun b zl (toolFiles w.fs) a f)
        (Io.writeFile b zl)

/-- The settings of transform (`/repo/apps/transform/transform.cpp` lines 44-48). -/
def transformSettings (a : Transform.Args) : List Str :=
  [setting "verbose" (showBool a.verbose), setting "random-seed" (showNat (UInt64.ofInt a.seed).toNat), str "commands:"]
    ++ a.commands.map (fun c => ['\t'] ++ str c.name ++ ['\t'] ++ c.params)

/-- transform (`/repo/apps/transform/transform.cpp` lines 9-67). -/
def transform (b : Build) (st : Style) (env : Transform.Env) (argv : List Str) (w : World) : Log Int := do
  let (a, i, o) ← commandLine b st Cmd.transform (·.1.help) (transformArgs argv)
  if a.version || a.help then pure 0
  else if a.commands.isEmpty then quietly (.throw "No command was specified")
  else do
    tell a.verbose (transformSettings a)
    let s ← inputStream a.verbose w i
    let s := if !i.isEmpty && decide (i = o) then { rest := [] } else s
    outputStream a.verbose w o (Transform.apply b env s a.commands (UInt64.ofInt a.seed).toNat)

/-- The settings of srs (`/repo/apps/srs/srs.cpp` lines 40-42). -/
def srsSettings (a : Cmd.SrsArgs) (fns : List Str) : List Str :=
  [setting "verbose" (showBool a.verbose), quoted "srs" (a.srs.getD []), setting "filenames" (showNat fns.length)]

/-- Open a file (`/repo/apps/srs/srs.cpp` lines 77-83 and 105-111, `/repo/apps/merge/merge.cpp` lines 66-73 and the same in diff and info). -/
def openFile (verbose : Bool) (fn : Str) (file : Option IStream) : Log IStream := do
  tell verbose [str "Reading " ++ fn]
  quietly (match file with
    | some s => .ok s
    | none => .throw "Could not open file for reading")

/-- The loop of srs without `--srs` (`/repo/apps/srs/srs.cpp` lines 103-117). -/
def showSrsLoop (verbose : Bool) (fs : Tile.FS) : List Str → Log Unit
  | [] => pure ()
  | fn :: fns => do
    let s ← openFile verbose fn (openRead fs fn)
    quietly (Apps.showSrs s).res
    showSrsLoop verbose fs fns

/-- srs (`/repo/apps/srs/srs.cpp` lines 8-127). -/
def srs (b : Build) (st : Style) (zl : Zlib) (argv : List Str) (w : World) : Log Int := do
  let a ← commandLine b st Cmd.srs (·.help) (Cmd.srsArgs (Cmd.srs.options argv) {})
  if a.version || a.help then pure 0
  else do
    tell a.verbose (srsSettings a (Cmd.srs.operands argv))
    match Cmd.srs.operands argv, a.srs with
    | [], some t => do
      tell a.verbose [str "Reading from stdin"]
      let f ← quietly (Apps.fileOf (Io.readFile b zl w.stdin))
      tell a.verbose [str "Writing to stdout"]
      quietly (zero (Io.writeFile b zl (f.setWkt (bytes t))).res)
    | [], none => do
      tell a.verbose [str "Reading from stdin"]
      quietly (zero (Apps.showSrs w.stdin).res)
    | [i, o], some t => do
      let s ← openFile a.verbose i (openRead w.fs i)
      let f ← quietly (Apps.fileOf (Io.readFile b zl s))
      tell a.verbose [str "Writing " ++ o]
      match Tile.openWrite w.canCreate w.fs o with
      | some _ => quietly (zero (Io.writeFile b zl (f.setWkt (bytes t))).res)
      | none => quietly (.throw "Could not open file for writing")
    | _, some _ => quietly (.throw "When setting the SRS, you need to specify one input file and one output file")
    | fns, none => do
      showSrsLoop a.verbose w.fs fns
      pure 0

/-- The settings of merge (`/repo/apps/merge/merge.cpp` lines 41-44). -/
def mergeSettings (a : Merge.Args) (fns : List Str) : List Str :=
  [setting "verbose" (showBool a.verbose), setting "quiet" (showBool a.quiet), setting "point-id" (showInt a.pointId),
   setting "filenames" (showNat fns.length)]

/-- One file (`/repo/apps/merge/merge.cpp` lines 75-106). -/
def mergeOne (a : Merge.Args) (i : Nat) (st : Merge.State) (f : SpocFile) : Log Merge.State :=
  let (st, r) := Merge.mergeOne a i { st with log := [] } f
  ⟨st.log.map (fun l => str l ++ ['\n']), do r; .ok st⟩

/-- The loop over the files (`/repo/apps/merge/merge.cpp` lines 61-107). -/
def mergeLoop (b : Build) (zl : Zlib) (a : Merge.Args) (fs : Tile.FS) : Nat → List Str → Merge.State → Log Merge.State
  | _, [], st => pure st
  | i, fn :: fns, st => do
    let s ← openFile a.verbose fn (openRead fs fn)
    let f ← quietly (Apps.fileOf (Io.readFile b zl s))
    let st ← mergeOne a i st f
    mergeLoop b zl a fs (i + 1) fns st

/-- merge (`/repo/apps/merge/merge.cpp` lines 8-145). -/
def merge (b : Build) (st : Style) (zl : Zlib) (argv : List Str) (w : World) : Log Int := do
  let a ← commandLine b st Cmd.merge (·.help) (Merge.getArgs (Cmd.merge.options argv) {})
  if a.version || a.help then pure 0
  else do
    tell a.verbose (mergeSettings a (Cmd.merge.operands argv))
    if (Cmd.merge.operands argv).length < 2 then quietly (.throw "At least two input files are required to merge")
    else do
      let m ← mergeLoop b zl a w.fs 0 (Cmd.merge.operands argv) { g := SpocFile.empty.setCompressed true, areaSum := F64.zero, log := [] }
      tell true ((Merge.areaLog a m).map str)
      tell a.verbose [str "Writing to stdout"]
      quietly (zero (Io.writeFile b zl m.g).res)

/-- The settings of diff (`/repo/apps/diff/diff.cpp` lines 40-46). -/
def diffSettings (a : Diff.Args) (i j : Str) : List Str :=
  [setting "verbose" (showBool a.verbose), setting "header-only" (showBool a.headerOnly), setting "data-only" (showBool a.dataOnly),
   setting "fields" (showNat a.fields.length), setting "reverse" (showBool a.reverse), quoted "filename1" i, quoted "filename2" j]

/-- diff (`/repo/apps/diff/diff.cpp` lines 8-88). -/
def diff (b : Build) (st : Style) (zl : Zlib) (argv : List Str) (w : World) : Log Int := do
  let (a, i, j) ← commandLine b st Cmd.diff (·.1.help)
    (withOperands (Diff.getArgs (Cmd.diff.options argv) {}) (·.help) ([], []) (Cmd.two (Cmd.diff.operands argv)))
  if a.version || a.help then pure 0
  else do
    tell a.verbose (diffSettings a i j)
    if a.headerOnly && a.dataOnly && !a.fields.isEmpty then
      quietly (.throw "Can't specify more than 1 of 'header-only', 'data-only', and specific fields")
    else do
      let s1 ← openFile a.verbose i (openRead w.fs i)
      let s2 ← openFile a.verbose j (openRead w.fs j)
      let f1 ← quietly (Apps.fileOf (Io.readFile b zl s1))
      let f2 ← quietly (Apps.fileOf (Io.readFile b zl s2))
      let code ← quietly (Diff.diff b f1 f2 a.headerOnly a.dataOnly a.fields a.reverse)
      tell a.verbose [str "The files are " ++ (if code = 0 then str "the same" else str "different")]
      pure code

/-- The settings of info (`/repo/apps/info/info.cpp` lines 40-48). -/
def infoSettings (a : Info.Args) (fns : List Str) : List Str :=
  [setting "verbose" (showBool a.verbose), setting "json" (showBool a.json), setting "header-info" (showBool a.headerInfo),
   setting "summary-info" (showBool a.summaryInfo), setting "classification-info" (showBool a.classInfo),
   setting "metric-info" (showBool a.metricInfo), setting "compact" (showBool a.compact), setting "quartiles" (showBool a.quartiles),
   setting "filenames" (showNat fns.length)]

/-- The loop over the files (`/repo/apps/info/info.cpp` lines 65-83). -/
def infoLoop (b : Build) (zl : Zlib) (sort : List F64 → List F64) (a : Info.Args) (fs : Tile.FS) : List Str → Log Unit
  | [] => pure ()
  | fn :: fns => do
    let s ← openFile a.verbose fn (openRead fs fn)
    let _ ← quietly (Apps.fileOf (Io.readFile b zl s) >>= Info.process b sort a)
    infoLoop b zl sort a fs fns

/-- info (`/repo/apps/info/info.cpp` lines 8-93). -/
def info (b : Build) (st : Style) (zl : Zlib) (sort : List F64 → List F64) (argv : List Str) (w : World) : Log Int := do
  let a ← commandLine b st Cmd.info (·.help) (Info.getArgs ((Cmd.info.options argv).map (·.1)) {})
  if a.version || a.help then pure 0
  else do
    tell a.verbose (infoSettings a (Cmd.info.operands argv))
    if (Cmd.info.operands argv).isEmpty then do
      tell a.verbose [str "Reading from stdin"]
      let _ ← quietly (Apps.fileOf (Io.readFile b zl w.stdin) >>= Info.process b sort a)
      pure 0
    else do
      infoLoop b zl sort a w.fs (Cmd.info.operands argv)
      pure 0

/-- The settings of tile (`/repo/apps/tile/tile.cpp` lines 46-54); the input is announced here already. -/
def tileSettings (st : Style) (a : Tile.Args) : List Str :=
  [setting "verbose" (showBool a.verbose), setting "force" (showBool a.force), setting "tiles" (showNat a.tiles.toNat),
   setting "digits" (showNat a.digits.toNat), setting "tile-size" (st.double a.tileSize), setting "tile-size-x" (st.double a.tileSizeX),
   setting "tile-size-y" (st.double a.tileSizeY), quoted "prefix" a.pre, str "Reading " ++ a.fn]

/-- The loop over the tiles (`/repo/apps/tile/tile.cpp` lines 131-194). -/
def writeTiles (b : Build) (zl : Zlib) (canCreate : Str → Bool) (a : Tile.Args) (name : UInt64 → Str) (f : SpocFile) (m : Tile.TileMap) :
    List UInt64 → Tile.FS → Log Unit
  | [], _ => pure ()
  | k :: ks, fs => do
    let t ← quietly (Tile.tileFile b f m k)
    tell (a.verbose && !a.force) [str "Checking if '" ++ name k ++ str "' exists"]
    if !a.force && fs.present (name k) then quietly (.throw "File already exists. Use the force option to overwrite. Aborting.")
    else do
      tell a.verbose [str "Writing " ++ name k]
      let r := Tile.writeTile b zl canCreate a.force fs (name k) t
      quietly r.2
      writeTiles b zl canCreate a name f m ks r.1

/-- tile (`/repo/apps/tile/tile.cpp` lines 12-203). -/
def tile (b : Build) (st : Style) (zl : Zlib) (argv : List Str) (w : World) : Log Int := do
  let (a, fn) ← commandLine b st Cmd.tile (·.1.help)
    (withOperands (Tile.getArgs (Cmd.tile.options argv) {}) (·.help) [] (Cmd.one (Cmd.tile.operands argv)))
  if a.version || a.help then pure 0
  else do
    let a := { a with fn := fn }
    tell a.verbose (tileSettings st a)
    if fn.isEmpty && a.pre.isEmpty then quietly (.throw "If using stdin as input you must specify an output prefix")
    else do
      let s ← inputStream a.verbose w fn
      let f ← quietly (Apps.fileOf (Io.readFile b zl s))
      tell a.verbose [str "Total points " ++ showNat f.prs.length]
      let e := Extent.ofPoints f.prs
      let (sx, sy) ← quietly (Tile.tileSizes a e)
      tell a.verbose [str "Tiles are " ++ st.double sx ++ str " X " ++ st.double sy]
      let indexes ← quietly (Tile.getTileIndexes f.prs e sx sy)
      let m := Tile.getTileMap indexes
      tell a.verbose [str "Writing tiles"]
      let pre := if a.pre.isEmpty then Tile.stem a.fn else a.pre
      quietly (cassert b (!pre.isEmpty))
      writeTiles b zl w.canCreate a (Tile.outputName a.fn pre f.compressed (Tile.width a)) f m (Tile.sortedKeys m) w.fs
      pure 0

/-- The messages of an application before it returns from `main` or throws. -/
def messages (n : Name) (p : Params) (st : Style) (argv : List Str) (w : World) : Log Int :=
  match n with
  | .compress => compress p.build st p.zlib argv w
  | .decompress => decompress p.build st p.zlib argv w
  | .diff => diff p.build st p.zlib argv w
  | .filter => filter p.build st p.zlib p.shuffle argv w
  | .info => info p.build st p.zlib p.sort argv w
  | .merge => merge p.build st p.zlib argv w
  | .srs => srs p.build st p.zlib argv w
  | .tile => tile p.build st p.zlib argv w
  | .tool => tool p.build st p.zlib argv w
  | .transform => transform p.build st p.env argv w

/-- The standard error: the messages and, after an exception, what it says (`/repo/apps/compress/compress.cpp` lines 54-58 and the same in the
others). -/
def standardError (n : Name) (p : Params) (st : Style) (argv : List Str) (w : World) : List Str :=
  let l := messages n p st argv w
  l.said ++ (match l.res with
    | .throw e => [str e ++ ['\n']]
    | _ => [])

end Spoc.Messages
