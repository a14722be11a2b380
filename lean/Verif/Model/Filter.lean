import Verif.Model.AppUtils
import Verif.Model.Apps
import Verif.Model.Subsampling
import Verif.Base.Strtod

/-!
# Model of the filter application (`/repo/apps/filter`)

`std::shuffle` is a parameter.  Of the command line, long options are modelled (exact spelling).
-/

namespace Spoc.Filter

open Text

/-- `std::string::find (delimiter, pos_start)` and `substr` of `detail::split` (`/repo/apps/filter/filter.h` lines 23-34) for a delimiter of
one character, which is what the only caller uses: `cur` is the part before the current position. -/
def splitGo (d : Char) (cur : Str) : Str → List Str
  | [] => [cur]
  | c :: cs => if c = d then cur :: splitGo d [] cs else splitGo d (cur ++ [c]) cs

/-- `detail::split` (`/repo/apps/filter/filter.h` lines 23-34). -/
def split (d : Char) (s : Str) : List Str := splitGo d [] s

/-- Conversion of `uint32_t` to the `int` that `std::unordered_set<int>::find` takes. -/
def toInt (c : UInt32) : Int := Int.bmod c.toNat (2 ^ 32)

/-- Loop over the records: add those that satisfy `keep` to the clone. -/
def select (f : SpocFile) (keep : PointRecord → Bool) : Res SpocFile :=
  f.prs.foldlM (fun g p => if keep p then g.pushBack p else .ok g) f.cloneEmpty

/-- `keep_classes` (`/repo/apps/filter/filter.h` lines 38-54). -/
def keepClasses (f : SpocFile) (c : List Int) : Res SpocFile :=
  select f (fun p => decide (toInt p.c ∈ c))

/-- `remove_classes` (`/repo/apps/filter/filter.h` lines 56-72). -/
def removeClasses (f : SpocFile) (c : List Int) : Res SpocFile :=
  select f (fun p => decide (toInt p.c ∉ c))

/-- `unique_xyz` (`/repo/apps/filter/filter.h` lines 74-91). -/
def uniqueXyz (b : Build) (sh : Subsampling.Shuffle) (f : SpocFile) (seed : Nat) : Res SpocFile := do
  let indexes ← Subsampling.uniqueXyzIndexes b sh f.prs seed
  indexes.foldlM (fun g i => do
    let p ← Voxel.at' f.prs i
    g.pushBack p) f.cloneEmpty

/-- `subsample_file` (`/repo/apps/filter/filter.h` lines 93-105). -/
def subsampleFile (b : Build) (sh : Subsampling.Shuffle) (f : SpocFile) (res : F64) (seed : Nat) : Res SpocFile := do
  let prs ← Subsampling.subsamplePoints b sh f.prs res seed
  f.cloneEmpty.setPointRecords prs

/-- The access function (`/repo/apps/filter/filter.h` lines 119-128). -/
def valueOf (s : Str) : Res (PointRecord → F64) :=
  if s = ['x'] then .ok (fun p => p.x)
  else if s = ['y'] then .ok (fun p => p.y)
  else if s = ['z'] then .ok (fun p => p.z)
  else .throw "An invalid coordinate value was given"

/-- The comparison (`/repo/apps/filter/filter.h` lines 130-145).  Its `bool` is returned as a `double`, which `!`
turns back. -/
def compareOf (s : Str) : Res (F64 → F64 → F64) :=
  if s = ['>'] then .ok (fun v1 v2 => if F64.gt v1 v2 then F64.one else F64.zero)
  else if s = ['<'] then .ok (fun v1 v2 => if F64.lt v1 v2 then F64.one else F64.zero)
  else .throw "An invalid comparison operator was given"

/-- `remove_coords` (`/repo/apps/filter/filter.h` lines 107-169). -/
def removeCoords (stod : AppUtils.Stod) (f : SpocFile) (op : Str) : Res SpocFile :=
  match split ' ' op with
  | [a, r, t] => do
    let value ← valueOf a
    let compare ← compareOf r
    match stod t with
    | none => .throw "Failed to convert comparison value to double for remove-coords option in spoc_filter. Did you format the option correctly?"
    | some (v, _) => select f (fun p => F64.feq (compare (value p) v) F64.zero)
  | _ => .throw "Did not find correct number of arguments for remove-coords option"

/-! ## Command line and `main` -/

/-- `struct args` (`/repo/apps/filter/filter_cmd.h` lines 16-29); file names are not modelled. -/
structure Args where
  help : Bool := false
  verbose : Bool := false
  version : Bool := false
  keepClasses : List Int := []
  seed : Int := 0
  removeClasses : List Int := []
  uniqueXyz : Bool := false
  subsample : F64 := F64.zero
  removeCoords : Str := []
  deriving DecidableEq, Repr

/-- The switch (`/repo/apps/filter/filter_cmd.h` lines 55-74), for the name of the long option. -/
def dispatch (a : Args) (name : String) (optarg : Str) : Res Args :=
  if name = "help" then .ok { a with help := true }
  else if name = "verbose" then .ok { a with verbose := true }
  else if name = "version" then .ok { a with version := true }
  else if name = "keep-class" then .ok { a with keepClasses := atoi optarg :: a.keepClasses }
  else if name = "random-seed" then .ok { a with seed := strtol optarg }
  else if name = "remove-class" then .ok { a with removeClasses := atoi optarg :: a.removeClasses }
  else if name = "unique-xyz" then .ok { a with uniqueXyz := true }
  else if name = "subsample" then .ok { a with subsample := atof optarg }
  else if name = "remove-coords" then .ok { a with removeCoords := optarg }
  else .throw "Invalid option"

/-- `get_args` (`/repo/apps/filter/filter_cmd.h` lines 31-93) for a list of long options with their arguments. -/
def getArgs : List (String × Str) → Args → Res Args
  | [], a => .ok a
  | (name, arg) :: os, a => do
    let a' ← dispatch a name arg
    if name = "help" then .ok a' else getArgs os a'

/-- One processing step: `if (on) f = step (f);`, where the assignment copies. -/
def stage (on : Bool) (step : SpocFile → Res SpocFile) (f : SpocFile) : Res SpocFile :=
  if on then (do (← step f).copy) else .ok f

/-- The processing steps (`/repo/apps/filter/filter.cpp` lines 63-73). -/
def process (b : Build) (sh : Subsampling.Shuffle) (a : Args) (f : SpocFile) : Res SpocFile := do
  let seed := (UInt64.ofInt a.seed).toNat
  let f ← stage (!a.keepClasses.isEmpty) (keepClasses · a.keepClasses) f
  let f ← stage (!a.removeClasses.isEmpty) (removeClasses · a.removeClasses) f
  let f ← stage a.uniqueXyz (uniqueXyz b sh · seed) f
  let f ← stage (F64.gt a.subsample F64.zero) (subsampleFile b sh · a.subsample seed) f
  stage (!a.removeCoords.isEmpty) (removeCoords stod · a.removeCoords) f

/-- `main` (`/repo/apps/filter/filter.cpp` lines 9-88) on standard input and output. -/
def main (b : Build) (zl : Zlib) (sh : Subsampling.Shuffle) (options : List (String × Str)) (s : IStream) : Out Unit := do
  let a ← Out.lift (getArgs options {})
  if a.version then Out.emit "Version 0.1\n".toUTF8.toList
  else if a.help then pure ()
  else do
    let f ← Out.lift (Apps.fileOf (Io.readFile b zl s))
    let g ← Out.lift (process b sh a f)
    Io.writeFile b zl g

end Spoc.Filter
