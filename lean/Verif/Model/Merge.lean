import Verif.Model.Apps
import Verif.Model.Extent
import Verif.Base.Text

/-!
# Model of the merge application (`/repo/apps/merge`)

The input files are given as streams (`none` if a file cannot be opened).  Of the command line, long options are modelled (exact spelling).
-/

namespace Spoc.Merge

/-- Lines written to `std::clog` (without the end of line). -/
abbrev Log := List String

/-- The warning of `append` (`/repo/apps/merge/merge.h` line 22). -/
def srsWarning : String := "WARNING: The spatial reference systems differ"

/-- The warning about the area (`/repo/apps/merge/merge.cpp` line 128). -/
def areaWarning : String := "WARNING: 99% of the final merged area does not contain any points"

/-- Give up with the outcome of `r`. -/
def failWith {α β : Type} (r : Res α) : Res β :=
  match r with
  | .ok _ => .hang
  | .throw e => .throw e
  | .ub w => .ub w
  | .abort => .abort
  | .hang => .hang

/-- The loop of `append` (`/repo/apps/merge/merge.h` lines 25-35).  `f2` is a reference: the points added before an exception stay
added. -/
def appendLoop (id : UInt32) : List PointRecord → SpocFile → SpocFile × Res Unit
  | [], f2 => (f2, .ok ())
  | p :: ps, f2 =>
    match f2.pushBack { p with p := id } with
    | .ok g => appendLoop id ps g
    | r => (f2, failWith r)

/-- The check of the spatial reference systems (`/repo/apps/merge/merge.h` line 21). -/
def srsDiffer (f1 f2 : SpocFile) (quiet : Bool) : Res Bool :=
  if quiet then .ok false
  else do
    let h1 ← f1.getHeader
    let h2 ← f2.getHeader
    .ok (decide (h1.wkt ≠ h2.wkt))

/-- `append` (`/repo/apps/merge/merge.h` lines 13-36): the second file as it is left behind, the log, the outcome. -/
def append (f1 f2 : SpocFile) (id : UInt32) (quiet : Bool) : SpocFile × Log × Res Unit :=
  match srsDiffer f1 f2 quiet with
  | .ok w =>
    let (g, r) := appendLoop id f1.prs f2
    (g, if w then [srsWarning] else [], r)
  | r => (f2, [], failWith r)

/-- `struct args` (`/repo/apps/merge/merge_cmd.h` lines 14-22) without the file names. -/
structure Args where
  help : Bool := false
  verbose : Bool := false
  version : Bool := false
  quiet : Bool := false
  pointId : Int := -1
  deriving DecidableEq, Repr

/-- `get_args` (`/repo/apps/merge/merge_cmd.h` lines 24-66) for a list of long options with their arguments. -/
def getArgs : List (String × Str) → Args → Res Args
  | [], a => .ok a
  | (name, arg) :: os, a =>
    if name = "help" then .ok { a with help := true }
    else if name = "verbose" then getArgs os { a with verbose := true }
    else if name = "version" then getArgs os { a with version := true }
    else if name = "quiet" then getArgs os { a with quiet := !a.quiet }
    else if name = "point-id" then getArgs os { a with pointId := Text.atoi arg }
    else .throw "Invalid option"

/-- The point id (`/repo/apps/merge/merge.cpp` line 103), converted to `unsigned` when it is passed. -/
def pointId (a : Args) (i : Nat) : UInt32 := if a.pointId < 0 then UInt32.ofNat i else UInt32.ofInt a.pointId

/-- The area of a box (`/repo/apps/merge/merge.cpp` lines 97 and 119). -/
def area (e : Extent) : F64 := F64.mul (F64.sub e.maxp.x e.minp.x) (F64.sub e.maxp.y e.minp.y)

/-- The variables of `main`. -/
structure State where
  g : SpocFile
  areaSum : F64
  log : Log

/-- One iteration of the loop over the files (`/repo/apps/merge/merge.cpp` lines 61-107), for the file that was read. -/
def mergeOne (a : Args) (i : Nat) (st : State) (f : SpocFile) : State × Res Unit :=
  let g := if f.compressed = false then st.g.setCompressed false else st.g
  let g := if i = 0 then g.setWkt f.wkt else g
  let areaSum := F64.add st.areaSum (area (Extent.ofPoints f.prs))
  let (g, w, r) := append f g (pointId a i) a.quiet
  ({ g := g, areaSum := areaSum, log := st.log ++ w }, r)

/-- The loop over the files (`/repo/apps/merge/merge.cpp` lines 61-107). -/
def mergeLoop (b : Build) (zl : Zlib) (a : Args) : Nat → List (Option IStream) → State → State × Res Unit
  | _, [], st => (st, .ok ())
  | _, none :: _, st => (st, .throw "Could not open file for reading")
  | i, some s :: fs, st =>
    match Apps.fileOf (Io.readFile b zl s) with
    | .ok f =>
      match mergeOne a i st f with
      | (st, .ok ()) => mergeLoop b zl a (i + 1) fs st
      | (st, r) => (st, r)
    | r => (st, failWith r)

/-- The check of the areas (`/repo/apps/merge/merge.cpp` lines 109-131). -/
def areaLog (a : Args) (st : State) : Log :=
  if a.quiet then []
  else if F64.gt (F64.div (area (Extent.ofPoints st.g.prs)) st.areaSum) (F64.ofNat 100) then [areaWarning]
  else []

/-- `main` (`/repo/apps/merge/merge.cpp` lines 8-145): the log, and what is written to standard output. -/
def main (b : Build) (zl : Zlib) (options : List (String × Str)) (files : List (Option IStream)) : Log × Out Unit :=
  match getArgs options {} with
  | .ok a =>
    if a.version then ([], Out.emit "Version 0.1\n".toUTF8.toList)
    else if a.help then ([], pure ())
    else if files.length < 2 then ([], Out.lift (.throw "At least two input files are required to merge"))
    else
      match mergeLoop b zl a 0 files { g := SpocFile.empty.setCompressed true, areaSum := F64.zero, log := [] } with
      | (st, .ok ()) => (st.log ++ areaLog a st, Io.writeFile b zl st.g)
      | (st, r) => (st.log, Out.lift r)
  | r => ([], Out.lift (failWith r))

end Spoc.Merge
