import Verif.Model.Python
import Verif.Base.Fixed

/-!
# Model of the Python examples that read files

`/repo/spocpy/examples/fileio.py` and `/repo/spocpy/examples/timings.py`.  The names that `glob.glob` finds are a parameter, as are the texts of the
measured times.  The standard output is a text; what has been printed before an exception stays printed.

Trusted here: an f-string shows a `str` as it is, an `int` in decimal and a `bool` as `True` or `False`, and `0.5f` rounds to five decimals with ties to
even, showing every not-a-number as `nan`; `len` of a `str` counts characters.
-/

namespace Spoc.PyExamples

open Text Python

/-- The texts that are printed, one after the other, up to the first exception. -/
def say : List (Res Str) → Str × Res Unit
  | [] => ([], .ok ())
  | .ok t :: l => (t ++ (say l).1, (say l).2)
  | .throw e :: _ => ([], .throw e)
  | .ub w :: _ => ([], .ub w)
  | .abort :: _ => ([], .abort)
  | .hang :: _ => ([], .hang)

/-- What is printed with the value of an expression; nothing if there is an exception. -/
def showing {α : Type} (r : Res α) (k : α → List (Res Str)) : List (Res Str) :=
  match r with
  | .ok a => k a
  | .throw e => [.throw e]
  | .ub w => [.ub w]
  | .abort => [.abort]
  | .hang => [.hang]

/-- `print` of a text -/
def line (t : Str) : Res Str := .ok (t ++ ['\n'])

/-- `{h.wkt}` and `len (h.wkt)` (`/repo/spocpy/spocpy/spocpy.cpp` line 72) -/
def wktOf (wkt : Bytes) : Res Str := toStr wkt

/-- The header of one file (`/repo/spocpy/examples/fileio.py` lines 19-25). -/
def headerBlock (fs : Tile.FS) (fn : Str) : List (Res Str) :=
  showing (readheader fs fn) fun h =>
    [line fn, line ("\tversion ".toList ++ showNat h.major.toNat ++ '.' :: showNat h.minor.toNat)]
      ++ showing (wktOf h.wkt) fun t =>
        [line ("\twkt ".toList ++ showNat t.length ++ " bytes".toList),
          line ("\textra_fields ".toList ++ showNat h.extraFields.toNat),
          line ("\ttotal_points ".toList ++ showNat h.totalPoints.toNat),
          line ("\tcompressed ".toList ++ showNat h.compressed.toNat)]

/-- `{x:0.5f}` -/
def fixed5 (x : F64) : Str := if x.isNaN then "nan".toList else showFixed 5 x

/-- One record (`/repo/spocpy/examples/fileio.py` lines 53-55 and 58-60). -/
def recordLine (q : PointRecord) : Str :=
  "\t\t(".toList ++ fixed5 q.x ++ ", ".toList ++ fixed5 q.y ++ ", ".toList ++ fixed5 q.z ++ ")".toList
    ++ (" cls=".toList ++ showNat q.c.toNat ++ ", id=".toList ++ showNat q.p.toNat ++ ", intensity=".toList ++ showNat q.i.toNat)
    ++ (" rgb=[".toList ++ showNat q.r.toNat ++ ", ".toList ++ showNat q.g.toNat ++ ", ".toList ++ showNat q.b.toNat ++ "]".toList)

/-- The text that describes the spatial reference (`/repo/spocpy/examples/fileio.py` lines 41-44). -/
def wktLine (t : Str) : Str :=
  if t.length < 10 then "\tWKT '".toList ++ t ++ "'".toList
  else "\tWKT '".toList ++ t.take 5 ++ "...".toList ++ t.drop (t.length - 5) ++ "'".toList

/-- A `bool` in an f-string -/
def showBool (b : Bool) : Str := if b then "True".toList else "False".toList

/-- The contents of one file (`/repo/spocpy/examples/fileio.py` lines 33-60). -/
def fileBlock (P : Params) (fs : Tile.FS) (fn : Str) : List (Res Str) :=
  showing (readspocfile P fs fn) fun f =>
    [line fn, line ("\tSPOC Version ".toList ++ showNat f.major.toNat ++ '.' :: showNat f.minor.toNat)]
      ++ showing (wktOf f.wkt) fun t =>
        [line (wktLine t), line ("\tCompressed ".toList ++ showBool f.compressed),
          line ('\t' :: showNat f.prs.length ++ " point records".toList)]
        ++ (f.prs.take 3).map (fun q => line (recordLine q))
        ++ [line "\t\t...".toList]
        ++ (f.prs.drop (f.prs.length - 3)).map (fun q => line (recordLine q))

/-- `main` of `fileio.py` (`/repo/spocpy/examples/fileio.py` lines 10-60) for the names that were found. -/
def fileio (P : Params) (fs : Tile.FS) (fns : List Str) : Str × Res Unit :=
  say ([line "Headers:".toList] ++ fns.flatMap (headerBlock fs) ++ [line [], line "Files:".toList] ++ fns.flatMap (fileBlock P fs))

/-- The loop that counts the records (`/repo/spocpy/examples/timings.py` lines 30-35). -/
def countRecords (P : Params) (fs : Tile.FS) (fns : List Str) : Res Nat :=
  fns.foldlM (fun n fn => do
    let f ← readspocfile P fs fn
    .ok (n + f.prs.length)) 0

/-- `main` of `timings.py` (`/repo/spocpy/examples/timings.py` lines 11-39); `t1` and `t2` are the texts of the measured times. -/
def timings (P : Params) (fs : Tile.FS) (fns : List Str) (t1 t2 : Str) : Str × Res Unit :=
  say ([line "Reading all headers...".toList]
    ++ showing (fns.mapM (readheader fs)) fun _ =>
      [line (t1 ++ " seconds elapsed".toList), line "Reading all point records...".toList]
      ++ showing (countRecords P fs fns) fun n =>
        [line (t2 ++ " seconds elapsed".toList), line (showNat n ++ " total point records read".toList)])

end Spoc.PyExamples
