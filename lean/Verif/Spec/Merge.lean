import Verif.Spec.Io

/-!
# Specification vocabulary for the merge application
-/

namespace Spoc.Spec

/-- The points of all files one after the other, with the point ids set according to the position of the file. -/
def mergedPoints (id : Nat → UInt32) (fs : List SpocFile) : List PointRecord :=
  (fs.mapIdx (fun i f => f.prs.map (fun q => { q with p := id i }))).flatten

/-- The point id: the position of the file, or the number that was asked for. -/
def idOf (asked : Option Nat) (i : Nat) : UInt32 :=
  match asked with
  | none => UInt32.ofNat i
  | some n => UInt32.ofNat n

/-- The points of all files. -/
def allPoints (fs : List SpocFile) : List PointRecord := fs.flatMap (fun f => f.prs)

end Spoc.Spec
