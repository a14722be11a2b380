import Verif.Model.Extent

/-!
# Model of `/repo/spoc/utils.h` and `/repo/spoc/affine.h`

The parallel loops are modelled here as maps over the vector; `Verif/Model/Loops.lean` has
the loops themselves as interleaved memory operations.
-/

namespace Spoc

namespace Utils

/-- `x = static_cast<int> (x / precision) * precision` (`/repo/spoc/utils.h` lines 47-49). -/
def quantize1 (precision x : F64) : Res F64 := do
  let n ← F64.toInt32 (F64.div x precision)
  .ok (F64.mul (F64.ofInt n) precision)

/-- Loop body of `quantize` (`/repo/spoc/utils.h` lines 46-49). -/
def quantizePt (precision : F64) (p : Pt F64) : Res (Pt F64) := do
  let x ← quantize1 precision p.x
  let y ← quantize1 precision p.y
  let z ← quantize1 precision p.z
  .ok ⟨x, y, z⟩

/-- `quantize` (`/repo/spoc/utils.h` lines 36-51). -/
def quantize {α : Type} [HasXYZ α] (b : Build) (ps : List α) (precision : F64) : Res (List α) := do
  require b (F64.fne precision F64.zero)
  ps.mapM (fun p => do
    let q ← quantizePt precision (pt p)
    .ok (withPt p q))

/-- `get_center` (`/repo/spoc/utils.h` lines 53-67), the three coordinates of the result. -/
def getCenter {α : Type} [HasXYZ α] (ps : List α) : Pt F64 :=
  let c := ps.foldl (fun c p => Pt.add c (pt p)) ⟨F64.zero, F64.zero, F64.zero⟩
  let n := F64.ofNat ps.length
  ⟨F64.div c.x n, F64.div c.y n, F64.div c.z n⟩

/-- The condition of `/repo/spoc/utils.h` lines 77-84. -/
def outside (e : Extent) (p : Pt F64) : Bool :=
  F64.lt p.x e.minp.x || F64.lt p.y e.minp.y || F64.lt p.z e.minp.z
    || F64.gt p.x e.maxp.x || F64.gt p.y e.maxp.y || F64.gt p.z e.maxp.z

/-- `crop` (`/repo/spoc/utils.h` lines 69-90). -/
def crop {α : Type} [HasXYZ α] (ps : List α) (e : Extent) : List α :=
  ps.foldl (fun q p => if outside e (pt p) then q else q ++ [p]) []

end Utils

/-- The functions `sin` and `cos` of the C library (parameters). -/
structure Trig where
  sin : F64 → F64
  cos : F64 → F64

namespace Affine

/-- `M_PI` -/
def pi : F64 := ⟨0x400921FB54442D18⟩

/-- 180.0 -/
def c180 : F64 := ⟨0x4066800000000000⟩

/-- `degrees * M_PI / 180.0` (`/repo/spoc/affine.h` lines 74, 85, 96). -/
def radians (degrees : F64) : F64 := F64.div (F64.mul degrees pi) c180

/-- Loop body of `add_x` (`/repo/spoc/affine.h` line 17). -/
def addX (v : F64) (p : Pt F64) : Pt F64 := { p with x := F64.add p.x v }
/-- Loop body of `add_y` (`/repo/spoc/affine.h` line 26). -/
def addY (v : F64) (p : Pt F64) : Pt F64 := { p with y := F64.add p.y v }
/-- Loop body of `add_z` (`/repo/spoc/affine.h` line 35). -/
def addZ (v : F64) (p : Pt F64) : Pt F64 := { p with z := F64.add p.z v }
/-- Loop body of `add` (`/repo/spoc/affine.h` lines 44-48). -/
def addPt (v : Pt F64) (p : Pt F64) : Pt F64 :=
  ⟨F64.add p.x v.x, F64.add p.y v.y, F64.add p.z v.z⟩
/-- Loop body of `scale_x` (`/repo/spoc/affine.h` line 109). -/
def scaleX (v : F64) (p : Pt F64) : Pt F64 := { p with x := F64.mul p.x v }
/-- Loop body of `scale_y` (`/repo/spoc/affine.h` line 118). -/
def scaleY (v : F64) (p : Pt F64) : Pt F64 := { p with y := F64.mul p.y v }
/-- Loop body of `scale_z` (`/repo/spoc/affine.h` line 127). -/
def scaleZ (v : F64) (p : Pt F64) : Pt F64 := { p with z := F64.mul p.z v }

/-- `rotate_x` of one point (`/repo/spoc/affine.h` lines 57-68 with the operations of lines 75-77). -/
def rotateX (t : Trig) (degrees : F64) (p : Pt F64) : Pt F64 :=
  let r := radians degrees
  ⟨p.x,
    F64.sub (F64.mul p.y (t.cos r)) (F64.mul p.z (t.sin r)),
    F64.add (F64.mul p.y (t.sin r)) (F64.mul p.z (t.cos r))⟩

/-- `rotate_y` of one point (`/repo/spoc/affine.h` lines 57-68 with the operations of lines 86-88). -/
def rotateY (t : Trig) (degrees : F64) (p : Pt F64) : Pt F64 :=
  let r := radians degrees
  ⟨F64.sub (F64.mul p.x (t.cos r)) (F64.mul p.z (t.sin r)),
    p.y,
    F64.add (F64.mul p.x (t.sin r)) (F64.mul p.z (t.cos r))⟩

/-- `rotate_z` of one point (`/repo/spoc/affine.h` lines 57-68 with the operations of lines 97-99). -/
def rotateZ (t : Trig) (degrees : F64) (p : Pt F64) : Pt F64 :=
  let r := radians degrees
  ⟨F64.sub (F64.mul p.x (t.cos r)) (F64.mul p.y (t.sin r)),
    F64.add (F64.mul p.x (t.sin r)) (F64.mul p.y (t.cos r)),
    p.z⟩

/-- The functions of `/repo/spoc/affine.h` as operations on a vector: `f` is applied to each element. -/
def onAll {α : Type} [HasXYZ α] (f : Pt F64 → Pt F64) (ps : List α) : List α :=
  ps.map (fun p => withPt p (f (pt p)))

end Affine

end Spoc
