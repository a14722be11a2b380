import Verif.Base.Par
import Verif.Model.Utils
import Verif.Model.Io
import Verif.Model.RadiusSearch

/-!
# The OpenMP loops of the library as interleaved memory operations

Each loop body is given as its list of memory operations on the shared vector.  Loads and stores of one
coordinate are single operations.
-/

namespace Spoc.Loops

open Par

variable {α : Type} [HasXYZ α]

/-- A step that only uses registers and read-only data. -/
def compute {L σ : Type} (f : L → L) : Step L σ := fun l m => (f l, m)

/-- Which coordinate. -/
inductive Axis | x | y | z
  deriving DecidableEq, Repr

/-- Read a coordinate. -/
def Axis.get : Axis → Pt F64 → F64
  | .x, p => p.x
  | .y, p => p.y
  | .z, p => p.z

/-- Replace a coordinate. -/
def Axis.set : Axis → F64 → Pt F64 → Pt F64
  | .x, v, p => { p with x := v }
  | .y, v, p => { p with y := v }
  | .z, v, p => { p with z := v }

/-- Store a coordinate of element `i` computed from the registers. -/
def storeAxis {L : Type} (a : Axis) (i : Nat) (f : L → F64) : Step L α :=
  store i (fun l p => withPt p (a.set (f l) (pt p)))

/-- `p[i].x += v` (`/repo/spoc/affine.h` lines 13-36) for the three axes: load, add, store. -/
def add1 (a : Axis) (v : F64) (i : Nat) : List (Step F64 α) :=
  [load i (fun _ p => a.get (pt p)), storeAxis a i (fun l => F64.add l v)]

/-- `p[i].x = p[i].x * v` (`/repo/spoc/affine.h` lines 105-128). -/
def scale1 (a : Axis) (v : F64) (i : Nat) : List (Step F64 α) :=
  [load i (fun _ p => a.get (pt p)), storeAxis a i (fun l => F64.mul l v)]

/-- What the reference parameter `v` of `add` refers to (`/repo/spoc/affine.h` line 40): an object outside
the vector, or an element of the vector itself. -/
inductive Arg
  | outside (v : Pt F64)
  | element (k : Nat)

/-- Load a coordinate of the referenced point into the second register. -/
def loadArg (a : Axis) : Arg → Step (F64 × F64) α
  | .outside v => compute (fun l => (l.1, a.get v))
  | .element k => load k (fun l p => (l.1, a.get (pt p)))

/-- `p[i].x += v.x; p[i].y += v.y; p[i].z += v.z` (`/repo/spoc/affine.h` lines 39-49). -/
def addRef (v : Arg) (i : Nat) : List (Step (F64 × F64) α) :=
  [Axis.x, Axis.y, Axis.z].flatMap fun a =>
    [load i (fun l p => (a.get (pt p), l.2)), loadArg a v, storeAxis a i (fun l => F64.add l.1 l.2)]

/-- `rotate` (`/repo/spoc/affine.h` lines 52-68): three loads, three stores; `op` gives the new point. -/
def rotate (op : Pt F64 → Pt F64) (i : Nat) : List (Step (Pt F64) α) :=
  [load i (fun l p => { l with x := (pt p).x }), load i (fun l p => { l with y := (pt p).y }),
    load i (fun l p => { l with z := (pt p).z }),
    storeAxis .x i (fun l => (op l).x), storeAxis .y i (fun l => (op l).y), storeAxis .z i (fun l => (op l).z)]

/-- The value of a computation that is known to succeed. -/
def okOr {β : Type} (d : β) : Res β → β
  | .ok b => b
  | _ => d

/-- `quantize` (`/repo/spoc/utils.h` lines 44-50): per coordinate load, compute, store. -/
def quantize (precision : F64) (i : Nat) : List (Step F64 α) :=
  [Axis.x, Axis.y, Axis.z].flatMap fun a =>
    [load i (fun _ p => a.get (pt p)), storeAxis a i (fun l => okOr l (Utils.quantize1 precision l))]

/-- `voxel_indexes[i] = get_voxel_index (...)` (`/repo/spoc/voxel.h` lines 57-58 and 71-72): the points are only read,
the three members of the result are stored. -/
def voxelIndex (value : Nat → Res VoxelIndex) (i : Nat) : List (Step VoxelIndex VoxelIndex) :=
  [compute (fun l => okOr l (value i)),
    store i (fun l v => { v with i := l.i }), store i (fun l v => { v with j := l.j }),
    store i (fun l v => { v with k := l.k })]

/-- `out[i] = f (i)` where `f` reads only constant data: the parallel sections and the loop over the extra
fields of `write_spoc_file_compressed` (`/repo/spoc/io.h` lines 336-362), and the loop of
`radius_search` with the operation of `radius_search_get_neighbors` (`/repo/spoc/radius_search.h`
lines 271-292, 370-374). -/
def output {β : Type} (value : Nat → Res β) (i : Nat) : List (Step (Option β) β) :=
  [compute (fun _ => match value i with | .ok b => some b | _ => none),
    store i (fun l v => l.getD v)]

/-- `if (!x.empty ()) prs[n].x = x[n]` (`/repo/spoc/io.h` lines 211-219). -/
def fillField (col : List Nat) (set : PointRecord → Nat → PointRecord) (n : Nat) : Step Unit PointRecord :=
  store n (fun _ q => if col.isEmpty then q else set q (okOr 0 (Io.colGet col n)))

/-- Body of the loop of `read_compressed_points` (`/repo/spoc/io.h` lines 211-222). -/
def fill (cs : Io.Columns) (n : Nat) : List (Step Unit PointRecord) :=
  [fillField cs.x (fun q v => { q with x := ⟨UInt64.ofNat v⟩ }) n,
    fillField cs.y (fun q v => { q with y := ⟨UInt64.ofNat v⟩ }) n,
    fillField cs.z (fun q v => { q with z := ⟨UInt64.ofNat v⟩ }) n,
    fillField cs.c (fun q v => { q with c := UInt32.ofNat v }) n,
    fillField cs.p (fun q v => { q with p := UInt32.ofNat v }) n,
    fillField cs.i (fun q v => { q with i := UInt16.ofNat v }) n,
    fillField cs.r (fun q v => { q with r := UInt16.ofNat v }) n,
    fillField cs.g (fun q v => { q with g := UInt16.ofNat v }) n,
    fillField cs.b (fun q v => { q with b := UInt16.ofNat v }) n,
    store n (fun _ q => { q with extra := SpocFile.resizeExtra cs.extra.length q.extra })]
  ++ cs.extra.zipIdx.map (fun ej =>
    fillField ej.1 (fun q v => { q with extra := q.extra.set ej.2 (UInt64.ofNat v) }) n)

end Spoc.Loops
