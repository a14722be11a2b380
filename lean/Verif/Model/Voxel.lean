import Verif.Model.Extent

/-!
# Model of `/repo/spoc/voxel.h`
-/

namespace Spoc

/-- `struct voxel_index` (`/repo/spoc/voxel.h` lines 15-36); `operator==` is equality of the members. -/
structure VoxelIndex where
  i : UInt64
  j : UInt64
  k : UInt64
  deriving DecidableEq, Repr

namespace Voxel

/-- One component of `get_voxel_index` (`/repo/spoc/voxel.h` lines 43-45). -/
def index1 (p minp res : F64) : Res UInt64 := F64.toU64 (F64.div (F64.sub p minp) res)

/-- `get_voxel_index` (`/repo/spoc/voxel.h` lines 39-47). -/
def getIndex (p minp : Pt F64) (res : F64) : Res VoxelIndex := do
  let i ← index1 p.x minp.x res
  let j ← index1 p.y minp.y res
  let k ← index1 p.z minp.z res
  .ok ⟨i, j, k⟩

variable {α : Type} [HasXYZ α]

/-- `get_voxel_indexes` relative to a given extent (`/repo/spoc/voxel.h` lines 49-60). -/
def getIndexesIn (ps : List α) (e : Extent) (res : F64) : Res (List VoxelIndex) :=
  ps.mapM (fun p => getIndex (pt p) e.minp res)

/-- `v[i]` of a `std::vector`: undefined out of range. -/
def at' {β : Type} (v : List β) (i : Nat) : Res β :=
  match v[i]? with
  | some x => .ok x
  | none => .ub "vector index out of range"

/-- `get_voxel_indexes` of selected points (`/repo/spoc/voxel.h` lines 62-74). -/
def getIndexesOf (ps : List α) (pointIndexes : List Nat) (res : F64) : Res (List VoxelIndex) :=
  let e := Extent.ofPoints ps
  pointIndexes.mapM (fun n => do
    let p ← at' ps n
    getIndex (pt p) e.minp res)

/-- `get_voxel_indexes` relative to the extent of the points (`/repo/spoc/voxel.h` lines 76-81). -/
def getIndexes (ps : List α) (res : F64) : Res (List VoxelIndex) :=
  getIndexesIn ps (Extent.ofPoints ps) res

/-- `voxel_index_hash` (`/repo/spoc/voxel.h` lines 84-91). -/
def hash (v : VoxelIndex) : UInt64 := (v.i <<< 0) ^^^ (v.j <<< 16) ^^^ (v.k <<< 32)

/-- `voxel_index_map` (`/repo/spoc/voxel.h` line 95), an `unordered_map` modelled as an association list
searched with `==`. -/
abbrev Map := List (VoxelIndex × List Nat)

/-- `vim.find (v)` -/
def Map.find (m : Map) (v : VoxelIndex) : Option (List Nat) := m.lookup v

/-- `vim[v].push_back (n)` (`/repo/spoc/voxel.h` line 112): inserts an empty vector first if `v` is new. -/
def Map.push (m : Map) (v : VoxelIndex) (n : Nat) : Map :=
  match m with
  | [] => [(v, [n])]
  | (w, ns) :: m => if v = w then (w, ns ++ [n]) :: m else (w, ns) :: Map.push m v n

/-- `get_voxel_index_map` (`/repo/spoc/voxel.h` lines 105-118). -/
def getMap (vs : List VoxelIndex) : Map :=
  vs.zipIdx.foldl (fun m vi => m.push vi.1 vi.2) []

/-- `get_voxel_index_set` (`/repo/spoc/voxel.h` lines 97-103): the elements inserted so far, without repetition. -/
def getSet (vs : List VoxelIndex) : List VoxelIndex :=
  vs.foldl (fun s v => if v ∈ s then s else s ++ [v]) []

end Voxel

end Spoc
