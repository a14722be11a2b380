import Verif.Model.Voxel

/-!
# Model of `/repo/spoc/subsampling.h`

`std::shuffle` with an engine seeded by `seed` is a parameter `shuffle seed`; theorems
assume only that it permutes the vector.
-/

namespace Spoc.Subsampling

/-- `std::shuffle (..., rng (seed))` -/
abbrev Shuffle := Nat → List Nat → List Nat

/-- What is known about `std::shuffle`. -/
def Shuffle.Lawful (sh : Shuffle) : Prop := ∀ seed l, (sh seed l).Perm l

/-- The processing order (`/repo/spoc/subsampling.h` lines 19-33 and 78-92): 0, 1, 2, ... or shuffled. -/
def order (sh : Shuffle) (seed n : Nat) : List Nat :=
  if seed ≠ 0 then sh seed (List.range n) else List.range n

/-- State of the loops: the keys seen and the indexes kept. -/
structure Acc (κ : Type) where
  seen : List κ
  kept : List Nat

/-- Loop body (`/repo/spoc/subsampling.h` lines 51-67): skip index `j` if its voxel is in
the set, otherwise keep the index and insert the voxel. -/
def stepVoxel (b : Build) (n : Nat) (v : List VoxelIndex) (a : Acc VoxelIndex) (j : Nat) :
    Res (Acc VoxelIndex) := do
  cassert b (decide (j < n))
  cassert b (decide (j < v.length))
  let vj ← Voxel.at' v j
  if vj ∈ a.seen then .ok a
  else .ok { seen := vj :: a.seen, kept := a.kept ++ [j] }

variable {α : Type} [HasXYZ α]

/-- `get_subsample_indexes` (`/repo/spoc/subsampling.h` lines 16-70). -/
def subsampleIndexes (b : Build) (sh : Shuffle) (ps : List α) (res : F64) (seed : Nat) : Res (List Nat) := do
  let v ← Voxel.getIndexes ps res
  let a ← (order sh seed ps.length).foldlM (stepVoxel b ps.length v) { seen := [], kept := [] }
  .ok a.kept

/-- Loop body (`/repo/spoc/subsampling.h` lines 98-120).  `xyzs.find` compares with `operator==` of points. -/
def stepXyz (b : Build) (ps : List α) (a : Acc (Pt F64)) (j : Nat) : Res (Acc (Pt F64)) := do
  cassert b (decide (j < ps.length))
  let p ← Voxel.at' ps j
  let l := pt p
  if a.seen.any (fun q => Pt.beq q l) then .ok a
  else .ok { seen := l :: a.seen, kept := a.kept ++ [j] }

/-- `get_unique_xyz_indexes` (`/repo/spoc/subsampling.h` lines 72-123). -/
def uniqueXyzIndexes (b : Build) (sh : Shuffle) (ps : List α) (seed : Nat) : Res (List Nat) := do
  let a ← (order sh seed ps.length).foldlM (stepXyz b ps) { seen := [], kept := [] }
  .ok a.kept

/-- `subsample_points` (`/repo/spoc/subsampling.h` lines 125-139). -/
def subsamplePoints (b : Build) (sh : Shuffle) (ps : List α) (res : F64) (seed : Nat) : Res (List α) := do
  let indexes ← subsampleIndexes b sh ps res seed
  indexes.mapM (fun i => Voxel.at' ps i)

end Spoc.Subsampling
