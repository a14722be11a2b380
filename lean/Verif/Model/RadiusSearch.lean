import Verif.Model.Voxel

/-!
# Model of `/repo/spoc/radius_search.h`

The random number generator is a parameter: `rng seed k` is the `k`-th number drawn from a
`std::minstd_rand` seeded with `seed`.
-/

namespace Spoc.RadiusSearch

/-- `static_cast<int> (u)` of a `size_t`: the low 32 bits as a signed number. -/
def toInt (u : UInt64) : Int :=
  let n : Nat := u.toNat % 2 ^ 32
  if n < 2 ^ 31 then (n : Int) else (n : Int) - 2 ^ 32

/-- Conversion of an `int` to `size_t`. -/
def ofInt (n : Int) : UInt64 := UInt64.ofNat (n % 2 ^ 64).toNat

/-- The three values of one loop of `/repo/spoc/radius_search.h` lines 42-51, `u - 1`, `u`, `u + 1` in `int`
arithmetic.  Overflow of `- 1` or `+ 2` is undefined. -/
def around (u : UInt64) : Res (List Int) :=
  let n := toInt u
  if n - 1 < -(2 ^ 31) then .ub "int overflow"
  else if n + 2 ≥ 2 ^ 31 then .ub "int overflow"
  else .ok [n - 1, n, n + 1]

/-- The 27 voxel indexes (`/repo/spoc/radius_search.h` lines 42-55). -/
def voxels27 (ijk : VoxelIndex) : Res (List VoxelIndex) := do
  let is ← around ijk.i
  let js ← around ijk.j
  let ks ← around ijk.k
  .ok (is.flatMap fun i => js.flatMap fun j => ks.map fun k => ⟨ofInt i, ofInt j, ofInt k⟩)

/-- Data members of `random_neighbor_selector` (`/repo/spoc/radius_search.h` lines 16-33); `draws` is the number of
random numbers drawn so far. -/
structure Selector where
  vim : Voxel.Map
  voxels : List VoxelIndex
  counts : List Nat
  left : Nat
  seed : Nat
  draws : Nat

/-- Number of points in a voxel, zero if it is not in the map (`/repo/spoc/radius_search.h` lines 61-64 and 72-75). -/
def countIn (vim : Voxel.Map) (v : VoxelIndex) : Nat :=
  match vim.find v with
  | some ns => ns.length
  | none => 0

/-- The constructor (`/repo/spoc/radius_search.h` lines 36-84). -/
def Selector.new (ijk : VoxelIndex) (vim : Voxel.Map) : Res Selector := do
  let voxels ← voxels27 ijk
  let left := voxels.foldl (fun n v => n + countIn vim v) 0
  .ok { vim, voxels, counts := voxels.map (countIn vim), left, seed := left, draws := 0 }

/-- The while loop (`/repo/spoc/radius_search.h` lines 106-115).  `cur` is `voxel_counts[chosen]`, `rest` the counts
behind it.  Running off the end fails the assertion, or reads out of bounds in a release build. -/
def choose (b : Build) (randomIndex : Nat) : (rest : List Nat) → (chosen cur cumulative : Nat) → Res Nat
  | rest, chosen, cur, cumulative =>
    if cur = 0 ∨ cumulative < randomIndex then
      match rest with
      | [] =>
        match b with
        | .debug => .abort
        | .release => .ub "voxel_counts read out of bounds"
      | c :: rest => choose b randomIndex rest (chosen + 1) c (cumulative + c)
    else .ok chosen

/-- `operator ()` (`/repo/spoc/radius_search.h` lines 93-154): a neighbour index and the new state. -/
def Selector.draw (b : Build) (rng : Nat → Nat → Nat) (s : Selector) : Res (Nat × Selector) := do
  cassert b (decide (s.left ≠ 0))
  if s.left = 0 then .ub "division by zero"
  else do
    let randomIndex := rng s.seed s.draws % s.left
    let chosen ←
      match s.counts with
      | [] => .ub "voxel_counts read out of bounds"
      | c :: rest => choose b randomIndex rest 0 c c
    let v ← Voxel.at' s.voxels chosen
    match s.vim.find v with
    | none => match b with
      | .debug => .abort
      | .release => .ub "end iterator dereferenced"
    | some ns => do
      cassert b (decide (ns.length ≠ 0))
      let count ← Voxel.at' s.counts chosen
      cassert b (decide (0 < count))
      if count = 0 then .ub "vector index out of range"
      else do
        let n ← Voxel.at' ns (count - 1)
        .ok (n, { s with counts := s.counts.set chosen (count - 1), left := s.left - 1, draws := s.draws + 1 })

variable {α : Type} [HasXYZ α]

/-- The while loop of `get_neighbors` (`/repo/spoc/radius_search.h` lines 183-204). -/
def neighborsLoop (b : Build) (rng : Nat → Nat → Nat) (i : Nat) (points : List α)
    (pointIndexes neighborIndexes : List Nat) (radius : F64) (maxNeighbors : Nat) :
    Nat → Selector → List Nat → Res (List Nat)
  | fuel, s, neighbors =>
    if s.left > 0 then
      if neighbors.length = maxNeighbors then .ok neighbors
      else
        match fuel with
        | 0 => .hang
        | fuel + 1 => do
          let (j, s) ← s.draw b rng
          cassert b (decide (i < pointIndexes.length))
          cassert b (decide (j < neighborIndexes.length))
          let pi ← Voxel.at' pointIndexes i
          let nj ← Voxel.at' neighborIndexes j
          cassert b (decide (pi < points.length))
          cassert b (decide (nj < points.length))
          let p ← Voxel.at' points pi
          let q ← Voxel.at' points nj
          let neighbors :=
            if F64.le (Pt.distance (pt p) (pt q)) radius then neighbors ++ [j] else neighbors
          neighborsLoop b rng i points pointIndexes neighborIndexes radius maxNeighbors fuel s neighbors
    else .ok neighbors

/-- `get_neighbors` (`/repo/spoc/radius_search.h` lines 158-210).  The fuel of the loop is the number of points
left, which decreases in every iteration. -/
def getNeighbors (b : Build) (rng : Nat → Nat → Nat) (i : Nat) (points : List α)
    (pointIndexes neighborIndexes : List Nat) (pointVoxels : List VoxelIndex) (vim : Voxel.Map)
    (radius : F64) (maxNeighbors : Nat) : Res (List Nat) :=
  if maxNeighbors = 0 then .ok []
  else do
    let ijk ← Voxel.at' pointVoxels i
    let s ← Selector.new ijk vim
    neighborsLoop b rng i points pointIndexes neighborIndexes radius maxNeighbors s.left s []

/-- `radius_search` (`/repo/spoc/radius_search.h` lines 251-293): the neighbour lists handed to the operation for
`i` = 0, 1, ...  (The iterations of the parallel loop are independent, see C17.) -/
def search (b : Build) (rng : Nat → Nat → Nat) (points : List α) (pointIndexes neighborIndexes : List Nat)
    (radius : F64) (maxNeighbors : Nat) : Res (List (List Nat)) := do
  let pointVoxels ← Voxel.getIndexesOf points pointIndexes radius
  let neighborVoxels ← Voxel.getIndexesOf points neighborIndexes radius
  let vim := Voxel.getMap neighborVoxels
  (List.range pointVoxels.length).mapM (fun i =>
    getNeighbors b rng i points pointIndexes neighborIndexes pointVoxels vim radius maxNeighbors)

/-- `radius_search_indexes` (`/repo/spoc/radius_search.h` lines 309-313). -/
def searchIndexes (b : Build) (rng : Nat → Nat → Nat) (points : List α) (indexes : List Nat)
    (radius : F64) (maxNeighbors : Nat) : Res (List (List Nat)) :=
  search b rng points indexes indexes radius maxNeighbors

/-- `radius_search_all_neighbors` (`/repo/spoc/radius_search.h` lines 329-339). -/
def searchAllNeighbors (b : Build) (rng : Nat → Nat → Nat) (points : List α) (indexes : List Nat)
    (radius : F64) (maxNeighbors : Nat) : Res (List (List Nat)) :=
  search b rng points indexes (List.range points.length) radius maxNeighbors

/-- `radius_search_all` (`/repo/spoc/radius_search.h` lines 349-357). -/
def searchAll (b : Build) (rng : Nat → Nat → Nat) (points : List α) (radius : F64) (maxNeighbors : Nat) :
    Res (List (List Nat)) :=
  search b rng points (List.range points.length) (List.range points.length) radius maxNeighbors

/-- `radius_search_get_neighbors` (`/repo/spoc/radius_search.h` lines 364-379), with the default maximum of 32. -/
def searchGetNeighbors (b : Build) (rng : Nat → Nat → Nat) (points : List α) (radius : F64) :
    Res (List (List Nat)) :=
  searchAll b rng points radius 32

end Spoc.RadiusSearch
