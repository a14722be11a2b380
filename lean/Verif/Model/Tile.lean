import Verif.Model.Apps
import Verif.Model.Extent
import Verif.Model.Voxel
import Verif.Base.Strtod

/-!
# Model of the tile application (`/repo/apps/tile`)

The file system is a function from names to files.  Of the command line, long options are modelled (exact spelling).
-/

namespace Spoc.Tile

open Text

/-- `std::numeric_limits<float>::epsilon ()`, 2^-23, as a `double`. -/
def epsilon : F64 := ⟨0x3E80000000000000⟩

/-- `get_tile_size` (`/repo/apps/tile/tile.h` lines 17-29). -/
def getTileSize (e : Extent) (tiles : Nat) : F64 :=
  let dx := F64.add (F64.sub e.maxp.x e.minp.x) epsilon
  let dy := F64.add (F64.sub e.maxp.y e.minp.y) epsilon
  if F64.gt dx dy then F64.div dx (F64.ofNat tiles) else F64.div dy (F64.ofNat tiles)

/-- The number of a column or row (`/repo/apps/tile/tile.h` lines 50-55). -/
def index1 (tileSize minp v : F64) : Res UInt64 :=
  F64.toU64 (if F64.gt tileSize F64.zero then F64.div (F64.sub v minp) tileSize else F64.zero)

/-- The stride (`/repo/apps/tile/tile.h` lines 38-41). -/
def getStride (e : Extent) (tileSizeX : F64) : Res UInt64 :=
  F64.toU64 (if F64.gt tileSizeX F64.zero
    then F64.add (F64.div (F64.sub e.maxp.x e.minp.x) tileSizeX) F64.one else F64.one)

/-- `get_tile_indexes` (`/repo/apps/tile/tile.h` lines 31-66).  The product and the sum are those of `size_t`. -/
def getTileIndexes (ps : List PointRecord) (e : Extent) (tileSizeX tileSizeY : F64) : Res (List UInt64) := do
  let stride ← getStride e tileSizeX
  ps.mapM (fun p => do
    let xi ← index1 tileSizeX e.minp.x p.x
    let yi ← index1 tileSizeY e.minp.y p.y
    .ok (yi * stride + xi))

/-- `tile_map` (`/repo/apps/tile/tile.h` line 68); the order of the entries means nothing. -/
abbrev TileMap := List (UInt64 × List Nat)

/-- `m[k].push_back (i)` -/
def TileMap.push (m : TileMap) (k : UInt64) (i : Nat) : TileMap :=
  match m with
  | [] => [(k, [i])]
  | (k', v) :: m => if k' = k then (k', v ++ [i]) :: m else (k', v) :: TileMap.push m k i

/-- `m.at (k)` -/
def TileMap.at (m : TileMap) (k : UInt64) : Res (List Nat) :=
  match m.find? (fun e => decide (e.1 = k)) with
  | some (_, v) => .ok v
  | none => .throw "_Map_base::at"

/-- `get_tile_map` (`/repo/apps/tile/tile.h` lines 70-81). -/
def getTileMap (indexes : List UInt64) : TileMap :=
  indexes.zipIdx.foldl (fun m e => m.push e.1 e.2) []

/-- Insertion into a sorted list. -/
def insertSorted (k : UInt64) : List UInt64 → List UInt64
  | [] => [k]
  | l :: ls => if k ≤ l then k :: l :: ls else l :: insertSorted k ls

/-- `std::sort` -/
def sort (ks : List UInt64) : List UInt64 := ks.foldr insertSorted []

/-- The keys in order (`/repo/apps/tile/tile.cpp` lines 123-129). -/
def sortedKeys (m : TileMap) : List UInt64 := sort (m.map (fun e => e.1))

/-- The file of one tile (`/repo/apps/tile/tile.cpp` lines 132-157). -/
def tileFile (b : Build) (f : SpocFile) (m : TileMap) (tile : UInt64) : Res SpocFile := do
  let v ← m.at tile
  cassert b (!v.isEmpty)
  let t := (SpocFile.empty.setWkt f.wkt).setCompressed f.compressed
  v.foldlM (fun t j => do
    let p ← f.getPointRecord b j
    t.pushBack p) t

/-! ## File names and files -/

/-- The part of a path after the last slash. -/
def fileName (path : Str) : Str := (path.reverse.takeWhile (fun c => c ≠ '/')).reverse

/-- `std::filesystem::path::extension`: from the last dot of the file name on; none for `.`, `..` and names whose only dot is the first
character. -/
def extension (path : Str) : Str :=
  let n := fileName path
  if n = ['.'] ∨ n = ['.', '.'] ∨ '.' ∉ n then []
  else
    let e := '.' :: (n.reverse.takeWhile (fun c => c ≠ '.')).reverse
    if e = n then [] else e

/-- `std::filesystem::path::stem`: the file name without the extension. -/
def stem (path : Str) : Str := (fileName path).take ((fileName path).length - (extension path).length)

/-- `setw (digits) << setfill ('0') << tile` -/
def padded (digits : Int) (tile : UInt64) : Str :=
  List.replicate (digits.toNat - (showNat tile.toNat).length) '0' ++ showNat tile.toNat

/-- The output file name (`/repo/apps/tile/tile.cpp` lines 159-170). -/
def outputName (fn pre : Str) (compressed : Bool) (digits : Int) (tile : UInt64) : Str :=
  let ext := if fn.isEmpty then (if compressed then ".zpoc".toList else ".spoc".toList) else extension fn
  pre ++ padded digits tile ++ ext

/-- A file: its bytes, and whether it may be read and written. -/
structure File where
  content : Bytes
  readable : Bool
  writable : Bool
  deriving DecidableEq, Repr

/-- The file system. -/
abbrev FS := Str → Option File

/-- Change one file. -/
def FS.set (fs : FS) (name : Str) (f : File) : FS := fun n => if n = name then some f else fs n

/-- `ofstream ofs (name)`: an existing file is emptied, otherwise a file is created if that is possible. -/
def openWrite (canCreate : Str → Bool) (fs : FS) (name : Str) : Option File :=
  match fs name with
  | some f => if f.writable then some { f with content := [] } else none
  | none => if canCreate name then some { content := [], readable := true, writable := true } else none

/-- `ifstream (name).good ()`: there is a file of that name and it can be read. -/
def FS.present (fs : FS) (name : Str) : Bool :=
  match fs name with
  | some f => f.readable
  | none => false

/-- Writing one tile (`/repo/apps/tile/tile.cpp` lines 172-194): the file system afterwards and the outcome. -/
def writeTile (b : Build) (zl : Zlib) (canCreate : Str → Bool) (force : Bool) (fs : FS) (name : Str) (t : SpocFile) : FS × Res Unit :=
  if !force && fs.present name then (fs, .throw "File already exists. Use the force option to overwrite. Aborting.")
  else
    match openWrite canCreate fs name with
    | none => (fs, .throw "Could not open file for writing")
    | some f => (fs.set name { f with content := (Io.writeFile b zl t).bytes }, (Io.writeFile b zl t).res)

/-- Give up with the outcome of `r`. -/
def failWith {α β : Type} (r : Res α) : Res β :=
  match r with
  | .ok _ => .hang
  | .throw e => .throw e
  | .ub w => .ub w
  | .abort => .abort
  | .hang => .hang

/-- The loop over the tiles (`/repo/apps/tile/tile.cpp` lines 131-194). -/
def writeTiles (b : Build) (zl : Zlib) (canCreate : Str → Bool) (force : Bool) (name : UInt64 → Str) (f : SpocFile) (m : TileMap) :
    List UInt64 → FS → FS × Res Unit
  | [], fs => (fs, .ok ())
  | k :: ks, fs =>
    match tileFile b f m k with
    | .ok t =>
      match writeTile b zl canCreate force fs (name k) t with
      | (fs, .ok ()) => writeTiles b zl canCreate force name f m ks fs
      | (fs, r) => (fs, r)
    | r => (fs, failWith r)

/-! ## Command line and `main` -/

/-- `struct args` (`/repo/apps/tile/tile_cmd.h` lines 13-26). -/
structure Args where
  help : Bool := false
  verbose : Bool := false
  version : Bool := false
  force : Bool := false
  tiles : UInt32 := 2
  digits : UInt32 := 3
  tileSize : F64 := F64.negOne
  tileSizeX : F64 := F64.negOne
  tileSizeY : F64 := F64.negOne
  pre : Str := []
  fn : Str := []
  deriving DecidableEq, Repr

/-- The options (`/repo/apps/tile/tile_cmd.h` lines 28-86); file names are an argument of `main`. -/
def getArgs : List (String × Str) → Args → Res Args
  | [], a => .ok a
  | (name, arg) :: os, a =>
    if name = "help" then .ok { a with help := true }
    else if name = "verbose" then getArgs os { a with verbose := true }
    else if name = "version" then getArgs os { a with version := true }
    else if name = "force" then getArgs os { a with force := true }
    else if name = "tiles" then getArgs os { a with tiles := UInt32.ofInt (atoi arg) }
    else if name = "digits" then getArgs os { a with digits := UInt32.ofInt (atoi arg) }
    else if name = "tile-size" then getArgs os { a with tileSize := atof arg }
    else if name = "tile-size-x" then getArgs os { a with tileSizeX := atof arg }
    else if name = "tile-size-y" then getArgs os { a with tileSizeY := atof arg }
    else if name = "prefix" then getArgs os { a with pre := arg }
    else .throw "Invalid option"

/-- The tile sizes (`/repo/apps/tile/tile.cpp` lines 71-103). -/
def tileSizes (a : Args) (e : Extent) : Res (F64 × F64) :=
  let pos (x : F64) : Bool := F64.gt x F64.zero
  if pos a.tileSize && pos a.tileSizeX then .throw "You can't specify both 'tile-size' and 'tile-size-x'"
  else if pos a.tileSize && pos a.tileSizeY then .throw "You can't specify both 'tile-size' and 'tile-size-y'"
  else if pos a.tileSize then .ok (a.tileSize, a.tileSize)
  else if pos a.tileSizeX || pos a.tileSizeY then .ok (a.tileSizeX, a.tileSizeY)
  else
    let s := getTileSize e a.tiles.toNat
    .ok (s, s)

/-- The width passed to `setw` (`/repo/apps/tile/tile.cpp` line 169): an `unsigned` converted to `int`. -/
def width (a : Args) : Int := Int.bmod a.digits.toNat (2 ^ 32)

/-- What `main` does with the file that was read (`/repo/apps/tile/tile.cpp` lines 71-194). -/
def tileAll (b : Build) (zl : Zlib) (canCreate : Str → Bool) (a : Args) (f : SpocFile) (fs : FS) : FS × Res Unit :=
  let e := Extent.ofPoints f.prs
  let r : Res TileMap := do
    let (sx, sy) ← tileSizes a e
    let indexes ← getTileIndexes f.prs e sx sy
    .ok (getTileMap indexes)
  match r with
  | .ok m =>
    let pre := if a.pre.isEmpty then stem a.fn else a.pre
    match cassert b (!pre.isEmpty) with
    | .ok () =>
      writeTiles b zl canCreate a.force (outputName a.fn pre f.compressed (width a)) f m (sortedKeys m) fs
    | r => (fs, failWith r)
  | r => (fs, failWith r)

/-- `main` (`/repo/apps/tile/tile.cpp` lines 12-203).  The input is the stream `stdin` or the file `fn`. -/
def main (b : Build) (zl : Zlib) (canCreate : Str → Bool) (options : List (String × Str)) (fn : Str) (stdin : IStream) (fs : FS) :
    FS × Res Unit :=
  match getArgs options {} with
  | .ok a =>
    let a := { a with fn := fn }
    if a.version || a.help then (fs, .ok ())
    else if fn.isEmpty && a.pre.isEmpty then (fs, .throw "If using stdin as input you must specify an output prefix")
    else
      let input : Res IStream :=
        if fn.isEmpty then .ok stdin
        else match fs fn with
          | some f => if f.readable then .ok { rest := f.content } else .throw "Could not open file for reading"
          | none => .throw "Could not open file for reading"
      match (do Apps.fileOf (Io.readFile b zl (← input))) with
      | .ok f => tileAll b zl canCreate a f fs
      | r => (fs, failWith r)
  | r => (fs, failWith r)

end Spoc.Tile
