import Verif.Model.Tile

/-!
# Specifications for the tile application
-/

namespace Spoc.Spec

/-- The points whose number is `k`, in their order. -/
def pointsNumbered (ps : List PointRecord) (numbers : List UInt64) (k : UInt64) : List PointRecord :=
  ((ps.zip numbers).filter (fun e => decide (e.2 = k))).map (fun e => e.1)

/-- The file that holds tile `k`: its points, and spatial reference and compression flag of the input. -/
def tileOf (f : SpocFile) (numbers : List UInt64) (k : UInt64) : SpocFile :=
  { major := 0, minor := 1, wkt := f.wkt, compressed := f.compressed, prs := pointsNumbered f.prs numbers k }

/-- The column (row) of a coordinate in a grid that begins at `origin`: the quotient of distance and tile size, rounded down; there is
only one column (row) if the tile size is not positive. -/
def gridCell (tileSize origin v : F64) : Int :=
  if F64.gt tileSize F64.zero then (F64.div (F64.sub v origin) tileSize).trunc else 0

/-- There are fewer than 2^32 columns (rows) between `origin` and `last`. -/
def FewCells (tileSize origin last : F64) : Prop :=
  F64.gt tileSize F64.zero = true →
    (F64.div (F64.sub last origin) tileSize).isFinite = true ∧ gridCell tileSize origin last + 1 < 2 ^ 32

end Spoc.Spec
