import Verif.Model.Io

/-!
# The file format as the manual describes it

The tables of `/repo/README.md` lines 51-107, and (not in the manual) the arrangement of the columns of a compressed file.
Nothing here uses the functions of the model; only the data of files and records.
-/

namespace Spoc.Spec.Format

/-- The data types in the tables. -/
inductive DataType where
  | uint8 | uint16 | uint32 | uint64 | double

/-- The number of bytes of a data type. -/
def DataType.size : DataType → Nat
  | uint8 => 1 | uint16 => 2 | uint32 => 4 | uint64 => 8 | double => 8

/-- A value in the file: the least significant byte comes first. (A double is given by its IEEE 754 representation.) -/
def stored (t : DataType) (v : Nat) : Bytes := (List.range t.size).map (fun k => UInt8.ofNat (v / 256 ^ k % 256))

/-- Rows of a table, one behind the other. -/
def layout (rows : List (DataType × Nat)) : Bytes := rows.flatMap (fun r => stored r.1 r.2)

/-- The first table (`/repo/README.md` lines 70-79). -/
def headerRows (wkt : Bytes) (extra points flag : Nat) : List (DataType × Nat) :=
  [(.uint8, 'S'.toNat), (.uint8, 'P'.toNat), (.uint8, 'O'.toNat), (.uint8, 'C'.toNat),   -- file identifier
   (.uint8, 0), (.uint8, 1),                                                             -- version 0.1
   (.uint16, wkt.length)]
  ++ wkt.map (fun byte => (.uint8, byte.toNat))
  ++ [(.uint8, extra), (.uint64, points), (.uint8, flag)]

/-- The second table (`/repo/README.md` lines 94-105). -/
def recordRows (q : PointRecord) : List (DataType × Nat) :=
  [(.double, q.x.bits.toNat), (.double, q.y.bits.toNat), (.double, q.z.bits.toNat), (.uint32, q.c.toNat), (.uint32, q.p.toNat),
   (.uint16, q.i.toNat), (.uint16, q.r.toNat), (.uint16, q.g.toNat), (.uint16, q.b.toNat)]
  ++ q.extra.map (fun e => (.uint64, e.toNat))

/-- A header followed by point records. -/
def uncompressed (wkt : Bytes) (extra : Nat) (prs : List PointRecord) : Bytes :=
  layout (headerRows wkt extra prs.length 0) ++ layout (prs.flatMap recordRows)

/-- The columns of a cloud, in the order of the table of records. -/
def columns (extra : Nat) (prs : List PointRecord) : List (DataType × List Nat) :=
  [(.double, prs.map (·.x.bits.toNat)), (.double, prs.map (·.y.bits.toNat)), (.double, prs.map (·.z.bits.toNat)),
   (.uint32, prs.map (·.c.toNat)), (.uint32, prs.map (·.p.toNat)), (.uint16, prs.map (·.i.toNat)), (.uint16, prs.map (·.r.toNat)),
   (.uint16, prs.map (·.g.toNat)), (.uint16, prs.map (·.b.toNat))]
  ++ (List.range extra).map (fun j => (.uint64, prs.map (fun q => (q.extra.getD j 0).toNat)))

/-- The values of a column, one behind the other. -/
def columnBytes (col : DataType × List Nat) : Bytes := layout (col.2.map (fun v => (col.1, v)))

/-- Blocks, each with its length in front of it. -/
def blocks (bs : List Bytes) : Bytes := bs.flatMap (fun x => stored .uint64 x.length ++ x)

/-- A header followed by the blocks of the columns. -/
def compressed (wkt : Bytes) (extra points flag : Nat) (bs : List Bytes) : Bytes :=
  layout (headerRows wkt extra points flag) ++ blocks bs

/-- A block stands for a column: no bytes for a column of zeros, otherwise a zlib stream. -/
def StandsFor (z : Zlib) (col : DataType × List Nat) (block : Bytes) : Prop :=
  (block = [] ∧ ∀ v ∈ col.2, v = 0)
  ∨ (block ≠ [] ∧ block.length < 2 ^ 32 ∧ z.inflate block = { output := columnBytes col, error := false })

/-- The data types of the columns. -/
def columnTypes (extra : Nat) : List DataType :=
  [.double, .double, .double, .uint32, .uint32, .uint16, .uint16, .uint16, .uint16] ++ List.replicate extra .uint64

/-- A block can be a column of `n` values: no bytes at all, or a zlib stream of exactly the right number of bytes. -/
def Fitting (z : Zlib) (n : Nat) (t : DataType) (block : Bytes) : Prop :=
  block = [] ∨ ((z.inflate block).error = false ∧ (z.inflate block).output.length = n * t.size)

/-- The bytes `bs` begin with the file `f` in the documented layout, and `tl` is what comes behind it.  (An uncompressed file with points
has at most 123 extra fields: with more the reader does not come to an end, see `c01_hang`.) -/
def Holds (z : Zlib) (bs : Bytes) (f : SpocFile) (tl : Bytes) : Prop :=
  f.major = 0 ∧ f.minor = 1 ∧ f.wkt.length ≤ 65535 ∧ f.prs.length < 2 ^ 64
  ∧ ∃ extra ≤ 255, (∀ q ∈ f.prs, q.extra.length = extra)
    ∧ ((f.compressed = false ∧ (extra ≤ 123 ∨ f.prs = []) ∧ bs = uncompressed f.wkt extra f.prs ++ tl)
      ∨ (f.compressed = true ∧ ∃ flag blks, 1 ≤ flag ∧ flag ≤ 255 ∧ List.Forall₂ (StandsFor z) (columns extra f.prs) blks
          ∧ bs = compressed f.wkt extra f.prs.length flag blks ++ tl))

end Spoc.Spec.Format
