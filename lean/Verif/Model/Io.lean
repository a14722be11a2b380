import Verif.Model.File
import Verif.Model.Compression

/-!
# Model of `/repo/spoc/io.h`
-/

namespace Spoc

namespace Io

/-! ## Columns

A column is a `std::vector<T>`; its elements are represented by their raw values. -/

/-- What the column code needs to know about the element type `T`: its size, and whether a
raw value compares equal to `0`. -/
structure Elem where
  size : Nat
  isZero : Nat → Bool

/-- `T = double`: `i != 0` is the comparison of doubles, so -0.0 counts as zero. -/
def elemDouble : Elem := { size := 8, isZero := fun v => F64.feq ⟨UInt64.ofNat v⟩ F64.zero }
/-- `T = uint32_t` -/
def elemU32 : Elem := { size := 4, isZero := fun v => decide (v = 0) }
/-- `T = uint16_t` -/
def elemU16 : Elem := { size := 2, isZero := fun v => decide (v = 0) }
/-- `T = uint64_t` -/
def elemU64 : Elem := { size := 8, isZero := fun v => decide (v = 0) }

/-- `all_zero` (`/repo/spoc/io.h` lines 25-32). -/
def allZero (t : Elem) (x : List Nat) : Bool :=
  if x.any (fun i => !t.isZero i) then false else true

/-- The memory of a column. -/
def colBytes (t : Elem) (x : List Nat) : Bytes := x.flatMap (leBytes t.size)

/-- Interpret memory as a column of `n` elements. -/
def colOf (t : Elem) : Nat → Bytes → List Nat
  | 0, _ => []
  | n + 1, bs => ofLe (bs.take t.size) :: colOf t n (bs.drop t.size)

/-- `compress_field` (`/repo/spoc/io.h` lines 34-50). -/
def compressField (z : Zlib) (t : Elem) (x : List Nat) : Res Bytes :=
  if allZero t x then .ok [] else Compression.compress z (colBytes t x)

/-- `write_compressed` (`/repo/spoc/io.h` lines 52-70). -/
def writeCompressed (x : Bytes) : Out Unit :=
  if x.isEmpty then Out.emit (leBytes 8 0)
  else do
    Out.emit (leBytes 8 x.length)
    Out.emit x

/-- `read_compressed` (`/repo/spoc/io.h` lines 72-92). -/
def readCompressed (z : Zlib) (t : Elem) (s : IStream) (size : Nat) : Res (List Nat × IStream) :=
  let (n, s) := s.readUInt 8 0
  if n = 0 then .ok ([], s)
  else do
    let (c, s) := s.readInto (List.replicate n 0)
    let d ← Compression.decompressTo z c (size * t.size)
    .ok (colOf t size d, s)

/-! ## Uncompressed records -/

/-- `buffer_size` (`/repo/spoc/io.h` line 103). -/
def bufferSize : Nat := 1024
/-- `struct_size` (`/repo/spoc/io.h` lines 107-116). -/
def structSize : Nat := 8 + 8 + 8 + 4 + 4 + 2 + 2 + 2 + 2
/-- `record_size` (`/repo/spoc/io.h` lines 117-118). -/
def recordSize (extraFields : Nat) : Nat := structSize + extraFields * 8
/-- `records_per_buffer` (`/repo/spoc/io.h` line 119). -/
def recordsPerBuffer (extraFields : Nat) : Nat := bufferSize / recordSize extraFields

/-- Memory copy of one record out of the buffer (`/repo/spoc/io.h` lines 147-155). -/
def decodeRecord (extraFields : Nat) (bs : Bytes) : PointRecord :=
  PointRecord.ofFixed (bs.take structSize) (PointRecord.extraOf extraFields (bs.drop structSize))

/-- The inner loop (`/repo/spoc/io.h` lines 135-156): `k` records are left, `j` is the loop
variable.  Accesses outside of buffer or record vector are undefined behaviour. -/
def copyRecords (b : Build) (ef i : Nat) (buf : Bytes) :
    Nat → Nat → List PointRecord → Res (List PointRecord)
  | 0, _, p => .ok p
  | k + 1, j, p => do
    let bi := j * recordSize ef
    cassert b (decide (bi < buf.length))
    if buf.length < bi + recordSize ef then .ub "read outside of the buffer"
    else do
      let ri := i + j
      cassert b (decide (ri < p.length))
      if ri < p.length then
        copyRecords b ef i buf k (j + 1)
          (p.set ri (decodeRecord ef ((buf.drop bi).take (recordSize ef))))
      else .ub "write outside of the records"

/-- The outer loop (`/repo/spoc/io.h` lines 125-157).  The loop has no bound in the code; the
model gives up with `hang` when `fuel` iterations did not suffice. -/
def readLoop (b : Build) (ef total : Nat) :
    Nat → Nat → Bytes → List PointRecord → IStream → Res (List PointRecord × IStream)
  | 0, _, _, _, _ => .hang
  | fuel + 1, i, buf, p, s =>
    if i < p.length then do
      let totalRecords :=
        if i + recordsPerBuffer ef < total then recordsPerBuffer ef else total - i
      let nbytes := totalRecords * recordSize ef
      if buf.length < nbytes then .ub "write outside of the buffer"
      else do
        let r := s.read nbytes
        let buf := overlay buf r.1
        let p ← copyRecords b ef i buf totalRecords 0 p
        readLoop b ef total fuel (i + recordsPerBuffer ef) buf p r.2
    else .ok (p, s)

/-- `read_uncompressed_points` (`/repo/spoc/io.h` lines 98-160). `total + 1` iterations are enough
unless the loop makes no progress at all. -/
def readUncompressedPoints (b : Build) (s : IStream) (total ef : Nat) :
    Res (List PointRecord × IStream) :=
  readLoop b ef total (total + 1) 0 (List.replicate bufferSize 0)
    (List.replicate total (PointRecord.blank ef)) s

/-! ## Compressed records -/

/-- `if (!x.empty ()) … = x[n]` (`/repo/spoc/io.h` lines 211-222): zero if the column is
empty, otherwise the element; an element that is not there is undefined behaviour. -/
def colGet (x : List Nat) (n : Nat) : Res Nat :=
  if x.isEmpty then .ok 0
  else match x[n]? with
    | some v => .ok v
    | none => .ub "vector index out of range"

/-- The nine plain columns and the extra columns (`/repo/spoc/io.h` lines 191-203). -/
structure Columns where
  x : List Nat
  y : List Nat
  z : List Nat
  c : List Nat
  p : List Nat
  i : List Nat
  r : List Nat
  g : List Nat
  b : List Nat
  extra : List (List Nat)

/-- Reading the extra columns (`/repo/spoc/io.h` lines 201-203). -/
def readExtraColumns (zl : Zlib) (total : Nat) :
    Nat → IStream → Res (List (List Nat) × IStream)
  | 0, s => .ok ([], s)
  | ef + 1, s => do
    let (e, s) ← readCompressed zl elemU64 s total
    let (es, s) ← readExtraColumns zl total ef s
    .ok (e :: es, s)

/-- Reading the columns (`/repo/spoc/io.h` lines 191-203). -/
def readColumns (zl : Zlib) (s : IStream) (total ef : Nat) : Res (Columns × IStream) := do
  let (x, s) ← readCompressed zl elemDouble s total
  let (y, s) ← readCompressed zl elemDouble s total
  let (z, s) ← readCompressed zl elemDouble s total
  let (c, s) ← readCompressed zl elemU32 s total
  let (p, s) ← readCompressed zl elemU32 s total
  let (i, s) ← readCompressed zl elemU16 s total
  let (r, s) ← readCompressed zl elemU16 s total
  let (g, s) ← readCompressed zl elemU16 s total
  let (b, s) ← readCompressed zl elemU16 s total
  let (extra, s) ← readExtraColumns zl total ef s
  .ok ({ x, y, z, c, p, i, r, g, b, extra }, s)

/-- The body of the loop that fills record `n` (`/repo/spoc/io.h` lines 210-223). -/
def fillRecord (cs : Columns) (n : Nat) : Res PointRecord := do
  let x ← colGet cs.x n
  let y ← colGet cs.y n
  let z ← colGet cs.z n
  let c ← colGet cs.c n
  let p ← colGet cs.p n
  let i ← colGet cs.i n
  let r ← colGet cs.r n
  let g ← colGet cs.g n
  let b ← colGet cs.b n
  let extra ← cs.extra.mapM (fun e => colGet e n)
  .ok { x := ⟨UInt64.ofNat x⟩, y := ⟨UInt64.ofNat y⟩, z := ⟨UInt64.ofNat z⟩
        c := UInt32.ofNat c, p := UInt32.ofNat p
        i := UInt16.ofNat i, r := UInt16.ofNat r, g := UInt16.ofNat g, b := UInt16.ofNat b
        extra := extra.map UInt64.ofNat }

/-- `read_compressed_points` (`/repo/spoc/io.h` lines 186-226).  The iterations of the
parallel loop write different records; here they run in index order. -/
def readCompressedPoints (zl : Zlib) (s : IStream) (total ef : Nat) :
    Res (List PointRecord × IStream) := do
  let (cs, s) ← readColumns zl s total ef
  let prs ← (List.range total).mapM (fillRecord cs)
  .ok (prs, s)

/-! ## Files -/

/-- `read_spoc_file_uncompressed` (`/repo/spoc/io.h` lines 164-180). -/
def readFileUncompressed (b : Build) (s : IStream) : Res (SpocFile × IStream) := do
  let (h, s) ← Header.read s
  if h.compressed ≠ 0 then .throw "Uncompressed reader can't read a compressed file"
  else do
    let (prs, s) ← readUncompressedPoints b s h.totalPoints.toNat h.extraFields.toNat
    let f ← SpocFile.new' h.wkt false prs
    .ok (f, s)

/-- `read_spoc_file_compressed` (`/repo/spoc/io.h` lines 230-246). -/
def readFileCompressed (zl : Zlib) (s : IStream) : Res (SpocFile × IStream) := do
  let (h, s) ← Header.read s
  if h.compressed = 0 then .throw "Compressed reader can't read an uncompressed file"
  else do
    let (prs, s) ← readCompressedPoints zl s h.totalPoints.toNat h.extraFields.toNat
    let f ← SpocFile.new' h.wkt true prs
    .ok (f, s)

/-- `read_spoc_file` (`/repo/spoc/io.h` lines 250-268). -/
def readFile (b : Build) (zl : Zlib) (s : IStream) : Res (SpocFile × IStream) := do
  let (h, s) ← Header.read s
  let (prs, s) ←
    if h.compressed ≠ 0 then
      readCompressedPoints zl s h.totalPoints.toNat h.extraFields.toNat
    else
      readUncompressedPoints b s h.totalPoints.toNat h.extraFields.toNat
  let f ← SpocFile.new' h.wkt (decide (h.compressed ≠ 0)) prs
  .ok (f, s)

/-- The loop over the records (`/repo/spoc/io.h` lines 285-286). -/
def writeRecords : List PointRecord → Out Unit
  | [] => pure ()
  | q :: qs => do
    q.write
    writeRecords qs

/-- `write_spoc_file_uncompressed` (`/repo/spoc/io.h` lines 273-287). -/
def writeFileUncompressed (b : Build) (f : SpocFile) : Out Unit := do
  Out.lift (require b f.isValid)
  if f.compressed then Out.lift (.throw "Uncompressed writer can't write a compressed file")
  else do
    let h ← Out.lift f.getHeader
    h.write
    writeRecords f.prs

/-- The column of extra field `j` (`/repo/spoc/io.h` lines 330-331). -/
def extraColumn (prs : List PointRecord) (j : Nat) : Res (List Nat) :=
  prs.mapM (fun q => match q.extra[j]? with
    | some v => .ok v.toNat
    | none => .ub "vector index out of range")

/-- Writing a list of compressed fields (`/repo/spoc/io.h` lines 369-373). -/
def writeFields : List Bytes → Out Unit
  | [] => pure ()
  | x :: xs => do
    writeCompressed x
    writeFields xs

/-- `write_spoc_file_compressed` (`/repo/spoc/io.h` lines 292-374).  The parallel sections
write different variables; here they run in order. -/
def writeFileCompressed (b : Build) (zl : Zlib) (f : SpocFile) : Out Unit := do
  Out.lift (require b f.isValid)
  if !f.compressed then Out.lift (.throw "Compressed writer can't write an uncompressed file")
  else do
    let prs := f.prs
    let e ← Out.lift ((List.range f.extraFields).mapM (extraColumn prs))
    let f0 ← Out.lift (compressField zl elemDouble (prs.map (fun q => q.x.bits.toNat)))
    let f1 ← Out.lift (compressField zl elemDouble (prs.map (fun q => q.y.bits.toNat)))
    let f2 ← Out.lift (compressField zl elemDouble (prs.map (fun q => q.z.bits.toNat)))
    let f3 ← Out.lift (compressField zl elemU32 (prs.map (fun q => q.c.toNat)))
    let f4 ← Out.lift (compressField zl elemU32 (prs.map (fun q => q.p.toNat)))
    let f5 ← Out.lift (compressField zl elemU16 (prs.map (fun q => q.i.toNat)))
    let f6 ← Out.lift (compressField zl elemU16 (prs.map (fun q => q.r.toNat)))
    let f7 ← Out.lift (compressField zl elemU16 (prs.map (fun q => q.g.toNat)))
    let f8 ← Out.lift (compressField zl elemU16 (prs.map (fun q => q.b.toNat)))
    let extras ← Out.lift (e.mapM (compressField zl elemU64))
    let h ← Out.lift f.getHeader
    h.write
    writeFields [f0, f1, f2, f3, f4, f5, f6, f7, f8]
    writeFields extras

/-- `write_spoc_file` (`/repo/spoc/io.h` lines 379-386). -/
def writeFile (b : Build) (zl : Zlib) (f : SpocFile) : Out Unit := do
  let h ← Out.lift f.getHeader
  if h.compressed ≠ 0 then writeFileCompressed b zl f
  else writeFileUncompressed b f

end Io

end Spoc
