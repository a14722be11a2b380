import Verif.Model.Io

/-!
# Model of the applications that read a file and write it again with one change

`/repo/apps/compress`, `/repo/apps/decompress`, `/repo/apps/srs` and `/repo/examples/noop.cpp`,
as functions from the input stream to the bytes written and the outcome.  An exception is caught in
`main`, which then returns -1 instead of 0.
-/

namespace Spoc.Apps

open Io

/-- Drop the rest of the stream. -/
def fileOf (r : Res (SpocFile × IStream)) : Res SpocFile := do
  let (f, _) ← r
  .ok f

/-- The compress application (`/repo/apps/compress/compress.cpp` lines 40-50). -/
def compress (b : Build) (zl : Zlib) (s : IStream) : Out Unit := do
  let f ← Out.lift (fileOf (readFileUncompressed b s))
  writeFileCompressed b zl (f.setCompressed true)

/-- The decompress application (`/repo/apps/decompress/decompress.cpp` lines 40-50). -/
def decompress (b : Build) (zl : Zlib) (s : IStream) : Out Unit := do
  let f ← Out.lift (fileOf (readFileCompressed zl s))
  writeFileUncompressed b (f.setCompressed false)

/-- The srs application with `--srs` (`/repo/apps/srs/srs.cpp` lines 52-61 and 85-104). -/
def setSrs (b : Build) (zl : Zlib) (srs : Bytes) (s : IStream) : Out Unit := do
  let f ← Out.lift (fileOf (readFile b zl s))
  writeFile b zl (f.setWkt srs)

/-- The srs application without `--srs`: the WKT and an end of line
(`/repo/apps/srs/srs.cpp` lines 65-68). -/
def showSrs (s : IStream) : Out Unit := do
  let (h, _) ← Out.lift (Header.read s)
  Out.emit (h.wkt ++ [10])

/-- The loop of the streaming copy (`/repo/examples/noop.cpp` lines 37-46). -/
def copyLoop (ef : Nat) : Nat → IStream → Out Unit
  | 0, _ => pure ()
  | n + 1, s => do
    let (p, s) := PointRecord.read s ef
    p.write
    copyLoop ef n s

/-- The streaming copy (`/repo/examples/noop.cpp` lines 24-46). -/
def noop (s : IStream) : Out Unit := do
  let (h, s) ← Out.lift (Header.read s)
  if h.compressed ≠ 0 then Out.lift (.throw "Expected an uncompressed file")
  else do
    h.write
    copyLoop h.extraFields.toNat h.totalPoints.toNat s

end Spoc.Apps
