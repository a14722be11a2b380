import Verif.Model.Apps

/-!
# Model of the example programs that talk through a pipe

`/repo/examples/generate_infinite_points.cpp` and `/repo/examples/stream_averaging.cpp`.  The random numbers and the clock are parameters.
How `std::clog` prints numbers depends on the locale and is not modelled: a line is the four values that are printed.
-/

namespace Spoc.Examples

/-- `point_record p (extra_fields)` with random coordinates (`/repo/examples/generate_infinite_points.cpp` lines 41-46): the `i`-th record,
made of three draws. -/
def generated (draw : Nat → F64) (i : Nat) : PointRecord :=
  { PointRecord.blank 4 with x := draw (3 * i), y := draw (3 * i + 1), z := draw (3 * i + 2) }

/-- The text "Test WKT" (`/repo/examples/generate_infinite_points.cpp` line 21). -/
def testWkt : Bytes := [84, 101, 115, 116, 32, 87, 75, 84]

/-- The first `rounds` rounds of the endless loop (`/repo/examples/generate_infinite_points.cpp` lines 38-50). -/
def generateLoop (draw : Nat → F64) : Nat → Nat → Out Unit
  | 0, _ => Out.ret ()
  | rounds + 1, i => do
    (generated draw i).write
    generateLoop draw rounds (i + 1)

/-- What `generate_infinite_points` has written after `rounds` rounds (`/repo/examples/generate_infinite_points.cpp` lines 20-50). -/
def generate (draw : Nat → F64) (rounds : Nat) : Out Unit := do
  let h ← Out.lift (Header.new majorVersion minorVersion testWkt 4 (UInt64.ofNat (2 ^ 64 - 1)) false)
  h.write
  generateLoop draw rounds 0

/-- A line of output (`/repo/examples/stream_averaging.cpp` lines 64-68). -/
structure Line where
  total : Nat
  x : F64
  y : F64
  z : F64
  deriving DecidableEq

/-- The loop (`/repo/examples/stream_averaging.cpp` lines 45-73) with `total_points` and the sums; `tick n` says whether more than a second has
passed when the `n`-th point was read.  `total_points` cannot wrap around because it is at most the 64-bit number of the header. -/
def averagingLoop (tick : Nat → Bool) (extraFields : Nat) : Nat → Nat → F64 → F64 → F64 → IStream → List Line
  | 0, _, _, _, _, _ => []
  | left + 1, total, sumx, sumy, sumz, s =>
    let r := PointRecord.read s extraFields
    let total := total + 1
    let sumx := F64.add sumx r.1.x
    let sumy := F64.add sumy r.1.y
    let sumz := F64.add sumz r.1.z
    let rest := averagingLoop tick extraFields left total sumx sumy sumz r.2
    if tick total then
      { total := total, x := F64.div sumx (F64.ofNat total), y := F64.div sumy (F64.ofNat total), z := F64.div sumz (F64.ofNat total) } :: rest
    else rest

/-- `stream_averaging` (`/repo/examples/stream_averaging.cpp` lines 26-75): the lines printed, and the outcome. -/
def averaging (tick : Nat → Bool) (s : IStream) : List Line × Res Unit :=
  match Header.read s with
  | .ok (h, s) =>
    if h.compressed ≠ 0 then ([], .throw "Expected an uncompressed file")
    else (averagingLoop tick h.extraFields.toNat h.totalPoints.toNat 0 F64.zero F64.zero F64.zero s, .ok ())
  | .throw e => ([], .throw e)
  | .ub e => ([], .ub e)
  | .abort => ([], .abort)
  | .hang => ([], .hang)

end Spoc.Examples
