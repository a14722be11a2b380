import Verif.Tests.Unit
import Verif.Model.Diff
import Verif.Model.Filter
import Verif.Model.Merge
import Verif.Model.Tile
import Verif.Model.Tool
import Verif.Model.Transform
import Verif.Model.Noise
import Verif.Spec.Io

/-!
# The tests of the applications, and of reading and writing, transcribed (`/repo/tests/app`, `/repo/tests/unit/test_io.cpp`)

As in `Verif.Tests.Unit`.  Sine and cosine are those of the machine that evaluates the tests; compression is the toy of
`Verif.Spec.Io`, so nothing is verified of the sizes of compressed files.  The tests that only verify that names of fields are
accepted use 5 points instead of 100, and those of `spoc_info` use 20.  The tests of noise use
the random numbers of libstdc++ (`Model/Noise`) and the logarithm of the machine.
-/

namespace Spoc.Tests

open TestUtils

/-- `generate_random_spoc_file` -/
def file (n : Nat) (extra : Nat := 0) (compressed : Bool := false) (rgb : Bool := true) (s : Nat := 123) : SpocFile :=
  match randomFile n extra compressed rgb s with
  | .ok f => f
  | _ => SpocFile.empty

/-! ## `test_io.cpp` -/

/-- The files of lines 20-27, 37, 47 and 65-72. -/
def fileIo (compressed : Bool) : SpocFile := { file 1000 8 compressed with wkt := text "Test wkt" }

/-- What was written is read. -/
def roundTrip (write : SpocFile → Out Unit) (read : IStream → Res (SpocFile × IStream)) (f : SpocFile) : Bool :=
  (write f).res.isOk && holds (read { rest := (write f).bytes }) (fun r => decide (r.1 = f))

-- lines 18-77
#guard builds (fun b => roundTrip (Io.writeFileUncompressed b) (Io.readFileUncompressed b) (fileIo false))
#guard builds (fun b => roundTrip (Io.writeFileUncompressed b) (Io.readFile b Spec.toyZlib) (fileIo false))
#guard builds (fun b => roundTrip (Io.writeFileCompressed b Spec.toyZlib) (Io.readFile b Spec.toyZlib) (fileIo true))
#guard builds (fun b => (Io.readFileUncompressed b { rest := text "SPOX\n" }).isThrow)
#guard builds (fun b => roundTrip (Io.writeFileCompressed b Spec.toyZlib) (Io.readFileCompressed Spec.toyZlib) (fileIo true))
-- lines 103-127
#guard builds (fun b => (Io.writeFileUncompressed b (fileIo true)).res.isThrow)
#guard builds (fun b => (Io.writeFileCompressed b Spec.toyZlib (fileIo false)).res.isThrow)
#guard builds (fun b =>
    (Io.readFileCompressed Spec.toyZlib { rest := (Io.writeFileUncompressed b (fileIo false)).bytes }).isThrow)
#guard builds (fun b =>
    (Io.readFileUncompressed b { rest := (Io.writeFileCompressed b Spec.toyZlib (fileIo true)).bytes }).isThrow)
-- lines 129-136
#guard builds (fun b => roundTrip (Io.writeFile b Spec.toyZlib) (Io.readFile b Spec.toyZlib) (fileIo false)
    && roundTrip (Io.writeFile b Spec.toyZlib) (Io.readFile b Spec.toyZlib) (fileIo true))

/-! ## `test_filter.cpp` -/

/-- A file with the given points. -/
def fileOf (prs : List PointRecord) : SpocFile := { SpocFile.empty with prs := prs }

/-- The classes of the points of a file. -/
def classes (f : SpocFile) : List UInt32 := f.prs.map (·.c)

/-- The file of lines 16-21 and 42-47. -/
def file12223 : SpocFile := fileOf ([1, 2, 2, 2, 3].map (fun c => rec' "0.0" "0.0" "0.0" c))

-- lines 14-38
#guard holds (Filter.keepClasses file12223 [2]) (fun g => decide (classes g = [2, 2, 2]))
#guard holds (Filter.keepClasses file12223 [1]) (fun g => decide (classes g = [1]))
#guard holds (Filter.keepClasses file12223 [3]) (fun g => decide (classes g = [3]))
#guard holds (Filter.keepClasses file12223 [1000]) (fun g => decide (classes g = []))
#guard holds (Filter.keepClasses file12223 [1, 2, 3]) (fun g => decide (classes g = [1, 2, 2, 2, 3]))
-- lines 40-65
#guard holds (Filter.removeClasses file12223 [2]) (fun g => decide (classes g = [1, 3]))
#guard holds (Filter.removeClasses file12223 [1]) (fun g => decide (classes g = [2, 2, 2, 3]))
#guard holds (Filter.removeClasses file12223 [3]) (fun g => decide (classes g = [1, 2, 2, 2]))
#guard holds (Filter.removeClasses file12223 [1000]) (fun g => decide (classes g = [1, 2, 2, 2, 3]))
#guard holds (Filter.removeClasses file12223 [1, 2, 3]) (fun g => decide (classes g = []))

-- lines 69-83
#guard holds (Filter.uniqueXyz .debug shuffle (fileOf [rec' "0.0" "0.0" "0.0" 0, rec' "0.1" "0.0" "0.0" 1,
      rec' "0.0" "0.2" "0.0" 2, rec' "0.0" "0.0" "0.3" 3, rec' "0.1" "0.0" "0.0" 4, rec' "0.0" "0.2" "0.0" 5,
      rec' "0.0" "0.0" "0.3" 6]) 0) (fun g => decide (classes g = [0, 1, 2, 3]))

/-- The file of lines 86-93, with `n` pairs. -/
def pairs (n : Nat) : SpocFile := fileOf ((List.range n).flatMap (fun i =>
  List.replicate 2 { x := F64.ofNat i, c := UInt32.ofNat i }))

-- lines 85-112
#guard holds (Filter.uniqueXyz .debug shuffle (pairs 1000) 0)
    (fun g => decide (classes g = (List.range 1000).map UInt32.ofNat))
#guard holds (Filter.uniqueXyz .debug shuffle (pairs 1000) 123) (fun g => shuffled 1000 (classes g))

-- lines 115-127
#guard holds (Filter.subsampleFile .debug shuffle (file 800 3) (d "1.0") 123) (fun g => decide (g.prs.length = 8))

/-- The file of lines 131-134. -/
def file3 : SpocFile := fileOf [rec' "0.0" "0.0" "0.0", rec' "1.0" "1.0" "1.0", rec' "1.0" "1.0" "2.0"]

-- lines 129-181
#guard holds (Filter.removeCoords Text.stod file3 "x > 0.9".toList) (fun g => decide (g.prs.length = 1))
#guard holds (Filter.removeCoords Text.stod file3 "y < 0.1".toList) (fun g => decide (g.prs.length = 2))
#guard holds (Filter.removeCoords Text.stod file3 "z < 2.0".toList) (fun g => decide (g.prs.length = 1))
#guard (Filter.removeCoords Text.stod file3 "q > 1.0".toList).isThrow
#guard (Filter.removeCoords Text.stod file3 "x - 1.0".toList).isThrow
#guard (Filter.removeCoords Text.stod file3 "x < 1.0 fail".toList).isThrow
#guard (Filter.removeCoords Text.stod file3 "x < abc".toList).isThrow

/-! ## `test_tile.cpp` -/

/-- The size of tiles for points. -/
def tileSize (ps : List PointRecord) (n : Nat) : F64 := Tile.getTileSize (Extent.ofPoints ps) n

/-- What lines 13-38 verify. -/
def sizesOk (ps : List PointRecord) : Bool :=
  aboutEqual (tileSize ps 1) (d "2.0") && aboutEqual (tileSize ps 2) (d "1.0") && aboutEqual (tileSize ps 3) (d "0.66667")

#guard sizesOk [rec' "1" "4" "0", rec' "2" "5" "0", rec' "3" "6" "0"]
#guard sizesOk [rec' "1" "4" "0", rec' "2" "5" "0", rec' "2.9999" "5.9999" "0"]
#guard sizesOk [rec' "1" "4" "0", rec' "2" "5" "0", rec' "3" "5" "0"]

/-- The points of lines 43-53, 88-98, 114-124 and 153-163. -/
def grid : List PointRecord := ["4", "5", "6"].flatMap (fun y => ["1", "2", "3"].map (fun x => rec' x y "0"))

/-- The indexes of the tiles. -/
def tiles (ps : List PointRecord) (x y : String) : Res (List UInt64) :=
  Tile.getTileIndexes ps (Extent.ofPoints ps) (d x) (d y)

-- lines 40-84
#guard tiles grid "1.0" "1.0" = .ok [0, 1, 2, 3, 4, 5, 6, 7, 8]
#guard holds (tiles grid "2" "2") (fun v => v.contains 3 && v.all (· ≤ 3))
#guard holds (tiles grid "0.1" "0.1") (fun v => decide (v.length = 9) && v.any (· > 400))
#guard tiles [rec' "1" "4" "0", rec' "2" "4" "0", rec' "2.9999" "4" "0", rec' "1" "5" "0", rec' "2" "5" "0",
    rec' "2.9999" "5" "0", rec' "1" "4.5" "0", rec' "2" "4.5" "0", rec' "2.9999" "5" "0"] "1" "1"
    = .ok [0, 1, 1, 2, 3, 3, 0, 1, 3]
-- lines 86-108
#guard tiles grid "1.0" "0.0" = .ok [0, 1, 2, 0, 1, 2, 0, 1, 2]
#guard tiles grid "-1.0" "1.0" = .ok [0, 0, 0, 1, 1, 1, 2, 2, 2]
-- lines 111-148
#guard holds (tiles grid "1.0" "1.0") (fun v =>
    (List.range 9).all (fun i => decide ((Tile.getTileMap v).at (UInt64.ofNat i) = .ok [i])))
#guard holds (tiles grid "2.0" "2.0") (fun v => (List.zip [4, 2, 2, 1] [0, 1, 2, 3]).all (fun e =>
    holds ((Tile.getTileMap v).at e.2) (fun l => decide (l.length = e.1))))
#guard holds (tiles grid "0.1" "0.1") (fun v => (Tile.getTileMap v).all (fun e => decide (e.2.length = 1)))
-- lines 150-181
#guard holds (tiles grid "1.0" "0.0") (fun v => (Tile.getTileMap v).all (fun e =>
    decide (e.2.length = 3) && decide (e.2.head? = some e.1.toNat)))
#guard holds (tiles grid "0.0" "1.0") (fun v => (Tile.getTileMap v).all (fun e =>
    decide (e.2.length = 3) && decide (e.2.head? = some (e.1.toNat * 3))))

/-! ## `test_diff.cpp` -/

/-- Both values. -/
def bools : List Bool := [true, false]

-- lines 15-38
#guard builds (fun b => bools.all (fun ho => bools.all (fun dO => bools.all (fun rv =>
    ["xyz", "z", "cpi", "rgb", "0246", "16", "01234567"].all (fun fs =>
      (Diff.diff b (file 100 5 true) (file 100 5 false) ho dO fs.toList rv).isOk
        && (Diff.diff b (file 100 5 true) (file 100 5 true) ho dO fs.toList rv).isOk
        && (Diff.diff b (file 100 5 false) (file 100 5 false) ho dO fs.toList rv).isOk)))))

/-- `diff (f1, f2)` -/
def diff0 (f1 f2 : SpocFile) : Res Int := Diff.diff .debug f1 f2 false false [] false

/-- `diff (f1, f2) != 0` -/
def different (f1 f2 : SpocFile) : Bool := holds (diff0 f1 f2) (· ≠ 0)

/-- An empty file with a version. -/
def versioned (major minor : UInt8) (wkt : String) : SpocFile :=
  { SpocFile.empty with major := major, minor := minor, wkt := text wkt }

-- lines 40-59
#guard different (versioned 1 1 "WKT") (versioned 1 2 "WKT")
#guard different (versioned 1 2 "WKT") (versioned 1 1 "WKT")
#guard different (versioned 1 2 "WKT1") (versioned 1 2 "WKT2")

/-- The first point is changed. -/
def change (t : PointRecord → PointRecord) (f : SpocFile) : SpocFile :=
  { f with prs := match f.prs with | [] => [] | q :: qs => t q :: qs }

/-- The changes of lines 74-135. -/
def changes : List (PointRecord → PointRecord) :=
  [fun q => { q with x := F64.add q.x F64.one }, fun q => { q with y := F64.add q.y F64.one },
   fun q => { q with z := F64.add q.z F64.one }, fun q => { q with c := q.c + 1 }, fun q => { q with p := q.p + 1 },
   fun q => { q with i := q.i + 1 }, fun q => { q with r := q.r + 1 }, fun q => { q with g := q.g + 1 },
   fun q => { q with b := q.b + 1 }]
   ++ (List.range 5).map (fun k q => { q with extra := q.extra.modify k (· + 1) })

-- lines 61-142
#guard diff0 (file 100 5) (file 100 5) = .ok 0
#guard changes.length = 14 ∧ changes.all (fun t => different (change t (file 100 5)) (file 100 5)) = true
#guard different (file 100 5 true) ((file 100 5 true).resizeExtraFields 6)

/-- `x` of the first point is changed (line 158). -/
def moved : SpocFile := change (fun q => { q with x := F64.add q.x F64.one }) (file 100 5 true)

-- lines 144-180
#guard Diff.diff .debug (file 100 5 true) (file 100 5 true) false false ['x'] false = .ok 0
#guard holds (Diff.diff .debug moved (file 100 5 true) false false ['x'] false) (· ≠ 0)
#guard Diff.diff .debug moved (file 100 5 true) false false ['x'] true = .ok 0
#guard holds (Diff.diff .debug (file 100 5 true) (file 100 5 true) false false ['x'] true) (· ≠ 0)
#guard "yzcpirgb04".toList.all (fun c =>
    holds (Diff.diff .debug (file 100 5 true) (file 100 5 true false 456) false false [c] false) (· ≠ 0))
#guard (Diff.diff .debug (file 100 5 true) (file 100 5 true false 456) false false ['q'] false).isThrow

/-! ## `test_merge.cpp` -/

-- lines 15-26
#guard
    let (f, log1, r1) := Merge.append { SpocFile.empty with wkt := text "A" } SpocFile.empty 0xFFFFFFFF false
    let (_, log2, r2) := Merge.append { SpocFile.empty with wkt := text "B" } f 0xFFFFFFFF false
    r1.isOk && r2.isOk && decide (log1.length = 1) && decide (log2.length = 1)
-- lines 28-41
#guard
    let (f, log1, r1) := Merge.append (file 100 8 true) { SpocFile.empty with wkt := text "WKT" } 0xFFFFFFFF true
    let (g, log2, r2) := Merge.append (file 100 8 false) f 0xFFFFFFFF true
    r1.isOk && r2.isOk && log1.isEmpty && log2.isEmpty && decide (g.prs.length = 200)

/-! ## `test_tool.cpp` -/

/-- The mean of a field. -/
def mean (field : PointRecord → F64) (f : SpocFile) : F64 :=
  F64.div (f.prs.foldl (fun s q => F64.add s (field q)) F64.zero) (F64.ofNat f.prs.length)

-- lines 16-52
#guard bools.all (fun rgb =>
    let f := file 1000 8 false rgb
    holds (Tool.recenter .debug f false) (fun g =>
      F64.fne (mean (·.x) f) (mean (·.x) g) && F64.fne (mean (·.y) f) (mean (·.y) g)
        && F64.feq (mean (·.z) f) (mean (·.z) g))
    && holds (Tool.recenter .debug f true) (fun g =>
      F64.fne (mean (·.x) f) (mean (·.x) g) && F64.fne (mean (·.y) f) (mean (·.y) g)
        && F64.fne (mean (·.z) f) (mean (·.z) g)))
-- lines 54-67
#guard [4, 0, 10].all (fun n => holds (Tool.resizeExtra .debug (file 100 8) n)
    (fun g => g.prs.all (fun q => decide ((q.extra.length : Int) = n))))
-- lines 69-75
#guard (Tool.subtractMin .debug (file 100 8) false).isOk ∧ (Tool.subtractMin .debug (file 100 8) true).isOk

/-- The names of lines 84-86 and 102-104. -/
def names : List String := ["x", "y", "z", "c", "p", "i", "r", "g", "b", "e0", "e1", "e2", "e3", "e4", "e5", "e6", "e7"]

/-- The values of lines 106-109. -/
def values (n : Nat) : Text.TextIn :=
  { rest := (List.range n).flatMap (fun i => Text.showNat i ++ ['\n']) }

-- lines 77-92
#guard bools.all (fun rgb => names.all (fun c => (Tool.getField .debug (file 100 8 false rgb) c.toList).isOk))
-- lines 94-132
#guard bools.all (fun rgb => names.all (fun c => (Tool.setField .debug (file 100 8 false rgb) (values 100) c.toList).isOk))
#guard bools.all (fun rgb => holds (Tool.setField .debug (file 100 8 false rgb) (values 100) "e10".toList)
    (fun g => g.prs.all (fun q => decide (q.extra.length = 11))))
#guard (Tool.setField .debug (file 100 8) (values 99) "x".toList).isThrow

/-- The low resolution file of lines 149-159, moved by `dx`. -/
def low (dx : F64) : Res SpocFile := do
  let l ← Filter.subsampleFile .debug shuffle (file 800 3) (d "1.0") 123
  .ok { l with prs := l.prs.map (fun q =>
    { q with x := F64.add q.x dx, y := F64.add q.y dx, z := F64.add q.z dx, c := 9 }) }

-- lines 134-191
#guard holds (low F64.zero) (fun l => decide (l.prs.length = 8)
    && holds (Tool.upsample .debug l (file 800 3) (d "1.0")) (fun h => h.1.prs.all (·.c = 9)))
-- the number is that of the points of class 9, all of which are of one octant
#guard holds (low F64.one) (fun l => holds (Tool.upsample .release l (file 800 3) (d "1.0")) (fun h =>
    decide (h.1.prs.countP (·.c = 9) < 150) && decide (h.1.prs.countP (·.c = 9) > 50)))

/-! ## `test_info.cpp` -/

/-- Sorting. -/
def sortF (l : List F64) : List F64 := (l.toArray.qsort F64.lt).toList

/-- All combinations of switches (lines 17-46 and 55-84). -/
def switches : List Info.Args :=
  bools.flatMap (fun j => bools.flatMap (fun h => bools.flatMap (fun s => bools.flatMap (fun c => bools.flatMap (fun m =>
    bools.flatMap (fun k => bools.map (fun q =>
      { json := j, headerInfo := h, summaryInfo := s, classInfo := c, metricInfo := m, compact := k, quartiles := q })))))))

#guard switches.length = 128
    ∧ switches.all (fun a => bools.all (fun z => (Info.process .debug sortF a (file 0 0 z)).isOk)) = true
#guard switches.all (fun a => bools.all (fun z => (Info.process .debug sortF a (file 20 5 z)).isOk))

/-! ## `test_transform.cpp` -/

/-- The environment: sine, cosine and logarithm of the machine. -/
def env : Transform.Env where
  trig := ⟨fun x => ⟨(Float.ofBits x.bits).sin.toBits⟩, fun x => ⟨(Float.ofBits x.bits).cos.toBits⟩⟩
  noise := Noise.std (fun x => ⟨(Float.ofBits x.bits).log.toBits⟩)
  stod := Text.stod

/-- Write, apply the commands, read. -/
def applied (b : Build) (f : SpocFile) (cs : List (String × String)) (seed : Nat := 0) : Res SpocFile := do
  let o := Transform.apply b env { rest := (Io.writeFileUncompressed b f).bytes }
    (cs.map (fun c => ⟨c.1, c.2.toList⟩)) seed
  o.res
  let (g, _) ← Io.readFileUncompressed b { rest := o.bytes }
  .ok g

-- lines 17-24
#guard (Transform.readHeaderUncompressed .debug
    { rest := (Io.writeFileCompressed .debug Spec.toyZlib (file 10 3 true)).bytes }).isThrow

/-- The offsets of lines 31-38 and 472-480, printed as by `std::to_string`. -/
def offsets : List String := (List.range 5).map (fun n =>
  String.ofList (Text.showFixed 6 (uniformReal (d "-100") (d "100") ((2 * n).repeat next (seed 1))).1))

/-- Point number 3. -/
def third (f : SpocFile) : PointRecord := f.prs[3]?.getD empty

-- lines 26-80
#guard offsets.all (fun v =>
    let p := third (file 100)
    holds (applied .debug (file 100) [("add-x", v)]) (fun g =>
      aboutEqual (F64.add p.x (d v)) (third g).x && decide ({ third g with x := p.x } = p))
    && holds (applied .debug (file 100) [("add-y", v)]) (fun g =>
      aboutEqual (F64.add p.y (d v)) (third g).y && decide ({ third g with y := p.y } = p))
    && holds (applied .debug (file 100) [("add-z", v)]) (fun g =>
      aboutEqual (F64.add p.z (d v)) (third g).z && decide ({ third g with z := p.z } = p)))

-- lines 82-131
#guard holds (applied .debug (file 100 8) [("copy-field", "c,p")]) (fun g =>
    decide (g.prs.map (·.p) = (file 100 8).prs.map (·.c)))
#guard holds (applied .debug (file 100 8) [("copy-field", "e7,e0")]) (fun g =>
    decide (g.prs.map (·.extra[0]?) = (file 100 8).prs.map (·.extra[7]?)))
#guard holds (applied .debug (file 100 8) [("copy-field", "i,e2")]) (fun g =>
    decide (g.prs.map (·.extra[2]?) = (file 100 8).prs.map (fun q => some (UInt64.ofNat q.i.toNat))))

/-- The names of integer fields. -/
def intNames : List String := names.drop 3

-- lines 133-183
#guard builds (fun b => intNames.all (fun n1 => intNames.all (fun n2 =>
    (applied b (file 5 8) [("copy-field", n1 ++ "," ++ n2)]).isOk)))
#guard builds (fun b => intNames.all (fun n1 => ["x", "y", "z", "q", "w", "e8"].all (fun n2 =>
    (applied b (file 5 8) [("copy-field", n1 ++ "," ++ n2)]).isThrow
      && (applied b (file 5 8) [("copy-field", n2 ++ "," ++ n1)]).isThrow)))

-- lines 232-263
#guard holds (applied .debug (file 10 3) [("quantize-xyz", "0.001")]) (fun g => g.prs.all (fun q =>
    F64.fne q.x F64.zero && decide ((F64.mul q.x (d "1000")).trunc.tdiv 1000 = 0)))
#guard holds (applied .debug (file 10 3) [("quantize-xyz", "0.01")]) (fun g => g.prs.all (fun q =>
    F64.fne q.y F64.zero && decide ((F64.mul q.y (d "100")).trunc.tdiv 100 = 0)))
#guard holds (applied .debug (file 10 3) [("quantize-xyz", "100")]) (fun g => g.prs.all (fun q => F64.feq q.z F64.zero))

-- lines 265-323
#guard builds (fun b => ["1", "2", "3", "4", "5"].all (fun v1 => ["1", "2", "3", "4", "5"].all (fun v2 =>
    intNames.all (fun n => (applied b (file 5 8) [("replace", n ++ "," ++ v1 ++ "," ++ v2)]).isOk)
      && ["x", "y", "z", "q", "w", "e8"].all (fun n =>
        (applied b (file 5 8) [("replace", n ++ "," ++ v1 ++ "," ++ v2)]).isThrow))))

-- lines 325-410
#guard builds (fun b => intNames.all (fun n =>
    ["", ",3"].all (fun v => !(applied b (file 5 8) [("replace-not", n ++ v)]).isOk)
      && [",3,17", ",3,17,0", ",3,17,0,9"].all (fun v => (applied b (file 5 8) [("replace-not", n ++ v)]).isOk)))
#guard builds (fun b => ["x", "y", "z", "q", "e100"].all (fun n =>
    ["", ",3", ",3,17", ",3,17,0", ",3,17,0,9"].all (fun v => (applied b (file 5 8) [("replace-not", n ++ v)]).isThrow)))

/-- The angles of lines 417-425, printed as by `std::to_string`. -/
def angles : List String := (List.range 5).map (fun n =>
  String.ofList (Text.showFixed 6 (uniformReal (F64.negate Affine.pi) Affine.pi ((2 * n).repeat next (seed 1))).1))

-- lines 412-465
#guard angles.all (fun v =>
    let p := third (file 100)
    holds (applied .debug (file 100) [("rotate-x", v)]) (fun g =>
      F64.feq p.x (third g).x && F64.fne p.y (third g).y && F64.fne p.z (third g).z)
    && holds (applied .debug (file 100) [("rotate-y", v)]) (fun g =>
      F64.fne p.x (third g).x && F64.feq p.y (third g).y && F64.fne p.z (third g).z)
    && holds (applied .debug (file 100) [("rotate-z", v)]) (fun g =>
      F64.fne p.x (third g).x && F64.fne p.y (third g).y && F64.feq p.z (third g).z))

-- lines 467-520
#guard offsets.all (fun v =>
    let p := third (file 100)
    holds (applied .debug (file 100) [("scale-x", v)]) (fun g =>
      aboutEqual (F64.mul p.x (d v)) (third g).x && decide ({ third g with x := p.x } = p))
    && holds (applied .debug (file 100) [("scale-y", v)]) (fun g =>
      aboutEqual (F64.mul p.y (d v)) (third g).y && decide ({ third g with y := p.y } = p))
    && holds (applied .debug (file 100) [("scale-z", v)]) (fun g =>
      aboutEqual (F64.mul p.z (d v)) (third g).z && decide ({ third g with z := p.z } = p)))

-- lines 522-559
#guard builds (fun b => bools.all (fun rgb => names.all (fun n => (applied b (file 5 8 false rgb) [("set", n ++ ",123")]).isOk)
    && ["q", "w", "e9"].all (fun n => (applied b (file 5 8 false rgb) [("set", n ++ ",123")]).isThrow)))

/-- The last point. -/
def last (f : SpocFile) : PointRecord := f.prs.getLast?.getD empty

-- lines 608-650
#guard holds (applied .debug (file 100 8) [("add-x", "10.0"), ("rotate-x", "17.5"), ("scale-x", "100.0")]) (fun f2 =>
    let p1 := last (file 100 8)
    !aboutEqual p1.x (last f2).x && !aboutEqual p1.y (last f2).y && !aboutEqual p1.z (last f2).z
    && holds (applied .debug f2 [("scale-x", "0.01"), ("rotate-x", "-17.5"), ("add-x", "-10.0")]) (fun f3 =>
      aboutEqual p1.x (last f3).x && aboutEqual p1.y (last f3).y && aboutEqual p1.z (last f3).z))

-- lines 652-663
#guard builds (fun b => (Transform.apply b env { rest := [] } [⟨"xxx", "1.0".toList⟩] 123).res.isThrow)

/-- The points at the origin of lines 188-196 and 563-571. -/
def atOrigin : SpocFile :=
  { file 100 3 false with prs := (file 100 3 false).prs.map (fun p => { p with x := F64.zero, y := F64.zero, z := F64.zero }) }

/-- The extent of the values is within the limits, and reaches beyond the others. -/
def spread (xs : List F64) (beyond within : F64) : Bool :=
  let lo := xs.foldl F64.stdMin F64.maxVal
  let hi := xs.foldl F64.stdMax F64.lowest
  F64.lt lo (F64.negate beyond) && F64.lt beyond hi && F64.lt (F64.negate within) lo && F64.lt hi within

-- lines 186-230
#guard holds (applied .debug atOrigin [("gaussian-noise-x", "1.0"), ("gaussian-noise-y", "2.0"), ("gaussian-noise-z", "3.0")] 123) (fun g =>
    spread (g.prs.map (·.x)) (d "1") (d "100") && spread (g.prs.map (·.y)) (d "2") (d "200") && spread (g.prs.map (·.z)) (d "3") (d "300"))
-- not in the test: the offsets are multiples of each other (C94)
#guard holds (applied .debug atOrigin [("gaussian-noise-x", "1.0"), ("gaussian-noise-y", "2.0"), ("gaussian-noise-z", "3.0")] 123) (fun g =>
    g.prs.all (fun p => F64.feq p.y (F64.mul p.x (d "2"))))

-- lines 561-606
#guard holds (applied .debug atOrigin [("uniform-noise", "1.0,2.0,3.0")] 123) (fun g =>
    spread (g.prs.map (·.x)) (d "0.9") (d "1") && spread (g.prs.map (·.y)) (d "0.9") (d "1") && spread (g.prs.map (·.z)) (d "0.9") (d "1"))
#guard ["uniform-noise-x", "uniform-noise-y", "uniform-noise-z"].all (fun c => (applied .debug atOrigin [(c, "1.0")] 123).isOk)

/-! ## `test_affine.cpp` (with the environment above; `test_transform_rotate2` is the test that its `main` calls by another name) -/

/-- The point of lines 86-94, for factor `k`. -/
def pointK (k : Nat) : Pt F64 :=
  let at' (n : Nat) := F64.mul (F64.ofNat k) (uniformReal F64.zero F64.one ((2 * (3 * k + n)).repeat next (seed 1))).1
  ⟨at' 0, at' 1, at' 2⟩

/-- Rotations in sequence. -/
def turn (rot : Trig → F64 → Pt F64 → Pt F64) (angles : List String) (p : Pt F64) : Pt F64 :=
  angles.foldl (fun q a => rot env.trig (d a) q) p

/-- About the same point. -/
def near3 (p q : Pt F64) : Bool := aboutEqual p.x q.x && aboutEqual p.y q.y && aboutEqual p.z q.z

-- lines 81-182
#guard (List.range 5).all (fun k =>
    let p := pointK k
    F64.feq (turn Affine.rotateX ["0", "90", "-180"] p).x p.x && F64.feq (turn Affine.rotateY ["0", "90", "-180"] p).y p.y
      && F64.feq (turn Affine.rotateZ ["0", "90", "-180"] p).z p.z)
#guard (List.range 5).all (fun k =>
    let p := pointK k
    near3 (turn Affine.rotateX ["90"] p) ⟨p.x, F64.negate p.z, p.y⟩ && near3 (turn Affine.rotateX ["90", "-90"] p) p
      && near3 (turn Affine.rotateX ["90", "-90", "180"] p) ⟨p.x, F64.negate p.y, F64.negate p.z⟩
      && near3 (turn Affine.rotateY ["90"] p) ⟨F64.negate p.z, p.y, p.x⟩ && near3 (turn Affine.rotateY ["90", "-90"] p) p
      && near3 (turn Affine.rotateY ["90", "-90", "180"] p) ⟨F64.negate p.x, p.y, F64.negate p.z⟩
      && near3 (turn Affine.rotateZ ["90"] p) ⟨F64.negate p.y, p.x, p.z⟩ && near3 (turn Affine.rotateZ ["90", "-90"] p) p
      && near3 (turn Affine.rotateZ ["90", "-90", "180"] p) ⟨F64.negate p.x, F64.negate p.y, p.z⟩)

end Spoc.Tests
