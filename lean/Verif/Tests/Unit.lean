import Verif.Model.TestUtils
import Verif.Model.ExtentArea
import Verif.Model.AllZero
import Verif.Model.AppUtils
import Verif.Model.Info
import Verif.Model.RadiusSearch
import Verif.Model.Subsampling
import Verif.Model.Utils
import Verif.Base.Strtod

/-!
# The unit tests of the repository, transcribed (`/repo/tests/unit`)

Each `#guard` evaluates what a test of the repository verifies, of the model.  These are neither properties nor proofs:
they check that the model behaves like the program where the authors of the program have written down what it does.
-/

namespace Spoc.Tests

open TestUtils

/-- A literal. -/
def d (s : String) : F64 := Text.atof s.toList

/-- A point. -/
def pnt (x y z : String) : Pt F64 := ⟨d x, d y, d z⟩

/-- An empty record. -/
def empty : PointRecord := {}

/-- A record. -/
def rec' (x y z : String) (c : UInt32 := 0) : PointRecord := { x := d x, y := d y, z := d z, c := c }

/-- What a successful call returns satisfies a condition. -/
def holds {α : Type} (r : Res α) (p : α → Bool) : Bool :=
  match r with
  | .ok a => p a
  | _ => false

/-! ## `test_header.cpp` -/

/-- The bytes of a short text. -/
def text (s : String) : Bytes := s.toList.map (fun c => UInt8.ofNat c.toNat)

-- lines 14-29
#guard Header.default.isValid = true
#guard (List.range 4).all (fun i => !{ Header.default with signature := Header.default.signature.set i 33 }.isValid) = true

/-- `test_not_equal` (lines 40-47) -/
def differ (a b : Header) : Bool := a.bne b && !a.beq b && b.bne a && !b.beq a

/-- The header of lines 51-53. -/
def headerWkt : Header := { Header.default with wkt := text "WKT" }

-- lines 49-96
#guard headerWkt.beq headerWkt = true ∧ headerWkt.bne headerWkt = false
#guard differ { headerWkt with signature := headerWkt.signature.set 3 88 } headerWkt = true
#guard differ { headerWkt with major := headerWkt.major + 1 } headerWkt = true
#guard differ { headerWkt with minor := headerWkt.minor + 1 } headerWkt = true
#guard differ { headerWkt with wkt := headerWkt.wkt.set 0 88 } headerWkt = true
#guard differ { headerWkt with extraFields := headerWkt.extraFields + 1 } headerWkt = true
#guard differ { headerWkt with totalPoints := headerWkt.totalPoints + 1 } headerWkt = true
#guard differ { headerWkt with compressed := if headerWkt.compressed = 0 then 1 else 0 } headerWkt = true

/-- Reading a header from bytes. -/
def readBytes (bs : Bytes) : Res Header := do
  let (h, _) ← Header.read { rest := bs }
  .ok h

/-- The header of lines 102-103. -/
def headerTest : Header := { Header.default with wkt := text "Test WKT" }

-- lines 100-111
#guard headerTest.checkSignature = true ∧ headerTest.write.res = .ok ()
    ∧ holds (readBytes headerTest.write.bytes) (fun g => headerTest.beq g) = true
-- lines 113-119
#guard (readBytes (text "SPOX\n")).isThrow = true
-- lines 134-141
#guard majorVersion = 0
    ∧ (readBytes { Header.default with minor := Header.default.minor + 1 }.write.bytes).isThrow = true
-- lines 143-150
#guard (readBytes { Header.default with major := Header.default.major + 1 }.write.bytes).isThrow = true
-- lines 152-157
#guard (Header.new majorVersion minorVersion (List.replicate 0x10000 0) 0 0 false).isThrow = true
-- lines 159-166
#guard { Header.default with wkt := List.replicate 0x10000 0 }.isValid = false
-- lines 168-174
#guard { Header.default with signature := Header.default.signature.set 3 88 }.write.res.isThrow = true

/-! ## `test_point.cpp` and `test_point_record.cpp` -/

-- `test_point.cpp` lines 31-38
#guard aboutEqual (Pt.distance (pnt "1" "1" "1") (pnt "2" "2" "2")) (F64.sqrt (F64.ofNat 3)) = true

-- `test_point_record.cpp` lines 13-53
#guard empty = ⟨F64.zero, F64.zero, F64.zero, 0, 0, 0, 0, 0, 0, []⟩
#guard rec' "1.0" "2.0" "3.0" 4 = ⟨F64.ofNat 1, F64.ofNat 2, F64.ofNat 3, 4, 0, 0, 0, 0, 0, []⟩
#guard (PointRecord.blank 10).extra.length = 10 ∧ { PointRecord.blank 10 with extra := [] } = empty

/-- No field but the extra fields is zero. -/
def noZero (q : PointRecord) : Bool :=
  F64.fne q.x F64.zero && F64.fne q.y F64.zero && F64.fne q.z F64.zero && decide (q.c ≠ 0) && decide (q.p ≠ 0)
    && decide (q.i ≠ 0) && decide (q.r ≠ 0) && decide (q.g ≠ 0) && decide (q.b ≠ 0)

/-- The records of `test_point_record_fields`. -/
def ps10 : List PointRecord := randomRecords 10 8

/-- The first record. -/
def recA : PointRecord := ps10[0]?.getD empty

/-- The second record. -/
def recC : PointRecord := ps10[1]?.getD empty

-- `test_point_record_fields` (lines 55-92)
#guard ps10.all noZero = true
#guard (List.zipWith PointRecord.beq ps10 ps10).all id = true
#guard recA.beq recA = true
    ∧ { recA with x := recC.x }.bne recA = true ∧ { recA with y := recC.y }.bne recA = true
    ∧ { recA with z := recC.z }.bne recA = true ∧ { recA with c := recC.c }.bne recA = true
    ∧ { recA with p := recC.p }.bne recA = true ∧ { recA with i := recC.i }.bne recA = true
    ∧ { recA with r := recC.r }.bne recA = true ∧ { recA with g := recC.g }.bne recA = true
    ∧ { recA with b := recC.b }.bne recA = true
    ∧ (List.range 8).all (fun k => { recA with extra := recA.extra.set k (recC.extra[k]?.getD 0) }.bne recA) = true

/-- The records of `test_point_record_all_zero`. -/
def zeros : List PointRecord := randomRecords 10 3

-- `test_point_record_all_zero` (lines 140-179)
#guard PointRecord.hasAllZeroC zeros = false ∧ PointRecord.hasAllZeroP zeros = false
    ∧ PointRecord.hasAllZeroI zeros = false ∧ PointRecord.hasAllZeroR zeros = false
    ∧ PointRecord.hasAllZeroG zeros = false ∧ PointRecord.hasAllZeroB zeros = false
    ∧ PointRecord.hasAllZeroRgb zeros = false
    ∧ (List.range 3).all (fun k => holds (PointRecord.hasAllZeroExtra k zeros) (fun t => !t)) = true
#guard PointRecord.hasAllZeroC (zeros.map (fun q => { q with c := 0 })) = true
    ∧ PointRecord.hasAllZeroP (zeros.map (fun q => { q with p := 0 })) = true
    ∧ PointRecord.hasAllZeroI (zeros.map (fun q => { q with i := 0 })) = true
    ∧ PointRecord.hasAllZeroR (zeros.map (fun q => { q with r := 0 })) = true
    ∧ PointRecord.hasAllZeroG (zeros.map (fun q => { q with r := 0, g := 0 })) = true
    ∧ PointRecord.hasAllZeroRgb (zeros.map (fun q => { q with r := 0, g := 0 })) = false
    ∧ PointRecord.hasAllZeroB (zeros.map (fun q => { q with r := 0, g := 0, b := 0 })) = true
    ∧ PointRecord.hasAllZeroRgb (zeros.map (fun q => { q with r := 0, g := 0, b := 0 })) = true
    ∧ (List.range 3).all (fun k =>
        holds (PointRecord.hasAllZeroExtra k (zeros.map (fun q => { q with extra := q.extra.set k 0 }))) id) = true

/-! ## `test_file.cpp` -/

/-- The records of `test_file.cpp`. -/
def ps100 : List PointRecord := randomRecords 100 3

/-- Point 10 with another number of extra fields. -/
def ps100' (n : Nat) : List PointRecord :=
  ps100.set 10 { ps100[10]?.getD empty with extra := SpocFile.resizeExtra n (ps100[10]?.getD empty).extra }

-- lines 18-44
#guard SpocFile.empty.isValid = true
#guard holds (SpocFile.empty.pushBack empty) (fun f => holds f.getHeader (fun h => decide (h.totalPoints = 1))) = true
#guard (SpocFile.new' (text "WKT") false (ps100' 4)).isThrow = true

/-- The file of lines 48-51. -/
def f100 : SpocFile := { (SpocFile.empty.setWkt (text "WKT")) with prs := ps100 }

-- lines 46-74
#guard SpocFile.new' (text "WKT") false ps100 = .ok f100
#guard f100.wkt = text "WKT" ∧ (f100.setWkt (text "test")).wkt = text "test" ∧ f100.compressed = false
    ∧ (f100.setCompressed true).compressed = true ∧ ((f100.setCompressed true).setCompressed false).compressed = false
#guard (f100.setPointRecords (ps100' 4)).isThrow = true

/-- The record of lines 66-67. -/
def q4 : PointRecord := { ps100[0]?.getD empty with extra := (ps100[0]?.getD empty).extra ++ [0] }

#guard (f100.setPointRecord .debug 0 q4).isThrow = true ∧ (f100.setPointRecord .release 0 q4).isThrow = true
    ∧ (f100.pushBack q4).isThrow = true
#guard { f100 with prs := ps100' 2 }.isValid = false

-- lines 76-104
#guard holds f100.getHeader (fun h => decide (h.wkt = text "WKT") && decide (h.extraFields = 3)
    && decide (h.totalPoints = 100) && decide (h.compressed = 0)) = true
#guard holds (f100.setCompressed true).getHeader (fun h => decide (h.wkt = text "WKT") && decide (h.extraFields = 3)
    && decide (h.totalPoints = 100) && decide (h.compressed = 1)) = true

-- lines 106-128
#guard f100.moveOut.1.length = 100 ∧ f100.moveOut.2.prs = [] ∧ (f100.moveOut.2.moveIn (ps100' 4)).isThrow = true
    ∧ f100.moveOut.2.moveIn f100.moveOut.1 = .ok f100

/-! ## `test_app_utils.cpp`, `test_io.cpp` (names of fields), `test_asprs.cpp` -/

-- `test_app_utils.cpp` lines 91-119
#guard AppUtils.consumeFieldName .release "x".toList = .ok ("x".toList, [])
    ∧ (AppUtils.consumeFieldName .release "q".toList).isThrow = true
#guard AppUtils.consumeInt "123".toList = .ok (123, []) ∧ (AppUtils.consumeInt "q".toList).isThrow = true
#guard holds (AppUtils.consumeDouble Text.stod "1.23".toList) (fun r => decide (r.2 = []) && decide (r.1.trunc = 1)) = true
    ∧ (AppUtils.consumeDouble Text.stod "q".toList).isThrow = true

-- `test_io.cpp` lines 139-155
#guard AppUtils.isExtraField "e100".toList = true ∧ AppUtils.getExtraIndex "e100".toList = 100
    ∧ AppUtils.isExtraField "x100".toList = false ∧ AppUtils.isExtraField "e1000001".toList = true
    ∧ AppUtils.getExtraIndex "x100".toList = -1 ∧ AppUtils.getExtraIndex "exyz".toList = -1
    ∧ AppUtils.checkFieldName "e10000".toList = true ∧ AppUtils.checkFieldName "x10000".toList = false
    ∧ AppUtils.checkFieldName "e0".toList = true ∧ AppUtils.checkFieldName "exxx".toList = false

-- `test_asprs.cpp` lines 7-11
#guard Asprs.classMap.lookup 6 = some "building"

/-! ## `test_extent.cpp` -/

/-- The extent of lines 55 and 60. -/
def box : Extent := ⟨pnt "1" "2" "3", pnt "4" "6" "8"⟩

#guard Extent.area box = d "12" ∧ Extent.volume box = d "60"

-- lines 64-75
#guard Extent.total ⟨pnt "-4" "-2" "0", pnt "4" "2" "0"⟩ ⟨pnt "-2" "-4" "0", pnt "2" "4" "0"⟩
    = ⟨pnt "-4" "-4" "0", pnt "4" "4" "0"⟩

-- lines 21-51, for the first 100 points of the generator of the records
#guard holds (do
      let ps := (randomRecords 100).map HasXYZ.pt
      let e := Extent.ofPoints ps
      let e' ← Extent.decode e.encode
      let x ← Extent.rescale .debug ps e
      let y ← Extent.restore .debug x e
      .ok (decide (e' = e) && decide (List.zipWith Pt.add y (List.zipWith Pt.sub ps y) = ps))) id = true

/-! ## `test_voxel.cpp` -/

/-- A voxel. -/
def vx (i j k : UInt64) : VoxelIndex := ⟨i, j, k⟩

-- lines 12-61
#guard Voxel.getIndexes ([] : List (Pt F64)) (d "1.0") = .ok []
#guard Voxel.getIndexes [pnt "0" "0" "0"] (d "1.0") = .ok [vx 0 0 0]
#guard Voxel.getIndexes [pnt "0" "0" "0", pnt "4" "1" "1"] (d "1.5") = .ok [vx 0 0 0, vx 2 0 0]
#guard Voxel.getIndexes [pnt "-1" "-1" "-1", pnt "1" "1" "1"] (d "1.0") = .ok [vx 0 0 0, vx 2 2 2]
#guard Voxel.getIndexes [pnt "0" "0" "0", pnt "1" "1" "1", pnt "0" "1" "2"] (d "1.0")
    = .ok [vx 0 0 0, vx 1 1 1, vx 0 1 2]

-- lines 63-83
#guard holds (Voxel.getIndexes [pnt "0" "1" "2", pnt "3" "4" "5", pnt "6" "7" "8"] (d "2.1")) (fun v =>
    let s := Voxel.getSet v
    decide (s.length = 3) && s.contains (vx 0 0 0) && s.contains (vx 1 1 1) && s.contains (vx 2 2 2)
      && !s.contains (vx 1 2 1)) = true
#guard holds (Voxel.getIndexes [pnt "0" "1" "2", pnt "3" "4" "5", pnt "6" "7" "8"] (d "0.99")) (fun v =>
    let s := Voxel.getSet v
    decide (s.length = 3) && s.contains (vx 0 0 0) && s.contains (vx 3 3 3) && s.contains (vx 6 6 6)
      && !s.contains (vx 0 0 3)) = true

/-- The points of lines 87-90 and 111-114. -/
def diagonal : List (Pt F64) := [pnt "0" "0" "0", pnt "1" "1" "1", pnt "2" "2" "2"]

-- lines 85-107
#guard holds (Voxel.getIndexes diagonal (d "1.5")) (fun v =>
    let m := Voxel.getMap v
    decide (((m.find (vx 0 0 0)).getD []).length = 2) && decide (m.length = 2) && (m.find (vx 1 1 1)).isSome
      && (m.find (vx 2 2 2)).isNone && (m.find (vx 1 2 1)).isNone) = true
#guard holds (Voxel.getIndexes diagonal (d "0.99")) (fun v =>
    let m := Voxel.getMap v
    decide (((m.find (vx 1 1 1)).getD []).length = 1) && decide (m.length = 3) && (m.find (vx 0 0 0)).isSome
      && (m.find (vx 1 1 1)).isSome && (m.find (vx 2 2 2)).isSome && (m.find (vx 0 0 3)).isNone) = true

-- lines 109-122 (a test that is never called)
#guard Voxel.getIndexesOf diagonal [0, 1] (d "0.99") = .ok [vx 0 0 0, vx 1 1 1]

/-! ## `test_subsampling.cpp` -/

/-- The points of lines 14-20. -/
def line6 : List PointRecord :=
  [rec' "0.0" "0.0" "0.0" 0, rec' "1.1" "1.1" "1.1" 1, rec' "2.1" "2.1" "2.1" 2, rec' "3.1" "3.1" "3.1" 3,
   rec' "4.1" "4.1" "4.1" 4, rec' "5.1" "5.1" "5.1" 5]

/-- Seed 0 means that nothing is shuffled, whatever the shuffle does. -/
def noShuffle : Subsampling.Shuffle := fun _ l => l.reverse

-- lines 21-34
#guard Subsampling.subsampleIndexes .debug noShuffle line6 (d "6") 0 = .ok [0]
#guard Subsampling.subsampleIndexes .debug noShuffle line6 (d "1.0") 0 = .ok [0, 1, 2, 3, 4, 5]
#guard Subsampling.subsampleIndexes .debug noShuffle line6 (d "2.0") 0 = .ok [0, 2, 4]

/-- The points of lines 37-46. -/
def halves (n : Nat) : List PointRecord :=
  (List.range n).flatMap (fun i =>
    let x := F64.ofNat i
    let y := F64.add x (d "0.5")
    [{ x := x, y := x, z := x, c := UInt32.ofNat i }, { x := y, y := y, z := y, c := UInt32.ofNat i }])

-- lines 36-59
#guard holds (Subsampling.subsampleIndexes .debug noShuffle (halves 1000) (d "1.0") 0) (fun ind =>
    decide (ind.length = 1000) && decide (ind = (List.range 1000).map (2 * ·))) = true

/-- What lines 55-63 verify of the shuffled selection. -/
def shuffled (n : Nat) (cs : List UInt32) : Bool :=
  decide (cs.length = n) && decide (cs.head? ≠ some 0) && decide (cs.getLast? ≠ some (UInt32.ofNat (n - 1)))

#guard holds (Subsampling.subsamplePoints .debug shuffle (halves 1000) (d "1.0") 123)
    (fun q => shuffled 1000 (q.map (·.c)))

-- lines 66-79
#guard holds (Subsampling.subsamplePoints .debug noShuffle [rec' "0.0" "0.0" "0.0" 0, rec' "1.1" "0.0" "0.0" 1,
      rec' "2.1" "0.0" "0.0" 2, rec' "3.1" "0.0" "0.0" 3] (d "2") 0)
    (fun q => decide (q.map (·.c) = [0, 2])) = true

/-! ## `test_radius_search.cpp` -/

/-- The points of lines 53-83, in the order of the test. -/
def cube : List (Pt F64) :=
  ["0", "1", "-1"].flatMap (fun z => ["0", "1", "-1"].flatMap (fun x => ["0", "1", "-1"].map (fun y => pnt x y z)))

/-- The numbers of neighbours of the points. -/
def counts (r : Res (List (List Nat))) : Res (List Nat) := do
  let v ← r
  .ok (v.map List.length)

/-- All builds. -/
def builds (p : Build → Bool) : Bool := p .debug && p .release

-- lines 86-117
#guard builds (fun b => decide (RadiusSearch.searchGetNeighbors b minstdRand ([] : List (Pt F64)) (d "1.0") = .ok []))
#guard builds (fun b => holds (counts (RadiusSearch.searchGetNeighbors b minstdRand [pnt "0" "0" "0"] (d "1.0"))) (· = [1]))
#guard builds (fun b => holds (counts (RadiusSearch.searchGetNeighbors b minstdRand cube (d "1.1")))
    (fun c => decide (c.length = 27) && decide (c[0]? = some 7)))
#guard builds (fun b => holds (counts (RadiusSearch.searchGetNeighbors b minstdRand cube (d "2.1")))
    (fun c => decide (c.length = 27) && decide (c[0]? = some 27)))

-- lines 120-131: every pair is counted
#guard builds (fun b => holds (counts (RadiusSearch.searchAll b minstdRand cube (d "100.0") 32))
    (fun c => decide (c.sum = 27 * 27)))

/-- A smaller cloud of noise instead of the one of lines 188-190 (whose generator needs logarithms). -/
def noise : List (Pt F64) := noisyLoop (d "3") (d "3") (d "3") 40 (seed 123)

/-- The indexes of line 209. -/
def ind7 : List Nat := [0, 1, 10, 5, 3, 1, 5]

-- lines 185-233
#guard builds (fun b => holds (counts (RadiusSearch.searchAll b minstdRand noise (d "1.0") 32)) (fun c => decide (c.length = 40)))
#guard builds (fun b => holds (counts (RadiusSearch.searchIndexes b minstdRand noise ind7 (d "2.0") 32))
    (fun c => decide (c.length = 7)))
#guard builds (fun b => holds (counts (RadiusSearch.searchAllNeighbors b minstdRand noise ind7 (d "4.0") 5))
    (fun c => decide (c.length = 7) && decide (c.sum = 7 * 5)))
#guard builds (fun b => holds (counts (RadiusSearch.searchAllNeighbors b minstdRand noise ind7 (d "4.0") 0))
    (fun c => decide (c.length = 7) && decide (c.sum = 0)))

/-- The points of lines 261-271, with `n` points at (1, 1, 3). -/
def tower (n : Nat) : List (Pt F64) := pnt "0" "0" "0" :: pnt "1" "1" "1" :: List.replicate n (pnt "1" "1" "3")

-- lines 283-309
#guard [("1.0", 1), ("1.9", 2), ("2.1", 102)].all (fun e => builds (fun b =>
    holds (counts (RadiusSearch.searchAllNeighbors b minstdRand (tower 100) [1] (d e.1) 10000)) (· = [e.2])))

-- lines 333-342
#guard holds (Voxel.getIndexes (tower 100) (d "2.1")) (fun v =>
    decide ((((Voxel.getMap v).find (vx 0 0 0)).getD []).length = 2)
      && decide ((((Voxel.getMap v).find (vx 0 0 1)).getD []).length = 100))

/-- The neighbours found in lines 351-366. -/
def tenTimes (b : Build) : Res (List Nat) := do
  let v ← (List.range 10).mapM (fun n => RadiusSearch.searchAllNeighbors b minstdRand (tower (101 + n)) [1] (d "2.1") 10)
  .ok (v.flatten.flatten)

-- lines 368-370
#guard builds (fun b => holds (tenTimes b) (fun v =>
    decide (v.countP (· < 2) < 30) && decide (v.countP (¬ · < 2) > 70)))

/-! ## `test_utils.cpp` (`std::hash<int>` is the identity in libstdc++) -/

-- lines 13-34
#guard hashValue 1 123 ≠ hashValue 2 123
#guard ((List.range 1000).map (fun v => hashValue 0 (UInt64.ofNat v))).Nodup
-- lines 36-55
#guard hashCombine 0 [1, 2, 3] = hashCombine 0 [1, 2, 3] ∧ hashCombine 0 [1, 2, 3] ≠ hashCombine 0 [3, 2, 1]
    ∧ hashCombine 0 [1, 2, 3] ≠ hashCombine 0 [1, 2] ∧ hashCombine 0 [3, 2, 1] ≠ hashCombine 0 [1, 2]
-- lines 57-63
#guard builds (fun b => ["0.001", "0.1", "1.0"].all (fun q => (Utils.quantize b (randomRecords 10) (d q)).isOk))

end Spoc.Tests
