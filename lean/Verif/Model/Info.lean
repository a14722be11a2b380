import Verif.Base.Fixed
import Verif.Model.Apps
import Verif.Model.Diff
import Verif.Model.Merge
import Verif.Model.Voxel

/-!
# Model of the info application (`/repo/apps/info`), of `/repo/spoc/json.h` and of `/repo/spoc/asprs.h`

Simplifications: messages to the log are not modelled; the sign of a NaN that is the result of a computation is not modelled; bytes of the
spatial reference are shown as the characters with the same number.
-/

namespace Spoc

open Text

/-! ## `/repo/spoc/json.h` -/

/-- `json::value` (`/repo/spoc/json.h` lines 16-37): a `std::any`.  `u32` stands for a `uint32_t`, which is not among the types
that are printed.  Left out: `float`, which nothing in the repository uses as a value; `const char *` is `str`. -/
inductive Json : Type
  | int (n : Int)
  | char (n : Int)
  | u8 (n : UInt8)
  | u16 (n : UInt16)
  | u32 (n : UInt32)
  | u64 (n : UInt64)
  | dbl (x : F64)
  | bool (v : Bool)
  | str (s : Str)
  | arr (l : List Json)
  | obj (l : List (Str × Json))

namespace Json

/-- The text for a value that is neither array nor object, at precision 15 with `std::fixed`
(`/repo/spoc/json.h` lines 75-131 and 168-194). -/
def scalar : Json → Str
  | int n => showInt n
  | char n => showInt n
  | u8 n => showNat n.toNat
  | u16 n => showNat n.toNat
  | u32 _ => ['u', 'n', 'k', 'n', 'o', 'w', 'n', ' ', 't', 'y', 'p', 'e', ':', ' ', 'j']
  | u64 n => showNat n.toNat
  | dbl x => showFixed 15 x
  | bool v => if v then ['t', 'r', 'u', 'e'] else ['f', 'a', 'l', 's', 'e']
  | str s => '\'' :: (s ++ ['\''])
  | arr _ => []
  | obj _ => []

/-- `print_indents` (`/repo/spoc/json.h` lines 39-43). -/
def indents (n : Nat) : Str := List.replicate (4 * n) ' '

mutual

/-- `pretty_print` of a value (`/repo/spoc/json.h` lines 75-131). -/
def pretty (n : Nat) : Json → Str
  | arr l => ['[', ' '] ++ (prettyArray n l ++ [' ', ']'])
  | obj l => ['{', '\n'] ++ (prettyObject n l ++ (indents n ++ ['}']))
  | v => scalar v

/-- The loop of `pretty_print` of an array (`/repo/spoc/json.h` lines 45-56). -/
def prettyArray (n : Nat) : List Json → Str
  | [] => []
  | [v] => pretty n v
  | v :: w :: r => pretty n v ++ ([',', ' '] ++ prettyArray n (w :: r))

/-- The loop of `pretty_print` of an object (`/repo/spoc/json.h` lines 58-73). -/
def prettyObject (n : Nat) : List (Str × Json) → Str
  | [] => []
  | [(k, v)] => indents (n + 1) ++ ('\'' :: (k ++ (['\'', ' ', ':', ' '] ++ (pretty (n + 1) v ++ ['\n']))))
  | (k, v) :: w :: r =>
    indents (n + 1) ++ ('\'' :: (k ++ (['\'', ' ', ':', ' '] ++ (pretty (n + 1) v ++ ([',', '\n'] ++ prettyObject n (w :: r))))))

end

mutual

/-- `operator<<` of a value (`/repo/spoc/json.h` lines 166-194). -/
def compact : Json → Str
  | arr l => ['[', ' '] ++ (compactArray l ++ [' ', ']'])
  | obj l => ['{', ' '] ++ (compactObject l ++ [' ', '}'])
  | v => scalar v

/-- The loop of `operator<<` of an array (`/repo/spoc/json.h` lines 133-146). -/
def compactArray : List Json → Str
  | [] => []
  | [v] => compact v
  | v :: w :: r => compact v ++ ([',', ' '] ++ compactArray (w :: r))

/-- The loop of `operator<<` of an object (`/repo/spoc/json.h` lines 148-164). -/
def compactObject : List (Str × Json) → Str
  | [] => []
  | [(k, v)] => '\'' :: (k ++ (['\'', ' ', ':', ' '] ++ compact v))
  | (k, v) :: w :: r => '\'' :: (k ++ (['\'', ' ', ':', ' '] ++ (compact v ++ ([',', ' '] ++ compactObject (w :: r)))))

end

end Json

/-! ## `/repo/spoc/asprs.h` -/

namespace Asprs

/-- `get_asprs_class_map` (`/repo/spoc/asprs.h` lines 41-72). -/
def classMap : List (Int × String) :=
  [(0, "unclassified"), (1, "unknown"), (2, "ground"), (3, "low_veg"), (4, "med_veg"), (5, "high_veg"), (6, "building"), (7, "low_noise"),
    (8, "reserved"), (9, "water"), (10, "rail"), (11, "road"), (12, "reserved"), (13, "wire_guard"), (14, "wire_conductor"),
    (15, "transmission_tower"), (16, "wire_connector"), (17, "bridge_deck"), (18, "high_noise"), (19, "overhead_structure"),
    (20, "ignored"), (21, "snow"), (22, "exclusion")]
  ++ (List.range' 23 (64 - 23)).map (fun (i : Nat) => ((i : Int), "reserved"))
  ++ (List.range' 64 (256 - 64)).map (fun (i : Nat) => ((i : Int), "user_defined"))

end Asprs

/-! ## `/repo/apps/info` -/

namespace Key

/-- The key `major_version`. -/
def majorVersion : Str := ['m', 'a', 'j', 'o', 'r', '_', 'v', 'e', 'r', 's', 'i', 'o', 'n']
/-- The key `minor_version`. -/
def minorVersion : Str := ['m', 'i', 'n', 'o', 'r', '_', 'v', 'e', 'r', 's', 'i', 'o', 'n']
/-- The key `wkt`. -/
def wkt : Str := ['w', 'k', 't']
/-- The key `total_points`. -/
def totalPoints : Str := ['t', 'o', 't', 'a', 'l', '_', 'p', 'o', 'i', 'n', 't', 's']
/-- The key `compressed`. -/
def compressed : Str := ['c', 'o', 'm', 'p', 'r', 'e', 's', 's', 'e', 'd']
/-- The key `header`. -/
def header : Str := ['h', 'e', 'a', 'd', 'e', 'r']
/-- The key `summary`. -/
def summary : Str := ['s', 'u', 'm', 'm', 'a', 'r', 'y']
/-- The key `classifications`. -/
def classifications : Str := ['c', 'l', 'a', 's', 's', 'i', 'f', 'i', 'c', 'a', 't', 'i', 'o', 'n', 's']
/-- The key `metrics`. -/
def metrics : Str := ['m', 'e', 't', 'r', 'i', 'c', 's']
/-- The key `extent_point_density`. -/
def extentPointDensity : Str := ['e', 'x', 't', 'e', 'n', 't', '_', 'p', 'o', 'i', 'n', 't', '_', 'd', 'e', 'n', 's', 'i', 't', 'y']
/-- The key `grid_point_density`. -/
def gridPointDensity : Str := ['g', 'r', 'i', 'd', '_', 'p', 'o', 'i', 'n', 't', '_', 'd', 'e', 'n', 's', 'i', 't', 'y']
/-- The key `voxel_point_density`. -/
def voxelPointDensity : Str := ['v', 'o', 'x', 'e', 'l', '_', 'p', 'o', 'i', 'n', 't', '_', 'd', 'e', 'n', 's', 'i', 't', 'y']

end Key

namespace Info

/-- `++m[c]` of a `std::unordered_map<int, size_t>`, modelled as an association list. -/
def increment (m : List (Int × Nat)) (c : Int) : List (Int × Nat) :=
  match m with
  | [] => [(c, 1)]
  | (c', n) :: r => if c' = c then (c', n + 1) :: r else (c', n) :: increment r c

/-- The conversion of a `uint32_t` to `int`. -/
def toInt (c : UInt32) : Int := Int.bmod c.toNat (2 ^ 32)

/-- The key of a class (`/repo/apps/info/info.h` lines 31-33). -/
def classKey (c : Int) : Str := padLeft 3 (showInt c)

/-- `get_class_count_map` (`/repo/apps/info/info.h` lines 15-37). -/
def classCountMap (cs : List UInt32) : List (Str × Nat) :=
  let m := cs.foldl (fun m c => increment m (toInt c)) []
  mapOf (m.map (fun e => (classKey e.1, e.2)))

/-- `get_metric_values` (`/repo/apps/info/info.h` lines 39-62): extent, grid and voxel point density. -/
def metricValues (ps : List PointRecord) : Res (List (Str × F64)) := do
  let e := Extent.ofPoints ps
  let area := Merge.area e
  let vi ← Voxel.getIndexesIn ps e F64.one
  let vis := Voxel.getSet vi
  let gis := Voxel.getSet (vi.map (fun i => { i with k := 0 }))
  .ok (mapOf [
    (Key.extentPointDensity, F64.div (F64.ofNat ps.length) area),
    (Key.gridPointDensity, F64.div (F64.ofNat ps.length) (F64.ofNat gis.length)),
    (Key.voxelPointDensity, F64.div (F64.ofNat ps.length) (F64.ofNat vis.length))])

/-- `get_metric_units` (`/repo/apps/info/info.h` lines 64-71). -/
def metricUnits : List (Str × Str) :=
  [(Key.extentPointDensity, "pts/unit^2".toList),
   (Key.gridPointDensity, "pts/unit^2".toList),
   (Key.voxelPointDensity, "pts/unit^3".toList)]

/-- What the summary functions use of the type of a field: `operator<`, `std::sort`, the value and the difference of two values as JSON
values, and as text at precision 3 with `std::fixed`. -/
structure Kind (α : Type) where
  lt : α → α → Bool
  sort : List α → Res (List α)
  json : α → Json
  jsonDiff : α → α → Json
  text : α → Str
  textDiff : α → α → Str

/-- `double`.  What `std::sort` returns is a parameter, because the order of equal values (zeros with different signs) is unspecified; with a
NaN `operator<` is no strict weak order, so sorting more than one value is undefined. -/
def kindF64 (sort : List F64 → List F64) : Kind F64 where
  lt := F64.lt
  sort xs := if 2 ≤ xs.length ∧ xs.any F64.isNaN = true then .ub "std::sort without strict weak order" else .ok (sort xs)
  json := .dbl
  jsonDiff a b := .dbl (F64.sub a b)
  text := showFixed 3
  textDiff a b := showFixed 3 (F64.sub a b)

/-- `uint32_t`: differences are `uint32_t`. -/
def kindU32 : Kind UInt32 where
  lt a b := decide (a < b)
  sort xs := .ok (xs.mergeSort (fun a b => decide (a ≤ b)))
  json := .u32
  jsonDiff a b := .u32 (a - b)
  text a := showNat a.toNat
  textDiff a b := showNat (a - b).toNat

/-- `uint16_t`: differences are computed as `int`. -/
def kindU16 : Kind UInt16 where
  lt a b := decide (a < b)
  sort xs := .ok (xs.mergeSort (fun a b => decide (a ≤ b)))
  json := .u16
  jsonDiff a b := .int ((a.toNat : Int) - b.toNat)
  text a := showNat a.toNat
  textDiff a b := showInt ((a.toNat : Int) - b.toNat)

/-- `uint64_t`: differences are `uint64_t`. -/
def kindU64 : Kind UInt64 where
  lt a b := decide (a < b)
  sort xs := .ok (xs.mergeSort (fun a b => decide (a ≤ b)))
  json := .u64
  jsonDiff a b := .u64 (a - b)
  text a := showNat a.toNat
  textDiff a b := showNat (a - b).toNat

variable {α : Type}

/-- `*std::min_element` of a non-empty range whose first element is `m`: the first of the smallest elements. -/
def minElement (lt : α → α → Bool) : α → List α → α
  | m, [] => m
  | m, x :: xs => minElement lt (if lt x m then x else m) xs

/-- `*std::max_element` of a non-empty range whose first element is `m`: the first of the largest elements. -/
def maxElement (lt : α → α → Bool) : α → List α → α
  | m, [] => m
  | m, x :: xs => maxElement lt (if lt m x then x else m) xs

/-- The values used of the sorted vector: `front`, `y[n / 4]`, `y[n / 2]`, `y[3 * n / 4]`, `back`
(`/repo/apps/info/info.h` lines 94-102 and 143-159). -/
structure Quartiles (α : Type) where
  q0 : α
  q1 : α
  q2 : α
  q3 : α
  q4 : α

/-- The quartiles of a non-empty vector. -/
def quartiles (k : Kind α) (xs : List α) : Res (Quartiles α) := do
  let n := xs.length
  let y ← k.sort xs
  let q0 ← Voxel.at' y 0
  let q1 ← Voxel.at' y (n / 4)
  let q2 ← Voxel.at' y (n / 2)
  let q3 ← Voxel.at' y (3 * n % 2 ^ 64 / 4)
  let q4 ← Voxel.at' y (y.length - 1)
  .ok ⟨q0, q1, q2, q3, q4⟩

/-- `get_summary_object` (`/repo/apps/info/info.h` lines 73-113). -/
def summaryObject (k : Kind α) (xs : List α) (quart : Bool) : Res Json :=
  match xs with
  | [] => .ok (.obj (mapOf [(['s', 'i', 'z', 'e'], .int 0), (['m', 'i', 'n'], .int 0), (['m', 'a', 'x'], .int 0)]))
  | x :: r =>
    if quart then do
      let q ← quartiles k (x :: r)
      .ok (.obj (mapOf [(['r', 'a', 'n', 'g', 'e'], k.jsonDiff q.q4 q.q0), (['q', '0'], k.json q.q0), (['q', '1'], k.json q.q1),
        (['q', '2'], k.json q.q2), (['q', '3'], k.json q.q3), (['q', '4'], k.json q.q4)]))
    else
      let mn := minElement k.lt x r
      let mx := maxElement k.lt x r
      .ok (.obj (mapOf [(['r', 'a', 'n', 'g', 'e'], k.jsonDiff mx mn), (['m', 'i', 'n'], k.json mn), (['m', 'a', 'x'], k.json mx)]))

/-- `get_summary_string` (`/repo/apps/info/info.h` lines 115-203). -/
def summaryString (k : Kind α) (label : Str) (xs : List α) (compact quart : Bool) : Res Str :=
  match xs with
  | [] => .ok (if compact then [] else label ++ "0\nsize\t0\nmin\t0\nmax\t0\n".toList)
  | x :: r =>
    let n := (x :: r).length
    if quart then do
      let q ← quartiles k (x :: r)
      .ok (if compact then
          label ++ "range=".toList ++ k.textDiff q.q4 q.q0 ++ ", ".toList ++ k.text q.q0 ++ " + ".toList ++ k.textDiff q.q1 q.q0
            ++ " + ".toList ++ k.textDiff q.q2 q.q1 ++ " + ".toList ++ k.textDiff q.q3 q.q2 ++ " + ".toList ++ k.textDiff q.q4 q.q3
            ++ " = ".toList ++ k.text q.q4 ++ ['\n']
        else
          label ++ showNat n ++ "\nrange\t".toList ++ k.textDiff q.q4 q.q0 ++ "\nq0\t".toList ++ k.text q.q0 ++ "\nq1\t".toList ++ k.text q.q1
            ++ "\nq2\t".toList ++ k.text q.q2 ++ "\nq3\t".toList ++ k.text q.q3 ++ "\nq4\t".toList ++ k.text q.q4 ++ ['\n'])
    else
      let mn := minElement k.lt x r
      let mx := maxElement k.lt x r
      .ok (if compact then
          label ++ "range=".toList ++ k.textDiff mx mn ++ ", min=".toList ++ k.text mn ++ ", max=".toList ++ k.text mx ++ ['\n']
        else
          label ++ showNat n ++ "\nrange\t".toList ++ k.textDiff mx mn ++ "\nmin\t".toList ++ k.text mn ++ "\nmax\t".toList ++ k.text mx
            ++ ['\n'])

/-- The switches of the application (`/repo/apps/info/info_cmd.h` lines 14-27). -/
structure Args where
  help : Bool := false
  verbose : Bool := false
  version : Bool := false
  json : Bool := false
  headerInfo : Bool := true
  summaryInfo : Bool := true
  classInfo : Bool := true
  metricInfo : Bool := true
  compact : Bool := true
  quartiles : Bool := false
  deriving DecidableEq, Repr

/-- Bytes as characters. -/
def chars (bs : Bytes) : Str := bs.map (fun c => Char.ofNat c.toNat)

/-- The JSON object for the header (`/repo/apps/info/info.h` lines 226-235). -/
def headerObject (h : Header) : Json :=
  .obj (mapOf [(Key.majorVersion, .u8 h.major), (Key.minorVersion, .u8 h.minor), (Key.wkt, .str (chars h.wkt)),
    (Key.totalPoints, .u64 h.totalPoints), (Key.compressed, .u8 h.compressed)])

/-- The JSON object for the fields (`/repo/apps/info/info.h` lines 237-256). -/
def summariesObject (b : Build) (sort : List F64 → List F64) (ps : List PointRecord) (quart : Bool) : Res Json := do
  let x ← summaryObject (kindF64 sort) (Diff.column (·.x) ps) quart
  let y ← summaryObject (kindF64 sort) (Diff.column (·.y) ps) quart
  let z ← summaryObject (kindF64 sort) (Diff.column (·.z) ps) quart
  let c ← summaryObject kindU32 (Diff.column (·.c) ps) quart
  let p ← summaryObject kindU32 (Diff.column (·.p) ps) quart
  let i ← summaryObject kindU16 (Diff.column (·.i) ps) quart
  let r ← summaryObject kindU16 (Diff.column (·.r) ps) quart
  let g ← summaryObject kindU16 (Diff.column (·.g) ps) quart
  let bl ← summaryObject kindU16 (Diff.column (·.b) ps) quart
  let a ← (List.range (Diff.extraFieldsSize ps)).mapM (fun k => do
    let e ← Diff.getExtra b k ps
    summaryObject kindU64 e quart)
  .ok (.obj (mapOf [(['x'], x), (['y'], y), (['z'], z), (['c'], c), (['p'], p), (['i'], i), (['r'], r), (['g'], g), (['b'], bl),
    (['e', 'x', 't', 'r', 'a'], .arr a)]))

/-- The JSON object for the classes (`/repo/apps/info/info.h` lines 258-268). -/
def classesObject (ps : List PointRecord) : Json :=
  .obj (mapOf ((classCountMap (Diff.column (·.c) ps)).map (fun e => (e.1, .u64 (UInt64.ofNat e.2)))))

/-- The JSON object for the densities (`/repo/apps/info/info.h` lines 270-280). -/
def metricsObject (ps : List PointRecord) : Res Json := do
  let m ← metricValues ps
  .ok (.obj (mapOf (m.map (fun e => (e.1, .dbl e.2)))))

/-- A part of the output that is there only if it is switched on. -/
def section' (on : Bool) (name : Str) (j : Res Json) : Res (List (Str × Json)) :=
  if on then do
    let v ← j
    .ok [(name, v)]
  else .ok []

/-- The JSON object that is printed (`/repo/apps/info/info.h` lines 222-280). -/
def document (b : Build) (sort : List F64 → List F64) (a : Args) (f : SpocFile) : Res Json := do
  let h ← section' a.headerInfo Key.header (f.getHeader >>= fun h => .ok (headerObject h))
  let s ← section' a.summaryInfo Key.summary (summariesObject b sort f.prs a.quartiles)
  let c ← section' a.classInfo Key.classifications (.ok (classesObject f.prs))
  let m ← section' a.metricInfo Key.metrics (metricsObject f.prs)
  .ok (.obj (mapOf (h ++ s ++ c ++ m)))

/-- The lines for the header (`/repo/apps/info/info.h` lines 289-296). -/
def headerText (h : Header) : Str :=
  "major_version\t".toList ++ showNat h.major.toNat ++ "\nminor_version\t".toList ++ showNat h.minor.toNat
    ++ "\nogc_wkt\t'".toList ++ chars h.wkt ++ "'\ntotal_points\t".toList ++ showNat h.totalPoints.toNat
    ++ "\ncompressed\t".toList ++ (if h.compressed ≠ 0 then "true".toList else "false".toList) ++ ['\n']

/-- The lines for the fields (`/repo/apps/info/info.h` lines 298-317). -/
def summariesText (b : Build) (sort : List F64 → List F64) (ps : List PointRecord) (compact quart : Bool) : Res Str := do
  let x ← summaryString (kindF64 sort) "x\t".toList (Diff.column (·.x) ps) compact quart
  let y ← summaryString (kindF64 sort) "y\t".toList (Diff.column (·.y) ps) compact quart
  let z ← summaryString (kindF64 sort) "z\t".toList (Diff.column (·.z) ps) compact quart
  let c ← summaryString kindU32 "c\t".toList (Diff.column (·.c) ps) compact quart
  let p ← summaryString kindU32 "p\t".toList (Diff.column (·.p) ps) compact quart
  let i ← summaryString kindU16 "i\t".toList (Diff.column (·.i) ps) compact quart
  let r ← summaryString kindU16 "r\t".toList (Diff.column (·.r) ps) compact quart
  let g ← summaryString kindU16 "g\t".toList (Diff.column (·.g) ps) compact quart
  let bl ← summaryString kindU16 "b\t".toList (Diff.column (·.b) ps) compact quart
  let e ← (List.range (Diff.extraFieldsSize ps)).mapM (fun k => do
    let e ← Diff.getExtra b k ps
    summaryString kindU64 ("extra_".toList ++ showNat k ++ ['\t']) e compact quart)
  .ok (x ++ y ++ z ++ c ++ p ++ i ++ r ++ g ++ bl ++ e.flatten)

/-- The name printed for a key of the class count map (`/repo/apps/info/info.h` lines 326-329). -/
def className (key : Str) : Res Str :=
  match stoi key with
  | none => .throw "stoi"
  | some (j, _) =>
    match Asprs.classMap.lookup j with
    | none => .ok "undefined".toList
    | some l => .ok l.toList

/-- The lines for the classes (`/repo/apps/info/info.h` lines 319-337). -/
def classesText (ps : List PointRecord) : Res Str := do
  let ls ← (classCountMap (Diff.column (·.c) ps)).mapM (fun e => do
    let l ← className e.1
    .ok ("cls_".toList ++ e.1 ++ ['\t'] ++ showNat e.2 ++ ['\t'] ++ l ++ ['\n']))
  .ok ls.flatten

/-- The lines for the densities (`/repo/apps/info/info.h` lines 339-350); `at` throws if there is no such key. -/
def metricsText (ps : List PointRecord) : Res Str := do
  let m ← metricValues ps
  let ls ← m.mapM (fun e =>
    match metricUnits.lookup e.1 with
    | none => .throw "map::at"
    | some u => .ok (e.1 ++ ['\t'] ++ showFixed 15 e.2 ++ ['\t'] ++ u ++ ['\n']))
  .ok ls.flatten

/-- A part of the text that is there only if it is switched on. -/
def sectionText (on : Bool) (t : Res Str) : Res Str := if on then t else .ok []

/-- `process` (`/repo/apps/info/info.h` lines 205-353).  Text that has been printed before a failure is not part of the outcome. -/
def process (b : Build) (sort : List F64 → List F64) (a : Args) (f : SpocFile) : Res Str :=
  if a.json then do
    let j ← document b sort a f
    .ok (if a.compact then Json.compact j else Json.pretty 0 j)
  else do
    let h ← sectionText a.headerInfo (f.getHeader >>= fun h => .ok (headerText h))
    let s ← sectionText a.summaryInfo (summariesText b sort f.prs a.compact a.quartiles)
    let c ← sectionText a.classInfo (classesText f.prs)
    let m ← sectionText a.metricInfo (metricsText f.prs)
    .ok (h ++ s ++ c ++ m)

/-- The options (`/repo/apps/info/info_cmd.h` lines 29-80); file names are an argument of `main`. -/
def getArgs : List String → Args → Res Args
  | [], a => .ok a
  | name :: os, a =>
    if name = "help" then .ok { a with help := true }
    else if name = "verbose" then getArgs os { a with verbose := true }
    else if name = "version" then getArgs os { a with version := true }
    else if name = "json" then getArgs os { a with json := !a.json }
    else if name = "header-info" then getArgs os { a with headerInfo := !a.headerInfo }
    else if name = "summary-info" then getArgs os { a with summaryInfo := !a.summaryInfo }
    else if name = "classification-info" then getArgs os { a with classInfo := !a.classInfo }
    else if name = "metric-info" then getArgs os { a with metricInfo := !a.metricInfo }
    else if name = "compact" then getArgs os { a with compact := !a.compact }
    else if name = "quartiles" then getArgs os { a with quartiles := !a.quartiles }
    else .throw "Invalid option"

/-- The loop over the files (`/repo/apps/info/info.cpp` lines 65-83): what has been printed, and the outcome. -/
def processAll (b : Build) (zl : Zlib) (sort : List F64 → List F64) (a : Args) : List (Option IStream) → Str × Res Unit
  | [] => ([], .ok ())
  | none :: _ => ([], .throw "Could not open file for reading")
  | some s :: r =>
    match Apps.fileOf (Io.readFile b zl s) >>= process b sort a with
    | .ok t => (t ++ (processAll b zl sort a r).1, (processAll b zl sort a r).2)
    | .throw e => ([], .throw e)
    | .ub e => ([], .ub e)
    | .abort => ([], .abort)
    | .hang => ([], .hang)

/-- `main` (`/repo/apps/info/info.cpp` lines 8-92): the text on the standard output and the outcome.  The files are those named on the
command line, `none` if a file cannot be opened; without names the standard input is read. -/
def main (b : Build) (zl : Zlib) (sort : List F64 → List F64) (options : List String) (files : List (Option IStream)) (stdin : IStream) :
    Str × Res Unit :=
  match getArgs options {} with
  | .ok a =>
    if a.version then ("Version 0.1\n".toList, .ok ())
    else if a.help then ([], .ok ())
    else if files.isEmpty then processAll b zl sort a [some stdin]
    else processAll b zl sort a files
  | .throw e => ([], .throw e)
  | .ub e => ([], .ub e)
  | .abort => ([], .abort)
  | .hang => ([], .hang)

end Info

end Spoc
