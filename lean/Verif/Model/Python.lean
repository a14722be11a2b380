import Verif.Model.Main

/-!
# The Python extension

`/repo/spocpy/spocpy/spocpy.cpp`.  A Python program is seen as the sequence of the calls it makes; which call comes next may depend on
everything before, so a statement about all sequences is one about all programs.  The objects of the classes `PointRecord` and `SpocFile`
are numbered in the order of their creation, and a call names the objects it uses by their numbers.

Trusted here is what pybind11 does at the boundary: values returned by value or by reference to a constant are copied into new objects,
`std::vector` becomes a new Python list and back, `std::string` takes a `str` as UTF-8 or `bytes` as they are and becomes a `str` by
decoding UTF-8, integers that do not fit raise `TypeError`, and C++ exceptions become Python exceptions.  Attributes of `Header` objects
and the module functions that return the version are values without further behaviour; a header is returned as a value.  A `str` with lone
surrogates, which is no Unicode text, is left out.
-/

namespace Spoc.Python

open Text

/-- What Python may pass for a `std::string` (`pybind11`, string caster). -/
inductive PyText where
  | str (s : Str)
  | bytes (b : Bytes)
  deriving DecidableEq, Repr

/-- From Python to `std::string`. -/
def PyText.toStd : PyText → Bytes
  | .str s => s.flatMap String.utf8EncodeChar
  | .bytes b => b

/-- From `std::string` to Python. -/
def toStr (b : Bytes) : Res Str :=
  match (ByteArray.mk b.toArray).utf8Decode? with
  | some s => .ok s.toList
  | none => .throw "UnicodeDecodeError"

/-- From a Python `int` to an unsigned integer of this many bits. -/
def toUnsigned (bits : Nat) (n : Int) : Res Nat :=
  if 0 ≤ n ∧ n < 2 ^ bits then .ok n.toNat else .throw "TypeError"

/-- The assignment of an attribute of a `PointRecord` (`/repo/spocpy/spocpy/spocpy.cpp` lines 81-90). -/
inductive Attr where
  | x (v : F64)
  | y (v : F64)
  | z (v : F64)
  | c (n : Int)
  | p (n : Int)
  | i (n : Int)
  | r (n : Int)
  | g (n : Int)
  | b (n : Int)
  | extra (l : List Int)
  deriving DecidableEq, Repr

/-- `def_readwrite` (`/repo/spocpy/spocpy/spocpy.cpp` lines 81-90). -/
def Attr.assign (q : PointRecord) : Attr → Res PointRecord
  | .x v => .ok { q with x := v }
  | .y v => .ok { q with y := v }
  | .z v => .ok { q with z := v }
  | .c n => do
    let m ← toUnsigned 32 n
    .ok { q with c := UInt32.ofNat m }
  | .p n => do
    let m ← toUnsigned 32 n
    .ok { q with p := UInt32.ofNat m }
  | .i n => do
    let m ← toUnsigned 16 n
    .ok { q with i := UInt16.ofNat m }
  | .r n => do
    let m ← toUnsigned 16 n
    .ok { q with r := UInt16.ofNat m }
  | .g n => do
    let m ← toUnsigned 16 n
    .ok { q with g := UInt16.ofNat m }
  | .b n => do
    let m ← toUnsigned 16 n
    .ok { q with b := UInt16.ofNat m }
  | .extra l => do
    let ms ← l.mapM (toUnsigned 64)
    .ok { q with extra := ms.map UInt64.ofNat }

/-- One column of numbers (`getX` … `getB`). -/
inductive Column where
  | x | y | z | c | p | i | r | g | b
  deriving DecidableEq, Repr

/-- What a call gives back. -/
inductive Value where
  | nothing
  | record (q : PointRecord)
  | newRecords (handles : List Nat)
  | newFile (handle : Nat)
  | header (h : Header)
  | text (s : Str)
  | flag (b : Bool)
  | int (n : Nat)
  | floats (l : List F64)
  | ints (l : List Nat)

/-- The calls.  `r` and `f` are numbers of objects. -/
inductive Call where
  /-- `PointRecord ()` -/
  | newRecord
  /-- the attributes of a record, all at once -/
  | look (r : Nat)
  /-- `r.x = …` and so on -/
  | assign (r : Nat) (a : Attr)
  /-- `r.extra.append (n)` -/
  | appendExtra (r : Nat) (n : Int)
  /-- `SpocFile (wkt, compressed)` -/
  | newFile (wkt : PyText) (compressed : Bool)
  | getMajorVersion (f : Nat)
  | getMinorVersion (f : Nat)
  | getWKT (f : Nat)
  | setWKT (f : Nat) (wkt : PyText)
  | getCompressed (f : Nat)
  | setCompressed (f : Nat) (flag : Bool)
  | getPointRecord (f : Nat) (i : Int)
  | setPointRecord (f : Nat) (i : Int) (r : Nat)
  | getPointRecords (f : Nat)
  | setPointRecords (f : Nat) (rs : List Nat)
  | getColumn (f : Nat) (col : Column)
  | getExtra (f : Nat) (k : Int)
  | readheader (name : Str)
  | readspocfile (name : Str)
  | writespocfile (name : Str) (f : Nat)
  deriving DecidableEq, Repr

/-- How the extension was built, and its zlib. -/
structure Params where
  build : Build
  zlib : Zlib

/-- The files on the disk and the objects. -/
structure State where
  fs : Tile.FS
  canCreate : Str → Bool
  recs : List PointRecord
  files : List SpocFile

/-- The object with this number; a program can only name objects that exist. -/
def object {α : Type} (l : List α) (h : Nat) : Res α :=
  match l[h]? with
  | some a => .ok a
  | none => .throw "NameError"

/-- `py_readheader` (`/repo/spocpy/spocpy/spocpy.cpp` lines 23-32). -/
def readheader (fs : Tile.FS) (name : Str) : Res Header :=
  match Main.openRead fs name with
  | none => .throw "Could not open file for reading"
  | some i => do
    let (h, _) ← Header.read i
    .ok h

/-- `py_readspocfile` (`/repo/spocpy/spocpy/spocpy.cpp` lines 34-43); the result is copied into a new object. -/
def readspocfile (P : Params) (fs : Tile.FS) (name : Str) : Res SpocFile :=
  match Main.openRead fs name with
  | none => .throw "Could not open file for reading"
  | some i => do
    let (f, _) ← Io.readFile P.build P.zlib i
    f.copy

/-- `py_writespocfile` (`/repo/spocpy/spocpy/spocpy.cpp` lines 45-54). -/
def writespocfile (P : Params) (canCreate : Str → Bool) (fs : Tile.FS) (name : Str) (f : SpocFile) : Tile.FS × Res Unit :=
  match Tile.openWrite canCreate fs name with
  | none => (fs, .throw "Could not open file for writing")
  | some x => (fs.set name { x with content := (Io.writeFile P.build P.zlib f).bytes }, (Io.writeFile P.build P.zlib f).res)

/-- `getX` … `getB` (`/repo/spocpy/spocpy/spocpy.cpp` lines 103-111, `/repo/spoc/point_record.h` lines 168-238). -/
def column (ps : List PointRecord) : Column → Value
  | .x => .floats (ps.map PointRecord.x)
  | .y => .floats (ps.map PointRecord.y)
  | .z => .floats (ps.map PointRecord.z)
  | .c => .ints (ps.map (·.c.toNat))
  | .p => .ints (ps.map (·.p.toNat))
  | .i => .ints (ps.map (·.i.toNat))
  | .r => .ints (ps.map (·.r.toNat))
  | .g => .ints (ps.map (·.g.toNat))
  | .b => .ints (ps.map (·.b.toNat))

/-- An action that gives a new state and a value; an exception leaves the state as it was. -/
def transact (s : State) (r : Res (State × Value)) : State × Res Value :=
  match r with
  | .ok (s', v) => (s', .ok v)
  | .throw e => (s, .throw e)
  | .ub w => (s, .ub w)
  | .abort => (s, .abort)
  | .hang => (s, .hang)

/-- The calls other than `writespocfile` (`/repo/spocpy/spocpy/spocpy.cpp` lines 78-114). -/
def action (P : Params) (s : State) : Call → Res (State × Value)
  | .newRecord => .ok ({ s with recs := s.recs ++ [{}] }, .newRecords [s.recs.length])
  | .look r => do
    let q ← object s.recs r
    .ok (s, .record q)
  | .assign r a => do
    let q ← object s.recs r
    let q ← a.assign q
    .ok ({ s with recs := s.recs.set r q }, .nothing)
  | .appendExtra r _ => do
    let _ ← object s.recs r
    .ok (s, .nothing)
  | .newFile t c => do
    let f ← SpocFile.new' t.toStd c []
    .ok ({ s with files := s.files ++ [f] }, .newFile s.files.length)
  | .getMajorVersion h => do
    let f ← object s.files h
    .ok (s, .int f.major.toNat)
  | .getMinorVersion h => do
    let f ← object s.files h
    .ok (s, .int f.minor.toNat)
  | .getWKT h => do
    let f ← object s.files h
    let t ← toStr f.wkt
    .ok (s, .text t)
  | .setWKT h t => do
    let f ← object s.files h
    .ok ({ s with files := s.files.set h (f.setWkt t.toStd) }, .nothing)
  | .getCompressed h => do
    let f ← object s.files h
    .ok (s, .flag f.compressed)
  | .setCompressed h c => do
    let f ← object s.files h
    .ok ({ s with files := s.files.set h (f.setCompressed c) }, .nothing)
  | .getPointRecord h i => do
    let f ← object s.files h
    let i ← toUnsigned 64 i
    let q ← f.getPointRecord P.build i
    .ok ({ s with recs := s.recs ++ [q] }, .newRecords [s.recs.length])
  | .setPointRecord h i r => do
    let f ← object s.files h
    let i ← toUnsigned 64 i
    let q ← object s.recs r
    let f ← f.setPointRecord P.build i q
    .ok ({ s with files := s.files.set h f }, .nothing)
  | .getPointRecords h => do
    let f ← object s.files h
    .ok ({ s with recs := s.recs ++ f.prs }, .newRecords (List.range' s.recs.length f.prs.length))
  | .setPointRecords h rs => do
    let f ← object s.files h
    let qs ← rs.mapM (object s.recs)
    let f ← f.setPointRecords qs
    .ok ({ s with files := s.files.set h f }, .nothing)
  | .getColumn h col => do
    let f ← object s.files h
    .ok (s, column f.prs col)
  | .getExtra h k => do
    let f ← object s.files h
    let k ← toUnsigned 64 k
    let es ← Diff.getExtra P.build k f.prs
    .ok (s, .ints (es.map (·.toNat)))
  | .readheader n => do
    let h ← readheader s.fs n
    .ok (s, .header h)
  | .readspocfile n => do
    let f ← readspocfile P s.fs n
    .ok ({ s with files := s.files ++ [f] }, .newFile s.files.length)
  | .writespocfile _ _ => .throw "see step"

/-- One call: the state afterwards and the outcome.  Only `writespocfile` can leave something behind when it fails. -/
def step (P : Params) (s : State) : Call → State × Res Value
  | .writespocfile n h =>
    match object s.files h with
    | .ok f =>
      let (fs, r) := writespocfile P s.canCreate s.fs n f
      ({ s with fs := fs }, r.bind fun _ => .ok .nothing)
    | .throw e => (s, .throw e)
    | .ub w => (s, .ub w)
    | .abort => (s, .abort)
    | .hang => (s, .hang)
  | c => transact s (action P s c)

/-- The calls of a program, which may catch exceptions and go on; the outcomes of the calls that were made.  Anything else than a value or
an exception ends the program. -/
def run (P : Params) : State → List Call → State × List (Res Value)
  | s, [] => (s, [])
  | s, c :: cs =>
    match step P s c with
    | (s', .ok v) => ((run P s' cs).1, .ok v :: (run P s' cs).2)
    | (s', .throw e) => ((run P s' cs).1, .throw e :: (run P s' cs).2)
    | (s', r) => (s', [r])

/-- A program that starts: no objects. -/
def start (fs : Tile.FS) (canCreate : Str → Bool) : State := { fs, canCreate, recs := [], files := [] }

end Spoc.Python
