import Verif.Model.Header
import Verif.Model.PointRecord

/-!
# Model of `/repo/spoc/file.h`
-/

namespace Spoc

/-- `all_same_size_extra` (`/repo/spoc/file.h` lines 25-41). -/
def allSameSizeExtra (prs : List PointRecord) : Bool :=
  match prs with
  | [] => true
  | q :: _ =>
    if prs.any (fun p => decide (p.extra.length ≠ q.extra.length)) then false else true

/-- Data members of `class spoc_file` (`/repo/spoc/file.h` lines 47-51). -/
structure SpocFile where
  major : UInt8
  minor : UInt8
  wkt : Bytes
  compressed : Bool
  prs : List PointRecord
  deriving DecidableEq, Repr

namespace SpocFile

/-- Default constructor (`/repo/spoc/file.h` lines 55-60). -/
def empty : SpocFile :=
  { major := majorVersion, minor := minorVersion, wkt := [], compressed := false, prs := [] }

/-- Constructor (`/repo/spoc/file.h` lines 67-81). -/
def new (major minor : UInt8) (wkt : Bytes) (compressed : Bool) (prs : List PointRecord) :
    Res SpocFile :=
  if !allSameSizeExtra prs then
    .throw "The point record extra fields have inconsistent sizes"
  else .ok { major, minor, wkt, compressed, prs }

/-- Constructor with the current version (`/repo/spoc/file.h` lines 86-91). -/
def new' (wkt : Bytes) (compressed : Bool) (prs : List PointRecord) : Res SpocFile :=
  new majorVersion minorVersion wkt compressed prs

/-- Copy constructor (`/repo/spoc/file.h` lines 94-97); it repeats the consistency check. -/
def copy (f : SpocFile) : Res SpocFile := new f.major f.minor f.wkt f.compressed f.prs

/-- `clone_empty` (`/repo/spoc/file.h` lines 100-107). -/
def cloneEmpty (f : SpocFile) : SpocFile := { f with prs := [] }

/-- `is_valid` (`/repo/spoc/file.h` lines 110-115). -/
def isValid (f : SpocFile) : Bool := allSameSizeExtra f.prs

/-- `get_point_record (i)` (`/repo/spoc/file.h` lines 133-137). -/
def getPointRecord (b : Build) (f : SpocFile) (i : Nat) : Res PointRecord := do
  cassert b (decide (i < f.prs.length))
  match f.prs[i]? with
  | some q => .ok q
  | none => .ub "vector index out of range"

/-- `get_extra_fields` (`/repo/spoc/file.h` lines 140-143). -/
def extraFields (f : SpocFile) : Nat :=
  match f.prs with
  | [] => 0
  | q :: _ => q.extra.length

/-- `get_header` (`/repo/spoc/file.h` lines 146-153).  The number of extra fields
(`size_t`) is passed as a `uint8_t`. -/
def getHeader (f : SpocFile) : Res Header :=
  Header.new f.major f.minor f.wkt (UInt8.ofNat f.extraFields) (UInt64.ofNat f.prs.length) f.compressed

/-- `set_wkt` (`/repo/spoc/file.h` line 156). -/
def setWkt (f : SpocFile) (s : Bytes) : SpocFile := { f with wkt := s }

/-- `set_compressed` (`/repo/spoc/file.h` line 159). -/
def setCompressed (f : SpocFile) (flag : Bool) : SpocFile := { f with compressed := flag }

/-- `push_back` (`/repo/spoc/file.h` lines 162-170). -/
def pushBack (f : SpocFile) (q : PointRecord) : Res SpocFile :=
  match f.prs with
  | [] => .ok { f with prs := [q] }
  | q0 :: _ =>
    if q.extra.length ≠ q0.extra.length then .throw "The number of extra fields is incorrect"
    else .ok { f with prs := f.prs ++ [q] }

/-- `std::vector<uint64_t>::resize (n)`: cut, or pad with zeros. -/
def resizeExtra (n : Nat) (e : List UInt64) : List UInt64 :=
  e.take n ++ List.replicate (n - e.length) 0

/-- `resize_extra_fields` (`/repo/spoc/file.h` lines 177-181). -/
def resizeExtraFields (f : SpocFile) (n : Nat) : SpocFile :=
  { f with prs := f.prs.map (fun q => { q with extra := resizeExtra n q.extra }) }

/-- `set_point_record` (`/repo/spoc/file.h` lines 206-213). -/
def setPointRecord (b : Build) (f : SpocFile) (i : Nat) (q : PointRecord) : Res SpocFile := do
  require b (decide (i < f.prs.length))
  if q.extra.length ≠ f.extraFields then
    .throw "spoc_file::set_point_record(): the point record extra fields size is inconsistent with existing point records"
  else if i < f.prs.length then
    .ok { f with prs := f.prs.set i q }
  else .ub "vector index out of range"

/-- `set_point_records` (`/repo/spoc/file.h` lines 217-225). -/
def setPointRecords (f : SpocFile) (prs : List PointRecord) : Res SpocFile :=
  if !allSameSizeExtra prs then
    .throw "The point record extra fields have inconsistent sizes"
  else .ok { f with prs := prs }

/-- `move_point_records ()` followed by the caller moving the records into a vector of its own
(`/repo/spoc/file.h` lines 231-234): the records, and the file left behind (empty, as
libstdc++ leaves a moved-from vector). -/
def moveOut (f : SpocFile) : List PointRecord × SpocFile := (f.prs, { f with prs := [] })

/-- `move_point_records (prs)` (`/repo/spoc/file.h` lines 239-247). -/
def moveIn (f : SpocFile) (prs : List PointRecord) : Res SpocFile :=
  if !allSameSizeExtra prs then
    .throw "The point record extra fields have inconsistent sizes"
  else .ok { f with prs := prs }

end SpocFile

end Spoc
