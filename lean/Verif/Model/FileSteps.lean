import Verif.Model.FileOps

/-!
# The operations on `spoc_file` objects statement by statement

`Model/File.lean` describes each operation by its result.  Here every member function of `/repo/spoc/file.h` is the sequence of its
statements on a memory, so that an exception finds the memory as the statements before it have left it.  Exceptions of the allocator
(`std::bad_alloc`) are not modelled.
-/

namespace Spoc

namespace FileSteps

open FileOps

/-- The objects involved: two `spoc_file` objects, a temporary object on the right hand side of an assignment, the local variable `tmp` of
`operator=` (`/repo/spoc/file.h` line 198) and a vector of the caller. -/
structure Mem where
  a : SpocFile
  b : SpocFile
  rhs : SpocFile := SpocFile.empty
  tmp : SpocFile := SpocFile.empty
  v : List PointRecord := []
  deriving DecidableEq

namespace Mem

/-- Access to an object. -/
def get (m : Mem) : Reg → SpocFile
  | .a => m.a
  | .b => m.b

/-- Replacing an object. -/
def put (m : Mem) (r : Reg) (f : SpocFile) : Mem :=
  match r with
  | .a => { m with a := f }
  | .b => { m with b := f }

end Mem

/-- A statement: how it ends, and the memory that it leaves. -/
abbrev Stmt := Mem → Res Unit × Mem

/-- One statement after the other; whatever is not a normal end skips the rest. -/
def Stmt.andThen (s t : Stmt) : Stmt := fun m =>
  match s m with
  | (.ok (), m') => t m'
  | r => r

@[inherit_doc] infixr:60 " ;; " => Stmt.andThen

/-- `if (c) throw std::runtime_error (e);` -/
def throwIf (c : Mem → Bool) (e : String) : Stmt := fun m => (if c m then .throw e else .ok (), m)

/-- `REQUIRE (c);` -/
def requireThat (b : Build) (c : Mem → Bool) : Stmt := fun m => (require b (c m), m)

/-- A statement that only changes the memory. -/
def assign (f : Mem → Mem) : Stmt := fun m => (.ok (), f m)

/-- `swap` with the local variable `tmp`, member by member (`/repo/spoc/file.h` lines 184-191). -/
def swapTmp (r : Reg) : Stmt :=
  assign (fun m => { m.put r { m.get r with major := m.tmp.major } with tmp := { m.tmp with major := (m.get r).major } }) ;;
  assign (fun m => { m.put r { m.get r with minor := m.tmp.minor } with tmp := { m.tmp with minor := (m.get r).minor } }) ;;
  assign (fun m => { m.put r { m.get r with wkt := m.tmp.wkt } with tmp := { m.tmp with wkt := (m.get r).wkt } }) ;;
  assign (fun m => { m.put r { m.get r with compressed := m.tmp.compressed } with tmp := { m.tmp with compressed := (m.get r).compressed } }) ;;
  assign (fun m => { m.put r { m.get r with prs := m.tmp.prs } with tmp := { m.tmp with prs := (m.get r).prs } })

/-- `swap` of the two objects, member by member (`/repo/spoc/file.h` lines 184-191). -/
def swapObjects : Stmt :=
  assign (fun m => { m with a := { m.a with major := m.b.major }, b := { m.b with major := m.a.major } }) ;;
  assign (fun m => { m with a := { m.a with minor := m.b.minor }, b := { m.b with minor := m.a.minor } }) ;;
  assign (fun m => { m with a := { m.a with wkt := m.b.wkt }, b := { m.b with wkt := m.a.wkt } }) ;;
  assign (fun m => { m with a := { m.a with compressed := m.b.compressed }, b := { m.b with compressed := m.a.compressed } }) ;;
  assign (fun m => { m with a := { m.a with prs := m.b.prs }, b := { m.b with prs := m.a.prs } })

/-- `operator=` with another object on the right hand side (`/repo/spoc/file.h` lines 193-201): the copy constructor initializes the members
of `tmp` and then checks them (lines 73-80), then the members are swapped. -/
def assignFrom (r : Reg) (src : Mem → SpocFile) : Stmt :=
  assign (fun m => { m with tmp := src m }) ;;
  throwIf (fun m => !allSameSizeExtra m.tmp.prs) "The point record extra fields have inconsistent sizes" ;;
  swapTmp r

/-- One round of the loop of `resize_extra_fields` (`/repo/spoc/file.h` line 180). -/
def resizeOne (r : Reg) (n i : Nat) : Stmt :=
  assign (fun m => m.put r { m.get r with prs := (m.get r).prs.modify i (fun q => { q with extra := SpocFile.resizeExtra n q.extra }) })

/-- The loop of `resize_extra_fields` over the remaining records (`/repo/spoc/file.h` lines 179-180). -/
def resizeLoop (r : Reg) (n : Nat) : List Nat → Stmt
  | [] => assign id
  | i :: is => resizeOne r n i ;; resizeLoop r n is

/-- `prs[i] = p;` (`/repo/spoc/file.h` line 212). -/
def store (r : Reg) (i : Nat) (q : PointRecord) : Stmt := fun m =>
  if i < (m.get r).prs.length then (.ok (), m.put r { m.get r with prs := (m.get r).prs.set i q })
  else (.ub "vector index out of range", m)

/-- The statements of an operation. -/
def exec (bd : Build) : Op → Stmt
  -- lines 67-81: the members are initialized, then checked; the new object is assigned
  | .construct r ma mi w c p =>
    assign (fun m => { m with rhs := { major := ma, minor := mi, wkt := w, compressed := c, prs := p } }) ;;
    throwIf (fun m => !allSameSizeExtra m.rhs.prs) "The point record extra fields have inconsistent sizes" ;;
    assignFrom r (·.rhs)
  -- lines 55-60
  | .constructEmpty r => assign (fun m => { m with rhs := SpocFile.empty }) ;; assignFrom r (·.rhs)
  -- lines 100-107
  | .cloneEmpty r t =>
    assign (fun m => { m with rhs := { m.get t with prs := [] } }) ;;
    throwIf (fun m => !allSameSizeExtra m.rhs.prs) "The point record extra fields have inconsistent sizes" ;;
    assignFrom r (·.rhs)
  -- line 156
  | .setWkt r w => assign (fun m => m.put r { m.get r with wkt := w })
  -- line 159
  | .setCompressed r c => assign (fun m => m.put r { m.get r with compressed := c })
  -- lines 162-170
  | .pushBack r q =>
    throwIf (fun m => !(m.get r).prs.isEmpty && decide (q.extra.length ≠ (m.get r).extraFields)) "The number of extra fields is incorrect" ;;
    assign (fun m => m.put r { m.get r with prs := (m.get r).prs ++ [q] })
  -- lines 177-181
  | .resizeExtra r n => fun m => resizeLoop r n (List.range (m.get r).prs.length) m
  -- lines 184-191
  | .swap => swapObjects
  -- lines 193-201
  | .assign r t => if r = t then assign id else assignFrom r (·.get t)
  -- lines 206-213
  | .setRecord r i q =>
    requireThat bd (fun m => decide (i < (m.get r).prs.length)) ;;
    throwIf (fun m => decide (q.extra.length ≠ (m.get r).extraFields))
      "spoc_file::set_point_record(): the point record extra fields size is inconsistent with existing point records" ;;
    store r i q
  -- lines 217-225; the argument is the vector of the caller
  | .setRecords r p =>
    assign (fun m => { m with v := p }) ;;
    throwIf (fun m => !allSameSizeExtra m.v) "The point record extra fields have inconsistent sizes" ;;
    assign (fun m => m.put r { m.get r with prs := m.v })
  -- lines 231-234: `v = f.move_point_records ();` moves the records into the vector of the caller
  | .moveOut r =>
    assign (fun m => { m.put r { m.get r with prs := [] } with v := (m.get r).prs })
  -- lines 239-247: the vector of the caller is moved into the object
  | .moveIn r p =>
    assign (fun m => { m with v := p }) ;;
    throwIf (fun m => !allSameSizeExtra m.v) "The point record extra fields have inconsistent sizes" ;;
    assign (fun m => { m.put r { m.get r with prs := m.v } with v := [] })

/-- A history: the caller catches exceptions and goes on with the memory as it is. -/
def execAll (bd : Build) : List Op → Stmt
  | [] => assign id
  | op :: ops => fun m =>
    match exec bd op m with
    | (.ok (), m') => execAll bd ops m'
    | (.throw _, m') => execAll bd ops m'
    | r => r

end FileSteps

end Spoc
