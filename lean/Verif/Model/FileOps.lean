import Verif.Model.File

/-!
# Histories of operations on two `spoc_file` objects

The operations are those of `/repo/spoc/file.h`; an exception is caught by the caller, who goes on
with the objects as they are.  All checks come before the first modification, so that the
objects are unchanged after an exception.
-/

namespace Spoc

namespace FileOps

/-- One of two objects. -/
inductive Reg
  | a
  | b
  deriving DecidableEq, Repr

/-- The two objects. -/
structure State where
  a : SpocFile
  b : SpocFile
  deriving DecidableEq

namespace State

/-- Access to an object. -/
def get (s : State) : Reg → SpocFile
  | .a => s.a
  | .b => s.b

/-- Replacing an object. -/
def put (s : State) (r : Reg) (f : SpocFile) : State :=
  match r with
  | .a => { s with a := f }
  | .b => { s with b := f }

end State

/-- An operation with its arguments. -/
inductive Op
  /-- constructor with version and records (`/repo/spoc/file.h` lines 67-81) -/
  | construct (r : Reg) (major minor : UInt8) (wkt : Bytes) (compressed : Bool) (prs : List PointRecord)
  /-- default constructor (lines 55-60) -/
  | constructEmpty (r : Reg)
  /-- `r = s.clone_empty ()` (lines 100-107) -/
  | cloneEmpty (r s : Reg)
  /-- `set_wkt` (line 156) -/
  | setWkt (r : Reg) (wkt : Bytes)
  /-- `set_compressed` (line 159) -/
  | setCompressed (r : Reg) (flag : Bool)
  /-- `push_back` (lines 162-170) -/
  | pushBack (r : Reg) (q : PointRecord)
  /-- `resize_extra_fields` (lines 177-181) -/
  | resizeExtra (r : Reg) (n : Nat)
  /-- `swap` (lines 184-191) -/
  | swap
  /-- copy assignment `r = s` (lines 193-201), which copies and swaps -/
  | assign (r s : Reg)
  /-- `set_point_record` (lines 206-213) -/
  | setRecord (r : Reg) (i : Nat) (q : PointRecord)
  /-- `set_point_records` (lines 217-225) -/
  | setRecords (r : Reg) (prs : List PointRecord)
  /-- `move_point_records ()` into a vector of the caller (lines 231-234) -/
  | moveOut (r : Reg)
  /-- `move_point_records (prs)` (lines 239-247) -/
  | moveIn (r : Reg) (prs : List PointRecord)

/-- The effect of one operation. -/
def step (bd : Build) (s : State) : Op → Res State
  | .construct r ma mi w c p => do .ok (s.put r (← SpocFile.new ma mi w c p))
  | .constructEmpty r => .ok (s.put r SpocFile.empty)
  | .cloneEmpty r t => .ok (s.put r (s.get t).cloneEmpty)
  | .setWkt r w => .ok (s.put r ((s.get r).setWkt w))
  | .setCompressed r c => .ok (s.put r ((s.get r).setCompressed c))
  | .pushBack r q => do .ok (s.put r (← (s.get r).pushBack q))
  | .resizeExtra r n => .ok (s.put r ((s.get r).resizeExtraFields n))
  | .swap => .ok { a := s.b, b := s.a }
  | .assign r t => if r = t then .ok s else do .ok (s.put r (← (s.get t).copy))
  | .setRecord r i q => do .ok (s.put r (← (s.get r).setPointRecord bd i q))
  | .setRecords r p => do .ok (s.put r (← (s.get r).setPointRecords p))
  | .moveOut r => .ok (s.put r (s.get r).moveOut.2)
  | .moveIn r p => do .ok (s.put r (← (s.get r).moveIn p))

/-- A history: exceptions are caught and leave the state as it is; anything worse ends
the history. -/
def run (bd : Build) : State → List Op → Res State
  | s, [] => .ok s
  | s, op :: ops =>
    match step bd s op with
    | .ok s' => run bd s' ops
    | .throw _ => run bd s ops
    | .ub w => .ub w
    | .abort => .abort
    | .hang => .hang

end FileOps

end Spoc
