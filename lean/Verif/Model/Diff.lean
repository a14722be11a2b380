import Verif.Model.Apps
import Verif.Base.Text

/-!
# Model of the diff application (`/repo/apps/diff`)

Exit statuses are integers; an exception gives the exit status -1 (`/repo/apps/diff/diff.cpp` lines 82-86).
-/

namespace Spoc.Diff

open Text

/-- `operator==` of `std::vector<double>`. -/
def eqDoubles : List F64 → List F64 → Bool
  | [], [] => true
  | x :: xs, y :: ys => F64.feq x y && eqDoubles xs ys
  | _, _ => false

/-- `get_x` … `get_b` (`/repo/spoc/point_record.h` lines 168-238). -/
def column {α : Type} (field : PointRecord → α) (ps : List PointRecord) : List α := ps.map field

/-- `get_extra_fields_size` (`/repo/spoc/point_record.h` lines 240-245). -/
def extraFieldsSize (ps : List PointRecord) : Nat :=
  match ps with
  | [] => 0
  | p :: _ => p.extra.length

/-- `get_extra` (`/repo/spoc/point_record.h` lines 247-256). -/
def getExtra (b : Build) (k : Nat) (ps : List PointRecord) : Res (List UInt64) :=
  ps.mapM (fun p => do
    cassert b (decide (k < p.extra.length))
    match p.extra[k]? with
    | some e => .ok e
    | none => .ub "vector index out of range")

/-- The comparison of all extra fields (`/repo/apps/diff/diff.h` lines 79-83): equal? -/
def eqExtras (b : Build) (ps qs : List PointRecord) (n : Nat) : Res Bool :=
  (List.range n).foldlM (fun eq k => do
    let v ← getExtra b k ps
    let w ← getExtra b k qs
    .ok (eq && decide (v = w))) true

/-- `get_header () != get_header ()` (`/repo/apps/diff/diff.h` lines 51-52): equal? -/
def eqHeaders (f1 f2 : SpocFile) : Res Bool := do
  let h1 ← f1.getHeader
  let h2 ← f2.getHeader
  .ok (!h1.bne h2)

/-- The comparison of the data (`/repo/apps/diff/diff.h` lines 56-84): equal? -/
def eqData (b : Build) (ps qs : List PointRecord) : Res Bool :=
  if !eqDoubles (column (·.x) ps) (column (·.x) qs) then .ok false
  else if !eqDoubles (column (·.y) ps) (column (·.y) qs) then .ok false
  else if !eqDoubles (column (·.z) ps) (column (·.z) qs) then .ok false
  else if column (·.c) ps ≠ column (·.c) qs then .ok false
  else if column (·.p) ps ≠ column (·.p) qs then .ok false
  else if column (·.i) ps ≠ column (·.i) qs then .ok false
  else if column (·.r) ps ≠ column (·.r) qs then .ok false
  else if column (·.g) ps ≠ column (·.g) qs then .ok false
  else if column (·.b) ps ≠ column (·.b) qs then .ok false
  else if extraFieldsSize ps ≠ extraFieldsSize qs then .ok false
  else eqExtras b ps qs (extraFieldsSize ps)

/-- One field (`/repo/apps/diff/diff.h` lines 90-155): equal? -/
def eqField (b : Build) (ps qs : List PointRecord) (field : Char) : Res Bool :=
  if field = 'x' then .ok (eqDoubles (column (·.x) ps) (column (·.x) qs))
  else if field = 'y' then .ok (eqDoubles (column (·.y) ps) (column (·.y) qs))
  else if field = 'z' then .ok (eqDoubles (column (·.z) ps) (column (·.z) qs))
  else if field = 'c' then .ok (decide (column (·.c) ps = column (·.c) qs))
  else if field = 'p' then .ok (decide (column (·.p) ps = column (·.p) qs))
  else if field = 'i' then .ok (decide (column (·.i) ps = column (·.i) qs))
  else if field = 'r' then .ok (decide (column (·.r) ps = column (·.r) qs))
  else if field = 'g' then .ok (decide (column (·.g) ps = column (·.g) qs))
  else if field = 'b' then .ok (decide (column (·.b) ps = column (·.b) qs))
  else if isDigit field then
    let index := decVal [field]
    if index < extraFieldsSize ps ∧ index < extraFieldsSize qs then do
      let v ← getExtra b index ps
      let w ← getExtra b index qs
      .ok (decide (v = w))
    else .ok true
  else .throw "Unknown field specifier: "

/-- The loop over the fields (`/repo/apps/diff/diff.h` lines 88-160), which stops at the first difference: equal? -/
def eqFields (b : Build) (ps qs : List PointRecord) : Str → Res Bool
  | [] => .ok true
  | c :: cs => do
    let eq ← eqField b ps qs c
    if eq then eqFields b ps qs cs else .ok false

/-- `diff` (`/repo/apps/diff/diff.h` lines 13-167). -/
def diff (b : Build) (f1 f2 : SpocFile) (headerOnly dataOnly : Bool) (fields : Str) (reverse : Bool) : Res Int := do
  let checkFields := !fields.isEmpty
  let checkHeader := !checkFields && !dataOnly
  let checkData := !checkFields && (dataOnly || !headerOnly)
  let h ← if checkHeader then eqHeaders f1 f2 else .ok true
  let d ← if checkData then eqData b f1.prs f2.prs else .ok true
  let e ← if checkFields then eqFields b f1.prs f2.prs fields else .ok true
  let returnCode : Int := if h && d && e then 0 else -1
  if reverse then .ok (if returnCode = 0 then 1 else 0) else .ok returnCode

/-- `struct args` (`/repo/apps/diff/diff_cmd.h` lines 14-25). -/
structure Args where
  help : Bool := false
  verbose : Bool := false
  version : Bool := false
  headerOnly : Bool := false
  dataOnly : Bool := false
  fields : Str := []
  reverse : Bool := false
  deriving DecidableEq, Repr

/-- The options (`/repo/apps/diff/diff_cmd.h` lines 27-73); file names are an argument of `main`. -/
def getArgs : List (String × Str) → Args → Res Args
  | [], a => .ok a
  | (name, arg) :: os, a =>
    if name = "help" then .ok { a with help := true }
    else if name = "verbose" then getArgs os { a with verbose := true }
    else if name = "version" then getArgs os { a with version := true }
    else if name = "header-only" then getArgs os { a with headerOnly := true }
    else if name = "data-only" then getArgs os { a with dataOnly := true }
    else if name = "field" then getArgs os { a with fields := a.fields ++ arg }
    else if name = "reverse" then getArgs os { a with reverse := true }
    else .throw "Invalid option"

/-- `main` (`/repo/apps/diff/diff.cpp` lines 8-87).  The inputs are two files, `none` if a file cannot be opened. -/
def main (b : Build) (zl : Zlib) (options : List (String × Str)) (file1 file2 : Option IStream) : Res Int := do
  let a ← getArgs options {}
  if a.help then .ok 0
  else if a.version then .ok 0
  else if a.headerOnly && a.dataOnly && !a.fields.isEmpty then
    .throw "Can't specify more than 1 of 'header-only', 'data-only', and specific fields"
  else
    match file1, file2 with
    | some s1, some s2 => do
      let f1 ← Apps.fileOf (Io.readFile b zl s1)
      let f2 ← Apps.fileOf (Io.readFile b zl s2)
      diff b f1 f2 a.headerOnly a.dataOnly a.fields a.reverse
    | _, _ => .throw "Could not open file for reading"

/-- The exit status: the low eight bits of the result, and of -1 for an exception.  Undefined behaviour has no exit status, and an
assertion failure ends the program by a signal. -/
def exitStatus (r : Res Int) : Option Nat :=
  match r with
  | .ok c => some (c % 256).toNat
  | .throw _ => some 255
  | _ => none

end Spoc.Diff
