import Verif.Model.Io

/-!
# Model of the tests for columns of zeros in `/repo/spoc/point_record.h`
-/

namespace Spoc

namespace PointRecord

/-- `has_all_zero_c` (`/repo/spoc/point_record.h` lines 258-262). -/
def hasAllZeroC (prs : List PointRecord) : Bool := !prs.any (fun pr => decide (pr.c ≠ 0))

/-- `has_all_zero_p` (`/repo/spoc/point_record.h` lines 264-268). -/
def hasAllZeroP (prs : List PointRecord) : Bool := !prs.any (fun pr => decide (pr.p ≠ 0))

/-- `has_all_zero_i` (`/repo/spoc/point_record.h` lines 270-274). -/
def hasAllZeroI (prs : List PointRecord) : Bool := !prs.any (fun pr => decide (pr.i ≠ 0))

/-- `has_all_zero_r` (`/repo/spoc/point_record.h` lines 276-280). -/
def hasAllZeroR (prs : List PointRecord) : Bool := !prs.any (fun pr => decide (pr.r ≠ 0))

/-- `has_all_zero_g` (`/repo/spoc/point_record.h` lines 282-286). -/
def hasAllZeroG (prs : List PointRecord) : Bool := !prs.any (fun pr => decide (pr.g ≠ 0))

/-- `has_all_zero_b` (`/repo/spoc/point_record.h` lines 288-292). -/
def hasAllZeroB (prs : List PointRecord) : Bool := !prs.any (fun pr => decide (pr.b ≠ 0))

/-- `has_all_zero_rgb` (`/repo/spoc/point_record.h` lines 294-297). -/
def hasAllZeroRgb (prs : List PointRecord) : Bool := hasAllZeroR prs && hasAllZeroG prs && hasAllZeroB prs

/-- `std::any_of` with the predicate of `has_all_zero_extra` (`/repo/spoc/point_record.h` lines 301-302): the search stops at the first
record with a value that is not zero; `pr.extra[n]` without such an element is undefined behaviour. -/
def anyExtra (n : Nat) : List PointRecord → Res Bool
  | [] => .ok false
  | pr :: prs => match pr.extra[n]? with
    | none => .ub "vector index out of range"
    | some v => if v ≠ 0 then .ok true else anyExtra n prs

/-- `has_all_zero_extra` (`/repo/spoc/point_record.h` lines 299-303). -/
def hasAllZeroExtra (n : Nat) (prs : List PointRecord) : Res Bool := do
  let a ← anyExtra n prs
  .ok (!a)

end PointRecord

end Spoc
