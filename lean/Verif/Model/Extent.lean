import Verif.Model.Point

/-!
# Model of `/repo/spoc/extent.h`
-/

namespace Spoc

/-- `struct extent` (`/repo/spoc/extent.h` lines 15-19). -/
structure Extent where
  minp : Pt F64
  maxp : Pt F64
  deriving DecidableEq, Repr

namespace Extent

/-- Initial values of `get_extent` and `get_total_extent` (`/repo/spoc/extent.h` lines 37-42, 66-71). -/
def initial : Extent :=
  ⟨⟨F64.maxVal, F64.maxVal, F64.maxVal⟩, ⟨F64.lowest, F64.lowest, F64.lowest⟩⟩

/-- Loop body of `get_extent` (`/repo/spoc/extent.h` lines 43-51). -/
def grow (e : Extent) (p : Pt F64) : Extent :=
  ⟨⟨F64.stdMin p.x e.minp.x, F64.stdMin p.y e.minp.y, F64.stdMin p.z e.minp.z⟩,
    ⟨F64.stdMax p.x e.maxp.x, F64.stdMax p.y e.maxp.y, F64.stdMax p.z e.maxp.z⟩⟩

/-- `get_extent` (`/repo/spoc/extent.h` lines 34-53). -/
def ofPoints {α : Type} [HasXYZ α] (ps : List α) : Extent :=
  ps.foldl (fun e p => grow e (pt p)) initial

/-- `all_less_equal` (`/repo/spoc/extent.h` lines 56-62). -/
def allLessEqual (a b : Pt F64) : Bool :=
  if F64.gt a.x b.x then false
  else if F64.gt a.y b.y then false
  else if F64.gt a.z b.z then false
  else true

/-- `get_total_extent` (`/repo/spoc/extent.h` lines 64-81). -/
def total (e1 e2 : Extent) : Extent :=
  ⟨⟨F64.stdMin e1.minp.x e2.minp.x, F64.stdMin e1.minp.y e2.minp.y, F64.stdMin e1.minp.z e2.minp.z⟩,
    ⟨F64.stdMax e1.maxp.x e2.maxp.x, F64.stdMax e1.maxp.y e2.maxp.y, F64.stdMax e1.maxp.z e2.maxp.z⟩⟩

/-- `operator==` (`/repo/spoc/extent.h` lines 83-86). -/
def beq (a b : Extent) : Bool := Pt.beq a.minp b.minp && Pt.beq a.maxp b.maxp

/-- `encode_extent` (`/repo/spoc/extent.h` lines 90-96). -/
def encode (e : Extent) : Bytes × Bytes := (Pt.encode e.minp, Pt.encode e.maxp)

/-- `decode_extent` (`/repo/spoc/extent.h` lines 98-104). -/
def decode (bytes : Bytes × Bytes) : Res Extent := do
  let minp ← Pt.decode bytes.1
  let maxp ← Pt.decode bytes.2
  .ok ⟨minp, maxp⟩

/-- `max_value`, 2^62 (`/repo/spoc/extent.h` line 106). -/
def maxValue : F64 := ⟨0x43D0000000000000⟩

end Extent

/-- Conversion of a `double` to an unsigned 64-bit integer (`size_t`, `uint64_t`): truncation; undefined
if the truncated value does not fit. -/
def F64.toU64 (x : F64) : Res UInt64 :=
  if x.isFinite then
    if 0 ≤ x.trunc ∧ x.trunc < 2 ^ 64 then .ok (UInt64.ofNat x.trunc.toNat)
    else .ub "double out of range of uint64_t"
  else .ub "double out of range of uint64_t"

/-- Conversion of a `double` to `int`: truncation; undefined if the truncated value does not fit. -/
def F64.toInt32 (x : F64) : Res Int :=
  if x.isFinite then
    if -(2 ^ 31) ≤ x.trunc ∧ x.trunc < 2 ^ 31 then .ok x.trunc
    else .ub "double out of range of int"
  else .ub "double out of range of int"

namespace Extent

/-- One coordinate of `rescale` (`/repo/spoc/extent.h` lines 113-115). -/
def rescale1 (p s minp : F64) : Res UInt64 :=
  F64.toU64 (F64.div (F64.mul (F64.sub p minp) maxValue) s)

/-- `rescale` of a point (`/repo/spoc/extent.h` lines 108-117). -/
def rescalePt (p s minp : Pt F64) : Res (Pt UInt64) := do
  let x ← rescale1 p.x s.x minp.x
  let y ← rescale1 p.y s.y minp.y
  let z ← rescale1 p.z s.z minp.z
  .ok ⟨x, y, z⟩

/-- One coordinate of `restore` (`/repo/spoc/extent.h` lines 124-126). -/
def restore1 (p : UInt64) (s minp : F64) : F64 :=
  F64.add (F64.div (F64.mul (F64.ofNat p.toNat) s) maxValue) minp

/-- `restore` of a point (`/repo/spoc/extent.h` lines 119-128). -/
def restorePt (p : Pt UInt64) (s minp : Pt F64) : Pt F64 :=
  ⟨restore1 p.x s.x minp.x, restore1 p.y s.y minp.y, restore1 p.z s.z minp.z⟩

/-- `rescale` of a vector of points (`/repo/spoc/extent.h` lines 130-140). -/
def rescale (b : Build) (ps : List (Pt F64)) (e : Extent) : Res (List (Pt UInt64)) := do
  cassert b (allLessEqual e.minp e.maxp)
  let s := Pt.sub e.maxp e.minp
  ps.mapM (fun p => rescalePt p s e.minp)

/-- `restore` of a vector of points (`/repo/spoc/extent.h` lines 142-152). -/
def restore (b : Build) (ps : List (Pt UInt64)) (e : Extent) : Res (List (Pt F64)) := do
  cassert b (allLessEqual e.minp e.maxp)
  let s := Pt.sub e.maxp e.minp
  .ok (ps.map (fun p => restorePt p s e.minp))

end Extent

end Spoc
