import Verif.Spec.Geometry
import Verif.Spec.Io
import Verif.Model.File
import Mathlib.Data.List.Forall2

/-!
# Specifications for comparing files
-/

namespace Spoc.Spec

/-- The same record: numerically equal coordinates, none of them NaN, and identical integer fields. -/
def SameRecord (a b : PointRecord) : Prop :=
  NoNaNRecord a ∧ NoNaNRecord b ∧ SamePlace (pt a) (pt b)
    ∧ a.c = b.c ∧ a.p = b.p ∧ a.i = b.i ∧ a.r = b.r ∧ a.g = b.g ∧ a.b = b.b ∧ a.extra = b.extra

/-- The same records in the same order. -/
def SameData (f g : SpocFile) : Prop := List.Forall₂ SameRecord f.prs g.prs

/-- The number of extra fields of the first record, 0 without records. -/
def extraCount (ps : List PointRecord) : Nat := (ps.head?.map (fun q => q.extra.length)).getD 0

/-- The same header: version, spatial reference, compression flag, number of points and of extra fields. -/
def SameHeader (f g : SpocFile) : Prop :=
  f.major = g.major ∧ f.minor = g.minor ∧ f.wkt = g.wkt ∧ f.compressed = g.compressed ∧ f.prs.length = g.prs.length
    ∧ extraCount f.prs = extraCount g.prs

/-- The field that a character names is the same in two records. -/
def SameField (name : Char) (a b : PointRecord) : Prop :=
  match name with
  | 'x' => a.x.isNaN = false ∧ b.x.isNaN = false ∧ a.x.fv = b.x.fv
  | 'y' => a.y.isNaN = false ∧ b.y.isNaN = false ∧ a.y.fv = b.y.fv
  | 'z' => a.z.isNaN = false ∧ b.z.isNaN = false ∧ a.z.fv = b.z.fv
  | 'c' => a.c = b.c
  | 'p' => a.p = b.p
  | 'i' => a.i = b.i
  | 'r' => a.r = b.r
  | 'g' => a.g = b.g
  | 'b' => a.b = b.b
  | c => a.extra[c.toNat - '0'.toNat]? = b.extra[c.toNat - '0'.toNat]?

/-- The characters that name a field. -/
def fieldNames : List Char := "xyzcpirgb0123456789".toList

end Spoc.Spec
