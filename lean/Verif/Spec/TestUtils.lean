import Verif.Spec.Value
import Verif.Model.PointRecord

/-!
# What generated test data look like (C115)
-/

namespace Spoc.Spec

/-- A generated coordinate. -/
def Within (x : F64) (lo hi : ℝ) : Prop := x.isFinite = true ∧ lo ≤ x.val ∧ x.val ≤ hi

/-- A generated record with `ef` extra fields: coordinates between -1 and 1, everything else between 0 and 32768; it is black if no
colours have been asked for. -/
structure Generated (ef : Nat) (rgb : Bool) (q : PointRecord) : Prop where
  x : Within q.x (-1) 1
  y : Within q.y (-1) 1
  z : Within q.z (-1) 1
  c : q.c.toNat ≤ 32768
  p : q.p.toNat ≤ 32768
  i : q.i.toNat ≤ 32768
  r : q.r.toNat ≤ 32768
  g : q.g.toNat ≤ 32768
  b : q.b.toNat ≤ 32768
  black : rgb = false → q.r = 0 ∧ q.g = 0 ∧ q.b = 0
  count : q.extra.length = ef
  extra : ∀ e ∈ q.extra, e.toNat ≤ 32768

end Spoc.Spec
