import Verif.Spec.Tool
import Verif.Spec.Nearest
import Verif.Model.Point

/-!
# Specification of the tool commands that change extra fields, coordinates and classes
-/

namespace Spoc.Spec

/-- `q` is `p` with `n` extra fields: the leading ones are kept, new ones are zero, all other fields are unchanged. -/
structure Resized (n : Nat) (p q : PointRecord) : Prop where
  size : q.extra.length = n
  kept : ∀ k < n, k < p.extra.length → (Field.e k).get q = (Field.e k).get p
  filled : ∀ k < n, p.extra.length ≤ k → (Field.e k).get q = some 0
  same : ∀ h : Field, h.isExtra = false → h.get q = h.get p

/-- The coordinates that are shifted. -/
def shiftedFields (zFlag : Bool) : List Field := if zFlag then [.x, .y, .z] else [.x, .y]

/-- The coordinate `c` of each of the points `ps` has been shifted by the same offset `m`: each new value is a double nearest to the
exact difference. -/
def ShiftedBy (c : PointRecord → F64) (m : F64) (ps qs : List PointRecord) : Prop :=
  List.Forall₂ (fun p q => Nearest (c q) ((c p).val - m.val)) ps qs

/-- `m` is the smallest value of the coordinate `c`. -/
def IsMin (c : PointRecord → F64) (m : F64) (ps : List PointRecord) : Prop :=
  (∃ p ∈ ps, c p = m) ∧ ∀ p ∈ ps, F64.le m (c p) = true

/-- The smallest value is zero and none is negative, in terms of the comparison operators of the language. -/
def FromZero (c : PointRecord → F64) (qs : List PointRecord) : Prop :=
  (∃ q ∈ qs, F64.feq (c q) F64.zero = true) ∧ ∀ q ∈ qs, F64.le F64.zero (c q) = true

/-- The order of the values is kept. -/
def OrderKept (c : PointRecord → F64) (ps qs : List PointRecord) : Prop :=
  ∀ (i j : Nat) (p p' q q' : PointRecord), ps[i]? = some p → ps[j]? = some p' → qs[i]? = some q → qs[j]? = some q' →
    F64.le (c p) (c p') = true → F64.le (c q) (c q') = true

/-- The exact mean of the values of a coordinate. -/
noncomputable def mean (c : PointRecord → F64) (ps : List PointRecord) : ℝ := (ps.map (fun p => (c p).val)).sum / ps.length

end Spoc.Spec
