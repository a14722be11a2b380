import Verif.Model.Io

/-!
# Specification vocabulary for files

Nothing here uses helper functions of the model, only the data of files, records and headers.
-/

namespace Spoc.Spec

/-- Every two records of the cloud have the same number of extra fields. -/
def Uniform (prs : List PointRecord) : Prop :=
  ∀ p ∈ prs, ∀ q ∈ prs, p.extra.length = q.extra.length

/-- A file that the format can represent. -/
structure Writable (f : SpocFile) : Prop where
  major : f.major = majorVersion
  minor : f.minor = minorVersion
  wkt : f.wkt.length ≤ 65535
  uniform : Uniform f.prs
  extra : ∀ q ∈ f.prs, q.extra.length ≤ 255
  count : f.prs.length < 2 ^ 64

/-- A coordinate column consists of zeros only, positive or negative. -/
def OnlyZeros (prs : List PointRecord) (axis : PointRecord → F64) : Prop :=
  ∀ q ∈ prs, axis q = F64.zero ∨ axis q = F64.negZero

/-- No coordinate column consists of zeros only with a negative zero among them. -/
def NoHiddenNegZero (prs : List PointRecord) : Prop :=
  ∀ axis : PointRecord → F64, axis = PointRecord.x ∨ axis = PointRecord.y ∨ axis = PointRecord.z →
    OnlyZeros prs axis → ∀ q ∈ prs, axis q = F64.zero

/-- zlib handles columns of `n` elements of at most 8 bytes without exceeding its 32-bit
byte counters. -/
def FitsZlib (z : Zlib) (n : Nat) : Prop :=
  8 * n < 2 ^ 32 ∧ ∀ bs : Bytes, bs.length ≤ 8 * n → (z.deflate bs).length < 2 ^ 32

/-- Two records that agree in everything except possibly the sign of zero coordinates. -/
def SameUpToSignOfZero (p q : PointRecord) : Prop :=
  (∀ axis : PointRecord → F64, axis = PointRecord.x ∨ axis = PointRecord.y ∨ axis = PointRecord.z →
    axis p = axis q ∨ ((axis p = F64.zero ∨ axis p = F64.negZero) ∧
      (axis q = F64.zero ∨ axis q = F64.negZero))) ∧
  p.c = q.c ∧ p.p = q.p ∧ p.i = q.i ∧ p.r = q.r ∧ p.g = q.g ∧ p.b = q.b ∧ p.extra = q.extra

/-- A trivial codec (one leading byte), used to show that the assumptions on zlib can be met. -/
def toyZlib : Zlib :=
  { deflate := fun bs => 0 :: bs
    inflate := fun bs => { output := bs.tail, error := false } }

theorem toyZlib_correct : toyZlib.Correct := by
  intro bs
  exact ⟨by simp [toyZlib], by simp [toyZlib]⟩

theorem toyZlib_fits {n : Nat} (h : 8 * n + 1 < 2 ^ 32) : FitsZlib toyZlib n := by
  refine ⟨by omega, ?_⟩
  intro bs hbs
  simp only [toyZlib, List.length_cons]
  omega

end Spoc.Spec
