import Verif.Spec.Geometry
import Verif.Proofs.F64Ops
import Mathlib.Data.List.Perm.Basic

/-!
# Helper lemmas for points and extents
-/

namespace Spoc

open Spec

namespace F64

theorem gt_iff {x y : F64} : gt x y = true ↔ x.isNaN = false ∧ y.isNaN = false ∧ y.fv < x.fv := by
  unfold gt; rw [lt_iff]; tauto

theorem fne_eq_false {x y : F64} : fne x y = false ↔ x.isNaN = false ∧ y.isNaN = false ∧ x.fv = y.fv := by
  unfold fne; rw [Bool.not_eq_false', feq_iff]

theorem stdMin_cases (a b : F64) : stdMin a b = a ∨ stdMin a b = b := by
  unfold stdMin; split <;> simp

theorem stdMax_cases (a b : F64) : stdMax a b = a ∨ stdMax a b = b := by
  unfold stdMax; split <;> simp

theorem stdMin_fv {a b : F64} (ha : a.isNaN = false) (hb : b.isNaN = false) :
    (stdMin a b).isNaN = false ∧ (stdMin a b).fv = min a.fv b.fv := by
  unfold stdMin
  split
  · rename_i h
    have := (lt_iff.mp h).2.2
    exact ⟨hb, by omega⟩
  · rename_i h
    have h' : b.lt a = false := by simpa using h
    have := (lt_eq_false hb ha).mp h'
    exact ⟨ha, by omega⟩

theorem stdMax_fv {a b : F64} (ha : a.isNaN = false) (hb : b.isNaN = false) :
    (stdMax a b).isNaN = false ∧ (stdMax a b).fv = max a.fv b.fv := by
  unfold stdMax
  split
  · rename_i h
    have := (lt_iff.mp h).2.2
    exact ⟨hb, by omega⟩
  · rename_i h
    have h' : a.lt b = false := by simpa using h
    have := (lt_eq_false ha hb).mp h'
    exact ⟨ha, by omega⟩

theorem finite_fv_lt {x : F64} (h : x.isFinite = true) :
    x.fv < (inf false).fv ∧ (inf true).fv < x.fv := by
  have hm := isFinite_iff.mp h
  have h1 : (inf false).fv = (fixMag infMag : Int) := by
    unfold fv inf; rw [neg_mk' _ infMag_lt, mag_mk' _ infMag_lt]; rfl
  have h2 : (inf true).fv = -(fixMag infMag : Int) := by
    unfold fv inf; rw [neg_mk' _ infMag_lt, mag_mk' _ infMag_lt]; rfl
  have h3 : fixMag x.mag < fixMag infMag := fixMag_lt_iff.mpr hm
  have h4 := fv_natAbs x
  rw [h1, h2]
  omega

theorem fv_le_maxVal {x : F64} (h : x.isFinite = true) : x.fv ≤ maxVal.fv ∧ lowest.fv ≤ x.fv := by
  have hm := isFinite_iff.mp h
  have h1 : maxVal.fv = (fixMag (infMag - 1) : Int) := by
    have e1 : maxVal.neg = false := by decide +kernel
    have e2 : maxVal.mag = infMag - 1 := by decide +kernel
    unfold fv; rw [e1, e2]; rfl
  have h2 : lowest.fv = -(fixMag (infMag - 1) : Int) := by
    have e1 : lowest.neg = true := by decide +kernel
    have e2 : lowest.mag = infMag - 1 := by decide +kernel
    unfold fv; rw [e1, e2]; rfl
  have h3 : fixMag x.mag ≤ fixMag (infMag - 1) := fixMag_le_iff.mpr (by omega)
  have h4 := fv_natAbs x
  rw [h1, h2]
  omega

theorem maxVal_not_nan : maxVal.isNaN = false := by decide +kernel
theorem lowest_not_nan : lowest.isNaN = false := by decide +kernel
theorem maxVal_finite : maxVal.isFinite = true := by decide +kernel
theorem lowest_finite : lowest.isFinite = true := by decide +kernel

/-- The running minimum of `get_extent` in one coordinate. -/
def foldMin (a : F64) (xs : List F64) : F64 := xs.foldl (fun a x => stdMin x a) a
/-- The running maximum of `get_extent` in one coordinate. -/
def foldMax (a : F64) (xs : List F64) : F64 := xs.foldl (fun a x => stdMax x a) a

theorem foldMin_mem (a : F64) (xs : List F64) : foldMin a xs = a ∨ foldMin a xs ∈ xs := by
  induction xs generalizing a with
  | nil => simp [foldMin]
  | cons x xs ih =>
    simp only [foldMin, List.foldl_cons, List.mem_cons]
    rcases ih (stdMin x a) with h | h
    · have h' : List.foldl (fun a x => stdMin x a) (stdMin x a) xs = stdMin x a := h
      rw [h']
      rcases stdMin_cases x a with e | e <;> rw [e] <;> simp
    · exact Or.inr (Or.inr h)

theorem foldMax_mem (a : F64) (xs : List F64) : foldMax a xs = a ∨ foldMax a xs ∈ xs := by
  induction xs generalizing a with
  | nil => simp [foldMax]
  | cons x xs ih =>
    simp only [foldMax, List.foldl_cons, List.mem_cons]
    rcases ih (stdMax x a) with h | h
    · have h' : List.foldl (fun a x => stdMax x a) (stdMax x a) xs = stdMax x a := h
      rw [h']
      rcases stdMax_cases x a with e | e <;> rw [e] <;> simp
    · exact Or.inr (Or.inr h)

theorem foldMin_spec (a : F64) (xs : List F64) (ha : a.isNaN = false)
    (hx : ∀ x ∈ xs, x.isNaN = false) :
    (foldMin a xs).isNaN = false
      ∧ (foldMin a xs).fv = xs.foldl (fun m x => min m x.fv) a.fv := by
  induction xs generalizing a with
  | nil => exact ⟨ha, rfl⟩
  | cons x xs ih =>
    have h1 := stdMin_fv (hx x (by simp)) ha
    have h2 := ih (stdMin x a) h1.1 (fun y hy => hx y (by simp [hy]))
    simp only [foldMin, List.foldl_cons] at h2 ⊢
    rw [h1.2, min_comm] at h2
    exact h2

theorem foldMax_spec (a : F64) (xs : List F64) (ha : a.isNaN = false)
    (hx : ∀ x ∈ xs, x.isNaN = false) :
    (foldMax a xs).isNaN = false
      ∧ (foldMax a xs).fv = xs.foldl (fun m x => max m x.fv) a.fv := by
  induction xs generalizing a with
  | nil => exact ⟨ha, rfl⟩
  | cons x xs ih =>
    have h1 := stdMax_fv (hx x (by simp)) ha
    have h2 := ih (stdMax x a) h1.1 (fun y hy => hx y (by simp [hy]))
    simp only [foldMax, List.foldl_cons] at h2 ⊢
    rw [h1.2, max_comm] at h2
    exact h2

end F64

/-! ## integer folds -/

theorem foldl_min_le (a : Int) (xs : List Int) :
    xs.foldl min a ≤ a ∧ ∀ x ∈ xs, xs.foldl min a ≤ x := by
  induction xs generalizing a with
  | nil => simp
  | cons x xs ih =>
    simp only [List.foldl_cons, List.mem_cons]
    obtain ⟨h1, h2⟩ := ih (min a x)
    refine ⟨by omega, ?_⟩
    rintro y (rfl | hy)
    · omega
    · exact h2 y hy

theorem foldl_max_ge (a : Int) (xs : List Int) :
    a ≤ xs.foldl max a ∧ ∀ x ∈ xs, x ≤ xs.foldl max a := by
  induction xs generalizing a with
  | nil => simp
  | cons x xs ih =>
    simp only [List.foldl_cons, List.mem_cons]
    obtain ⟨h1, h2⟩ := ih (max a x)
    refine ⟨by omega, ?_⟩
    rintro y (rfl | hy)
    · omega
    · exact h2 y hy

theorem foldl_min_init (a b : Int) (xs : List Int) : xs.foldl min (min a b) = min a (xs.foldl min b) := by
  induction xs generalizing b with
  | nil => rfl
  | cons x xs ih => simp only [List.foldl_cons]; rw [min_assoc, ih]

theorem foldl_max_init (a b : Int) (xs : List Int) : xs.foldl max (max a b) = max a (xs.foldl max b) := by
  induction xs generalizing b with
  | nil => rfl
  | cons x xs ih => simp only [List.foldl_cons]; rw [max_assoc, ih]

theorem foldl_min_append (a : Int) (xs ys : List Int) :
    (xs ++ ys).foldl min a = min (xs.foldl min a) (ys.foldl min a) := by
  rw [List.foldl_append]
  have h := foldl_min_init (xs.foldl min a) a ys
  rw [← h, min_eq_left (foldl_min_le a xs).1]

theorem foldl_max_append (a : Int) (xs ys : List Int) :
    (xs ++ ys).foldl max a = max (xs.foldl max a) (ys.foldl max a) := by
  rw [List.foldl_append]
  have h := foldl_max_init (xs.foldl max a) a ys
  rw [← h, max_eq_left (foldl_max_ge a xs).1]

theorem foldl_min_perm {a : Int} {xs ys : List Int} (h : xs.Perm ys) : xs.foldl min a = ys.foldl min a :=
  h.foldl_eq' (fun x _ y _ z => by omega) a

theorem foldl_max_perm {a : Int} {xs ys : List Int} (h : xs.Perm ys) : xs.foldl max a = ys.foldl max a :=
  h.foldl_eq' (fun x _ y _ z => by omega) a

/-! ## extents -/

namespace Extent

open F64

variable {α : Type} [HasXYZ α]

theorem foldl_grow (e : Extent) (ps : List α) :
    ps.foldl (fun e p => grow e (pt p)) e
      = ⟨⟨foldMin e.minp.x (ps.map fun p => (pt p).x), foldMin e.minp.y (ps.map fun p => (pt p).y),
          foldMin e.minp.z (ps.map fun p => (pt p).z)⟩,
        ⟨foldMax e.maxp.x (ps.map fun p => (pt p).x), foldMax e.maxp.y (ps.map fun p => (pt p).y),
          foldMax e.maxp.z (ps.map fun p => (pt p).z)⟩⟩ := by
  induction ps generalizing e with
  | nil => rfl
  | cons p ps ih => rw [List.foldl_cons, ih]; rfl

theorem ofPoints_eq (ps : List α) :
    ofPoints ps
      = ⟨⟨foldMin maxVal (ps.map fun p => (pt p).x), foldMin maxVal (ps.map fun p => (pt p).y),
          foldMin maxVal (ps.map fun p => (pt p).z)⟩,
        ⟨foldMax lowest (ps.map fun p => (pt p).x), foldMax lowest (ps.map fun p => (pt p).y),
          foldMax lowest (ps.map fun p => (pt p).z)⟩⟩ := foldl_grow _ _

end Extent

theorem F64.foldMin_int (xs : List F64) (hx : ∀ x ∈ xs, x.isNaN = false) :
    (F64.foldMin F64.maxVal xs).isNaN = false
      ∧ (F64.foldMin F64.maxVal xs).fv = (xs.map F64.fv).foldl min F64.maxVal.fv := by
  have h := F64.foldMin_spec F64.maxVal xs F64.maxVal_not_nan hx
  rw [List.foldl_map]; exact h

theorem F64.foldMax_int (xs : List F64) (hx : ∀ x ∈ xs, x.isNaN = false) :
    (F64.foldMax F64.lowest xs).isNaN = false
      ∧ (F64.foldMax F64.lowest xs).fv = (xs.map F64.fv).foldl max F64.lowest.fv := by
  have h := F64.foldMax_spec F64.lowest xs F64.lowest_not_nan hx
  rw [List.foldl_map]; exact h

/-- In a non-empty list of finite doubles the running minimum is one of the values. -/
theorem F64.foldMin_attained (xs : List F64) (hne : xs ≠ []) (hx : ∀ x ∈ xs, x.isFinite = true) :
    F64.foldMin F64.maxVal xs ∈ xs := by
  obtain ⟨x, ys, rfl⟩ := List.exists_cons_of_ne_nil hne
  have e : F64.stdMin x F64.maxVal = x := by
    have hxf := hx x (by simp)
    have := F64.fv_le_maxVal hxf
    unfold F64.stdMin
    have hl : F64.lt F64.maxVal x = false :=
      (F64.lt_eq_false F64.maxVal_not_nan (F64.not_nan_of_finite hxf)).mpr this.1
    simp [hl]
  have h := F64.foldMin_mem x ys
  simp only [F64.foldMin, List.foldl_cons, e, List.mem_cons] at h ⊢
  exact h

theorem F64.foldMax_attained (xs : List F64) (hne : xs ≠ []) (hx : ∀ x ∈ xs, x.isFinite = true) :
    F64.foldMax F64.lowest xs ∈ xs := by
  obtain ⟨x, ys, rfl⟩ := List.exists_cons_of_ne_nil hne
  have e : F64.stdMax x F64.lowest = x := by
    have hxf := hx x (by simp)
    have := F64.fv_le_maxVal hxf
    unfold F64.stdMax
    have hl : F64.lt x F64.lowest = false :=
      (F64.lt_eq_false (F64.not_nan_of_finite hxf) F64.lowest_not_nan).mpr this.2
    simp [hl]
  have h := F64.foldMax_mem x ys
  simp only [F64.foldMax, List.foldl_cons, e, List.mem_cons] at h ⊢
  exact h

end Spoc
