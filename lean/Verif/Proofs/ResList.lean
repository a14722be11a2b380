import Verif.Base.Res
import Mathlib.Data.List.Forall2

/-!
# Lists of outcomes
-/

namespace Spoc

theorem mapM_eq_ok {α β : Type} {f : α → Res β} {l : List α} {r : List β} :
    l.mapM f = .ok r ↔ List.Forall₂ (fun a b => f a = .ok b) l r := by
  induction l generalizing r with
  | nil =>
    simp only [List.mapM_nil, Res.pure_def, Res.ok.injEq, List.forall₂_nil_left_iff]
    exact eq_comm
  | cons a l ih =>
    rw [List.mapM_cons, Res.bind_eq_ok, List.forall₂_cons_left_iff]
    simp only [Res.bind_eq_ok, ih, Res.pure_def, Res.ok.injEq]
    constructor
    · rintro ⟨b, hb, r', hr, rfl⟩; exact ⟨b, r', hb, hr, rfl⟩
    · rintro ⟨b, r', hb, hr, rfl⟩; exact ⟨b, hb, r', hr, rfl⟩

theorem mapM_length {α β : Type} {f : α → Res β} {l : List α} {r : List β} (h : l.mapM f = .ok r) :
    r.length = l.length := (mapM_eq_ok.mp h).length_eq.symm

theorem mapM_get {α β : Type} {f : α → Res β} {l : List α} {r : List β} (h : l.mapM f = .ok r)
    {i : Nat} {a : α} (ha : l[i]? = some a) : ∃ b, r[i]? = some b ∧ f a = .ok b := by
  have h' := mapM_eq_ok.mp h
  obtain ⟨hi, rfl⟩ := List.getElem?_eq_some_iff.mp ha
  have hr : i < r.length := by rw [mapM_length h]; exact hi
  refine ⟨r[i], List.getElem?_eq_getElem hr, ?_⟩
  have := (List.forall₂_iff_get.mp h').2 i hi hr
  simpa using this

theorem mapM_ok_of {α β : Type} {f : α → Res β} {l : List α} (h : ∀ a ∈ l, ∃ b, f a = .ok b) :
    ∃ r, l.mapM f = .ok r := by
  induction l with
  | nil => exact ⟨[], rfl⟩
  | cons a l ih =>
    obtain ⟨b, hb⟩ := h a (by simp)
    obtain ⟨r, hr⟩ := ih (fun x hx => h x (by simp [hx]))
    exact ⟨b :: r, by rw [List.mapM_cons, hb, Res.ok_bind, hr]; rfl⟩

/-- If a list of outcomes is not all normal, the loop stops at the first other outcome. -/
theorem mapM_first {α β : Type} {f : α → Res β} {l1 : List α} {a : α} {l2 : List α}
    (h1 : ∀ x ∈ l1, ∃ b, f x = .ok b) (why : String) (h : f a = .ub why) :
    (l1 ++ a :: l2).mapM f = .ub why := by
  induction l1 with
  | nil => rw [List.nil_append, List.mapM_cons, h]; rfl
  | cons x l1 ih =>
    obtain ⟨b, hb⟩ := h1 x (by simp)
    rw [List.cons_append, List.mapM_cons, hb, Res.ok_bind, ih (fun y hy => h1 y (by simp [hy]))]
    rfl

end Spoc
