import Verif.Proofs.GridDistance
import Verif.Props.SetCopy
import Verif.Props.Center

/-!
# Sums on a grid
-/

namespace Spoc

open Spec

namespace F64

/-- A zero that is the sum of two numbers, the first of which is not minus zero, is positive. -/
theorem add_cancel_pos {x y : F64} (hx : x.isFinite = true) (hy : y.isFinite = true) (h0 : x ≠ negZero) (h : x.fv + y.fv = 0) : add x y = zero := by
  refine add_zero_pos hx hy h ?_
  by_cases hz : x.fv = 0
  · rcases zero_of_fv hz with rfl | rfl
    · rw [show zero.neg = false from by decide]
      rfl
    · exact absurd rfl h0
  · rcases lt_or_gt_of_ne hz with hl | hl
    · rw [(fv_pos.mp (show 0 < y.fv by omega)).1, Bool.and_false]
    · rw [(fv_pos.mp hl).1, Bool.false_and]

/-- Sums on the grid are exact, and never minus zero. -/
theorem sum_units {k : ℤ} (hk0 : -1074 ≤ k) (hk : k ≤ 970) {b : Nat} (xs : List F64) (hg : ∀ x ∈ xs, OnGrid k b x) (s : F64) (m : ℤ) (hs : s.isFinite = true)
    (hn : s ≠ negZero) (h : s.fv = m * 2 ^ (k + 1074).toNat) (hm : m.natAbs + xs.length * 2 ^ b ≤ 2 ^ 53) :
    (xs.foldl add s).isFinite = true ∧ xs.foldl add s ≠ negZero ∧ (xs.foldl add s).val = s.val + (xs.map val).sum := by
  induction xs generalizing s m with
  | nil => exact ⟨hs, hn, by simp⟩
  | cons x xs ih =>
    obtain ⟨n, hnb, e⟩ := grid_fv hk0 (hg x List.mem_cons_self)
    have hx := (hg x List.mem_cons_self).1
    rw [List.length_cons, Nat.add_mul, Nat.one_mul] at hm
    have h1 : (m + n).natAbs + xs.length * 2 ^ b < 2 ^ 53 := by
      have := Int.natAbs_add_le m n
      omega
    have h2 : (m + n).natAbs < 2 ^ 53 := lt_of_le_of_lt (Nat.le_add_right _ _) h1
    obtain ⟨f1, e1⟩ := add_units hk hs hx h e h2
    have hU : (2 : ℤ) ^ (k + 1074).toNat ≠ 0 := pow_ne_zero _ (by norm_num)
    have hn' : add s x ≠ negZero := by
      by_cases hz : m + n = 0
      · rw [add_cancel_pos hs hx hn (by rw [h, e, ← add_mul, hz, zero_mul])]
        decide
      · intro hc
        have : (add s x).fv = 0 := by rw [hc]; decide
        rw [e1] at this
        exact (mul_ne_zero hz hU) this
    obtain ⟨r1, r2, r3⟩ := ih (fun y hy => hg y (List.mem_cons_of_mem _ hy)) (add s x) (m + n) f1 hn' e1 h1.le
    have e2 : (add s x).val = s.val + x.val := by
      rw [val_units hk0 e1, val_units hk0 h, val_units hk0 e, Int.cast_add, add_mul]
    refine ⟨r1, r2, ?_⟩
    rw [List.foldl_cons, r3, e2, List.map_cons, List.sum_cons, add_assoc]

end F64

theorem eq_of_val {x y : F64} (hx : x ≠ F64.negZero) (hy : y ≠ F64.negZero) (h : x.val = y.val) : x = y := by
  have e : x.fv = y.fv := le_antisymm (F64.val_le_iff.mp h.le) (F64.val_le_iff.mp h.ge)
  by_cases h0 : x.fv = 0
  · rcases F64.zero_of_fv h0 with rfl | rfl
    · rcases F64.zero_of_fv (e ▸ h0) with rfl | rfl
      · rfl
      · exact absurd rfl hy
    · exact absurd rfl hx
  · exact F64.eq_of_fv_eq e h0

theorem mean_lt {xs : List ℝ} {a : ℝ} (hne : xs ≠ []) (h : ∀ x ∈ xs, a < x) : a < xs.sum / xs.length := by
  have key : ∀ ys : List ℝ, (∀ x ∈ ys, a < x) → a * ys.length ≤ ys.sum := by
    intro ys hy
    induction ys with
    | nil => simp
    | cons y ys ih =>
      have h1 := hy y List.mem_cons_self
      have h2 := ih (fun x hx => hy x (List.mem_cons_of_mem _ hx))
      rw [List.length_cons, List.sum_cons]
      push_cast
      linarith
  cases xs with
  | nil => exact absurd rfl hne
  | cons y ys =>
    have h1 := h y List.mem_cons_self
    have h2 := key ys (fun x hx => h x (List.mem_cons_of_mem _ hx))
    have hl : (0 : ℝ) < ((y :: ys).length : ℝ) := by exact_mod_cast (by simp : 0 < (y :: ys).length)
    rw [lt_div_iff₀ hl, List.length_cons, List.sum_cons]
    push_cast
    linarith

theorem lt_mean {xs : List ℝ} {a : ℝ} (hne : xs ≠ []) (h : ∀ x ∈ xs, x < a) : xs.sum / xs.length < a := by
  have h1 := mean_lt (xs := xs.map (- ·)) (a := -a) (by simpa using hne) (by
    intro x hx
    obtain ⟨y, hy, rfl⟩ := List.mem_map.mp hx
    exact neg_lt_neg (h y hy))
  have h2 : (xs.map (- ·)).sum = - xs.sum := by
    clear hne h h1
    induction xs with
    | nil => simp
    | cons y ys ih => rw [List.map_cons, List.sum_cons, List.sum_cons, ih]; ring
  rw [h2, List.length_map, neg_div] at h1
  linarith

end Spoc
