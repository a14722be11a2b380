import Mathlib.GroupTheory.SpecificGroups.Cyclic
import Mathlib.NumberTheory.LucasPrimality
import Mathlib.Tactic.NormNum.Prime
import Mathlib.Tactic.ReduceModChar
import Mathlib.FieldTheory.Finite.Basic
import Verif.Proofs.Noise

/-!
# The period of `std::minstd_rand0`

16807 is a primitive root modulo the prime 2147483647, so that the engine runs through all its states.
-/

namespace Spoc.Noise

open TestUtils

theorem factors {q : Nat} (hq : q.Prime) (h : q ∣ 2147483646) :
    q = 2 ∨ q = 3 ∨ q = 7 ∨ q = 11 ∨ q = 31 ∨ q = 151 ∨ q = 331 := by
  rw [show 2147483646 = 2 * (3 * (3 * (7 * (11 * (31 * (151 * 331)))))) from rfl] at h
  simp only [hq.dvd_mul] at h
  have e : ∀ {p : Nat}, p.Prime → q ∣ p → q = p := fun hp hd => (Nat.prime_dvd_prime_iff_eq hq hp).mp hd
  rcases h with h | h | h | h | h | h | h | h
  · exact Or.inl (e (by norm_num) h)
  · exact Or.inr (Or.inl (e (by norm_num) h))
  · exact Or.inr (Or.inl (e (by norm_num) h))
  · exact Or.inr (Or.inr (Or.inl (e (by norm_num) h)))
  · exact Or.inr (Or.inr (Or.inr (Or.inl (e (by norm_num) h))))
  · exact Or.inr (Or.inr (Or.inr (Or.inr (Or.inl (e (by norm_num) h)))))
  · exact Or.inr (Or.inr (Or.inr (Or.inr (Or.inr (Or.inl (e (by norm_num) h))))))
  · exact Or.inr (Or.inr (Or.inr (Or.inr (Or.inr (Or.inr (e (by norm_num) h))))))

theorem root_pow : (16807 : ZMod 2147483647) ^ 2147483646 = 1 := by reduce_mod_char

theorem root_powers {q : Nat} (hq : q.Prime) (h : q ∣ 2147483646) : (16807 : ZMod 2147483647) ^ (2147483646 / q) ≠ 1 := by
  have ne : ∀ a : Nat, a < 2147483647 → a ≠ 1 → ((a : Nat) : ZMod 2147483647) ≠ 1 := by
    intro a h1 h2 h3
    apply h2
    have h4 := congrArg ZMod.val h3
    rw [ZMod.val_natCast_of_lt h1] at h4
    exact h4
  rcases factors hq h with rfl | rfl | rfl | rfl | rfl | rfl | rfl <;> norm_num <;> reduce_mod_char
  · exact_mod_cast ne 2147483646 (by norm_num) (by norm_num)
  · exact_mod_cast ne 634005911 (by norm_num) (by norm_num)
  · exact_mod_cast ne 1600955193 (by norm_num) (by norm_num)
  · exact_mod_cast ne 298192073 (by norm_num) (by norm_num)
  · exact_mod_cast ne 16384 (by norm_num) (by norm_num)
  · exact_mod_cast ne 1013763951 (by norm_num) (by norm_num)
  · exact_mod_cast ne 759513457 (by norm_num) (by norm_num)

theorem modulus_prime : Nat.Prime 2147483647 :=
  lucas_primality 2147483647 16807 root_pow (fun _ hq h => root_powers hq h)

instance : Fact (Nat.Prime 2147483647) := ⟨modulus_prime⟩

theorem root_order : orderOf (16807 : ZMod 2147483647) = 2147483646 :=
  orderOf_eq_of_pow_and_pow_div_prime (by norm_num) root_pow (fun _ hq h => root_powers hq h)

/-- Every residue that is not zero is a power of 16807. -/
theorem root_powers_all {v : ZMod 2147483647} (hv : v ≠ 0) : ∃ j < 2147483646, (16807 : ZMod 2147483647) ^ j = v := by
  have h0 : (16807 : ZMod 2147483647) ≠ 0 := by
    intro h
    have := root_pow
    rw [h, zero_pow (by norm_num)] at this
    exact zero_ne_one this
  have ho : orderOf (Units.mk0 _ h0) = 2147483646 := by
    rw [← orderOf_units, Units.val_mk0, root_order]
  have htop : Subgroup.zpowers (Units.mk0 _ h0) = ⊤ := by
    apply Subgroup.eq_top_of_card_eq
    rw [Nat.card_zpowers, ho, Nat.card_eq_fintype_card, ZMod.card_units]
  have hm : Units.mk0 v hv ∈ Subgroup.zpowers (Units.mk0 _ h0) := by rw [htop]; trivial
  rw [mem_zpowers_iff_mem_range_orderOf, ho] at hm
  simp only [Finset.mem_image, Finset.mem_range] at hm
  obtain ⟨j, hj, e⟩ := hm
  refine ⟨j, hj, ?_⟩
  have := congrArg Units.val e
  simpa using this

theorem next_iterate (j g : Nat) : ((next^[j] g : Nat) : ZMod 2147483647) = 16807 ^ j * g := by
  induction j generalizing g with
  | zero => simp
  | succ j ih =>
    rw [Function.iterate_succ_apply, ih]
    unfold next
    rw [ZMod.natCast_mod, Nat.cast_mul, pow_succ]
    push_cast
    ring

theorem iterate_state {g : Nat} (hg : State g) (j : Nat) : State (next^[j] g) := by
  induction j generalizing g with
  | zero => exact hg
  | succ j ih => exact ih (next_state hg)

theorem cast_inj {g t : Nat} (hg : State g) (ht : State t) (h : (g : ZMod 2147483647) = t) : g = t := by
  have := (ZMod.natCast_eq_natCast_iff' _ _ _).mp h
  rwa [Nat.mod_eq_of_lt hg.2, Nat.mod_eq_of_lt ht.2] at this

theorem cast_ne {g : Nat} (hg : State g) : (g : ZMod 2147483647) ≠ 0 := by
  intro h
  have := (ZMod.natCast_eq_zero_iff _ _).mp h
  exact absurd (Nat.le_of_dvd hg.1 this) (not_le.mpr hg.2)

/-- The engine runs through all its states. -/
theorem reach {g t : Nat} (hg : State g) (ht : State t) : ∃ j < 2147483646, next^[j] g = t := by
  obtain ⟨j, hj, e⟩ := root_powers_all (v := (t : ZMod 2147483647) * (g : ZMod 2147483647)⁻¹)
    (mul_ne_zero (cast_ne ht) (inv_ne_zero (cast_ne hg)))
  refine ⟨j, hj, cast_inj (iterate_state hg j) ht ?_⟩
  rw [next_iterate, e, mul_assoc, inv_mul_cancel₀ (cast_ne hg), mul_one]

theorem next_period {g : Nat} (hg : State g) : next^[2147483646] g = g := by
  apply cast_inj (iterate_state hg _) hg
  rw [next_iterate, root_pow, one_mul]

theorem next_periods {g : Nat} (hg : State g) (i j : Nat) : next^[j + 2147483646 * i] g = next^[j] g := by
  rw [Function.iterate_add_apply]
  congr 1
  induction i with
  | zero => rfl
  | succ i ih => rw [Nat.mul_succ, Function.iterate_add_apply, next_period hg, ih]

/-- Four steps at a time the engine comes by one of two neighbouring states. -/
theorem reach_four {g t : Nat} (hg : State g) (ht : State t) :
    ∃ k < 2147483646, next^[4 * k] g = t ∨ next^[4 * k] g = next t := by
  have even : ∀ i u, next^[2 * i] g = u → ∃ k < 2147483646, next^[4 * k] g = u := by
    intro i u hi
    refine ⟨i * 536870912 % 1073741823, by omega, ?_⟩
    have e : ∃ a, 4 * (i * 536870912) = 2 * i + 2147483646 * a := ⟨i, by omega⟩
    have e' : ∃ b, 4 * (i * 536870912) = 4 * (i * 536870912 % 1073741823) + 2147483646 * b :=
      ⟨2 * (i * 536870912 / 1073741823), by omega⟩
    obtain ⟨a, ha⟩ := e
    obtain ⟨b, hb⟩ := e'
    rw [← hi, ← next_periods hg b, ← hb, ha, next_periods hg]
  obtain ⟨j, -, e⟩ := reach hg ht
  rcases Nat.even_or_odd' j with ⟨i, h | h⟩
  · obtain ⟨k, hk, h'⟩ := even i t (by rw [← h, e])
    exact ⟨k, hk, Or.inl h'⟩
  · obtain ⟨k, hk, h'⟩ := even (i + 1) (next t) (by
      rw [show 2 * (i + 1) = j + 1 by omega, Function.iterate_succ_apply', e])
    exact ⟨k, hk, Or.inr h'⟩

end Spoc.Noise
