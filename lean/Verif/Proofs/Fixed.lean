import Verif.Base.Fixed
import Verif.Spec.Info
import Verif.Proofs.Nearest
import Verif.Proofs.ToolPoints

/-!
# Lemmas about fixed-point output and about maps with strings as keys
-/

namespace Spoc.Text

open Spec

/-! ## Maps -/

variable {β : Type}

theorem lookup_mapSet (m : List (Str × β)) (k k' : Str) (v : β) :
    (mapSet m k v).lookup k' = if k' = k then some v else m.lookup k' := by
  induction m with
  | nil =>
    unfold mapSet
    rw [List.lookup_cons, List.lookup_nil]
    by_cases h : k' = k
    · simp [h]
    · rw [if_neg h, beq_false_of_ne h]
  | cons e r ih =>
    obtain ⟨k1, v1⟩ := e
    unfold mapSet
    by_cases h1 : strLt k k1 = true
    · rw [if_pos h1, List.lookup_cons]
      by_cases h : k' = k
      · simp [h]
      · rw [if_neg h, beq_false_of_ne h]
    · rw [if_neg h1]
      by_cases h2 : k = k1
      · rw [if_pos h2, List.lookup_cons, List.lookup_cons]
        subst h2
        by_cases h : k' = k
        · simp [h]
        · rw [if_neg h, beq_false_of_ne h]
      · rw [if_neg h2, List.lookup_cons, List.lookup_cons, ih]
        by_cases h : k' = k1
        · subst h
          simp [Ne.symm h2]
        · rw [beq_false_of_ne h]

theorem lookup_foldl_mapSet (l : List (Str × β)) (m : List (Str × β)) (k : Str) :
    (l.foldl (fun m e => mapSet m e.1 e.2) m).lookup k = ((l.reverse.lookup k).or (m.lookup k)) := by
  induction l generalizing m with
  | nil => simp
  | cons e r ih =>
    rw [List.foldl_cons, ih, lookup_mapSet, List.reverse_cons, List.lookup_append]
    obtain ⟨k1, v1⟩ := e
    by_cases h : k = k1
    · subst h
      simp
    · simp only [if_neg h]
      rw [List.lookup_cons, List.lookup_nil, beq_false_of_ne h]
      simp

theorem lookup_mapOf (l : List (Str × β)) (k : Str) : (mapOf l).lookup k = l.reverse.lookup k := by
  unfold mapOf
  rw [lookup_foldl_mapSet]
  simp

/-- Without repeated keys the map contains exactly the entries assigned. -/
theorem mapSet_perm (m : List (Str × β)) (k : Str) (v : β) (h : ∀ e ∈ m, e.1 ≠ k) : (mapSet m k v).Perm ((k, v) :: m) := by
  induction m with
  | nil => exact List.Perm.refl _
  | cons e r ih =>
    obtain ⟨k1, v1⟩ := e
    unfold mapSet
    by_cases h1 : strLt k k1 = true
    · rw [if_pos h1]
    · rw [if_neg h1, if_neg (fun e => h (k1, v1) (by simp) e.symm)]
      exact ((ih (fun e he => h e (by simp [he]))).cons _).trans (List.Perm.swap _ _ _)

theorem mapOf_perm (l : List (Str × β)) (h : (l.map (·.1)).Nodup) : (mapOf l).Perm l := by
  unfold mapOf
  have key : ∀ (l m : List (Str × β)), ((m ++ l).map (·.1)).Nodup →
      (l.foldl (fun m e => mapSet m e.1 e.2) m).Perm (m ++ l) := by
    intro l
    induction l with
    | nil => intro m _; simp
    | cons e r ih =>
      intro m hm
      rw [List.foldl_cons]
      have h1 : (mapSet m e.1 e.2).Perm (e :: m) := by
        apply mapSet_perm
        intro e' he' heq
        rw [List.map_append, List.map_cons, List.nodup_append] at hm
        exact hm.2.2 e'.1 (List.mem_map_of_mem he') e.1 (by simp) heq
      have h2 : (mapSet m e.1 e.2 ++ r).Perm (m ++ e :: r) :=
        (h1.append_right r).trans (by
          rw [List.cons_append]
          exact (List.perm_middle).symm)
      exact (ih _ ((h2.map (·.1)).nodup_iff.mpr hm)).trans h2
  exact key l [] h

/-! ## Padding -/

theorem padLeft_digits {s : Str} (w : Nat) (h : ∀ c ∈ s, isDigit c = true) : ∀ c ∈ padLeft w s, isDigit c = true := by
  intro c hc
  unfold padLeft at hc
  rw [List.mem_append] at hc
  rcases hc with hc | hc
  · rw [(List.mem_replicate.mp hc).2]; decide
  · exact h c hc

theorem decVal_padLeft (w : Nat) (s : Str) : decVal (padLeft w s) = decVal s := by
  unfold padLeft
  rw [decVal_append, decVal_zeros _ (fun c hc => (List.mem_replicate.mp hc).2)]
  omega

theorem length_padLeft (w : Nat) (s : Str) : (padLeft w s).length = max w s.length := by
  unfold padLeft
  rw [List.length_append, List.length_replicate]
  omega

/-! ## Fixed-point output -/

theorem showNat_length_le {n P : Nat} (hP : 0 < P) (h : n < 10 ^ P) : (showNat n).length ≤ P := by
  rcases Nat.eq_zero_or_pos n with h0 | h0
  · subst h0
    have : (showNat 0).length = 1 := by decide
    omega
  · by_contra hc
    have h1 := (showNat_bounds h0).1
    have h2 : 10 ^ P ≤ 10 ^ ((showNat n).length - 1) := Nat.pow_le_pow_right (by norm_num) (by omega)
    omega

/-- The numeral printed for a finite number. -/
def fixedNumeral (P : Nat) (x : F64) : Numeral :=
  let n := F64.divHE (F64.fixMag x.mag * 10 ^ P) F64.one1074
  { sg := if x.neg then ['-'] else [], ip := showNat (n / 10 ^ P), fp := some (padLeft P (showNat (n % 10 ^ P))) }

theorem showFixed_numeral {P : Nat} (hP : 0 < P) {x : F64} (hf : x.isFinite = true) :
    (fixedNumeral P x).Ok ∧ showFixed P x = (fixedNumeral P x).text
      ∧ |(fixedNumeral P x).value - x.val| ≤ 1 / 2 / 10 ^ P := by
  have hfin : x.mag < F64.infMag := by simpa [F64.isFinite] using hf
  refine ⟨?_, ?_, ?_⟩
  · refine ⟨?_, showNat_digits _, padLeft_digits P (showNat_digits _), ?_, ?_⟩
    · unfold fixedNumeral Numeral.IsSign
      cases x.neg <;> simp
    · intro h
      exact showNat_ne _ (List.append_eq_nil_iff.mp h).1
    · intro e s d h
      unfold fixedNumeral at h
      simp at h
  · unfold showFixed
    have h1 : x.isNaN = false := by unfold F64.isNaN; simp; omega
    have h2 : x.isInf = false := by unfold F64.isInf; simp; omega
    simp only [h1, h2, Bool.false_eq_true, if_false]
    unfold fixedNumeral Numeral.text Numeral.fracText Numeral.expText
    simp only [List.append_nil]
  · unfold Numeral.value Numeral.mantissa Numeral.exponent Numeral.frac Numeral.negative fixedNumeral
    simp only [Option.getD_some]
    rw [decVal_append, decVal_showNat, decVal_padLeft, decVal_showNat, length_padLeft,
      max_eq_left (showNat_length_le hP (Nat.mod_lt _ (by positivity))), F64.val_eq]
    rw [Nat.div_add_mod']
    have hU : 0 < F64.one1074 := F64.one1074_pos
    have hh := F64.divHE_half (F64.fixMag x.mag * 10 ^ P) hU
    have hU' : (0 : ℝ) < (F64.one1074 : ℝ) := by exact_mod_cast hU
    generalize F64.divHE (F64.fixMag x.mag * 10 ^ P) F64.one1074 = n at *
    generalize F64.fixMag x.mag = A at *
    generalize F64.one1074 = U at *
    have hh' : |((A * 10 ^ P : ℕ) : ℝ) / U - n| ≤ 1 / 2 := by
      have h : (((|((A * 10 ^ P : ℕ) : ℚ) / U - n| : ℚ)) : ℝ) ≤ ((1 / 2 : ℚ) : ℝ) := by exact_mod_cast hh
      push_cast at h ⊢
      exact h
    have h10 : (0 : ℝ) < 10 ^ P := by positivity
    have hz : (10 : ℝ) ^ ((0 : ℤ) - (P : ℤ)) = 1 / 10 ^ P := by
      rw [zero_sub, zpow_neg, zpow_natCast, one_div]
    rw [hz]
    have key : |(n : ℝ) * (1 / 10 ^ P) - A / U| ≤ 1 / 2 / 10 ^ P := by
      rw [le_div_iff₀ h10, abs_sub_comm, ← abs_of_pos h10, ← abs_mul, abs_of_pos h10]
      have : (A / U - (n : ℝ) * (1 / 10 ^ P)) * 10 ^ P = ((A * 10 ^ P : ℕ) : ℝ) / U - n := by
        push_cast
        field_simp
      rw [this]
      exact hh'
    cases x.neg
    · simp only [Bool.false_eq_true, if_false, one_mul, reduceCtorEq, decide_false]
      exact key
    · simp only [if_true, decide_true, neg_mul, one_mul, ← neg_add_eq_sub]
      have : |-(-(A / U : ℝ)) + -((n : ℝ) * (1 / 10 ^ P))| = |(n : ℝ) * (1 / 10 ^ P) - A / U| := by
        rw [abs_sub_comm]; congr 1; ring
      rw [this]
      exact key

/-- An integer as a numeral. -/
def natNumeral (n : Nat) : Numeral := { ip := showNat n }

theorem showNat_numeral (n : Nat) : (natNumeral n).Ok ∧ showNat n = (natNumeral n).text ∧ (natNumeral n).value = n := by
  refine ⟨⟨Or.inl rfl, showNat_digits _, ?_, ?_, ?_⟩, ?_, ?_⟩
  · intro c hc; unfold natNumeral Numeral.frac at hc; simp at hc
  · intro h; exact showNat_ne _ (List.append_eq_nil_iff.mp h).1
  · intro e s d h; unfold natNumeral at h; simp at h
  · unfold natNumeral Numeral.text Numeral.fracText Numeral.expText; simp
  · unfold natNumeral Numeral.value Numeral.mantissa Numeral.exponent Numeral.frac Numeral.negative
    simp only [Option.getD_none, List.append_nil, decVal_showNat]
    simp

/-- An integer with sign as a numeral. -/
def intNumeral (n : Int) : Numeral := { sg := if n < 0 then ['-'] else [], ip := showNat n.natAbs }

theorem showInt_numeral (n : Int) : (intNumeral n).Ok ∧ showInt n = (intNumeral n).text ∧ (intNumeral n).value = n := by
  refine ⟨⟨?_, showNat_digits _, ?_, ?_, ?_⟩, ?_, ?_⟩
  · unfold intNumeral Numeral.IsSign
    by_cases h : n < 0 <;> simp [h]
  · intro c hc; unfold intNumeral Numeral.frac at hc; simp at hc
  · intro h; exact showNat_ne _ (List.append_eq_nil_iff.mp h).1
  · intro e s d h; unfold intNumeral at h; simp at h
  · unfold intNumeral Numeral.text Numeral.fracText Numeral.expText showInt
    by_cases h : n < 0 <;> simp [h]
  · unfold intNumeral Numeral.value Numeral.mantissa Numeral.exponent Numeral.frac Numeral.negative
    simp only [Option.getD_none, List.append_nil, decVal_showNat]
    by_cases h : n < 0
    · simp only [h, if_true, decide_true, List.length_nil]
      have : (n : ℝ) = -((n.natAbs : ℤ) : ℝ) := by
        have : n = -(n.natAbs : ℤ) := by omega
        exact_mod_cast this
      rw [this]
      simp
    · simp only [h, if_false, List.length_nil]
      have : (n : ℝ) = ((n.natAbs : ℤ) : ℝ) := by
        have : n = (n.natAbs : ℤ) := by omega
        exact_mod_cast this
      rw [this]
      simp

end Spoc.Text
