import Verif.Proofs.Quantize
import Verif.Proofs.ToolPoints
import Verif.Proofs.Transform
import Verif.Proofs.Voxel
import Verif.Spec.Truncated

/-!
Lemmas for C107.
-/

namespace Spoc.F64

open Spec

theorem truncated_iff {y : F64} {k : Nat} : Truncated y.val k ↔ y.trunc = (k : Int) := by
  obtain ⟨h1, h2, h3, h4⟩ := trunc_abs y
  have hs : 0 ≤ y.fv ↔ 0 ≤ y.val := by
    unfold val
    rw [le_div_iff₀ one1074_pos', zero_mul]
    exact_mod_cast Iff.rfl
  unfold Truncated
  generalize y.val = v at *
  generalize y.trunc = t at *
  by_cases hv : 0 ≤ v
  · have ht := h3 (hs.mpr hv)
    have ht' : (0 : ℝ) ≤ (t : ℝ) := by exact_mod_cast ht
    rw [abs_of_nonneg hv, abs_of_nonneg ht'] at h1 h2
    rw [abs_of_nonneg hv]
    constructor
    · rintro ⟨a, b⟩
      have b' := (abs_lt.mp b).2
      have c1 : (t : ℝ) < (k : ℤ) + 1 := by push_cast; linarith only [h1, b']
      have c2 : ((k : ℤ) : ℝ) < t + 1 := by push_cast; linarith only [h2, a]
      have d1 : t < (k : ℤ) + 1 := by exact_mod_cast c1
      have d2 : (k : ℤ) < t + 1 := by exact_mod_cast c2
      omega
    · intro e
      have e' : (t : ℝ) = (k : ℝ) := by rw [e]; norm_cast
      rw [e'] at h1 h2
      exact ⟨h1, abs_lt.mpr ⟨by linarith only [h1], by linarith only [h2]⟩⟩
  · have hv' := not_le.mp hv
    have ht : t ≤ 0 := h4 (le_of_lt (not_le.mp (fun h => hv (hs.mp h))))
    have ht' : (t : ℝ) ≤ 0 := by exact_mod_cast ht
    rw [abs_of_neg hv', abs_of_nonpos ht'] at h1 h2
    rw [abs_of_neg hv']
    have hk0 : (0 : ℝ) ≤ (k : ℝ) := Nat.cast_nonneg k
    constructor
    · rintro ⟨a, b⟩
      have b' := (abs_lt.mp b).1
      have c1 : (k : ℝ) < ((1 : ℕ) : ℝ) := by push_cast; linarith only [b', hv']
      have d1 : k < 1 := by exact_mod_cast c1
      have c2 : ((-1 : ℤ) : ℝ) < (t : ℝ) := by push_cast; linarith only [b', h1, hk0]
      have d2 : -1 < t := by exact_mod_cast c2
      omega
    · intro e
      have hk : k = 0 := by omega
      subst hk
      have e' : (t : ℝ) = 0 := by rw [e]; norm_cast
      rw [e'] at h2
      rw [Nat.cast_zero]
      exact ⟨by linarith only [hv'], abs_lt.mpr ⟨by linarith only [h2], by linarith only [hv']⟩⟩

theorem inf_trunc (s : Bool) : ¬ (0 ≤ (inf s).trunc ∧ (inf s).trunc < 2 ^ 64) := by
  cases s <;> decide +kernel

theorem finite_of_trunc {y : F64} (hn : y.isNaN = false) (h0 : 0 ≤ y.trunc) (h1 : y.trunc < 2 ^ 64) : y.isFinite = true := by
  by_contra hc
  have e := eq_inf_of_not_finite hn (by simpa using hc)
  rw [e] at h0 h1
  exact inf_trunc _ ⟨h0, h1⟩

end Spoc.F64

namespace Spoc.Transform

open Spec F64 AppUtils Props

/-- The three conversions to an unsigned integer. -/
theorem conv32 {y : F64} (hn : y.isNaN = false) :
    (∀ k, Truncated y.val k → k < 2 ^ 32 → F64.toU32 y = .ok (UInt32.ofNat k))
      ∧ ((¬ ∃ k, Truncated y.val k ∧ k < 2 ^ 32) → ∃ e, F64.toU32 y = .ub e) := by
  refine ⟨fun k hk hlt => ?_, fun h => ?_⟩
  · have e := truncated_iff.mp hk
    have hf := finite_of_trunc hn (by omega) (by omega)
    unfold F64.toU32
    rw [if_pos hf, if_pos ⟨by omega, by omega⟩, e]
    rfl
  · unfold F64.toU32
    split
    · split
      · rename_i h2
        exact absurd ⟨y.trunc.toNat, truncated_iff.mpr (by omega), by omega⟩ h
      · exact ⟨_, rfl⟩
    · exact ⟨_, rfl⟩

theorem conv16 {y : F64} (hn : y.isNaN = false) :
    (∀ k, Truncated y.val k → k < 2 ^ 16 → F64.toU16 y = .ok (UInt16.ofNat k))
      ∧ ((¬ ∃ k, Truncated y.val k ∧ k < 2 ^ 16) → ∃ e, F64.toU16 y = .ub e) := by
  refine ⟨fun k hk hlt => ?_, fun h => ?_⟩
  · have e := truncated_iff.mp hk
    have hf := finite_of_trunc hn (by omega) (by omega)
    unfold F64.toU16
    rw [if_pos hf, if_pos ⟨by omega, by omega⟩, e]
    rfl
  · unfold F64.toU16
    split
    · split
      · rename_i h2
        exact absurd ⟨y.trunc.toNat, truncated_iff.mpr (by omega), by omega⟩ h
      · exact ⟨_, rfl⟩
    · exact ⟨_, rfl⟩

theorem conv64 {y : F64} (hn : y.isNaN = false) :
    (∀ k, Truncated y.val k → k < 2 ^ 64 → F64.toU64 y = .ok (UInt64.ofNat k))
      ∧ ((¬ ∃ k, Truncated y.val k ∧ k < 2 ^ 64) → ∃ e, F64.toU64 y = .ub e) := by
  refine ⟨fun k hk hlt => ?_, fun h => ?_⟩
  · have e := truncated_iff.mp hk
    have hf := finite_of_trunc hn (by omega) (by omega)
    unfold F64.toU64
    rw [if_pos hf, if_pos ⟨by omega, by omega⟩, e]
    rfl
  · unfold F64.toU64
    split
    · split
      · rename_i h2
        exact absurd ⟨y.trunc.toNat, truncated_iff.mpr (by omega), by omega⟩ h
      · exact ⟨_, rfl⟩
    · exact ⟨_, rfl⟩

/-- What the set command does to a record. -/
theorem setField_spec {t : Str} {f : Field} (h : Selects t f) (ef : Nat) {y : F64} (hn : y.isNaN = false) (m : Nat) (p : PointRecord) :
    (f.get p = none → ∃ e, setOp t y ef m p = .throw e)
      ∧ (f.isCoord = true → ∃ q, setOp t y ef m p = .ok q ∧ SameExcept [f] p q ∧ f.get q = some y.bits.toNat)
      ∧ (f.isCoord = false → f.get p ≠ none →
          (∀ k, Truncated y.val k → k < 2 ^ f.width → ∃ q, setOp t y ef m p = .ok q ∧ SameExcept [f] p q ∧ f.get q = some k)
          ∧ ((¬ ∃ k, Truncated y.val k ∧ k < 2 ^ f.width) → ∃ e, setOp t y ef m p = .ub e)) := by
  have h32 := conv32 hn
  have h16 := conv16 hn
  have h64 := conv64 hn
  cases h with
  | x => exact ⟨by simp [Field.get], fun _ => ⟨_, rfl, by apply same_plain <;> simp, rfl⟩, by simp [Field.isCoord]⟩
  | y => exact ⟨by simp [Field.get], fun _ => ⟨_, rfl, by apply same_plain <;> simp, rfl⟩, by simp [Field.isCoord]⟩
  | z => exact ⟨by simp [Field.get], fun _ => ⟨_, rfl, by apply same_plain <;> simp, rfl⟩, by simp [Field.isCoord]⟩
  | @e _ n h1 h2 =>
    refine ⟨fun hnone => ?_, by simp [Field.isCoord], fun _ hsome => ?_⟩
    · simp only [Field.get, Option.map_eq_none_iff, List.getElem?_eq_none_iff] at hnone
      simp only [setOp, h1, h2]
      rw [if_pos hnone]
      exact ⟨_, rfl⟩
    · have hlt : n < p.extra.length := by
        simp only [Field.get, ne_eq, Option.map_eq_none_iff, List.getElem?_eq_none_iff] at hsome
        omega
      simp only [setOp, h1, h2]
      rw [if_neg (by omega)]
      refine ⟨fun k hk hl => ?_, fun hno => ?_⟩
      · rw [h64.1 k hk hl]
        refine ⟨_, rfl, same_extra _ _ _, ?_⟩
        rw [get_set_extra hlt, UInt64.toNat_ofNat']
        exact congrArg some (Nat.mod_eq_of_lt hl)
      · obtain ⟨e, he⟩ := h64.2 hno
        rw [he]
        exact ⟨e, rfl⟩
  | c =>
    refine ⟨by simp [Field.get], by simp [Field.isCoord], fun _ _ => ⟨fun k hk hl => ?_, fun hno => ?_⟩⟩
    · refine ⟨{ p with c := UInt32.ofNat k }, ?_, by apply same_plain <;> simp, ?_⟩
      · change (F64.toU32 y >>= _) = _
        rw [h32.1 k hk hl]; rfl
      · simp only [Field.get, UInt32.toNat_ofNat']
        exact congrArg some (Nat.mod_eq_of_lt hl)
    · obtain ⟨e, he⟩ := h32.2 hno
      refine ⟨e, ?_⟩
      change (F64.toU32 y >>= _) = _
      rw [he]; rfl
  | p =>
    refine ⟨by simp [Field.get], by simp [Field.isCoord], fun _ _ => ⟨fun k hk hl => ?_, fun hno => ?_⟩⟩
    · refine ⟨{ p with p := UInt32.ofNat k }, ?_, by apply same_plain <;> simp, ?_⟩
      · change (F64.toU32 y >>= _) = _
        rw [h32.1 k hk hl]; rfl
      · simp only [Field.get, UInt32.toNat_ofNat']
        exact congrArg some (Nat.mod_eq_of_lt hl)
    · obtain ⟨e, he⟩ := h32.2 hno
      refine ⟨e, ?_⟩
      change (F64.toU32 y >>= _) = _
      rw [he]; rfl
  | i =>
    refine ⟨by simp [Field.get], by simp [Field.isCoord], fun _ _ => ⟨fun k hk hl => ?_, fun hno => ?_⟩⟩
    · refine ⟨{ p with i := UInt16.ofNat k }, ?_, by apply same_plain <;> simp, ?_⟩
      · change (F64.toU16 y >>= _) = _
        rw [h16.1 k hk hl]; rfl
      · simp only [Field.get, UInt16.toNat_ofNat']
        exact congrArg some (Nat.mod_eq_of_lt hl)
    · obtain ⟨e, he⟩ := h16.2 hno
      refine ⟨e, ?_⟩
      change (F64.toU16 y >>= _) = _
      rw [he]; rfl
  | r =>
    refine ⟨by simp [Field.get], by simp [Field.isCoord], fun _ _ => ⟨fun k hk hl => ?_, fun hno => ?_⟩⟩
    · refine ⟨{ p with r := UInt16.ofNat k }, ?_, by apply same_plain <;> simp, ?_⟩
      · change (F64.toU16 y >>= _) = _
        rw [h16.1 k hk hl]; rfl
      · simp only [Field.get, UInt16.toNat_ofNat']
        exact congrArg some (Nat.mod_eq_of_lt hl)
    · obtain ⟨e, he⟩ := h16.2 hno
      refine ⟨e, ?_⟩
      change (F64.toU16 y >>= _) = _
      rw [he]; rfl
  | g =>
    refine ⟨by simp [Field.get], by simp [Field.isCoord], fun _ _ => ⟨fun k hk hl => ?_, fun hno => ?_⟩⟩
    · refine ⟨{ p with g := UInt16.ofNat k }, ?_, by apply same_plain <;> simp, ?_⟩
      · change (F64.toU16 y >>= _) = _
        rw [h16.1 k hk hl]; rfl
      · simp only [Field.get, UInt16.toNat_ofNat']
        exact congrArg some (Nat.mod_eq_of_lt hl)
    · obtain ⟨e, he⟩ := h16.2 hno
      refine ⟨e, ?_⟩
      change (F64.toU16 y >>= _) = _
      rw [he]; rfl
  | b =>
    refine ⟨by simp [Field.get], by simp [Field.isCoord], fun _ _ => ⟨fun k hk hl => ?_, fun hno => ?_⟩⟩
    · refine ⟨{ p with b := UInt16.ofNat k }, ?_, by apply same_plain <;> simp, ?_⟩
      · change (F64.toU16 y >>= _) = _
        rw [h16.1 k hk hl]; rfl
      · simp only [Field.get, UInt16.toNat_ofNat']
        exact congrArg some (Nat.mod_eq_of_lt hl)
    · obtain ⟨e, he⟩ := h16.2 hno
      refine ⟨e, ?_⟩
      change (F64.toU16 y >>= _) = _
      rw [he]; rfl

/-- What the copy command does to a record. -/
theorem copyFieldOp_spec {t1 t2 : Str} {f1 f2 : Field} (h1 : Selects t1 f1) (h2 : Selects t2 f2) (c1 : f1.isCoord = false)
    (c2 : f2.isCoord = false) (ef : Nat) :
    ∃ op, copyFieldOp t1 t2 ef = .ok op ∧ ∀ m p,
      ((f1.get p = none ∨ f2.get p = none) → ∃ e, op m p = .throw e)
      ∧ (∀ v, f1.get p = some v → f2.get p ≠ none →
          ∃ q, op m p = .ok q ∧ SameExcept [f2] p q ∧ f2.get q = some (v % 2 ^ f2.width)) := by
  refine ⟨fun _ p => (do
      let src ← copySrc t1 (extraIndex t1 ef) p
      copyDst t2 (extraIndex t2 ef) src p), ?_, fun m p => ⟨fun h => ?_, fun v hv hne => ?_⟩⟩
  · unfold copyFieldOp
    rw [isXYZ_iff h1, isXYZ_iff h2, c1, c2]
    rfl
  · dsimp only
    have hsrc : (∃ v, copySrc t1 (extraIndex t1 ef) p = .ok v) ∨ ∃ e, copySrc t1 (extraIndex t1 ef) p = .throw e := by
      unfold copySrc
      split
      all_goals first
        | exact Or.inl ⟨_, rfl⟩
        | (split; exact Or.inr ⟨_, rfl⟩; exact Or.inl ⟨_, rfl⟩)
    rcases hsrc with ⟨v, hv⟩ | ⟨e, he⟩
    · have hg := (copySrc_spec h1 c1 ef p v).mp hv
      have h' : f2.get p = none := by
        rcases h with h | h
        · rw [h] at hg; simp at hg
        · exact h
      rw [hv, Res.ok_bind]
      cases h2 with
      | e l x =>
        simp only [Field.get, Option.map_eq_none_iff, List.getElem?_eq_none_iff] at h'
        simp only [copyDst, l, x]
        rw [if_pos h']
        exact ⟨_, rfl⟩
      | _ => simp [Field.get] at h'
    · rw [he]
      exact ⟨e, rfl⟩
  · dsimp only
    rw [(copySrc_spec h1 c1 ef p v).mpr hv, Res.ok_bind]
    have hdst : ∃ q, copyDst t2 (extraIndex t2 ef) v p = .ok q := by
      cases h2 with
      | e l x =>
        simp only [Field.get, ne_eq, Option.map_eq_none_iff, List.getElem?_eq_none_iff] at hne
        simp only [copyDst, l, x]
        rw [if_neg hne]
        exact ⟨_, rfl⟩
      | x => simp [Field.isCoord] at c2
      | y => simp [Field.isCoord] at c2
      | z => simp [Field.isCoord] at c2
      | _ => exact ⟨_, rfl⟩
    obtain ⟨q, hq⟩ := hdst
    exact ⟨q, hq, copyDst_spec h2 c2 ef v p q hq⟩

end Spoc.Transform
