import Verif.Model.Info
import Verif.Proofs.Fixed
import Verif.Proofs.ResList
import Mathlib.Algebra.BigOperators.Group.List.Basic
import Mathlib.Data.List.Nodup

/-!
# Lemmas about the info application
-/

namespace Spoc.Info

open Text Spec

/-! ## Class counts -/

theorem lookup_increment (m : List (Int × Nat)) (c c' : Int) :
    (increment m c).lookup c' = if c' = c then some ((m.lookup c).getD 0 + 1) else m.lookup c' := by
  induction m with
  | nil =>
    unfold increment
    rw [List.lookup_cons, List.lookup_nil]
    by_cases h : c' = c
    · simp [h]
    · rw [if_neg h, beq_false_of_ne h]
  | cons e r ih =>
    obtain ⟨c1, n⟩ := e
    unfold increment
    by_cases h1 : c1 = c
    · subst h1
      rw [if_pos rfl, List.lookup_cons, List.lookup_cons]
      by_cases h : c' = c1
      · subst h; simp
      · rw [if_neg h, beq_false_of_ne h, List.lookup_cons, beq_false_of_ne h]
    · rw [if_neg h1, List.lookup_cons, ih, List.lookup_cons]
      by_cases h : c' = c1
      · subst h
        simp [h1]
      · simp only [List.lookup_cons, beq_false_of_ne h, beq_false_of_ne (Ne.symm h1)]

theorem mem_increment (m : List (Int × Nat)) (c : Int) (k : Int) :
    k ∈ (increment m c).map (·.1) ↔ k = c ∨ k ∈ m.map (·.1) := by
  induction m with
  | nil => unfold increment; simp
  | cons e r ih =>
    obtain ⟨c1, n⟩ := e
    unfold increment
    by_cases h1 : c1 = c
    · subst h1
      rw [if_pos rfl]
      simp
    · rw [if_neg h1, List.map_cons, List.mem_cons, ih, List.map_cons, List.mem_cons]
      tauto

theorem nodup_increment (m : List (Int × Nat)) (c : Int) (h : (m.map (·.1)).Nodup) : ((increment m c).map (·.1)).Nodup := by
  induction m with
  | nil => unfold increment; simp
  | cons e r ih =>
    obtain ⟨c1, n⟩ := e
    unfold increment
    rw [List.map_cons, List.nodup_cons] at h
    by_cases h1 : c1 = c
    · rw [if_pos h1, List.map_cons, List.nodup_cons]
      exact h
    · rw [if_neg h1, List.map_cons, List.nodup_cons]
      refine ⟨?_, ih h.2⟩
      intro hm
      rcases (mem_increment r c c1).mp hm with h2 | h2
      · exact h1 h2
      · exact h.1 h2

theorem sum_increment (m : List (Int × Nat)) (c : Int) : ((increment m c).map (·.2)).sum = (m.map (·.2)).sum + 1 := by
  induction m with
  | nil => unfold increment; simp
  | cons e r ih =>
    obtain ⟨c1, n⟩ := e
    unfold increment
    by_cases h1 : c1 = c
    · rw [if_pos h1]; simp; omega
    · rw [if_neg h1, List.map_cons, List.sum_cons, ih, List.map_cons, List.sum_cons]; omega

/-- The counts before they are put in order. -/
def counts (cs : List UInt32) : List (Int × Nat) := cs.foldl (fun m c => increment m (toInt c)) []

theorem counts_append (cs : List UInt32) (c : UInt32) : counts (cs ++ [c]) = increment (counts cs) (toInt c) := by
  unfold counts
  rw [List.foldl_append]
  rfl

theorem toInt_inj {c d : UInt32} (h : toInt c = toInt d) : c = d := by
  unfold toInt at h
  have hc := c.toNat_lt
  have hd := d.toNat_lt
  apply UInt32.toNat_inj.mp
  rw [Int.bmod_def, Int.bmod_def] at h
  split at h <;> split at h <;> omega

theorem toInt_small {c : UInt32} (h : c.toNat < 2 ^ 31) : toInt c = c.toNat := by
  unfold toInt
  rw [Int.bmod_def]
  split <;> omega

theorem toInt_big {c : UInt32} (h : 2 ^ 31 ≤ c.toNat) : toInt c = (c.toNat : Int) - 2 ^ 32 := by
  unfold toInt
  have hc := c.toNat_lt
  rw [Int.bmod_def]
  split <;> omega

theorem counts_spec (cs : List UInt32) :
    (∀ c, (counts cs).lookup (toInt c) = if c ∈ cs then some (cs.count c) else none)
      ∧ (∀ k, k ∈ (counts cs).map (·.1) ↔ ∃ c ∈ cs, toInt c = k)
      ∧ ((counts cs).map (·.1)).Nodup ∧ ((counts cs).map (·.2)).sum = cs.length := by
  induction cs using List.reverseRecOn with
  | nil => simp [counts]
  | append_singleton cs d ih =>
    obtain ⟨h1, h2, h3, h4⟩ := ih
    rw [counts_append]
    refine ⟨?_, ?_, nodup_increment _ _ h3, by rw [sum_increment, h4]; simp⟩
    · intro c
      rw [lookup_increment, h1 d, h1 c]
      by_cases h : c = d
      · subst h
        rw [if_pos rfl, List.count_append]
        by_cases hm : c ∈ cs
        · simp [hm]
        · simp [hm, List.count_eq_zero_of_not_mem hm]
      · rw [if_neg (fun e => h (toInt_inj e)), List.count_append]
        have h0 : List.count c [d] = 0 := List.count_eq_zero_of_not_mem (by simpa using h)
        rw [h0, Nat.add_zero]
        by_cases hm : c ∈ cs
        · rw [if_pos hm, if_pos (List.mem_append_left _ hm)]
        · rw [if_neg hm, if_neg (fun e => (List.mem_append.mp e).elim hm (fun e => h (List.mem_singleton.mp e)))]
    · intro k
      rw [mem_increment, h2]
      constructor
      · rintro (e | ⟨c, hc, e⟩)
        · exact ⟨d, List.mem_append_right _ (List.mem_singleton.mpr rfl), e.symm⟩
        · exact ⟨c, List.mem_append_left _ hc, e⟩
      · rintro ⟨c, hc, e⟩
        rcases List.mem_append.mp hc with hc | hc
        · exact Or.inr ⟨c, hc, e⟩
        · left; rw [← e, List.mem_singleton.mp hc]

/-! ## Labels -/

theorem classKey_nonneg {n : Nat} : classKey (n : Int) = padLeft 3 (showNat n) := by
  unfold classKey showInt
  rw [if_neg (by omega), Int.natAbs_natCast]

theorem mem_classKey_neg {n : Int} (h : n < 0) : '-' ∈ classKey n := by
  unfold classKey showInt padLeft
  rw [if_pos h]
  simp

theorem classKey_nonneg_digits (n : Nat) : ∀ c ∈ classKey (n : Int), isDigit c = true := by
  rw [classKey_nonneg]
  exact padLeft_digits 3 (showNat_digits n)

theorem tail_unique {a b : Nat} {s t : Str}
    (h : List.replicate a '0' ++ '-' :: s = List.replicate b '0' ++ '-' :: t) : s = t := by
  induction a generalizing b with
  | zero =>
    cases b with
    | zero => simpa using h
    | succ b => simp [List.replicate_succ] at h
  | succ a ih =>
    cases b with
    | zero => simp [List.replicate_succ] at h
    | succ b =>
      rw [List.replicate_succ, List.replicate_succ, List.cons_append, List.cons_append] at h
      exact ih (List.cons.inj h).2

theorem classKey_inj {m n : Int} (h : classKey m = classKey n) : m = n := by
  rcases lt_or_ge m 0 with hm | hm <;> rcases lt_or_ge n 0 with hn | hn
  · unfold classKey showInt padLeft at h
    rw [if_pos hm, if_pos hn] at h
    have := tail_unique h
    have := congrArg decVal this
    rw [decVal_showNat, decVal_showNat] at this
    omega
  · obtain ⟨k, rfl⟩ := Int.eq_ofNat_of_zero_le hn
    have h1 := mem_classKey_neg hm
    rw [h] at h1
    exact absurd (classKey_nonneg_digits k _ h1) (by decide)
  · obtain ⟨k, rfl⟩ := Int.eq_ofNat_of_zero_le hm
    have h1 := mem_classKey_neg hn
    rw [← h] at h1
    exact absurd (classKey_nonneg_digits k _ h1) (by decide)
  · obtain ⟨k, rfl⟩ := Int.eq_ofNat_of_zero_le hn
    obtain ⟨l, rfl⟩ := Int.eq_ofNat_of_zero_le hm
    rw [classKey_nonneg, classKey_nonneg] at h
    have := congrArg decVal h
    rw [decVal_padLeft, decVal_padLeft, decVal_showNat, decVal_showNat] at this
    omega

theorem nodup_keys (cs : List UInt32) : (((counts cs).map (fun e => (classKey e.1, e.2))).map (·.1)).Nodup := by
  rw [List.map_map]
  have : ((fun x => x.1) ∘ fun (e : Int × Nat) => (classKey e.1, e.2)) = classKey ∘ (·.1) := rfl
  rw [this, ← List.map_map]
  exact (counts_spec cs).2.2.1.map (fun _ _ h => classKey_inj h)

theorem classCountMap_perm (cs : List UInt32) :
    (classCountMap cs).Perm ((counts cs).map (fun e => (classKey e.1, e.2))) := mapOf_perm _ (nodup_keys cs)

theorem lookup_of_mem {κ β : Type} [BEq κ] [LawfulBEq κ] {l : List (κ × β)} (hn : (l.map (·.1)).Nodup) {k : κ} {v : β}
    (h : (k, v) ∈ l) : l.lookup k = some v := by
  induction l with
  | nil => simp at h
  | cons e r ih =>
    obtain ⟨k1, v1⟩ := e
    rw [List.map_cons, List.nodup_cons] at hn
    rw [List.lookup_cons]
    rcases List.mem_cons.mp h with h1 | h1
    · obtain ⟨rfl, rfl⟩ := Prod.mk.inj h1
      simp
    · have : k ≠ k1 := by
        rintro rfl
        exact hn.1 (List.mem_map_of_mem (f := (·.1)) h1)
      rw [beq_false_of_ne this]
      exact ih hn.2 h1

theorem mem_of_lookup {κ β : Type} [BEq κ] [LawfulBEq κ] {l : List (κ × β)} {k : κ} {v : β} (h : l.lookup k = some v) : (k, v) ∈ l := by
  induction l with
  | nil => simp at h
  | cons e r ih =>
    obtain ⟨k1, v1⟩ := e
    rw [List.lookup_cons] at h
    by_cases hk : k = k1
    · subst hk
      simp at h
      simp [h]
    · rw [beq_false_of_ne hk] at h
      exact List.mem_cons_of_mem _ (ih h)

/-! ## Names -/

theorem stoi_digits {s : Str} (hd : ∀ c ∈ s, isDigit c = true) (hne : s ≠ []) (hv : decVal s < 2 ^ 31) :
    stoi s = some ((decVal s : Int), s.length) := by
  have h : IsNumber s [] [] s [] := ⟨by simp, by simp, Or.inl rfl, hd, hne, noDigit_nil⟩
  unfold stoi
  rw [scanInt_of h]
  simp only [List.length_nil]
  rw [if_neg (show ¬ ([] : Str) = ['-'] by simp), if_pos (by constructor <;> omega)]
  simp

theorem lookup_small : ∀ c : Fin 256, (Asprs.classMap.lookup ((c.val : Nat) : Int)) = some (asprsName c.val) := by decide +kernel

theorem lookup_none {j : Int} (h : j < 0 ∨ 256 ≤ j) : Asprs.classMap.lookup j = none := by
  rw [List.lookup_eq_none_iff]
  intro e he
  have : 0 ≤ e.1 ∧ e.1 < 256 := by
    have key : ∀ e ∈ Asprs.classMap, 0 ≤ e.1 ∧ e.1 < 256 := by decide +kernel
    exact key e he
  have hne : j ≠ e.1 := by omega
  simpa using hne

theorem className_nat {n : Nat} (h : n < 2 ^ 31) : className (classKey (n : Int)) = .ok (asprsName n).toList := by
  unfold className
  have hne : classKey (n : Int) ≠ [] := by
    rw [classKey_nonneg]
    intro e
    have := congrArg List.length e
    rw [length_padLeft] at this
    simp at this
  have hv : decVal (classKey (n : Int)) = n := by rw [classKey_nonneg, decVal_padLeft, decVal_showNat]
  rw [stoi_digits (classKey_nonneg_digits _) hne (by rw [hv]; exact h), hv]
  dsimp only
  by_cases hc : n < 256
  · rw [lookup_small ⟨n, hc⟩]
  · rw [lookup_none (by omega)]
    dsimp only
    have : asprsName n = "undefined" := by
      unfold asprsName
      split <;> first | omega | skip
      rw [if_neg (by omega), if_neg hc]
    rw [this]

theorem className_small {c : UInt32} (h : c.toNat < 2 ^ 31) : className (classKey (toInt c)) = .ok (asprsName c.toNat).toList := by
  rw [toInt_small h]
  exact className_nat h

theorem showNat_length_ge {n : Nat} (h : 10 ≤ n) : 2 ≤ (showNat n).length := by
  by_contra hc
  have := (showNat_bounds (n := n) (by omega)).2
  have h2 : 10 ^ (showNat n).length ≤ 10 ^ 1 := Nat.pow_le_pow_right (by norm_num) (by omega)
  omega

theorem className_neg {m : Nat} (h : 10 ≤ m) (h' : m ≤ 2 ^ 31) : className (classKey (-(m : Int))) = .ok "undefined".toList := by
  unfold className
  have hk : classKey (-(m : Int)) = '-' :: showNat m := by
    unfold classKey showInt padLeft
    rw [if_pos (by omega)]
    rw [Int.natAbs_neg, Int.natAbs_natCast]
    have := showNat_length_ge h
    rw [List.length_cons, show 3 - ((showNat m).length + 1) = 0 by omega]
    rfl
  rw [hk]
  have hs : stoi ('-' :: showNat m) = some (-(m : Int), 1 + (showNat m).length) := by
    have hn : IsNumber ('-' :: showNat m) [] ['-'] (showNat m) [] :=
      ⟨by simp, by simp, Or.inr (Or.inr rfl), showNat_digits _, showNat_ne _, noDigit_nil⟩
    unfold stoi
    rw [scanInt_of hn, decVal_showNat]
    simp only [if_true, List.length_nil, List.length_singleton]
    rw [if_pos (by constructor <;> omega)]
  rw [hs]
  dsimp only
  rw [lookup_none (by omega)]

theorem className_big {c : UInt32} (h : 2 ^ 31 ≤ c.toNat) (h' : c.toNat ≤ 2 ^ 32 - 10) :
    className (classKey (toInt c)) = .ok "undefined".toList := by
  rw [toInt_big h]
  have hc := c.toNat_lt
  generalize c.toNat = n at *
  obtain ⟨m, e, h1, h2⟩ : ∃ m : Nat, (n : Int) - 2 ^ 32 = -(m : Int) ∧ 10 ≤ m ∧ m ≤ 2 ^ 31 := ⟨2 ^ 32 - n, by omega, by omega, by omega⟩
  rw [e]
  exact className_neg h1 h2

theorem className_last {c : UInt32} (h : 2 ^ 32 - 9 ≤ c.toNat) : className (classKey (toInt c)) = .ok "unclassified".toList := by
  have hc := c.toNat_lt
  rw [toInt_big (by omega)]
  have key : ∀ k : Fin 9, className (classKey (((2 ^ 32 - 9 + k.val : Nat) : Int) - 2 ^ 32)) = .ok "unclassified".toList := by decide +kernel
  have := key ⟨c.toNat - (2 ^ 32 - 9), by omega⟩
  rw [show 2 ^ 32 - 9 + (c.toNat - (2 ^ 32 - 9)) = c.toNat by omega] at this
  exact this

/-! ## Minimum, maximum and quartiles -/

section

variable {α : Type}

/-- What the summaries need to know of the order of a type of fields. -/
structure Lawful (k : Kind α) (v : α → ℝ) (good : α → Prop) : Prop where
  lt : ∀ a b, good a → good b → (k.lt a b = true ↔ v a < v b)
  sort : ∀ xs, (∀ x ∈ xs, good x) → ∃ ys, k.sort xs = .ok ys ∧ ys.Perm xs ∧ ys.Pairwise (fun a b => v a ≤ v b)

theorem minElement_spec {k : Kind α} {v : α → ℝ} {good : α → Prop} (hk : Lawful k v good) (m : α) (xs : List α) (hm : good m)
    (hx : ∀ x ∈ xs, good x) : minElement k.lt m xs ∈ m :: xs ∧ ∀ x ∈ m :: xs, v (minElement k.lt m xs) ≤ v x := by
  induction xs generalizing m with
  | nil => simp [minElement]
  | cons y r ih =>
    have hy := hx y (by simp)
    have hr : ∀ x ∈ r, good x := fun x h => hx x (by simp [h])
    unfold minElement
    by_cases h : k.lt y m = true
    · rw [if_pos h]
      obtain ⟨h1, h2⟩ := ih y hy hr
      refine ⟨List.mem_cons_of_mem _ h1, ?_⟩
      intro x hxm
      rcases List.mem_cons.mp hxm with rfl | hxm
      · exact (h2 y (by simp)).trans ((hk.lt y x hy hm).mp h).le
      · exact h2 x hxm
    · rw [if_neg h]
      obtain ⟨h1, h2⟩ := ih m hm hr
      refine ⟨?_, ?_⟩
      · rcases List.mem_cons.mp h1 with h1 | h1
        · rw [h1]; simp
        · simp [h1]
      · intro x hxm
        rcases List.mem_cons.mp hxm with rfl | hxm
        · exact h2 x (by simp)
        · rcases List.mem_cons.mp hxm with rfl | hxm
          · exact (h2 m (by simp)).trans (not_lt.mp (fun hl => h ((hk.lt x m hy hm).mpr hl)))
          · exact h2 x (by simp [hxm])

theorem maxElement_spec {k : Kind α} {v : α → ℝ} {good : α → Prop} (hk : Lawful k v good) (m : α) (xs : List α) (hm : good m)
    (hx : ∀ x ∈ xs, good x) : maxElement k.lt m xs ∈ m :: xs ∧ ∀ x ∈ m :: xs, v x ≤ v (maxElement k.lt m xs) := by
  induction xs generalizing m with
  | nil => simp [maxElement]
  | cons y r ih =>
    have hy := hx y (by simp)
    have hr : ∀ x ∈ r, good x := fun x h => hx x (by simp [h])
    unfold maxElement
    by_cases h : k.lt m y = true
    · rw [if_pos h]
      obtain ⟨h1, h2⟩ := ih y hy hr
      refine ⟨List.mem_cons_of_mem _ h1, ?_⟩
      intro x hxm
      rcases List.mem_cons.mp hxm with rfl | hxm
      · exact ((hk.lt x y hm hy).mp h).le.trans (h2 y (by simp))
      · exact h2 x hxm
    · rw [if_neg h]
      obtain ⟨h1, h2⟩ := ih m hm hr
      refine ⟨?_, ?_⟩
      · rcases List.mem_cons.mp h1 with h1 | h1
        · rw [h1]; simp
        · simp [h1]
      · intro x hxm
        rcases List.mem_cons.mp hxm with rfl | hxm
        · exact h2 x (by simp)
        · rcases List.mem_cons.mp hxm with rfl | hxm
          · exact (not_lt.mp (fun hl => h ((hk.lt m x hm hy).mpr hl))).trans (h2 m (by simp))
          · exact h2 x (by simp [hxm])

theorem at'_ok {ys : List α} {i : Nat} (h : i < ys.length) : Voxel.at' ys i = .ok ys[i] := by
  unfold Voxel.at'
  rw [List.getElem?_eq_getElem h]

theorem quartiles_spec {k : Kind α} {v : α → ℝ} {good : α → Prop} (hk : Lawful k v good) (xs : List α) (hne : xs ≠ [])
    (hx : ∀ x ∈ xs, good x) (hlen : xs.length < 2 ^ 62) :
    ∃ q, quartiles k xs = .ok q ∧ IsSummary v xs q.q0 q.q1 q.q2 q.q3 q.q4 := by
  obtain ⟨ys, h1, h2, h3⟩ := hk.sort xs hx
  have hl : ys.length = xs.length := h2.length_eq
  have hpos : 0 < xs.length := List.length_pos_iff.mpr hne
  have e3 : 3 * xs.length % 2 ^ 64 / 4 = 3 * xs.length / 4 := by omega
  have b1 : xs.length / 4 < ys.length := by omega
  have b2 : xs.length / 2 < ys.length := by omega
  have b3 : 3 * xs.length / 4 < ys.length := by omega
  have b0 : 0 < ys.length := by omega
  have b4 : ys.length - 1 < ys.length := by omega
  refine ⟨⟨ys[0], ys[xs.length / 4], ys[xs.length / 2], ys[3 * xs.length / 4], ys[ys.length - 1]⟩, ?_, ?_⟩
  · unfold quartiles
    simp only [h1, Res.ok_bind, e3, at'_ok b0, at'_ok b1, at'_ok b2, at'_ok b3, at'_ok b4]
  · have mono : ∀ (i j : Nat) (hi : i < ys.length) (hj : j < ys.length), i ≤ j → v ys[i] ≤ v ys[j] := by
      intro i j hi hj hij
      rcases Nat.lt_or_ge i j with h | h
      · exact List.pairwise_iff_getElem.mp h3 i j hi hj h
      · have : i = j := by omega
        subst this
        exact le_refl _
    have hm : ∀ (i : Nat) (hi : i < ys.length), ys[i] ∈ xs := fun i hi => h2.mem_iff.mp (List.getElem_mem hi)
    refine ⟨⟨hm _ _, hm _ _, hm _ _, hm _ _, hm _ _⟩, ⟨mono _ _ _ _ (by omega), mono _ _ _ _ (by omega), mono _ _ _ _ (by omega),
      mono _ _ _ _ (by omega)⟩, ?_, ⟨ys, h2, h3, List.getElem?_eq_getElem b1⟩, ⟨ys, h2, h3, List.getElem?_eq_getElem b2⟩,
      ⟨ys, h2, h3, List.getElem?_eq_getElem b3⟩⟩
    intro x hxm
    obtain ⟨i, hi, rfl⟩ := List.mem_iff_getElem.mp (h2.mem_iff.mpr hxm)
    exact ⟨mono _ _ _ _ (by omega), mono _ _ _ _ (by omega)⟩

end

/-- The result of sorting numbers: a rearrangement in order. -/
def SortsF64 (sort : List F64 → List F64) : Prop :=
  ∀ xs : List F64, (∀ x ∈ xs, x.isNaN = false) → (sort xs).Perm xs ∧ (sort xs).Pairwise (fun a b => a.val ≤ b.val)

theorem lawful_f64 {sort : List F64 → List F64} (h : SortsF64 sort) : Lawful (kindF64 sort) F64.val (fun x => x.isNaN = false) where
  lt := by
    intro a b ha hb
    show F64.lt a b = true ↔ _
    unfold F64.lt
    rw [ha, hb]
    simp only [Bool.not_false, Bool.true_and, decide_eq_true_eq]
    exact F64.val_lt_iff.symm
  sort := by
    intro xs hx
    refine ⟨sort xs, ?_, (h xs hx).1, (h xs hx).2⟩
    show (if _ then _ else _) = _
    rw [if_neg]
    rintro ⟨-, h2⟩
    rw [List.any_eq_true] at h2
    obtain ⟨x, h3, h4⟩ := h2
    rw [hx x h3] at h4
    simp at h4

theorem sort_nat {α : Type} (le : α → α → Bool) (v : α → Nat) (hle : ∀ a b, le a b = decide (v a ≤ v b)) (xs : List α) :
    (xs.mergeSort le).Perm xs ∧ (xs.mergeSort le).Pairwise (fun a b => ((v a : Nat) : ℝ) ≤ (v b : ℝ)) := by
  refine ⟨List.mergeSort_perm _ _, ?_⟩
  have := List.pairwise_mergeSort (le := le) (by intro a b c; simp only [hle, decide_eq_true_eq]; omega)
    (by intro a b; simp only [hle]; simp; omega) xs
  refine this.imp ?_
  intro a b h
  rw [hle, decide_eq_true_eq] at h
  exact_mod_cast h

theorem lawful_u32 : Lawful kindU32 (fun x => (x.toNat : ℝ)) (fun _ => True) where
  lt a b _ _ := by
    show decide (a < b) = true ↔ _
    rw [decide_eq_true_eq, UInt32.lt_iff_toNat_lt]
    exact Nat.cast_lt.symm
  sort xs _ := by
    obtain ⟨h1, h2⟩ := sort_nat (fun (a b : UInt32) => decide (a ≤ b)) (·.toNat) (fun a b => by simp [UInt32.le_iff_toNat_le]) xs
    exact ⟨_, rfl, h1, h2⟩

theorem lawful_u16 : Lawful kindU16 (fun x => (x.toNat : ℝ)) (fun _ => True) where
  lt a b _ _ := by
    show decide (a < b) = true ↔ _
    rw [decide_eq_true_eq, UInt16.lt_iff_toNat_lt]
    exact Nat.cast_lt.symm
  sort xs _ := by
    obtain ⟨h1, h2⟩ := sort_nat (fun (a b : UInt16) => decide (a ≤ b)) (·.toNat) (fun a b => by simp [UInt16.le_iff_toNat_le]) xs
    exact ⟨_, rfl, h1, h2⟩

theorem lawful_u64 : Lawful kindU64 (fun x => (x.toNat : ℝ)) (fun _ => True) where
  lt a b _ _ := by
    show decide (a < b) = true ↔ _
    rw [decide_eq_true_eq, UInt64.lt_iff_toNat_lt]
    exact Nat.cast_lt.symm
  sort xs _ := by
    obtain ⟨h1, h2⟩ := sort_nat (fun (a b : UInt64) => decide (a ≤ b)) (·.toNat) (fun a b => by simp [UInt64.le_iff_toNat_le]) xs
    exact ⟨_, rfl, h1, h2⟩

end Spoc.Info
