import Verif.Model.AppUtils
import Verif.Spec.Fields
import Verif.Proofs.Text

/-!
# Properties of field names (C61)
-/

namespace Spoc.Props

open Spoc Spec Text AppUtils

/-- **C61**, first half: every field name is accepted, and the extra index is the number after
the `e` (as long as it is representable as `int`). -/
theorem c61_field_names_accepted (f : Field) (hf : ∀ n, f = .e n → n < 2 ^ 31) :
    checkFieldName f.name = true ∧ ∀ n, f = .e n → getExtraIndex f.name = n := by
  cases f with
  | e n =>
    have hn := hf n rfl
    have hidx : getExtraIndex (Field.e n).name = n := by
      simp only [getExtraIndex, isExtraField, Field.name, List.head?_cons, decide_true, Bool.not_true,
        Bool.false_eq_true, if_false, List.drop_succ_cons, List.drop_zero]
      have := stoi_showNat hn noDigit_nil
      rw [List.append_nil] at this
      unfold showNat at this
      rw [this]
    refine ⟨?_, fun m hm => by rw [hidx]; simp only [Field.e.injEq] at hm; rw [hm]⟩
    unfold checkFieldName
    split
    · rfl
    · split
      · rename_i h1 h2
        have := List.length_pos_iff.mpr (showNat_ne n)
        unfold showNat at this
        simp only [Field.name, List.length_cons] at h2
        omega
      · split
        · rename_i h; simp [Field.name] at h
        · rw [if_pos (by rw [hidx]; omega)]
  | _ => exact ⟨by decide, fun n hn => by simp at hn⟩

example : (Field.e 255).name = "e255".toList ∧ ∀ n, Field.e 255 = .e n → n < 2 ^ 31 := by
  refine ⟨by decide, fun n hn => ?_⟩
  simp only [Field.e.injEq] at hn
  omega

/-- **C61** (partial: "exactly" fails on the text after the number, see `c61_trailing_text_accepted`).  Of
the strings of letters and digits, as they are cut out of a command, exactly those are accepted that are one
of the nine letters or `e` followed by a decimal number below 2^31 and possibly more text that does not
start with a digit; the extra index is that number. -/
theorem c61_names_partial (s : Str) (hs : ∀ a ∈ s, isAlnum a = true) :
    checkFieldName s = true ↔
      (∃ f : Field, f.isExtra = false ∧ s = f.name) ∨
      (∃ ds rest, s = 'e' :: (ds ++ rest) ∧ ds ≠ [] ∧ (∀ d ∈ ds, isDigit d = true) ∧ NoDigit rest ∧
        Nat.ofDigitChars 10 ds 0 < 2 ^ 31 ∧ getExtraIndex s = Nat.ofDigitChars 10 ds 0) := by
  constructor
  · intro h
    unfold checkFieldName at h
    split at h
    · rename_i hm
      left
      simp only [fieldStrings, List.mem_cons, List.not_mem_nil, or_false] at hm
      rcases hm with h | h | h | h | h | h | h | h | h
      · exact ⟨.x, rfl, h⟩
      · exact ⟨.y, rfl, h⟩
      · exact ⟨.z, rfl, h⟩
      · exact ⟨.c, rfl, h⟩
      · exact ⟨.p, rfl, h⟩
      · exact ⟨.i, rfl, h⟩
      · exact ⟨.r, rfl, h⟩
      · exact ⟨.g, rfl, h⟩
      · exact ⟨.b, rfl, h⟩
    · right
      split at h
      · simp at h
      · split at h
        · simp at h
        · rename_i hl he
          simp only [ne_eq, Decidable.not_not] at he
          split at h
          · rename_i hidx
            obtain ⟨t, rfl⟩ : ∃ t, s = 'e' :: t := by
              cases s with
              | nil => simp at he
              | cons a t => simp only [List.head?_cons, Option.some.injEq] at he; exact ⟨t, by rw [he]⟩
            simp only [getExtraIndex, isExtraField, List.head?_cons, decide_true, Bool.not_true,
              Bool.false_eq_true, if_false, List.drop_succ_cons, List.drop_zero] at hidx ⊢
            cases hst : stoi t with
            | none => rw [hst] at hidx; simp at hidx
            | some a =>
              obtain ⟨v, n⟩ := a
              rw [hst] at hidx
              simp only at hidx ⊢
              unfold stoi at hst
              cases hsc : scanInt t with
              | none => rw [hsc] at hst; simp at hst
              | some a =>
                obtain ⟨v', n'⟩ := a
                rw [hsc] at hst
                simp only at hst
                split at hst
                · rename_i hrange
                  simp only [Option.some.injEq, Prod.mk.injEq] at hst
                  obtain ⟨ws, sg, ds, rest, hnum, hv, _⟩ := scanInt_some hsc
                  have hws : ws = [] := by
                    cases ws with
                    | nil => rfl
                    | cons a l =>
                      have h1 := hnum.space a (by simp)
                      have h2 := alnum_not_space (hs a (by rw [hnum.eq]; simp))
                      rw [h1] at h2; simp at h2
                  have hsg : sg = [] := by
                    rcases hnum.sgn with h | h | h
                    · exact h
                    · have := hs '+' (by rw [hnum.eq, h]; simp)
                      exact absurd this (by decide)
                    · have := hs '-' (by rw [hnum.eq, h]; simp)
                      exact absurd this (by decide)
                  subst hws hsg
                  refine ⟨ds, rest, by rw [hnum.eq]; rfl, hnum.ne, hnum.digits, hnum.stop, ?_, ?_⟩
                  · simp only [List.nil_eq, reduceCtorEq, if_false] at hv
                    unfold decVal at hv
                    omega
                  · simp only [List.nil_eq, reduceCtorEq, if_false] at hv
                    rw [← hst.1, hv]
                    rfl
                · simp at hst
          · simp at h
  · rintro (⟨f, hf, rfl⟩ | ⟨ds, rest, rfl, hne, hd, hst, hlt, hidx⟩)
    · exact (c61_field_names_accepted f (fun n hn => by rw [hn] at hf; simp [Field.isExtra] at hf)).1
    · unfold checkFieldName
      split
      · rfl
      · split
        · rename_i h1 h2
          have := List.length_pos_iff.mpr hne
          simp only [List.length_cons, List.length_append] at h2
          omega
        · split
          · rename_i h; simp at h
          · rw [if_pos (by rw [hidx]; omega)]

example : (∀ a ∈ "e17".toList, isAlnum a = true) ∧ checkFieldName "e17".toList = true := by decide

/-- **C61, negation.**  Text after the number is ignored: `e1abc` is accepted and means extra field 1;
leading zeros are accepted, too.  Outside of commands (where only letters and digits are cut out) white space
and a sign are accepted. -/
theorem c61_trailing_text_accepted :
    (checkFieldName "e1abc".toList = true ∧ getExtraIndex "e1abc".toList = 1) ∧
    (checkFieldName "e01".toList = true ∧ getExtraIndex "e01".toList = 1) ∧
    (checkFieldName "e +1".toList = true ∧ getExtraIndex "e +1".toList = 1) := by
  decide

/-- **C61, negation.**  A decimal number that is not representable as `int` is rejected. -/
theorem c61_large_index_rejected (n : Nat) (hn : 2 ^ 31 ≤ n) : checkFieldName (Field.e n).name = false := by
  have hst : stoi (Nat.toDigits 10 n) = none := by
    have := stoi_showNat_big hn noDigit_nil
    rw [List.append_nil] at this
    exact this
  unfold checkFieldName
  split
  · rename_i h
    simp [fieldStrings, Field.name] at h
  · split
    · rfl
    · split
      · rfl
      · simp [getExtraIndex, isExtraField, Field.name, hst]

example : 2 ^ 31 ≤ 3000000000 := by decide

end Spoc.Props
