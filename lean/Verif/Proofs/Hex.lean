import Verif.Spec.Hex
import Verif.Proofs.Nearest

/-!
# Hexadecimal numerals: lemmas
-/

namespace Spoc.Hex

open Spec Text

theorem lower_eq (c : Char) : lower c = c.toLower := by
  unfold lower Char.toLower
  by_cases h : 65 ≤ c.toNat ∧ c.toNat ≤ 90
  · have h' : c.val ≥ 'A'.val ∧ c.val ≤ 'Z'.val := by
      obtain ⟨h1, h2⟩ := h
      exact ⟨UInt32.le_iff_toNat_le.mpr h1, UInt32.le_iff_toNat_le.mpr h2⟩
    rw [if_pos h, dif_pos h']
    apply Char.ext
    apply UInt32.toNat_inj.mp
    have hv : (c.toNat + 32).isValidChar := Or.inl (by omega)
    rw [UInt32.toNat_add]
    unfold Char.ofNat
    rw [dif_pos hv]
    show c.toNat + 32 = (c.toNat + 32) % 2 ^ 32
    omega
  · have h' : ¬ (c.val ≥ 'A'.val ∧ c.val ≤ 'Z'.val) := by
      rintro ⟨h1, h2⟩
      exact h ⟨UInt32.le_iff_toNat_le.mp h1, UInt32.le_iff_toNat_le.mp h2⟩
    rw [if_neg h, dif_neg h']

theorem isAlnum_eq (c : Char) : isAlnum c = c.isAlphanum := by
  have e : ∀ a b : Char, (a ≤ b) ↔ a.toNat ≤ b.toNat := fun a b => UInt32.le_iff_toNat_le
  unfold isAlnum isDigit isAlpha Char.isAlphanum Char.isAlpha Char.isUpper Char.isLower Char.isDigit
  rw [Bool.eq_iff_iff]
  simp only [Bool.or_eq_true, Bool.and_eq_true, decide_eq_true_eq, ge_iff_le, UInt32.le_iff_toNat_le]
  have : c.val.toNat = c.toNat := rfl
  have a1 : 'A'.val.toNat = 65 := rfl
  have a2 : 'Z'.val.toNat = 90 := rfl
  have a3 : 'a'.val.toNat = 97 := rfl
  have a4 : 'z'.val.toNat = 122 := rfl
  have a5 : '0'.val.toNat = 48 := rfl
  have a6 : '9'.val.toNat = 57 := rfl
  simp only [this, a1,a2,a3,a4,a5,a6]
  omega

theorem isDigit_eq (c : Char) : isDigit c = c.isDigit := by
  unfold isDigit Char.isDigit
  rw [Bool.eq_iff_iff]
  simp only [Bool.and_eq_true, decide_eq_true_eq, ge_iff_le, UInt32.le_iff_toNat_le]
  exact Iff.rfl

theorem char_facts : ∀ d : HexDigit, isHex d.char = true ∧ hexDigit d.char = d.1.val ∧ isSpace d.char = false := by
  rintro ⟨d, u⟩
  revert d u
  decide

theorem char_hex {l : List HexDigit} : ∀ c ∈ l.map HexDigit.char, isHex c = true := by
  intro c hc
  obtain ⟨d, -, rfl⟩ := List.mem_map.mp hc
  exact (char_facts d).1

theorem hexVal_map (l : List HexDigit) : hexVal (l.map HexDigit.char) = l.foldl (fun m d => 16 * m + d.1.val) 0 := by
  unfold hexVal
  generalize 0 = a
  induction l generalizing a with
  | nil => rfl
  | cons d l ih =>
    rw [List.map_cons, List.foldl_cons, List.foldl_cons, (char_facts d).2.1, Nat.mul_comm a 16, ih]

/-- The exponent that the scanner finds. -/
def exponent (n : HexNumeral) : Int := n.power - 4 * n.frac.length

theorem exp_head {n : HexNumeral} (h : n.Ok) : ∀ c, n.expText.head? = some c → c = 'p' ∨ c = 'P' := by
  intro c hc
  unfold HexNumeral.expText at hc
  cases hx : n.ex with
  | none => rw [hx] at hc; simp at hc
  | some x =>
    obtain ⟨e, s, d⟩ := x
    rw [hx] at hc
    simp only [List.head?_cons, Option.some.injEq] at hc
    subst hc
    exact (h.ex e s d hx).1

theorem scanHex_eq {n : HexNumeral} (h : n.Ok) :
    scanHex (n.ip.map HexDigit.char ++ (n.fracText ++ n.expText))
      = some { mantissa := n.mantissa, exponent := exponent n, length := (n.ip.map HexDigit.char ++ (n.fracText ++ n.expText)).length } := by
  have nde : ∀ c, n.expText.head? = some c → isHex c = false := by
    intro c hc
    rcases exp_head h c hc with rfl | rfl <;> decide
  have nd : ∀ c, (n.fracText ++ n.expText).head? = some c → isHex c = false := by
    intro c hc
    unfold HexNumeral.fracText at hc
    cases hx : n.fp with
    | none =>
      rw [hx] at hc
      exact nde c hc
    | some f =>
      rw [hx] at hc
      simp only [List.cons_append, List.head?_cons, Option.some.injEq] at hc
      subst hc
      decide
  have t1 : (n.ip.map HexDigit.char ++ (n.fracText ++ n.expText)).takeWhile isHex = n.ip.map HexDigit.char := takeWhile_append_stop char_hex nd
  have t2 : (n.ip.map HexDigit.char ++ (n.fracText ++ n.expText)).dropWhile isHex = n.fracText ++ n.expText := dropWhile_append_stop char_hex nd
  have hfrac : scanFrac isHex (n.fracText ++ n.expText) = (n.frac.map HexDigit.char, n.fracText.length) := by
    unfold HexNumeral.fracText HexNumeral.frac
    cases hx : n.fp with
    | none =>
      simp only [List.nil_append, Option.getD_none, List.length_nil, List.map_nil]
      unfold scanFrac
      split
      · rename_i t heq
        exfalso
        rcases exp_head h '.' (by rw [heq]; rfl) with e | e <;> exact absurd e (by decide)
      · rfl
    | some f =>
      simp only [List.cons_append, Option.getD_some, scanFrac, takeWhile_append_stop (char_hex (l := f)) nde, List.length_cons]
      rw [Nat.add_comm]
  have hexp : scanExp isP n.expText = (n.power, n.expText.length) := by
    unfold HexNumeral.power HexNumeral.expText
    cases hx : n.ex with
    | none => simp [scanExp]
    | some x =>
      obtain ⟨e, s, d⟩ := x
      obtain ⟨h1, h2, h3, h4⟩ := h.ex e s d hx
      replace h4 : ∀ c ∈ d, isDigit c = true := fun c hc => by rw [isDigit_eq]; exact h4 c hc
      obtain ⟨c, d', rfl⟩ : ∃ c d', d = c :: d' := by
        cases d with
        | nil => exact absurd rfl h3
        | cons c d' => exact ⟨c, d', rfl⟩
      have hc : isDigit c = true := h4 c (by simp)
      have hs := sign_eq (r := c :: d') h2 (by
        intro x hx
        simp only [List.head?_cons, Option.some.injEq] at hx
        subst hx
        constructor <;> rintro rfl <;> simp [isDigit] at hc)
      have tw : (c :: d').takeWhile isDigit = c :: d' := by
        have := (takeWhile_digits (r := []) h4 noDigit_nil).1
        rwa [List.append_nil] at this
      simp only [scanExp]
      rw [if_pos (by rcases h1 with rfl | rfl <;> decide), hs]
      simp only [tw]
      rw [if_neg (by simp)]
      simp only [decide_eq_true_eq, Prod.mk.injEq, List.length_cons, List.length_append, true_and]
      omega
  have hdrop : (n.ip.map HexDigit.char ++ (n.fracText ++ n.expText)).drop ((n.ip.map HexDigit.char).length + n.fracText.length) = n.expText := by
    rw [← List.append_assoc, ← List.length_append, List.drop_left]
  unfold scanHex
  simp only [t1, t2, hfrac, hdrop, hexp]
  have hne : ((n.ip.map HexDigit.char).isEmpty && (n.frac.map HexDigit.char).isEmpty) = false := by
    have := h.ne
    cases hi : n.ip <;> cases hf : n.frac <;> simp_all
  rw [hne]
  simp only [Bool.false_eq_true, if_false, Option.some.injEq, Scanned.mk.injEq]
  refine ⟨?_, ?_, by simp only [List.length_append]; omega⟩
  · rw [← List.map_append, hexVal_map]
    rfl
  · unfold exponent
    rw [List.length_map]

theorem isSign_noSpace {s : Str} (h : Numeral.IsSign s) : ∀ c ∈ s, isSpace c = false := by
  rcases h with rfl | rfl | rfl <;> decide

theorem dropWhile_head {s : Str} (h : ∀ c, s.head? = some c → isSpace c = false) : s.takeWhile isSpace = [] ∧ s.dropWhile isSpace = s := by
  cases s with
  | nil => exact ⟨rfl, rfl⟩
  | cons c s => simp [h c rfl]

/-- `strtod` when there is no white space in front of the sign. -/
theorem strtod_sign {sg r : Str} (hs : Numeral.IsSign sg) (hr : ∀ c, r.head? = some c → c ≠ '+' ∧ c ≠ '-' ∧ isSpace c = false) :
    strtod (sg ++ r) = match strtodBody (decide (sg = ['-'])) r with
      | some t => { t with length := sg.length + t.length }
      | none => { value := F64.zero, length := 0, range := false } := by
  have hh : ∀ c, (sg ++ r).head? = some c → isSpace c = false := by
    intro c hc
    rcases hs with rfl | rfl | rfl
    · exact (hr c hc).2.2
    · simp only [List.cons_append, List.head?_cons, Option.some.injEq] at hc; subst hc; decide
    · simp only [List.cons_append, List.head?_cons, Option.some.injEq] at hc; subst hc; decide
  unfold strtod
  rw [(dropWhile_head hh).1, (dropWhile_head hh).2, sign_eq hs (fun c hc => ⟨(hr c hc).1, (hr c hc).2.1⟩)]
  simp only [List.length_nil, Nat.zero_add]
  rfl

theorem begins_not {w : Char} {ws s : Str} {c : Char} (h : lower c ≠ w) : beginsWith (w :: ws) (c :: s) = false := by
  unfold beginsWith
  rw [decide_eq_false]
  intro hc
  rw [List.length_cons, List.take_succ_cons, List.map_cons] at hc
  exact h (List.cons.inj hc).1

/-- `strtod` of a hexadecimal numeral uses all of it. -/
theorem strtod_hex {n : HexNumeral} (h : n.Ok) :
    strtod n.text = { value := F64.ofScaled (decide (n.sg = ['-'])) 2 n.mantissa (exponent n), length := n.text.length,
                      range := F64.rangeError 2 n.mantissa (exponent n) } := by
  have e := strtod_sign (r := '0' :: (if n.upper then 'X' else 'x') :: (n.ip.map HexDigit.char ++ (n.fracText ++ n.expText))) h.sg (by
    intro c hc
    simp only [List.head?_cons, Option.some.injEq] at hc
    subst hc
    decide)
  unfold HexNumeral.text
  rw [e]
  have hb : strtodBody (decide (n.sg = ['-'])) ('0' :: (if n.upper then 'X' else 'x') :: (n.ip.map HexDigit.char ++ (n.fracText ++ n.expText)))
      = some { value := F64.ofScaled (decide (n.sg = ['-'])) 2 n.mantissa (exponent n), length := 2 + (n.ip.map HexDigit.char ++ (n.fracText ++ n.expText)).length,
               range := F64.rangeError 2 n.mantissa (exponent n) } := by
    unfold strtodBody
    have h0 : beginsWith "0x".toList ('0' :: (if n.upper then 'X' else 'x') :: (n.ip.map HexDigit.char ++ (n.fracText ++ n.expText))) = true := by
      cases n.upper <;> rfl
    rw [show "infinity".toList = 'i' :: "nfinity".toList from rfl, show "inf".toList = 'i' :: "nf".toList from rfl,
      show "nan".toList = 'n' :: "an".toList from rfl, begins_not (by decide), begins_not (by decide), begins_not (by decide), h0]
    simp only [Bool.false_eq_true, if_false, if_true, List.drop_succ_cons, List.drop_zero, scanHex_eq h]
  rw [hb]
  simp only [Strtod.mk.injEq, true_and, and_true, List.length_append, List.length_cons]
  omega

/-! ## values -/

theorem den_pos (k : ℤ) : 0 < F64.scaledDen 2 k := Nat.pow_pos (by norm_num)

theorem two_zpow (k : ℤ) : (2 : ℝ) ^ k = 2 ^ k.toNat / 2 ^ (-k).toNat := by
  rcases le_total 0 k with h | h
  · obtain ⟨m, rfl⟩ := Int.eq_ofNat_of_zero_le h
    simp
  · obtain ⟨m, hm⟩ := Int.eq_ofNat_of_zero_le (Int.neg_nonneg.mpr h)
    obtain rfl : k = -(m : ℤ) := by omega
    simp

theorem scaled_two (m : Nat) (k : ℤ) :
    (F64.scaledNum 2 m k : ℝ) / (F64.scaledDen 2 k : ℕ) / (F64.one1074 : ℝ) = m * 2 ^ k := by
  unfold F64.scaledNum F64.scaledDen
  have hU := F64.one1074_pos'
  rw [two_zpow]
  generalize F64.one1074 = U at *
  push_cast
  field_simp

theorem roundMag_two (m : Nat) (k : ℤ) {M : Nat} (hM : M ≤ F64.infMag) :
    |(F64.fixMag (F64.roundMag (F64.scaledNum 2 m k) (F64.scaledDen 2 k)) : ℝ) / (F64.one1074 : ℝ) - m * 2 ^ k|
      ≤ |(F64.fixMag M : ℝ) / (F64.one1074 : ℝ) - m * 2 ^ k| := by
  have h := F64.roundMag_nearest (F64.scaledNum 2 m k) (den_pos k) hM
  have h : ((|(F64.fixMag (F64.roundMag (F64.scaledNum 2 m k) (F64.scaledDen 2 k)) : ℚ)
      - (F64.scaledNum 2 m k : ℚ) / (F64.scaledDen 2 k : ℕ)| : ℚ) : ℝ)
      ≤ ((|(F64.fixMag M : ℚ) - (F64.scaledNum 2 m k : ℚ) / (F64.scaledDen 2 k : ℕ)| : ℚ) : ℝ) := Rat.cast_le.mpr h
  rw [← scaled_two]
  have hU := F64.one1074_pos'
  generalize (F64.one1074 : ℝ) = U at *
  generalize F64.roundMag (F64.scaledNum 2 m k) (F64.scaledDen 2 k) = r at *
  generalize F64.scaledNum 2 m k = a at *
  generalize F64.scaledDen 2 k = b at *
  rw [← sub_div, ← sub_div, abs_div, abs_div]
  refine div_le_div_of_nonneg_right ?_ (abs_nonneg _)
  rw [Rat.cast_abs, Rat.cast_abs] at h
  simpa using h

theorem ofScaled_two (neg : Bool) {m : Nat} (hm : 0 < m) (k : ℤ) :
    F64.ofScaled neg 2 m k = F64.mk' neg (F64.roundMag (F64.scaledNum 2 m k) (F64.scaledDen 2 k)) := by
  have hp : 0 < F64.scaledNum 2 m k := by
    unfold F64.scaledNum
    exact Nat.mul_pos (Nat.mul_pos hm (Nat.pow_pos (by norm_num))) F64.one1074_pos
  unfold F64.ofScaled F64.rnd
  generalize F64.scaledNum 2 m k = A at *
  cases neg
  · simp only [Bool.false_eq_true, if_false]
    rw [if_neg (by omega), decide_eq_false (by omega), Int.natAbs_natCast]
  · simp only [if_true]
    rw [if_neg (by omega), decide_eq_true (by omega), Int.natAbs_neg, Int.natAbs_natCast]

theorem two_nonneg (m : Nat) (k : ℤ) : (0 : ℝ) ≤ m * 2 ^ k := mul_nonneg (Nat.cast_nonneg _) (zpow_nonneg (by norm_num) _)

theorem ofScaled_two_nearest (neg : Bool) (m : Nat) (k : ℤ) : Nearest (F64.ofScaled neg 2 m k) ((if neg then -1 else 1) * (m * 2 ^ k)) := by
  refine ⟨F64.rnd_not_nan _ _ _, ?_⟩
  intro z hz
  have hz := F64.isNaN_eq_false.mp hz
  rcases Nat.eq_zero_or_pos m with rfl | hm
  · have : (F64.ofScaled neg 2 0 k).val = 0 := by
      rw [F64.val_zero]
      unfold F64.ofScaled F64.rnd
      have : F64.scaledNum 2 0 k = 0 := by unfold F64.scaledNum; rw [Nat.zero_mul, Nat.zero_mul]
      rw [this, if_pos (by split <;> rfl)]
      exact F64.mag_mk' _ (by norm_num)
    rw [this, Nat.cast_zero, zero_mul, mul_zero, sub_zero, abs_zero]
    exact abs_nonneg _
  · rw [ofScaled_two neg hm, F64.val_mk' _ (F64.roundMag_lt63 _ _), F64.val_eq z]
    exact abs_sign (val_nonneg _) (two_nonneg _ _) (roundMag_two m k hz)

theorem value_eq (n : HexNumeral) : n.value = (if decide (n.sg = ['-']) then -1 else 1) * (n.mantissa * 2 ^ exponent n) := by
  unfold HexNumeral.value exponent
  have e : (16 : ℝ) ^ n.frac.length = 2 ^ (4 * (n.frac.length : ℤ)) := by
    rw [zpow_mul, zpow_natCast]
    norm_num
  rw [zpow_sub₀ (by norm_num), e]
  simp only [decide_eq_true_eq]
  ring

end Spoc.Hex
