import Verif.Base.Text
import Mathlib.Data.List.TakeWhile
import Mathlib.Tactic.Ring

/-!
# Lemmas on text
-/

namespace Spoc.Text

/-- The rest of a number: it does not continue with a digit. -/
def NoDigit (r : Str) : Prop := ∀ c, r.head? = some c → isDigit c = false

theorem takeWhile_append_stop {α : Type} {p : α → Bool} {l r : List α} (hl : ∀ a ∈ l, p a = true)
    (hr : ∀ a, r.head? = some a → p a = false) : (l ++ r).takeWhile p = l := by
  induction l with
  | nil =>
    cases r with
    | nil => rfl
    | cons a r => simp [hr a rfl]
  | cons a l ih =>
    simp only [List.cons_append, List.takeWhile_cons, hl a (by simp), if_true]
    rw [ih (fun b hb => hl b (by simp [hb]))]

theorem dropWhile_append_stop {α : Type} {p : α → Bool} {l r : List α} (hl : ∀ a ∈ l, p a = true)
    (hr : ∀ a, r.head? = some a → p a = false) : (l ++ r).dropWhile p = r := by
  induction l with
  | nil =>
    cases r with
    | nil => rfl
    | cons a r => simp [hr a rfl]
  | cons a l ih =>
    simp only [List.cons_append, List.dropWhile_cons, hl a (by simp), if_true]
    exact ih (fun b hb => hl b (by simp [hb]))

theorem mem_takeWhile {α : Type} {p : α → Bool} {l : List α} {a : α} (h : a ∈ l.takeWhile p) : p a = true := by
  induction l with
  | nil => simp at h
  | cons b l ih =>
    rw [List.takeWhile_cons] at h
    split at h
    · rcases List.mem_cons.mp h with rfl | h
      · assumption
      · exact ih h
    · simp at h

theorem head_dropWhile {α : Type} {p : α → Bool} {l : List α} {a : α} (h : (l.dropWhile p).head? = some a) :
    p a = false := by
  induction l with
  | nil => simp at h
  | cons b l ih =>
    rw [List.dropWhile_cons] at h
    split at h
    · exact ih h
    · simp only [List.head?_cons, Option.some.injEq] at h
      subst h
      simpa using ‹¬ p b = true›

theorem digit_not_space {c : Char} (h : isDigit c = true) : isSpace c = false := by
  simp only [isDigit, isSpace, Bool.and_eq_true, decide_eq_true_eq, Bool.or_eq_false_iff,
    decide_eq_false_iff_not, Bool.and_eq_false_iff] at *
  omega

theorem digit_alnum {c : Char} (h : isDigit c = true) : isAlnum c = true := by simp [isAlnum, h]

theorem alnum_not_space {c : Char} (h : isAlnum c = true) : isSpace c = false := by
  simp only [isAlnum, isAlpha, isDigit, isSpace, Bool.and_eq_true, decide_eq_true_eq, Bool.or_eq_false_iff,
    decide_eq_false_iff_not, Bool.and_eq_false_iff, Bool.or_eq_true] at *
  omega

theorem not_digit_minus : isDigit '-' = false := by decide
theorem not_digit_plus : isDigit '+' = false := by decide

/-- What `scanInt` accepts. -/
structure IsNumber (s ws sg ds rest : Str) : Prop where
  eq : s = ws ++ (sg ++ (ds ++ rest))
  space : ∀ c ∈ ws, isSpace c = true
  sgn : sg = [] ∨ sg = ['+'] ∨ sg = ['-']
  digits : ∀ c ∈ ds, isDigit c = true
  ne : ds ≠ []
  stop : NoDigit rest

theorem scanInt_of {s ws sg ds rest : Str} (h : IsNumber s ws sg ds rest) :
    scanInt s = some (if sg = ['-'] then - (decVal ds : Int) else (decVal ds : Int),
      ws.length + sg.length + ds.length) := by
  obtain ⟨he, hw, hsg, hd, hne, hst⟩ := h
  obtain ⟨d, ds', hds⟩ : ∃ d ds', ds = d :: ds' := by
    cases ds with
    | nil => exact absurd rfl hne
    | cons d ds' => exact ⟨d, ds', rfl⟩
  have hd0 : isDigit d = true := hd d (by rw [hds]; simp)
  have hhead : ∀ a, (sg ++ (ds ++ rest)).head? = some a → isSpace a = false := by
    intro a ha
    rcases hsg with rfl | rfl | rfl
    · simp only [hds, List.nil_append, List.cons_append, List.head?_cons, Option.some.injEq] at ha
      rw [← ha]; exact digit_not_space hd0
    · simp only [List.cons_append, List.head?_cons, Option.some.injEq] at ha
      rw [← ha]; decide
    · simp only [List.cons_append, List.head?_cons, Option.some.injEq] at ha
      rw [← ha]; decide
  have hsign : sign (sg ++ (ds ++ rest)) = (decide (sg = ['-']), sg.length, ds ++ rest) := by
    rcases hsg with rfl | rfl | rfl
    · have h1 : d ≠ '-' := fun h => by rw [h, not_digit_minus] at hd0; simp at hd0
      have h2 : d ≠ '+' := fun h => by rw [h, not_digit_plus] at hd0; simp at hd0
      rw [hds]
      simp only [List.nil_append, List.cons_append, sign]
      split
      · rename_i r heq; simp only [List.cons.injEq] at heq; exact absurd heq.1 h1
      · rename_i r heq; simp only [List.cons.injEq] at heq; exact absurd heq.1 h2
      · simp
    · rfl
    · rfl
  unfold scanInt
  subst he
  rw [takeWhile_append_stop hw hhead, dropWhile_append_stop hw hhead, hsign]
  simp only
  rw [takeWhile_append_stop hd hst]
  have : ds.isEmpty = false := by rw [hds]; rfl
  rw [this]
  simp

theorem scanInt_some {s : Str} {v : Int} {n : Nat} (h : scanInt s = some (v, n)) :
    ∃ ws sg ds rest, IsNumber s ws sg ds rest ∧
      v = (if sg = ['-'] then - (decVal ds : Int) else (decVal ds : Int)) ∧
      n = ws.length + sg.length + ds.length := by
  have key : ∃ sg r, s.dropWhile isSpace = sg ++ r ∧ (sg = [] ∨ sg = ['+'] ∨ sg = ['-']) ∧
      sign (s.dropWhile isSpace) = (decide (sg = ['-']), sg.length, r) := by
    cases hs : s.dropWhile isSpace with
    | nil => exact ⟨[], [], rfl, Or.inl rfl, rfl⟩
    | cons c r =>
      by_cases h1 : c = '-'
      · subst h1; exact ⟨['-'], r, rfl, Or.inr (Or.inr rfl), rfl⟩
      · by_cases h2 : c = '+'
        · subst h2; exact ⟨['+'], r, rfl, Or.inr (Or.inl rfl), rfl⟩
        · refine ⟨[], c :: r, rfl, Or.inl rfl, ?_⟩
          simp only [sign]
          split
          · rename_i r' heq; simp only [List.cons.injEq] at heq; exact absurd heq.1 h1
          · rename_i r' heq; simp only [List.cons.injEq] at heq; exact absurd heq.1 h2
          · simp
  obtain ⟨sg, r, hr, hsg, hsign⟩ := key
  have hne : (r.takeWhile isDigit) ≠ [] := by
    intro he
    unfold scanInt at h
    rw [hsign] at h
    simp [he] at h
  have hnum : IsNumber s (s.takeWhile isSpace) sg (r.takeWhile isDigit) (r.dropWhile isDigit) :=
    { eq := by rw [List.takeWhile_append_dropWhile, ← hr, List.takeWhile_append_dropWhile]
      space := fun c hc => mem_takeWhile hc
      sgn := hsg
      digits := fun c hc => mem_takeWhile hc
      ne := hne
      stop := fun c hc => head_dropWhile hc }
  refine ⟨_, _, _, _, hnum, ?_⟩
  rw [scanInt_of hnum] at h
  simp only [Option.some.injEq, Prod.mk.injEq] at h
  exact ⟨h.1.symm, h.2.symm⟩

theorem isDigit_eq (c : Char) : isDigit c = c.isDigit := by
  simp only [isDigit, Char.isDigit, Char.toNat, UInt32.le_iff_toNat_le, ge_iff_le]
  rfl

theorem showNat_digits (n : Nat) : ∀ c ∈ showNat n, isDigit c = true := by
  intro c hc
  rw [isDigit_eq]
  exact Nat.isDigit_of_mem_toDigits (by decide) (by decide) hc

theorem showNat_ne (n : Nat) : showNat n ≠ [] := Nat.toDigits_ne_nil

theorem decVal_showNat (n : Nat) : decVal (showNat n) = n :=
  Nat.ofDigitChars_toDigits (by decide) (by decide)

theorem isNumber_showNat (n : Nat) {rest : Str} (h : NoDigit rest) :
    IsNumber (showNat n ++ rest) [] [] (showNat n) rest :=
  ⟨rfl, by simp, Or.inl rfl, showNat_digits n, showNat_ne n, h⟩

theorem noDigit_nil : NoDigit [] := fun c h => by simp at h

theorem noDigit_cons {c : Char} {r : Str} (h : isDigit c = false) : NoDigit (c :: r) := by
  intro d hd
  simp only [List.head?_cons, Option.some.injEq] at hd
  rw [← hd]; exact h

/-- `std::stoi` reads back a printed number, up to the range of `int`. -/
theorem stoi_showNat {n : Nat} (hn : n < 2 ^ 31) {rest : Str} (h : NoDigit rest) :
    stoi (showNat n ++ rest) = some ((n : Int), (showNat n).length) := by
  unfold stoi
  rw [scanInt_of (isNumber_showNat n h), decVal_showNat]
  simp only [List.length_nil, Nat.zero_add, List.nil_eq, reduceCtorEq, if_false]
  rw [if_pos (by constructor <;> omega)]

theorem stoi_showNat_big {n : Nat} (hn : 2 ^ 31 ≤ n) {rest : Str} (h : NoDigit rest) :
    stoi (showNat n ++ rest) = none := by
  unfold stoi
  rw [scanInt_of (isNumber_showNat n h), decVal_showNat]
  simp only [List.length_nil, Nat.zero_add, List.nil_eq, reduceCtorEq, if_false]
  rw [if_neg (by omega)]

end Spoc.Text
