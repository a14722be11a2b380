import Verif.Proofs.Hex
import Verif.Props.Numbers
import Verif.Props.Cells

/-!
# C146: hexadecimal numbers, infinities and NaN on the command line
-/

namespace Spoc.Props

open Spec Text AppUtils Transform

/-- The number is one that a double has, or neither too large nor too small for full precision. -/
def HexInRange (n : HexNumeral) : Prop :=
  (∃ z : F64, z.isFinite = true ∧ z.val = n.value) ∨ (1 / 2 ^ 1022 ≤ |n.value| ∧ |n.value| ≤ F64.maxVal.val)

theorem abs_hex (n : HexNumeral) : |n.value| = n.mantissa * (2 : ℝ) ^ Hex.exponent n := by
  rw [Hex.value_eq, abs_mul, abs_of_nonneg (Hex.two_nonneg n.mantissa _)]
  split <;> simp

/-- The fraction that is rounded, for a number that a double has. -/
theorem hex_exact {n : HexNumeral} {z : F64} (h : z.val = n.value) :
    F64.scaledNum 2 n.mantissa (Hex.exponent n) = F64.fixMag z.mag * F64.scaledDen 2 (Hex.exponent n) := by
  have hU := F64.one1074_pos'
  have hB : (0 : ℝ) < (F64.scaledDen 2 (Hex.exponent n) : ℕ) := by exact_mod_cast Hex.den_pos _
  have e := congrArg abs h
  rw [abs_hex, ← Hex.scaled_two, F64.val_eq, abs_mul, abs_of_nonneg (val_nonneg z.mag)] at e
  have s : |(if z.neg = true then (-1 : ℝ) else 1)| = 1 := by cases z.neg <;> simp
  rw [s, one_mul, div_left_inj' hU.ne', eq_div_iff hB.ne'] at e
  exact_mod_cast e.symm

theorem hex_range {n : HexNumeral} (h : HexInRange n) : F64.rangeError 2 n.mantissa (Hex.exponent n) = false := by
  have hB := Hex.den_pos (Hex.exponent n)
  have hU := F64.one1074_pos'
  unfold F64.rangeError
  dsimp only
  rcases h with ⟨z, hz, e⟩ | ⟨h1, h2⟩
  · have hm := F64.isFinite_iff.mp hz
    rw [hex_exact e, F64.roundMag_exact hB hm.le, decide_eq_false (not_le.mpr hm)]
    simp
  · rw [abs_hex, ← Hex.scaled_two] at h1 h2
    have hBr : (0 : ℝ) < (F64.scaledDen 2 (Hex.exponent n) : ℕ) := by exact_mod_cast hB
    have a1 : F64.roundMag (F64.scaledNum 2 n.mantissa (Hex.exponent n)) (F64.scaledDen 2 (Hex.exponent n)) < F64.infMag := by
      have hm : F64.maxVal.mag < F64.infMag := by decide
      refine lt_of_le_of_lt (F64.roundMag_le_of hB hm.le ?_) hm
      rw [maxVal_val, div_le_div_iff_of_pos_right hU, div_le_iff₀ hBr] at h2
      exact_mod_cast h2
    have a2 : ¬ 4 * F64.scaledNum 2 n.mantissa (Hex.exponent n) < (2 ^ 54 - 1) * F64.scaledDen 2 (Hex.exponent n) := by
      rw [unit1022, le_div_iff₀ (by rw [← unit1022]; exact hU), ← mul_assoc, one_div_mul_cancel (pow_ne_zero _ (by norm_num)), one_mul,
        le_div_iff₀ hBr] at h1
      have h3 : 2 ^ 52 * F64.scaledDen 2 (Hex.exponent n) ≤ F64.scaledNum 2 n.mantissa (Hex.exponent n) := by exact_mod_cast h1
      generalize F64.scaledNum 2 n.mantissa (Hex.exponent n) = A at *
      generalize F64.scaledDen 2 (Hex.exponent n) = B at *
      omega
    rw [decide_eq_false (not_le.mpr a1), decide_eq_false a2]
    rfl

theorem hex_ne (n : HexNumeral) : n.text.length ≠ 0 := by
  unfold HexNumeral.text
  simp

/-- **C146**, hexadecimal numbers: all of the text is used, and the result is a double nearest to the number. -/
theorem c146_hex (n : HexNumeral) (h : n.Ok) :
    Nearest (Text.atof n.text) n.value ∧ (HexInRange n → Text.stod n.text = some (Text.atof n.text, n.text.length)) := by
  unfold Text.atof Text.stod
  rw [Hex.strtod_hex h]
  refine ⟨?_, fun hr => ?_⟩
  · rw [Hex.value_eq]
    exact Hex.ofScaled_two_nearest _ _ _
  · simp only [hex_ne, if_false, hex_range hr, Bool.false_eq_true]

/-- A natural number has hexadecimal digits. -/
theorem hex_digits (m : Nat) : ∃ l : List HexDigit, l ≠ [] ∧ l.foldl (fun m d => 16 * m + d.1.val) 0 = m := by
  induction m using Nat.strong_induction_on with
  | _ m ih =>
    by_cases h : m < 16
    · exact ⟨[(⟨m, h⟩, false)], by simp, by simp⟩
    · obtain ⟨l, h1, h2⟩ := ih (m / 16) (by omega)
      refine ⟨l ++ [(⟨m % 16, by omega⟩, false)], by simp, ?_⟩
      rw [List.foldl_append, h2]
      simp only [List.foldl_cons, List.foldl_nil]
      omega

/-- **C146**, every double: for every finite double there is a hexadecimal numeral that is read as exactly this double, including the sign of zero. -/
theorem c146_every (x : F64) (hx : x.isFinite = true) : ∃ n : HexNumeral, n.Ok ∧ n.value = x.val ∧ Text.atof n.text = x
    ∧ Text.stod n.text = some (x, n.text.length) := by
  obtain ⟨l, h1, h2⟩ := hex_digits (F64.fixMag x.mag)
  let n : HexNumeral := { sg := if x.neg then ['-'] else [], ip := l, ex := some ('p', ['-'], ['1', '0', '7', '4']) }
  have hneg : decide (n.sg = ['-']) = x.neg := by
    show decide ((if x.neg then ['-'] else ([] : Str)) = ['-']) = x.neg
    cases x.neg <;> rfl
  have hok : n.Ok := by
    refine ⟨?_, ?_, ?_⟩
    · show Numeral.IsSign (if x.neg then ['-'] else [])
      cases x.neg
      · exact .inl rfl
      · exact .inr (.inr rfl)
    · show l ++ [] ≠ []
      rw [List.append_nil]
      exact h1
    · rintro e s d hd
      obtain ⟨rfl, rfl, rfl⟩ : 'p' = e ∧ ['-'] = s ∧ ['1', '0', '7', '4'] = d := by simpa [n] using hd
      exact ⟨.inl rfl, .inr (.inr rfl), by simp, by decide⟩
  have hm : n.mantissa = F64.fixMag x.mag := by
    unfold HexNumeral.mantissa
    show (l ++ []).foldl (fun m (d : HexDigit) => 16 * m + d.1.val) 0 = _
    rw [List.append_nil, h2]
  have he : Hex.exponent n = -1074 := by
    show (if (['-'] : Str) = ['-'] then - (decVal ['1', '0', '7', '4'] : Int) else (decVal ['1', '0', '7', '4'] : Int)) - 4 * (([] : List HexDigit).length : Int) = -1074
    decide
  have hv : n.value = x.val := by
    rw [Hex.value_eq, hneg, hm, he, F64.val_eq]
    congr 1
    rw [zpow_neg, div_eq_mul_inv]
    congr 2
    unfold F64.one1074
    rw [Nat.cast_pow]
    exact zpow_natCast (2 : ℝ) 1074
  have hmag := F64.isFinite_iff.mp hx
  have ha : Text.atof n.text = x := by
    unfold Text.atof
    rw [Hex.strtod_hex hok]
    show F64.ofScaled (decide (n.sg = ['-'])) 2 n.mantissa (Hex.exponent n) = x
    rcases Nat.eq_zero_or_pos n.mantissa with h0 | h0
    · have hz : x.mag = 0 := F64.fixMag_eq_zero.mp (hm ▸ h0)
      unfold F64.ofScaled F64.rnd
      have : F64.scaledNum 2 n.mantissa (Hex.exponent n) = 0 := by unfold F64.scaledNum; rw [h0, Nat.zero_mul, Nat.zero_mul]
      rw [this, if_pos (by split <;> rfl), hneg, ← hz, F64.mk'_eta]
    · rw [Hex.ofScaled_two _ h0, hex_exact hv.symm, F64.roundMag_exact (Hex.den_pos _) hmag.le, hneg, F64.mk'_eta]
  refine ⟨n, hok, hv, ha, ?_⟩
  have := (c146_hex n hok).2 (.inl ⟨x, hx, hv.symm⟩)
  rwa [ha] at this

/-- The text is the word up to upper and lower case. -/
def Says (w : String) (s : Str) : Prop := s.map Char.toLower = w.toList

theorem Says.lower {w : String} {s : Str} (h : Says w s) : s.map lower = w.toList := by
  rw [← h]
  exact List.map_congr_left fun c _ => Hex.lower_eq c

theorem says_begins {w : String} {s r : Str} (h : Says w s) : beginsWith w.toList (s ++ r) = true := by
  have hl : w.toList.length = s.length := by rw [← h, List.length_map]
  unfold beginsWith
  rw [hl, List.take_left, decide_eq_true_eq]
  exact h.lower

theorem says_head {w : String} {c : Char} {cs s r : Str} (h : Says w s) (hw : w.toList = c :: cs) (hc : c.toNat = 105 ∨ c.toNat = 110) :
    ∀ d, (s ++ r).head? = some d → lower d = c ∧ d ≠ '+' ∧ d ≠ '-' ∧ isSpace d = false := by
  intro d hd
  replace h := h.lower
  cases s with
  | nil => rw [hw] at h; simp at h
  | cons a s =>
    simp only [List.cons_append, List.head?_cons, Option.some.injEq] at hd
    subst hd
    rw [hw, List.map_cons] at h
    have e := (List.cons.inj h).1
    refine ⟨e, ?_, ?_, ?_⟩
    · rintro rfl
      rw [← e] at hc
      revert hc; decide
    · rintro rfl
      rw [← e] at hc
      revert hc; decide
    · by_contra hs
      rw [Bool.not_eq_false] at hs
      have : lower a = a := by
        unfold lower
        rw [if_neg]
        rintro ⟨h1, -⟩
        simp only [isSpace, Bool.or_eq_true, Bool.and_eq_true, decide_eq_true_eq] at hs
        omega
      rw [this] at e
      subst e
      simp only [isSpace, Bool.or_eq_true, Bool.and_eq_true, decide_eq_true_eq] at hs
      omega

theorem not_infinity {s r : Str} (h : Says "inf" s) (h' : ¬ Says "inity" (r.take 5)) : beginsWith "infinity".toList (s ++ r) = false := by
  have hl : s.length = 3 := by rw [← List.length_map (f := Char.toLower), h]; rfl
  unfold beginsWith
  rw [decide_eq_false]
  intro e
  apply h'
  rw [show "infinity".toList.length = s.length + 5 by rw [hl]; rfl, List.take_length_add_append, List.map_append, h.lower,
    show "infinity".toList = "inf".toList ++ "inity".toList from rfl] at e
  unfold Says
  rw [← List.append_cancel_left e]
  exact List.map_congr_left fun c _ => (Hex.lower_eq c).symm

/-- **C146**, infinity: `inf` and `infinity` in any case, with or without sign, are read as infinity; the characters that are used are the sign and the word. -/
theorem c146_infinity (sg s r : Str) (hs : Numeral.IsSign sg) (hw : Says "infinity" s ∨ (Says "inf" s ∧ ¬ Says "inity" (r.take 5))) :
    Text.stod (sg ++ (s ++ r)) = some (F64.inf (decide (sg = ['-'])), sg.length + s.length) := by
  have hh : ∀ d, (s ++ r).head? = some d → d ≠ '+' ∧ d ≠ '-' ∧ isSpace d = false := by
    intro d hd
    rcases hw with h | ⟨h, -⟩
    · exact (says_head (c := 'i') (cs := "nfinity".toList) h (by decide) (by decide) d hd).2
    · exact (says_head (c := 'i') (cs := "nf".toList) h (by decide) (by decide) d hd).2
  have hb : strtodBody (decide (sg = ['-'])) (s ++ r) = some { value := F64.inf (decide (sg = ['-'])), length := s.length, range := false } := by
    unfold strtodBody
    rcases hw with h | ⟨h, h'⟩
    · have hl : s.length = 8 := by rw [← List.length_map (f := Char.toLower), h]; rfl
      rw [says_begins h, hl]
      rfl
    · have hl : s.length = 3 := by rw [← List.length_map (f := Char.toLower), h]; rfl
      rw [not_infinity h h', says_begins h, hl]
      rfl
  have hl : s.length ≠ 0 := by
    rcases hw with h | ⟨h, -⟩ <;> · rw [← List.length_map (f := Char.toLower), h]; decide
  unfold Text.stod
  rw [Hex.strtod_sign hs hh, hb]
  simp only [Bool.false_eq_true, if_false]
  rw [if_neg (by omega)]

/-- **C146**, NaN: `nan` in any case, with or without sign, is read as NaN, and the characters that are used are the sign, the word and the letters, digits and underscores in parentheses
behind it, if there are any parentheses. -/
theorem c146_nan (sg s m r : Str) (hs : Numeral.IsSign sg) (hw : Says "nan" s)
    (hm : (m = [] ∧ r.head? ≠ some '(') ∨ ∃ t : Str, m = '(' :: (t ++ [')']) ∧ ∀ c ∈ t, c.isAlphanum = true ∨ c = '_') :
    ∃ y, y.isNaN = true ∧ Text.stod (sg ++ (s ++ (m ++ r))) = some (y, sg.length + s.length + m.length) := by
  have hhead := says_head (r := m ++ r) (c := 'n') (cs := "an".toList) hw (by decide) (by decide)
  have hl : s.length = 3 := by rw [← List.length_map (f := Char.toLower), hw]; rfl
  refine ⟨F64.mk' (decide (sg = ['-'])) F64.nan.mag, by cases decide (sg = ['-']) <;> decide, ?_⟩
  have hb : strtodBody (decide (sg = ['-'])) (s ++ (m ++ r)) = some { value := F64.mk' (decide (sg = ['-'])) F64.nan.mag, length := 3 + m.length, range := false } := by
    have hi : ∀ cs, beginsWith ('i' :: cs) (s ++ (m ++ r)) = false := by
      intro cs
      cases h : s ++ (m ++ r) with
      | nil => simp [List.append_eq_nil_iff] at h; rw [h.1] at hl; simp at hl
      | cons d t =>
        refine Hex.begins_not ?_
        rw [(hhead d (by rw [h]; rfl)).1]
        decide
    unfold strtodBody
    rw [show "infinity".toList = 'i' :: "nfinity".toList from rfl, show "inf".toList = 'i' :: "nf".toList from rfl, hi, hi, says_begins hw]
    simp only [Bool.false_eq_true, if_false, if_true]
    have hd : (s ++ (m ++ r)).drop 3 = m ++ r := by rw [← hl, List.drop_left]
    rw [hd]
    congr 2
    congr 1
    rcases hm with ⟨rfl, h⟩ | ⟨t, rfl, ht⟩
    · rw [List.nil_append, if_neg (fun h' => h h'.1)]
      rfl
    · have tw : (t ++ (')' :: r)).takeWhile (fun c => isAlnum c || decide (c = '_')) = t := by
        refine takeWhile_append_stop (fun c hc => ?_) (fun c hc => ?_)
        · rcases ht c hc with h | h <;> simp [Hex.isAlnum_eq, h]
        · simp only [List.head?_cons, Option.some.injEq] at hc
          subst hc
          decide
      have e : '(' :: (t ++ [')']) ++ r = '(' :: (t ++ (')' :: r)) := by simp
      rw [e]
      simp only [List.drop_succ_cons, List.drop_zero, tw, Nat.add_comm 1, List.drop_left, List.head?_cons, and_self, if_true]
      simp
  unfold Text.stod
  rw [Hex.strtod_sign hs (fun d hd => (hhead d hd).2), hb]
  simp only [Bool.false_eq_true, if_false]
  rw [if_neg (by omega), hl]
  congr 2
  omega

/-- **C146**, transform: the commands with one number can be given every finite double, and then do what the library function does with it. -/
theorem c146_transform (b : Build) (env : Env) (henv : env.stod = Text.stod) (h : Header) (prs : List PointRecord) (hu : Uncompressed h prs) (tl : Bytes)
    (x : F64) (hx : x.isFinite = true) :
    ∃ n : HexNumeral, n.Ok ∧ n.value = x.val ∧ ∀ name g, (name, g) ∈ libraryFunctions env.trig x →
      Transform.main b env [(name, n.text)] { rest := image h prs ++ tl } = ⟨image h (Affine.onAll g prs), .ok ()⟩ := by
  obtain ⟨n, h1, h2, -, h4⟩ := c146_every x hx
  refine ⟨n, h1, h2, fun name g hg => ?_⟩
  have hname : name ∈ commandOptions := by
    simp only [libraryFunctions, List.mem_cons, Prod.mk.injEq, List.not_mem_nil, or_false] at hg
    rcases hg with ⟨rfl, _⟩ | ⟨rfl, _⟩ | ⟨rfl, _⟩ | ⟨rfl, _⟩ | ⟨rfl, _⟩ | ⟨rfl, _⟩ | ⟨rfl, _⟩ | ⟨rfl, _⟩ | ⟨rfl, _⟩ <;> decide
  rw [main_commands b env [(name, n.text)] (by simp) (by simpa using hname)]
  exact c36_library_and_app_agree b env 0 h prs hu tl n.text x n.text.length (by rw [henv]; exact h4) name g hg

/-- **C146**, transform with infinity: the commands with one number do what the library function does with an infinity of the sign that is given. -/
theorem c146_transform_infinity (b : Build) (env : Env) (henv : env.stod = Text.stod) (h : Header) (prs : List PointRecord) (hu : Uncompressed h prs) (tl : Bytes)
    (sg s : Str) (hs : Numeral.IsSign sg) (hw : Says "infinity" s ∨ Says "inf" s) (name : String) (g : Pt F64 → Pt F64)
    (hg : (name, g) ∈ libraryFunctions env.trig (F64.inf (decide (sg = ['-'])))) :
    Transform.main b env [(name, sg ++ s)] { rest := image h prs ++ tl } = ⟨image h (Affine.onAll g prs), .ok ()⟩ := by
  have e := c146_infinity sg s [] hs (hw.imp id fun h => ⟨h, by unfold Says; decide⟩)
  rw [List.append_nil] at e
  have hname : name ∈ commandOptions := by
    simp only [libraryFunctions, List.mem_cons, Prod.mk.injEq, List.not_mem_nil, or_false] at hg
    rcases hg with ⟨rfl, _⟩ | ⟨rfl, _⟩ | ⟨rfl, _⟩ | ⟨rfl, _⟩ | ⟨rfl, _⟩ | ⟨rfl, _⟩ | ⟨rfl, _⟩ | ⟨rfl, _⟩ | ⟨rfl, _⟩ <;> decide
  rw [main_commands b env [(name, sg ++ s)] (by simp) (by simpa using hname)]
  exact c36_library_and_app_agree b env 0 h prs hu tl _ _ _ (by rw [henv]; exact e) name g hg

/-! ## examples -/

/-- `-0x1.8P+3`, which is -12. -/
def hexExample : HexNumeral := { sg := ['-'], ip := [(1, false)], fp := some [(8, false)], ex := some ('P', ['+'], ['3']) }

theorem hexExample_ok : hexExample.Ok := by
  refine ⟨.inr (.inr rfl), by decide, ?_⟩
  rintro e s d hd
  obtain ⟨rfl, rfl, rfl⟩ : 'P' = e ∧ ['+'] = s ∧ ['3'] = d := by simpa [hexExample] using hd
  exact ⟨.inr rfl, .inr (.inl rfl), by simp, by decide⟩

theorem hexExample_value : hexExample.text = "-0x1.8P+3".toList ∧ hexExample.value = -12 := by
  refine ⟨by decide, ?_⟩
  have h1 : hexExample.mantissa = 24 := by decide
  have h2 : hexExample.power = 3 := by decide
  have h3 : hexExample.frac.length = 1 := by decide
  unfold HexNumeral.value
  rw [h1, h2, h3, if_pos (by decide)]
  norm_num

/-- The hypotheses of `c146_hex` hold. -/
example : Nearest (Text.atof "-0x1.8P+3".toList) (-12) ∧ Text.stod "-0x1.8P+3".toList = some (Text.atof "-0x1.8P+3".toList, 9) := by
  obtain ⟨h1, h2⟩ := c146_hex hexExample hexExample_ok
  rw [hexExample_value.1, hexExample_value.2] at h1
  refine ⟨h1, ?_⟩
  have h3 := h2 (.inl ⟨num (-12), by decide +kernel, by rw [hexExample_value.2, val_num (by norm_num)]; norm_num⟩)
  rw [hexExample_value.1] at h3
  exact h3

/-- The hypothesis of `c146_every` and `c146_transform` holds, for one tenth. -/
example : ∃ n : HexNumeral, n.Ok ∧ Text.stod n.text = some (⟨0x3FB999999999999A⟩, n.text.length) := by
  obtain ⟨n, h1, -, -, h2⟩ := c146_every ⟨0x3FB999999999999A⟩ (by decide)
  exact ⟨n, h1, h2⟩

/-- The hypotheses of `c146_infinity` hold: `-Infinity` and `inf,2`. -/
example : Text.stod "-Infinity".toList = some (F64.inf true, 9) ∧ Text.stod "inf,2".toList = some (F64.inf false, 3) :=
  ⟨c146_infinity ['-'] "Infinity".toList [] (.inr (.inr rfl)) (.inl (by unfold Says; decide)), c146_infinity [] "inf".toList ",2".toList (.inl rfl) (.inr ⟨by unfold Says; decide, by unfold Says; decide⟩)⟩

/-- The hypotheses of `c146_nan` hold: `NaN` and `+nan(a_1)b`. -/
example : (∃ y, y.isNaN = true ∧ Text.stod "NaN".toList = some (y, 3)) ∧ ∃ y, y.isNaN = true ∧ Text.stod "+nan(a_1)b".toList = some (y, 9) :=
  ⟨c146_nan [] "NaN".toList [] [] (.inl rfl) (by unfold Says; decide) (.inl ⟨rfl, by decide⟩),
    c146_nan ['+'] "nan".toList "(a_1)".toList ['b'] (.inr (.inl rfl)) (by unfold Says; decide) (.inr ⟨"a_1".toList, by decide, by decide⟩)⟩

/-- The hypotheses of `c146_transform_infinity` about the text hold. -/
example : Numeral.IsSign ['-'] ∧ Says "inf" "INF".toList := ⟨.inr (.inr rfl), by unfold Says; decide⟩

end Spoc.Props
