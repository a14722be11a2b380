import Mathlib.Data.List.Permutation
import Verif.Props.FilterSteps
import Verif.Props.Tile
import Verif.Props.Tool
import Verif.Props.Transform

/-!
# C89: numbers on the command line

Numbers are given to the applications as text.  A numeral (`Spec.Numeral`: sign, digits, point, exponent) stands for a real
number (`Numeral.value`); the applications calculate with a double nearest to it.
-/

namespace Spoc.Props

open Spec Text Transform AppUtils

/-- The number is zero, or neither too large nor too small for a double with full precision. -/
def NumeralInRange (n : Numeral) : Prop :=
  n.mantissa = 0 ∨ (1 / 2 ^ 1022 ≤ |n.value| ∧ |n.value| ≤ F64.maxVal.val)

theorem abs_value (n : Numeral) : |n.value| = n.mantissa * (10 : ℝ) ^ n.exponent := by
  unfold Numeral.value
  rw [mul_assoc, abs_mul, abs_of_nonneg (dec_nonneg n.mantissa n.exponent)]
  split <;> simp

theorem unit1022 : (F64.one1074 : ℝ) = 2 ^ 1022 * 2 ^ 52 := by
  unfold F64.one1074
  rw [← pow_add, Nat.cast_pow, Nat.cast_ofNat]

theorem maxVal_val : F64.maxVal.val = (F64.fixMag F64.maxVal.mag : ℝ) / (F64.one1074 : ℝ) := by
  rw [F64.val_eq, show F64.maxVal.neg = false from by decide]
  simp only [Bool.false_eq_true, if_false, one_mul]

/-- Numbers in range are not reported as out of range. -/
theorem range_ok {n : Numeral} (h : NumeralInRange n) : F64.rangeError 10 n.mantissa n.exponent = false := by
  have hB := scaledDen_pos n.exponent
  have hU := F64.one1074_pos'
  unfold F64.rangeError
  dsimp only
  rcases h with h | ⟨h1, h2⟩
  · have hA : F64.scaledNum 10 n.mantissa n.exponent = 0 := by unfold F64.scaledNum; rw [h, Nat.zero_mul, Nat.zero_mul]
    rw [hA, F64.roundMag_zero hB, F64.fixMag_eq_zero.mpr rfl, Nat.zero_mul]
    have : ¬ F64.infMag ≤ 0 := by decide
    simp [this]
  · rw [abs_value, ← scaled_r] at h1 h2
    have hBr : (0 : ℝ) < (F64.scaledDen 10 n.exponent : ℕ) := by exact_mod_cast hB
    have a1 : F64.roundMag (F64.scaledNum 10 n.mantissa n.exponent) (F64.scaledDen 10 n.exponent) < F64.infMag := by
      have hm : F64.maxVal.mag < F64.infMag := by decide
      refine lt_of_le_of_lt (F64.roundMag_le_of hB hm.le ?_) hm
      rw [maxVal_val, div_le_div_iff_of_pos_right hU, div_le_iff₀ hBr] at h2
      exact_mod_cast h2
    have a2 : ¬ 4 * F64.scaledNum 10 n.mantissa n.exponent < (2 ^ 54 - 1) * F64.scaledDen 10 n.exponent := by
      rw [unit1022, le_div_iff₀ (by rw [← unit1022]; exact hU), ← mul_assoc, one_div_mul_cancel (pow_ne_zero _ (by norm_num)), one_mul,
        le_div_iff₀ hBr] at h1
      have h3 : 2 ^ 52 * F64.scaledDen 10 n.exponent ≤ F64.scaledNum 10 n.mantissa n.exponent := by exact_mod_cast h1
      generalize F64.scaledNum 10 n.mantissa n.exponent = A at *
      generalize F64.scaledDen 10 n.exponent = B at *
      omega
    rw [decide_eq_false (not_le.mpr a1), decide_eq_false a2]
    rfl

/-- `std::stod` and `atof` of a numeral in range. -/
theorem stod_numeral {n : Numeral} (h : n.Ok) (hr : NumeralInRange n) :
    ∃ y, Text.stod n.text = some (y, n.text.length) ∧ Nearest y n.value := by
  refine ⟨F64.ofScaled n.negative 10 n.mantissa n.exponent, ?_, ofScaled_value n⟩
  unfold Text.stod
  rw [strtod_numeral h]
  have hl : n.text.length ≠ 0 := by
    have := text_ne h
    unfold Numeral.text
    rw [List.length_append]
    have := List.length_pos_iff.mpr this
    omega
  simp only [hl, if_false, range_ok hr, Bool.false_eq_true]

theorem atof_numeral {n : Numeral} (h : n.Ok) : Nearest (Text.atof n.text) n.value := by
  unfold Text.atof
  rw [strtod_numeral h]
  exact ofScaled_value n

/-- The smallest double with full precision, 2^-1022. -/
def minNormal : F64 := ⟨0x0010000000000000⟩

theorem minNormal_val : minNormal.val = 1 / 2 ^ 1022 := by
  have h : minNormal.fv = 2 ^ 52 := by decide +kernel
  unfold F64.val
  rw [h, unit1022, Int.cast_pow, Int.cast_ofNat, div_mul_eq_div_div_swap, div_self (by norm_num)]

/-- A double nearest to a positive number in range is positive. -/
theorem nearest_pos {y : F64} {q : ℝ} (hq : 1 / 2 ^ 1022 ≤ q) (h : Nearest y q) : 0 < y.val := by
  have h1 := h.2 minNormal (by decide)
  have h0 : (0 : ℝ) < 1 / 2 ^ 1022 := div_pos one_pos (pow_pos (by norm_num) _)
  rw [minNormal_val] at h1
  generalize (1 : ℝ) / 2 ^ 1022 = m at *
  rw [abs_sub_comm m q, abs_of_nonneg (sub_nonneg.mpr hq)] at h1
  linarith only [(abs_le.mp h1).1, h0]

theorem val_gt_zero {y : F64} (hn : y.isNaN = false) (h : 0 < y.val) : F64.gt y F64.zero = true := by
  unfold F64.gt
  rw [F64.lt_iff]
  exact ⟨by decide, hn, by rw [F64.zero_fv]; exact F64.val_pos.mp h⟩

/-- A numeral that stands for a positive number in range. -/
def PositiveNumeral (n : Numeral) : Prop := n.Ok ∧ 1 / 2 ^ 1022 ≤ n.value

theorem atof_positive {n : Numeral} (h : PositiveNumeral n) :
    Nearest (Text.atof n.text) n.value ∧ F64.gt (Text.atof n.text) F64.zero = true := by
  have h1 := atof_numeral h.1
  exact ⟨h1, val_gt_zero h1.1 (nearest_pos h.2 h1)⟩

/-! ## Transform -/

/-- **C89**, transform: the commands with one number use a double nearest to the number that is given, for every well-formed
numeral in range. -/
theorem c89_transform (b : Build) (env : Env) (henv : env.stod = Text.stod) (h : Header) (prs : List PointRecord)
    (hu : Uncompressed h prs) (tl : Bytes) (n : Numeral) (hn : n.Ok) (hr : NumeralInRange n) :
    ∃ y, Nearest y n.value
      ∧ ∀ name g, (name, g) ∈ libraryFunctions env.trig y →
          Transform.main b env [(name, n.text)] { rest := image h prs ++ tl } = ⟨image h (Affine.onAll g prs), .ok ()⟩ := by
  obtain ⟨y, h1, h2⟩ := stod_numeral hn hr
  refine ⟨y, h2, fun name g hg => ?_⟩
  have hname : name ∈ commandOptions := by
    simp only [libraryFunctions, List.mem_cons, Prod.mk.injEq, List.not_mem_nil, or_false] at hg
    rcases hg with ⟨rfl, _⟩ | ⟨rfl, _⟩ | ⟨rfl, _⟩ | ⟨rfl, _⟩ | ⟨rfl, _⟩ | ⟨rfl, _⟩ | ⟨rfl, _⟩ | ⟨rfl, _⟩ | ⟨rfl, _⟩ <;> decide
  rw [main_commands b env [(name, n.text)] (by simp) (by simpa using hname)]
  exact c36_library_and_app_agree b env 0 h prs hu tl n.text y n.text.length (by rw [henv]; exact h1) name g hg

/-- **C89**, `--set`: the field that is named becomes a nearest double. -/
theorem c89_set (b : Build) (env : Env) (henv : env.stod = Text.stod) (seed ef : Nat) (n : Numeral) (hn : n.Ok) (hr : NumeralInRange n)
    (ax : Char) (hax : ax = 'x' ∨ ax = 'y' ∨ ax = 'z') :
    ∃ y op, Nearest y n.value ∧ parseCommand b env seed ef ⟨"set", ax :: ',' :: n.text⟩ = .ok op
      ∧ ∀ k p, op k p = .ok (if ax = 'x' then { p with x := y } else if ax = 'y' then { p with y := y } else { p with z := y }) := by
  obtain ⟨y, h1, h2⟩ := stod_numeral hn hr
  have hc : consumeDouble env.stod n.text = .ok (y, n.text.drop (n.text.length + 1)) := by
    unfold consumeDouble
    rw [henv, h1]
  have hf : consumeFieldName b (ax :: ',' :: n.text) = .ok ([ax], n.text) := by
    rcases hax with rfl | rfl | rfl <;> cases b <;> rfl
  refine ⟨y, setOp [ax] y ef, h2, ?_, ?_⟩
  · simp only [parseCommand, String.reduceEq, if_false, if_true]
    rw [hf, Res.ok_bind]
    dsimp only
    rw [hc]
    rfl
  · rcases hax with rfl | rfl | rfl <;> intro k p <;> rfl

/-! ## Filter -/

/-- What is asked for, with numbers as they are written. -/
structure FilterText where
  keep : List Nat := []
  remove : List Nat := []
  unique : Bool := false
  resolution : Option Numeral := none
  seed : Nat := 0
  coords : Option (Condition × Numeral) := none

/-- The options ask for it; of several resolutions and conditions the last one counts. -/
structure AsksText (os : List (String × Str)) (t : FilterText) : Prop where
  names : ∀ o ∈ os, o.1 ∈ filterNames
  keep : given "keep-class" os = t.keep.map (Nat.toDigits 10)
  keepRange : ∀ n ∈ t.keep, n < 2 ^ 32
  remove : given "remove-class" os = t.remove.map (Nat.toDigits 10)
  removeRange : ∀ n ∈ t.remove, n < 2 ^ 32
  unique : t.unique = true ↔ ∃ o ∈ os, o.1 = "unique-xyz"
  resolution : lastGiven "subsample" os = t.resolution.map Numeral.text
  resolutionRange : ∀ n ∈ t.resolution, PositiveNumeral n
  seed : lastGiven "random-seed" os = some (Nat.toDigits 10 t.seed) ∨ (lastGiven "random-seed" os = none ∧ t.seed = 0)
  seedRange : t.seed < 2 ^ 63
  coords : lastGiven "remove-coords" os = t.coords.map (fun c => c.1.text ++ c.2.text)
  coordsRange : ∀ c ∈ t.coords, c.2.Ok ∧ NumeralInRange c.2

/-- The request with nearest doubles instead of the numbers as they are written. -/
structure FilterMeans (t : FilterText) (r : FilterRequest) : Prop where
  keep : r.keep = t.keep
  remove : r.remove = t.remove
  unique : r.unique = t.unique
  seed : r.seed = t.seed
  noResolution : t.resolution = none → r.resolution = none
  resolution : ∀ n, t.resolution = some n → ∃ y, r.resolution = some y ∧ Nearest y n.value
  noCoords : t.coords = none → r.coords = none
  coords : ∀ c n, t.coords = some (c, n) → ∃ y, r.coords = some (c, y) ∧ Nearest y n.value

/-- **C89**, filter: resolutions and thresholds are nearest doubles, classes and seeds are the numbers that are given; the steps of
the filter (C75) are carried out with these. -/
theorem c89_filter (b : Build) (zl : Zlib) (sh : Subsampling.Shuffle) (hsh : sh.Lawful) (s : IStream) (f : SpocFile)
    (rest : IStream) (hr : Io.readFile b zl s = .ok (f, rest)) (os : List (String × Str)) (t : FilterText) (hos : AsksText os t) :
    ∃ r, FilterMeans t r
      ∧ ∀ qs, FilterSteps b sh r f.prs qs → Filter.main b zl sh os s = Io.writeFile b zl { f with prs := qs } := by
  have hres : ∃ res : Option F64, (t.resolution = none → res = none)
      ∧ (∀ n, t.resolution = some n → ∃ y, res = some y ∧ Nearest y n.value)
      ∧ match lastGiven "subsample" os with
        | none => res = none
        | some x => res = if F64.gt (atof x) F64.zero then some (atof x) else none := by
    rw [hos.resolution]
    cases hn : t.resolution with
    | none => exact ⟨none, fun _ => rfl, fun n h => by simp at h, rfl⟩
    | some n =>
      obtain ⟨h1, h2⟩ := atof_positive (hos.resolutionRange n (by rw [hn]; rfl))
      refine ⟨some (atof n.text), fun h => by simp at h, fun m hm => ⟨_, rfl, ?_⟩, ?_⟩
      · obtain rfl := Option.some.inj hm
        exact h1
      · simp only [Option.map_some]
        rw [if_pos h2]
  have hcoo : ∃ co : Option (Condition × F64), (t.coords = none → co = none)
      ∧ (∀ c n, t.coords = some (c, n) → ∃ y, co = some (c, y) ∧ Nearest y n.value)
      ∧ match co with
        | none => lastGiven "remove-coords" os = none ∨ lastGiven "remove-coords" os = some []
        | some (c, v) => ∃ x n, lastGiven "remove-coords" os = some (c.text ++ x) ∧ ' ' ∉ x ∧ Text.stod x = some (v, n) := by
    rw [hos.coords]
    cases hn : t.coords with
    | none => exact ⟨none, fun _ => rfl, fun c n h => by simp at h, .inl rfl⟩
    | some cn =>
      obtain ⟨c, n⟩ := cn
      obtain ⟨h1, h2⟩ := hos.coordsRange (c, n) (by rw [hn]; rfl)
      obtain ⟨y, h3, h4⟩ := stod_numeral h1 h2
      refine ⟨some (c, y), fun h => by simp at h, fun c' m hm => ?_, n.text, n.text.length, rfl, ?_, h3⟩
      · simp only [Option.some.injEq, Prod.mk.injEq] at hm
        obtain ⟨rfl, rfl⟩ := hm
        exact ⟨y, rfl, h4⟩
      · intro hsp
        have := text_noSpace h1 ' ' hsp
        revert this
        decide
  obtain ⟨res, a1, a2, a3⟩ := hres
  obtain ⟨co, c1, c2, c3⟩ := hcoo
  have hasks : Asks os ⟨t.keep, t.remove, t.unique, res, t.seed, co⟩ :=
    ⟨hos.names, hos.keep, hos.keepRange, hos.remove, hos.removeRange, hos.unique, a3, hos.seed, hos.seedRange, c3⟩
  refine ⟨⟨t.keep, t.remove, t.unique, res, t.seed, co⟩, ⟨rfl, rfl, rfl, rfl, a1, a2, c1, c2⟩, fun qs hq => ?_⟩
  rcases c75_filter_steps b zl sh hsh s f rest hr os _ hasks with ⟨qs', h1, h2⟩ | ⟨h1, _⟩
  · rw [filterSteps_unique hq h1]
    exact h2
  · exact absurd ⟨qs, hq⟩ h1

/-! ## Tile and tool -/

theorem negOne_not_pos : F64.gt F64.negOne F64.zero = false := by decide +kernel

/-- **C89**, tile: a tile size is a nearest double, in both directions. -/
theorem c89_tile_size (n : Numeral) (hn : PositiveNumeral n) (e : Extent) :
    ∃ a y, Tile.getArgs [("tile-size", n.text)] {} = .ok a ∧ Tile.tileSizes a e = .ok (y, y) ∧ Nearest y n.value := by
  obtain ⟨h1, h2⟩ := atof_positive hn
  refine ⟨{ tileSize := atof n.text }, atof n.text, rfl, ?_, h1⟩
  unfold Tile.tileSizes
  simp only [negOne_not_pos, h2, Bool.and_false, Bool.false_eq_true, if_false, if_true]

/-- **C89**, tile: different sizes in the two directions, in any order. -/
theorem c89_tile_sizes (n m : Numeral) (hn : PositiveNumeral n) (hm : PositiveNumeral m) (e : Extent)
    (os : List (String × Str)) (hos : os.Perm [("tile-size-x", n.text), ("tile-size-y", m.text)]) :
    ∃ a x y, Tile.getArgs os {} = .ok a ∧ Tile.tileSizes a e = .ok (x, y) ∧ Nearest x n.value ∧ Nearest y m.value := by
  obtain ⟨h1, h2⟩ := atof_positive hn
  obtain ⟨h3, h4⟩ := atof_positive hm
  refine ⟨{ tileSizeX := atof n.text, tileSizeY := atof m.text }, atof n.text, atof m.text, ?_, ?_, h1, h3⟩
  · rw [List.perm_pair] at hos
    rcases hos with rfl | rfl <;> rfl
  · unfold Tile.tileSizes
    simp only [negOne_not_pos, h2, h4, Bool.false_and, Bool.or_self, Bool.false_eq_true, if_false, if_true]

/-- **C89**, tool: the resolution of `upsample-classifications` is a nearest double. -/
theorem c89_tool (b : Build) (zl : Zlib) (files : Tool.Files) (fn : Str) (n : Numeral) (hn : PositiveNumeral n) (input s : IStream)
    (f g : SpocFile) (r1 r2 : IStream) (hf : Io.readFile b zl input = .ok (f, r1)) (hs : files.spoc fn = some s)
    (hg : Io.readFile b zl s = .ok (g, r2)) :
    ∃ y, Nearest y n.value
      ∧ ∀ h k, Tool.upsample b f g y = .ok (h, k) →
        Tool.main b zl files [("upsample-classifications", fn), ("resolution", n.text)] input = .ok (.file (Io.writeFile b zl h)) := by
  obtain ⟨h1, h2⟩ := atof_positive hn
  refine ⟨atof n.text, h1, fun h k hk => ?_⟩
  have hle : F64.le (atof n.text) F64.zero = false := by
    rw [Bool.eq_false_iff]
    intro hc
    have c1 := (F64.le_iff.mp hc).2.2
    unfold F64.gt at h2
    have c2 := (F64.lt_iff.mp h2).2.2
    omega
  have ha : Tool.getArgs [("upsample-classifications", fn), ("resolution", n.text)] {}
      = .ok { resolution := atof n.text, command := ⟨"upsample-classifications", fn⟩ } := rfl
  unfold Tool.main
  rw [ha, Res.ok_bind]
  simp only [Bool.false_eq_true, if_false, String.reduceEq]
  rw [Apps.fileOf, hf, Res.ok_bind]
  unfold Tool.run
  simp only [String.reduceEq, if_false, if_true, hle, Bool.false_eq_true, hs]
  rw [Apps.fileOf, hg]
  simp only [Res.ok_bind, hk]

/-! ## What goes wrong

Nothing checks that the whole text is a number. -/

/-- The letters that cannot begin a number; the others begin `inf` and `nan`. -/
def wordLetters : List Char := "abcdefghjklmopqrstuvwxyzABCDEFGHJKLMOPQRSTUVWXYZ".toList

theorem wordLetters_facts : ∀ c ∈ wordLetters, isSpace c = false ∧ isDigit c = false ∧ c ≠ '-' ∧ c ≠ '+' ∧ c ≠ '.'
    ∧ lower c ≠ 'i' ∧ lower c ≠ 'n' ∧ lower c ≠ '0' := by decide +kernel

theorem sign_other {c : Char} (s : Str) (h1 : c ≠ '-') (h2 : c ≠ '+') : sign (c :: s) = (false, 0, c :: s) := by
  unfold sign
  split
  · rename_i h
    exact absurd (List.cons.inj h).1 h1
  · rename_i h
    exact absurd (List.cons.inj h).1 h2
  · rfl

theorem beginsWith_ne {c w : Char} (ws s : Str) (h : lower c ≠ w) : beginsWith (w :: ws) (c :: s) = false := by
  unfold beginsWith
  rw [decide_eq_false]
  intro hc
  rw [List.length_cons, List.take_succ_cons, List.map_cons] at hc
  exact h (List.cons.inj hc).1

/-- No function of the C library finds a number in a word. -/
theorem word_no_number {c : Char} (hc : c ∈ wordLetters) (s : Str) :
    atoi (c :: s) = 0 ∧ atof (c :: s) = F64.zero ∧ stod (c :: s) = none ∧ stoi (c :: s) = none := by
  obtain ⟨h1, h2, h3, h4, h5, h6, h7, h8⟩ := wordLetters_facts c hc
  have hd : (c :: s).takeWhile isDigit = [] := by rw [List.takeWhile_cons, h2]; rfl
  have hd' : (c :: s).dropWhile isDigit = c :: s := by rw [List.dropWhile_cons, h2]; rfl
  have hs : (c :: s).dropWhile isSpace = c :: s := by rw [List.dropWhile_cons, h1]; rfl
  have hf : scanFrac isDigit (c :: s) = ([], 0) := by
    unfold scanFrac
    split
    · rename_i h
      exact absurd (List.cons.inj h).1 h5
    · rfl
  have hi : scanInt (c :: s) = none := by
    unfold scanInt
    rw [hs, sign_other s h3 h4]
    dsimp only
    rw [hd]
    rfl
  have hdec : scanDec (c :: s) = none := by
    unfold scanDec
    rw [hd, hd', hf]
    rfl
  have hb : strtodBody false (c :: s) = none := by
    unfold strtodBody
    rw [show "infinity".toList = 'i' :: "nfinity".toList from rfl, show "inf".toList = 'i' :: "nf".toList from rfl,
      show "nan".toList = 'n' :: "an".toList from rfl, show "0x".toList = '0' :: "x".toList from rfl,
      beginsWith_ne _ s h6, beginsWith_ne _ s h6, beginsWith_ne _ s h7, beginsWith_ne _ s h8]
    simp only [Bool.false_eq_true, if_false, hdec]
  have ht : strtod (c :: s) = { value := F64.zero, length := 0, range := false } := by
    unfold strtod
    rw [hs, sign_other s h3 h4]
    dsimp only
    rw [hb]
  refine ⟨?_, ?_, ?_, ?_⟩
  · unfold atoi strtol
    rw [hi]
    rfl
  · unfold atof
    rw [ht]
  · unfold stod
    rw [ht]
    rfl
  · unfold stoi
    rw [hi]

/-- **C89** is false for other texts: a word in place of a class counts as class 0.  `--keep-class=ground` keeps the points of class 0,
whatever the file and the other options. -/
theorem c89_words_are_class_zero (b : Build) (zl : Zlib) (sh : Subsampling.Shuffle) (name : String)
    (hname : name = "keep-class" ∨ name = "remove-class") (c : Char) (hc : c ∈ wordLetters) (s : Str)
    (os : List (String × Str)) (input : IStream) :
    Filter.main b zl sh ((name, c :: s) :: os) input = Filter.main b zl sh ((name, "0".toList) :: os) input := by
  have h1 := (word_no_number hc s).1
  have h2 : atoi "0".toList = 0 := by decide +kernel
  unfold Filter.main
  rw [show Filter.getArgs ((name, c :: s) :: os) {} = Filter.getArgs ((name, "0".toList) :: os) {} from ?_]
  rcases hname with rfl | rfl <;> simp only [Filter.getArgs, Filter.dispatch, String.reduceEq, if_false, if_true, h1, h2]

/-- … and a class that does not fit into 32 bits is another class. -/
theorem c89_wrapped_class (b : Build) (zl : Zlib) (sh : Subsampling.Shuffle) (os : List (String × Str)) (input : IStream) :
    Filter.main b zl sh (("keep-class", "4294967298".toList) :: os) input
      = Filter.main b zl sh (("keep-class", "2".toList) :: os) input := by
  have h1 : atoi "4294967298".toList = 2 := by decide +kernel
  have h2 : atoi "2".toList = 2 := by decide +kernel
  unfold Filter.main
  rw [show Filter.getArgs (("keep-class", "4294967298".toList) :: os) {} = Filter.getArgs (("keep-class", "2".toList) :: os) {} from ?_]
  simp only [Filter.getArgs, Filter.dispatch, String.reduceEq, if_false, if_true, h1, h2]

/-- **C89** is false of numbers written with a decimal comma: `--add-x=1,5` adds 1, without a message. -/
theorem c89_decimal_comma (b : Build) (env : Env) (henv : env.stod = Text.stod) (input : IStream) :
    Transform.main b env [("add-x", "1,5".toList)] input = Transform.main b env [("add-x", "1".toList)] input
      ∧ (Text.stod "1,5".toList).map Prod.fst ≠ (Text.stod "1.5".toList).map Prod.fst := by
  have h1 : Text.stod "1,5".toList = some (F64.one, 1) := by decide +kernel
  have h2 : Text.stod "1".toList = some (F64.one, 1) := by decide +kernel
  refine ⟨?_, by decide +kernel⟩
  have h3 : ∀ seed ef, parseCommand b env seed ef ⟨"add-x", "1,5".toList⟩ = parseCommand b env seed ef ⟨"add-x", "1".toList⟩ := by
    intro seed ef
    simp only [parseCommand, if_true, consumeDouble, henv, h1, h2, Res.ok_bind]
  rw [main_commands b env [("add-x", "1,5".toList)] (by simp) (by simp [commandOptions]),
    main_commands b env [("add-x", "1".toList)] (by simp) (by simp [commandOptions])]
  simp only [List.map_cons, List.map_nil, Transform.apply, List.mapM_cons, h3]

/-- **C89** is false without `NumeralInRange`: a number smaller than 2^-1022 is rejected by the commands of transform, although there are
doubles near it. -/
theorem c89_subnormal_rejected (b : Build) (env : Env) (henv : env.stod = Text.stod) (seed ef : Nat) :
    parseCommand b env seed ef ⟨"add-x", "1e-310".toList⟩ = .throw "Could not parse number value string" := by
  have h1 : Text.stod "1e-310".toList = none := by decide +kernel
  simp only [parseCommand, if_true, consumeDouble, henv, h1]
  rfl

/-- … and `tile --tile-size=1e999` is accepted: the tiles have infinite size. -/
theorem c89_infinite_tile_size (e : Extent) :
    ∃ a, Tile.getArgs [("tile-size", "1e999".toList)] {} = .ok a ∧ Tile.tileSizes a e = .ok (F64.inf false, F64.inf false) := by
  have h1 : Text.atof "1e999".toList = F64.inf false := by decide +kernel
  refine ⟨{ tileSize := F64.inf false }, ?_, ?_⟩
  · simp only [Tile.getArgs, String.reduceEq, if_false, if_true, h1]
  · have h2 : F64.gt (F64.inf false) F64.zero = true := by decide +kernel
    unfold Tile.tileSizes
    simp only [negOne_not_pos, h2, Bool.and_false, Bool.false_eq_true, if_false, if_true]

/-- `tile --tile-size=ten` is `tile` without a size. -/
theorem c89_tile_word (c : Char) (hc : c ∈ wordLetters) (s : Str) (e : Extent) :
    ∃ a, Tile.getArgs [("tile-size", c :: s)] {} = .ok a ∧ Tile.tileSizes a e = Tile.tileSizes {} e := by
  refine ⟨{ tileSize := F64.zero }, ?_, ?_⟩
  · simp only [Tile.getArgs, String.reduceEq, if_false, if_true, (word_no_number hc s).2.1]
  · have h2 : F64.gt F64.zero F64.zero = false := by decide +kernel
    unfold Tile.tileSizes
    simp only [negOne_not_pos, h2, Bool.false_and, Bool.or_self, Bool.false_eq_true, if_false]

/-! ## Examples -/

/-- 2.50 -/
def n250 : Numeral := { ip := "2".toList, fp := some "50".toList }

theorem n250_ok : n250.Ok := ⟨.inl rfl, by decide, by decide, by decide, by intro e s d h; cases h⟩

theorem n250_value : n250.value = 5 / 2 := by
  have h1 : n250.mantissa = 250 := by decide +kernel
  have h2 : n250.exponent = -2 := by decide +kernel
  have h3 : n250.negative = false := by decide
  unfold Numeral.value
  rw [h1, h2, h3]
  norm_num

theorem small_inv : (1 : ℝ) / 2 ^ 1022 ≤ 1 := by
  rw [div_le_one (pow_pos (by norm_num) _)]
  exact one_le_pow₀ (by norm_num)

theorem n250_range : NumeralInRange n250 := by
  right
  rw [n250_value, abs_of_nonneg (by norm_num), maxVal_val, le_div_iff₀ F64.one1074_pos']
  refine ⟨le_trans small_inv (by norm_num), ?_⟩
  have h : 5 * F64.one1074 ≤ 2 * F64.fixMag F64.maxVal.mag := by decide +kernel
  have h' : (5 : ℝ) * (F64.one1074 : ℝ) ≤ 2 * (F64.fixMag F64.maxVal.mag : ℝ) := by exact_mod_cast h
  linarith only [h']

theorem n250_positive : PositiveNumeral n250 := ⟨n250_ok, by rw [n250_value]; exact le_trans small_inv (by norm_num)⟩

/-- The numeral is the text that one expects, and the hypotheses of the theorems hold for it. -/
example : n250.text = "2.50".toList ∧ n250.Ok ∧ NumeralInRange n250 ∧ PositiveNumeral n250 ∧ n250.value = 5 / 2 :=
  ⟨by decide, n250_ok, n250_range, n250_positive, n250_value⟩

/-- 2.50 is 2.5: here the nearest double is exact. -/
example : Text.stod n250.text = some (⟨0x4004000000000000⟩, 4) := by decide +kernel

/-- `--keep-class=2 --subsample=2.50 --remove-coords="x < 2.50"` -/
example : AsksText
    [("keep-class", "2".toList), ("subsample", n250.text), ("remove-coords", (Condition.mk 0 true).text ++ n250.text)]
    { keep := [2], resolution := some n250, coords := some (⟨0, true⟩, n250) } where
  names := by simp [filterNames]
  keep := by decide +kernel
  keepRange := by simp
  remove := by decide
  removeRange := by simp
  unique := by simp
  resolution := by rfl
  resolutionRange := by rintro n ⟨⟩; exact n250_positive
  seed := .inr ⟨by decide, rfl⟩
  seedRange := by decide
  coords := by rfl
  coordsRange := by rintro n ⟨⟩; exact ⟨n250_ok, n250_range⟩

/-- A word that is taken for class 0. -/
example : 'g' ∈ wordLetters ∧ "ground".toList = 'g' :: "round".toList := by decide +kernel

end Spoc.Props
