import Verif.Props.FilterSteps
import Verif.Props.Tile

/-!
# C90: the names of the tiles

The manual of tile (`/repo/apps/tile/tile.1.md`): the name of an output file consists of the prefix (or the base name of the input file
if there is none), the number of the tile in decimal digits, and an extension, that of the input file, or, if the input is standard input,
`.zpoc` for compressed and `.spoc` for uncompressed clouds.  `digits` is the number of digits.
-/

namespace Spoc.Props

open Spec Text

/-- `s` is the number `k` in decimal digits, with leading zeros if it would have fewer than `digits` digits otherwise. -/
def Numbered (digits : Nat) (k : Nat) (s : Str) : Prop :=
  (∃ z, s = List.replicate z '0' ++ Nat.toDigits 10 k) ∧ s.length = max digits (Nat.toDigits 10 k).length

theorem lastGiven_cons (name n : String) (arg : Str) (os : List (String × Str)) :
    lastGiven name ((n, arg) :: os) = if n = name then some ((lastGiven name os).getD arg) else lastGiven name os := by
  unfold lastGiven
  by_cases h : n = name
  · subst h
    rw [given_cons_eq, List.getLast?_cons, if_pos rfl]
  · rw [given_cons_ne h, if_neg h]

theorem tile_getArgs_names (os : List (String × Str)) (hh : ∀ o ∈ os, o.1 ≠ "help") (a0 a : Tile.Args)
    (h : Tile.getArgs os a0 = .ok a) :
    a.pre = (lastGiven "prefix" os).getD a0.pre
      ∧ a.digits = ((lastGiven "digits" os).map (fun t => UInt32.ofInt (atoi t))).getD a0.digits := by
  induction os generalizing a0 with
  | nil => rw [Tile.getArgs] at h; rw [← Res.ok.inj h]; exact ⟨rfl, rfl⟩
  | cons o os ih =>
    obtain ⟨name, arg⟩ := o
    have h1 : name ≠ "help" := hh (name, arg) (by simp)
    have ih := fun a0 h => ih (fun o ho => hh o (by simp [ho])) a0 h
    rw [lastGiven_cons, lastGiven_cons]
    unfold Tile.getArgs at h
    rw [if_neg h1] at h
    by_cases c2 : name = "verbose"
    · rw [if_pos c2] at h; subst c2; simpa using ih _ h
    rw [if_neg c2] at h
    by_cases c3 : name = "version"
    · rw [if_pos c3] at h; subst c3; simpa using ih _ h
    rw [if_neg c3] at h
    by_cases c4 : name = "force"
    · rw [if_pos c4] at h; subst c4; simpa using ih _ h
    rw [if_neg c4] at h
    by_cases c5 : name = "tiles"
    · rw [if_pos c5] at h; subst c5; simpa using ih _ h
    rw [if_neg c5] at h
    by_cases c6 : name = "digits"
    · rw [if_pos c6] at h; subst c6
      obtain ⟨i1, i2⟩ := ih _ h
      simp only [if_true, String.reduceEq, if_false]
      refine ⟨i1, ?_⟩
      rw [i2]
      cases lastGiven "digits" os <;> rfl
    rw [if_neg c6] at h
    by_cases c7 : name = "tile-size"
    · rw [if_pos c7] at h; subst c7; simpa using ih _ h
    rw [if_neg c7] at h
    by_cases c8 : name = "tile-size-x"
    · rw [if_pos c8] at h; subst c8; simpa using ih _ h
    rw [if_neg c8] at h
    by_cases c9 : name = "tile-size-y"
    · rw [if_pos c9] at h; subst c9; simpa using ih _ h
    rw [if_neg c9] at h
    by_cases c10 : name = "prefix"
    · rw [if_pos c10] at h; subst c10
      obtain ⟨i1, i2⟩ := ih _ h
      simp only [if_true, String.reduceEq, if_false]
      refine ⟨?_, i2⟩
      rw [i1]
      cases lastGiven "prefix" os <;> rfl
    rw [if_neg c10] at h
    cases h

/-- The options ask for this number of digits (the last one counts, the default is 3). -/
def AsksDigits (os : List (String × Str)) (d : Nat) : Prop :=
  d < 2 ^ 31 ∧ (lastGiven "digits" os = some (Nat.toDigits 10 d) ∨ (lastGiven "digits" os = none ∧ d = 3))

theorem width_of_asks {os : List (String × Str)} {d : Nat} (hd : AsksDigits os d) (hh : ∀ o ∈ os, o.1 ≠ "help") {a : Tile.Args}
    (h : Tile.getArgs os {} = .ok a) : (Tile.width a).toNat = d := by
  obtain ⟨_, h2⟩ := tile_getArgs_names os hh {} a h
  obtain ⟨hlt, hd⟩ := hd
  have h3 : a.digits.toNat = d := by
    rcases hd with hd | ⟨hd, rfl⟩
    · rw [h2, hd]
      simp only [Option.map_some, Option.getD_some]
      have h1 : atoi (Nat.toDigits 10 d) = d := by
        have := Filter.atoi_showNat (n := d) (by omega)
        rw [show Nat.toDigits 10 d = showNat d from rfl, this]
        exact Int.bmod_eq_of_le (by omega) (by omega)
      rw [h1]
      have : UInt32.ofInt (d : Int) = UInt32.ofNat d := by unfold UInt32.ofInt; congr 1; omega
      rw [this, UInt32.toNat_ofNat', Nat.mod_eq_of_lt (by omega)]
    · rw [h2, hd]
      rfl
  unfold Tile.width
  rw [h3, Int.bmod_eq_of_le (by omega) (by omega)]
  rfl

theorem padded_numbered {w : Int} {d : Nat} (h : w.toNat = d) (k : UInt64) : Numbered d k.toNat (Tile.padded w k) := by
  refine ⟨⟨_, rfl⟩, ?_⟩
  unfold Tile.padded showNat
  rw [List.length_append, List.length_replicate, h]
  omega

/-- The file name of a path whose last part is `n`. -/
theorem fileName_append {dir n : Str} (hd : dir = [] ∨ ∃ d, dir = d ++ ['/']) (hn : '/' ∉ n) : Tile.fileName (dir ++ n) = n := by
  have hall : ∀ c ∈ n.reverse, (decide (c ≠ '/')) = true := by
    intro c hc
    simp only [ne_eq, decide_eq_true_eq]
    rintro rfl
    exact hn (List.mem_reverse.mp hc)
  unfold Tile.fileName
  rw [List.reverse_append, List.takeWhile_append_of_pos hall]
  rcases hd with rfl | ⟨d, rfl⟩
  · simp
  · simp

/-- A path with base name and extension. -/
structure NamedPath (fn base ext : Str) : Prop where
  path : ∃ dir, fn = dir ++ (base ++ '.' :: ext) ∧ (dir = [] ∨ ∃ d, dir = d ++ ['/'])
  base : base ≠ [] ∧ '/' ∉ base
  ext : ext ≠ [] ∧ '/' ∉ ext ∧ '.' ∉ ext

theorem NamedPath.spec {fn base ext : Str} (h : NamedPath fn base ext) :
    fn ≠ [] ∧ Tile.extension fn = '.' :: ext ∧ Tile.stem fn = base := by
  obtain ⟨⟨dir, rfl, hd⟩, ⟨hb1, hb2⟩, he1, he2, he3⟩ := h
  have hn : '/' ∉ base ++ '.' :: ext := by
    simp only [List.mem_append, List.mem_cons, not_or]
    exact ⟨hb2, by decide, he2⟩
  have hfn := fileName_append hd hn
  have hlb := List.length_pos_iff.mpr hb1
  have hle := List.length_pos_iff.mpr he1
  have hall : ∀ c ∈ ext.reverse, (decide (c ≠ '.')) = true := by
    intro c hc
    simp only [ne_eq, decide_eq_true_eq]
    rintro rfl
    exact he3 (List.mem_reverse.mp hc)
  have hext : Tile.extension (dir ++ (base ++ '.' :: ext)) = '.' :: ext := by
    unfold Tile.extension
    rw [hfn]
    dsimp only
    rw [if_neg, List.reverse_append, List.reverse_cons, List.append_assoc, List.takeWhile_append_of_pos hall, List.singleton_append,
      List.takeWhile_cons]
    · simp only [ne_eq, not_true_eq_false, decide_false, Bool.false_eq_true, if_false, List.append_nil, List.reverse_reverse]
      rw [if_neg]
      intro hc
      have := congrArg List.length hc
      simp only [List.length_append, List.length_cons] at this
      omega
    · rintro (hc | hc | hc)
      · have := congrArg List.length hc
        simp only [List.length_append, List.length_cons, List.length_nil] at this
        omega
      · have := congrArg List.length hc
        simp only [List.length_append, List.length_cons, List.length_nil] at this
        omega
      · exact hc (by simp)
  refine ⟨by simp, hext, ?_⟩
  unfold Tile.stem
  rw [hext, hfn]
  simp

/-- **C90**: input file with an extension, no prefix. -/
theorem c90_from_file (os : List (String × Str)) (hh : ∀ o ∈ os, o.1 ≠ "help") (a : Tile.Args) (ha : Tile.getArgs os {} = .ok a) (d : Nat)
    (hd : AsksDigits os d) (hp : lastGiven "prefix" os = none) (fn base ext : Str) (hfn : NamedPath fn base ext) (f : SpocFile)
    (k : UInt64) : ∃ s, Numbered d k.toNat s ∧ tileName { a with fn := fn } f k = base ++ s ++ '.' :: ext := by
  obtain ⟨h1, h2, h3⟩ := hfn.spec
  have hpre : a.pre = [] := by rw [(tile_getArgs_names os hh {} a ha).1, hp]; rfl
  refine ⟨_, padded_numbered (width_of_asks hd hh ha) k, ?_⟩
  have h4 : fn.isEmpty = false := by simpa using h1
  unfold tileName Tile.outputName
  simp only [hpre, h4, h2, h3, List.isEmpty_nil, if_true, Bool.false_eq_true, if_false]
  rfl

/-- **C90**: input file with an extension, and a prefix. -/
theorem c90_prefix (os : List (String × Str)) (hh : ∀ o ∈ os, o.1 ≠ "help") (a : Tile.Args) (ha : Tile.getArgs os {} = .ok a) (d : Nat)
    (hd : AsksDigits os d) (pre : Str) (hne : pre ≠ []) (hp : lastGiven "prefix" os = some pre) (fn base ext : Str)
    (hfn : NamedPath fn base ext) (f : SpocFile) (k : UInt64) :
    ∃ s, Numbered d k.toNat s ∧ tileName { a with fn := fn } f k = pre ++ s ++ '.' :: ext := by
  obtain ⟨h1, h2, h3⟩ := hfn.spec
  have hpre : a.pre = pre := by rw [(tile_getArgs_names os hh {} a ha).1, hp]; rfl
  refine ⟨_, padded_numbered (width_of_asks hd hh ha) k, ?_⟩
  have h4 : fn.isEmpty = false := by simpa using h1
  have h5 : pre.isEmpty = false := by simpa using hne
  unfold tileName Tile.outputName
  simp only [hpre, h4, h5, h2, Bool.false_eq_true, if_false]
  rfl

/-- **C90**: standard input. -/
theorem c90_from_stdin (os : List (String × Str)) (hh : ∀ o ∈ os, o.1 ≠ "help") (a : Tile.Args) (ha : Tile.getArgs os {} = .ok a) (d : Nat)
    (hd : AsksDigits os d) (pre : Str) (hne : pre ≠ []) (hp : lastGiven "prefix" os = some pre) (f : SpocFile) (k : UInt64) :
    ∃ s, Numbered d k.toNat s
      ∧ tileName { a with fn := [] } f k = pre ++ s ++ (if f.compressed = true then ".zpoc".toList else ".spoc".toList) := by
  have hpre : a.pre = pre := by rw [(tile_getArgs_names os hh {} a ha).1, hp]; rfl
  refine ⟨_, padded_numbered (width_of_asks hd hh ha) k, ?_⟩
  have h5 : pre.isEmpty = false := by simpa using hne
  unfold tileName Tile.outputName
  simp only [hpre, h5, List.isEmpty_nil, if_true, Bool.false_eq_true, if_false]
  rfl

/-- Standard input without a prefix is an error, and no file is changed. -/
theorem c90_stdin_needs_prefix (b : Build) (zl : Zlib) (cc : Str → Bool) (os : List (String × Str)) (hh : ∀ o ∈ os, o.1 ≠ "help")
    (a : Tile.Args) (ha : Tile.getArgs os {} = .ok a) (hv : a.version = false) (hhelp : a.help = false)
    (hp : lastGiven "prefix" os = none) (stdin : IStream) (fs : Tile.FS) :
    Tile.main b zl cc os [] stdin fs = (fs, .throw "If using stdin as input you must specify an output prefix") := by
  have hpre : a.pre = [] := by rw [(tile_getArgs_names os hh {} a ha).1, hp]; rfl
  unfold Tile.main
  rw [ha]
  simp only [hv, hhelp, hpre, Bool.or_self, Bool.false_eq_true, if_false, List.isEmpty_nil, Bool.and_self, if_true]

/-! ## Examples -/

/-- `tile --digits=4 data/a.b/cloud.v2.spoc`: tile 17 is called `cloud.v20017.spoc`. -/
example : NamedPath "data/a.b/cloud.v2.spoc".toList "cloud.v2".toList "spoc".toList where
  path := ⟨"data/a.b/".toList, by decide, .inr ⟨"data/a.b".toList, by decide⟩⟩
  base := by decide
  ext := by decide

example : AsksDigits [("digits", "4".toList)] 4 := ⟨by decide, .inl (by decide +kernel)⟩
example : AsksDigits [("prefix", "out/t".toList)] 3 := ⟨by decide, .inr (by decide)⟩
example : Numbered 4 17 "0017".toList := ⟨⟨2, by decide +kernel⟩, by decide +kernel⟩
example : Numbered 1 17 "17".toList := ⟨⟨0, by decide +kernel⟩, by decide +kernel⟩
example : ¬ Numbered 4 17 "017".toList := fun h => absurd h.2 (by decide +kernel)

end Spoc.Props
