import Verif.Proofs.Cmd

/-!
# C67-C70: command lines
-/

namespace Spoc.Props

open Getopt Cmd Spec.Cmd Main

/-- The options that may be written by their letters: those whose letter the help text shows, except `random-seed` of transform (see
`c67_seed_letter`). -/
def usable (n : Name) : List LongOpt := (withLetter n.table.longs).filter (fun o => decide (n ≠ .transform) || !o.hasArg)

theorem usable_letters (n : Name) : Letters (shortsOf n.table.optstring) (usable n) := by cases n <;> decide +kernel

theorem valid_mem {longs short : List LongOpt} (hs : ∀ o ∈ short, o ∈ longs) (it : Item) (hv : Valid longs short it) :
    ∀ x ∈ it.options, x.1 ∈ longs := by
  intro x hx
  cases it with
  | long q o => simp only [Item.options, List.mem_singleton] at hx; subst hx; exact hv.1.1
  | longEq q o v => simp only [Item.options, List.mem_singleton] at hx; subst hx; exact hv.1.1
  | longSep q o v => simp only [Item.options, List.mem_singleton] at hx; subst hx; exact hv.1.1
  | letters fs =>
    simp only [Item.options, List.mem_map] at hx
    obtain ⟨f, hf, rfl⟩ := hx
    exact hs _ (hv.2 f hf).1
  | joined fs o v =>
    simp only [Item.options, List.mem_append, List.mem_map, List.mem_singleton] at hx
    rcases hx with ⟨f, hf, rfl⟩ | rfl
    · exact hs _ (hv.1 f hf).1
    · exact hs _ hv.2.1
  | sep fs o v =>
    simp only [Item.options, List.mem_append, List.mem_map, List.mem_singleton] at hx
    rcases hx with ⟨f, hf, rfl⟩ | rfl
    · exact hs _ (hv.1 f hf).1
    · exact hs _ hv.2.1
  | operand t => simp [Item.options] at hx

theorem usable_sub (n : Name) : ∀ o ∈ usable n, o ∈ n.table.longs := by
  intro o ho
  exact (List.mem_filter.mp (List.mem_filter.mp ho).1).1

theorem named_options (n : Name) (items : List Item) (hv : ∀ it ∈ items, Valid n.table.longs (usable n) it) :
    ((items.flatMap Item.options).map event).map (fun e => (nameOf n.table.longs e.val, e.arg.getD []))
      = (items.flatMap Item.options).map named := by
  rw [List.map_map]
  apply List.map_congr_left
  intro x hx
  rw [List.mem_flatMap] at hx
  obtain ⟨it, hit, hx⟩ := hx
  have := valid_mem (usable_sub n) it (hv it hit) x hx
  simp only [Function.comp, event, named, nameOf_mem (vals n) this]

/-- C67 and C68, what an application gets from its command line: the options that were written, in this order and with their arguments,
however each of them is written, and the words that are no options.  A word `--` ends the options. -/
theorem c67_forms_partial (n : Name) (items : List Item) (hv : ∀ it ∈ items, Valid n.table.longs (usable n) it) :
    n.table.options (items.flatMap Item.text) = (items.flatMap Item.options).map named
      ∧ n.table.operands (items.flatMap Item.text) = items.flatMap Item.operands := by
  have h := parse_items (good n) (usable_letters n) items hv []
  rw [List.append_nil, parse_nil, List.append_nil, List.append_nil] at h
  constructor
  · rw [App.options, App.parse, h]
    exact named_options n items hv
  · rw [App.operands, App.parse, h]

/-- The same with `--` and further words behind it. -/
theorem c68_end_of_options (n : Name) (items : List Item) (hv : ∀ it ∈ items, Valid n.table.longs (usable n) it) (ws : List Str) :
    n.table.options (items.flatMap Item.text ++ ['-', '-'] :: ws) = (items.flatMap Item.options).map named
      ∧ n.table.operands (items.flatMap Item.text ++ ['-', '-'] :: ws) = items.flatMap Item.operands ++ ws := by
  have h := parse_items (good n) (usable_letters n) items hv (['-', '-'] :: ws)
  rw [parse_end, List.append_nil] at h
  constructor
  · rw [App.options, App.parse, h]
    exact named_options n items hv
  · rw [App.operands, App.parse, h]

/-- An application looks at nothing but these. -/
theorem run_congr (n : Name) (p : Params) (w : World) {argv argv' : List Str} (ho : n.table.options argv = n.table.options argv')
    (hf : n.table.operands argv = n.table.operands argv') : n.run p argv w = n.run p argv' w := by
  cases n
  case compress => simp only [Name.table] at ho hf; simp only [Name.run, Main.compress, Main.basicArgs, ho, hf]
  case decompress => simp only [Name.table] at ho hf; simp only [Name.run, Main.decompress, Main.basicArgs, ho, hf]
  case diff => simp only [Name.table] at ho hf; simp only [Name.run, Main.diff, ho, hf]
  case filter => simp only [Name.table] at ho hf; simp only [Name.run, Main.filter, filterArgs, ho, hf]
  case info => simp only [Name.table] at ho hf; simp only [Name.run, Main.info, ho, hf]
  case merge => simp only [Name.table] at ho hf; simp only [Name.run, Main.merge, ho, hf]
  case srs => simp only [Name.table] at ho hf; simp only [Name.run, Main.srs, ho, hf]
  case tile => simp only [Name.table] at ho hf; simp only [Name.run, Main.tile, ho, hf]
  case tool => simp only [Name.table] at ho hf; simp only [Name.run, Main.tool, toolArgs, ho, hf]
  case transform => simp only [Name.table] at ho hf; simp only [Name.run, Main.transform, transformArgs, ho, hf]

/-- C67: two command lines that write the same options with the same arguments, and the same file names, make every application do the
same, whatever forms they use.  The letter of `random-seed` of transform is left out. -/
theorem c67_same_effect_partial (n : Name) (p : Params) (w : World) (items items' : List Item)
    (hv : ∀ it ∈ items, Valid n.table.longs (usable n) it) (hv' : ∀ it ∈ items', Valid n.table.longs (usable n) it)
    (ho : items.flatMap Item.options = items'.flatMap Item.options) (hf : items.flatMap Item.operands = items'.flatMap Item.operands) :
    n.run p (items.flatMap Item.text) w = n.run p (items'.flatMap Item.text) w := by
  have h1 := c67_forms_partial n items hv
  have h2 := c67_forms_partial n items' hv'
  apply run_congr
  · rw [h1.1, h2.1, ho]
  · rw [h1.2, h2.2, hf]

/-- C68: options and file names may be mixed: a command line does the same as the one that has all options first, then `--`, then the file
names. -/
theorem c68_any_order (n : Name) (p : Params) (w : World) (items : List Item)
    (hv : ∀ it ∈ items, Valid n.table.longs (usable n) it) :
    n.run p (items.flatMap Item.text) w
      = n.run p ((items.filter isOption).flatMap Item.text ++ ['-', '-'] :: items.flatMap Item.operands) w := by
  have h1 := c67_forms_partial n items hv
  have h2 := c68_end_of_options n (items.filter isOption) (fun it h => hv it (List.mem_filter.mp h).1) (items.flatMap Item.operands)
  have ho : (items.filter isOption).flatMap Item.options = items.flatMap Item.options := by
    clear h1 h2 hv
    induction items with
    | nil => rfl
    | cons it items ih =>
      rw [List.filter_cons, List.flatMap_cons]
      cases it <;> simp [isOption, Item.options, ih]
  have hf : (items.filter isOption).flatMap Item.operands = [] := by
    rw [List.flatMap_eq_nil_iff]
    intro it hit
    have := (List.mem_filter.mp hit).2
    cases it <;> simp_all [isOption, Item.operands]
  apply run_congr
  · rw [h1.1, h2.1, ho]
  · rw [h1.2, h2.2, hf, List.nil_append]

/-- `spoc_tile -fv --tiles=5 in.spoc -d3 --pref out` is a command line that the theorems apply to. -/
def exampleItems : List Item :=
  [.letters [⟨['f', 'o', 'r', 'c', 'e'], false, 102⟩, ⟨['v', 'e', 'r', 'b', 'o', 's', 'e'], false, 118⟩],
   .longEq ['t', 'i', 'l', 'e', 's'] ⟨['t', 'i', 'l', 'e', 's'], true, 116⟩ ['5'],
   .operand ['i', 'n', '.', 's', 'p', 'o', 'c'],
   .joined [] ⟨['d', 'i', 'g', 'i', 't', 's'], true, 100⟩ ['3'],
   .longSep ['p', 'r', 'e', 'f'] ⟨['p', 'r', 'e', 'f', 'i', 'x'], true, 112⟩ ['o', 'u', 't']]

theorem exampleItems_valid : ∀ it ∈ exampleItems, Valid Cmd.tile.longs (usable .tile) it := by
  intro it hit
  simp only [exampleItems, List.mem_cons, List.not_mem_nil, or_false] at hit
  rcases hit with rfl | rfl | rfl | rfl | rfl
  · exact ⟨by decide, by decide +kernel⟩
  · exact ⟨⟨by decide, Or.inl rfl⟩, rfl⟩
  · exact Or.inl (by decide)
  · exact ⟨by decide, by decide +kernel, rfl, by decide⟩
  · exact ⟨⟨by decide, Or.inr ⟨by decide, by decide, by decide +kernel⟩⟩, rfl⟩

example : exampleItems.flatMap Item.text
    = ["-fv".toList, "--tiles=5".toList, "in.spoc".toList, "-d3".toList, "--pref".toList, "out".toList] := by decide +kernel

example (ws : List Str) : Cmd.tile.operands (exampleItems.flatMap Item.text ++ ['-', '-'] :: ws) = "in.spoc".toList :: ws := by
  exact (c68_end_of_options .tile exampleItems exampleItems_valid ws).2

/-- C67 fails for transform: the help text shows `-a <ARG>` for the random seed, but the letter is rejected. -/
theorem c67_seed_letter (p : Params) (w : World) :
    ⟨['r', 'a', 'n', 'd', 'o', 'm', '-', 's', 'e', 'e', 'd'], true, 97⟩ ∈ withLetter Name.transform.table.longs
      ∧ Name.transform.run p [['-', 'a', '1']] w = ⟨w.fs, [], .throw "Invalid option"⟩ := by
  refine ⟨by decide +kernel, ?_⟩
  have : transformArgs [['-', 'a', '1']] = .throw "Invalid option" := by decide +kernel
  simp only [Name.run, Main.transform, this]
  rfl

/-! ## C69: wrong options -/

/-- `get_args` fails at an option that does not exist. -/
def Rejects {A : Type} (g : List (String × Str) → A → Res A) : Prop :=
  ∀ (os os' : List (String × Str)) (v : Str) (a : A), (∀ x ∈ os, x.1 ≠ "help") → ∃ e, g (os ++ ("?", v) :: os') a = .throw e

theorem rejects_of {A : Type} (g : List (String × Str) → A → Res A)
    (hbad : ∀ v os a, ∃ e, g (("?", v) :: os) a = .throw e)
    (hstep : ∀ x os a, x.1 ≠ "help" → (∃ a', g (x :: os) a = g os a') ∨ ∃ e, g (x :: os) a = .throw e) : Rejects g := by
  intro os os' v a h
  induction os generalizing a with
  | nil => exact hbad v os' a
  | cons x os ih =>
    rcases hstep x (os ++ ("?", v) :: os') a (h x List.mem_cons_self) with ⟨a', h1⟩ | ⟨e, h1⟩
    · obtain ⟨e, h2⟩ := ih a' (fun y hy => h y (List.mem_cons_of_mem _ hy))
      exact ⟨e, by rw [List.cons_append, h1, h2]⟩
    · exact ⟨e, by rw [List.cons_append, h1]⟩

theorem rejects_basic : Rejects Cmd.basicArgs := by
  apply rejects_of
  · intro v os a; exact ⟨_, rfl⟩
  · rintro ⟨name, arg⟩ os a h
    rw [Cmd.basicArgs, if_neg h]
    repeat' split
    all_goals first | exact Or.inl ⟨_, rfl⟩ | exact Or.inr ⟨_, rfl⟩

theorem rejects_srs : Rejects Cmd.srsArgs := by
  apply rejects_of
  · intro v os a; exact ⟨_, rfl⟩
  · rintro ⟨name, arg⟩ os a h
    rw [Cmd.srsArgs, if_neg h]
    repeat' split
    all_goals first | exact Or.inl ⟨_, rfl⟩ | exact Or.inr ⟨_, rfl⟩

theorem rejects_merge : Rejects Merge.getArgs := by
  apply rejects_of
  · intro v os a; exact ⟨_, rfl⟩
  · rintro ⟨name, arg⟩ os a h
    rw [Merge.getArgs, if_neg h]
    repeat' split
    all_goals first | exact Or.inl ⟨_, rfl⟩ | exact Or.inr ⟨_, rfl⟩

theorem rejects_diff : Rejects Diff.getArgs := by
  apply rejects_of
  · intro v os a; exact ⟨_, rfl⟩
  · rintro ⟨name, arg⟩ os a h
    rw [Diff.getArgs, if_neg h]
    repeat' split
    all_goals first | exact Or.inl ⟨_, rfl⟩ | exact Or.inr ⟨_, rfl⟩

theorem rejects_tile : Rejects Tile.getArgs := by
  apply rejects_of
  · intro v os a; exact ⟨_, rfl⟩
  · rintro ⟨name, arg⟩ os a h
    rw [Tile.getArgs, if_neg h]
    repeat' split
    all_goals first | exact Or.inl ⟨_, rfl⟩ | exact Or.inr ⟨_, rfl⟩

theorem rejects_info : Rejects (fun os a => Info.getArgs (os.map (·.1)) a) := by
  apply rejects_of
  · intro v os a; exact ⟨_, rfl⟩
  · rintro ⟨name, arg⟩ os a h
    simp only [List.map_cons]
    rw [Info.getArgs, if_neg h]
    repeat' split
    all_goals first | exact Or.inl ⟨_, rfl⟩ | exact Or.inr ⟨_, rfl⟩

theorem rejects_filter : Rejects Filter.getArgs := by
  apply rejects_of
  · intro v os a; exact ⟨_, rfl⟩
  · rintro ⟨name, arg⟩ os a h
    have hd : (∃ a', Filter.dispatch a name arg = .ok a') ∨ ∃ e, Filter.dispatch a name arg = .throw e := by
      unfold Filter.dispatch
      repeat' split
      all_goals first | exact Or.inl ⟨_, rfl⟩ | exact Or.inr ⟨_, rfl⟩
    rw [Filter.getArgs]
    rcases hd with ⟨a', hd⟩ | ⟨e, hd⟩
    · rw [hd]
      exact Or.inl ⟨a', if_neg h⟩
    · rw [hd]
      exact Or.inr ⟨e, rfl⟩

theorem rejects_tool : Rejects Tool.getArgs := by
  apply rejects_of
  · intro v os a; exact ⟨_, rfl⟩
  · rintro ⟨name, arg⟩ os a h
    rw [Tool.getArgs, if_neg h]
    unfold Tool.setCommand
    repeat' split
    all_goals first | exact Or.inl ⟨_, rfl⟩ | exact Or.inr ⟨_, rfl⟩

theorem rejects_transform : Rejects Transform.getArgs := by
  apply rejects_of
  · intro v os a; exact ⟨_, rfl⟩
  · rintro ⟨name, arg⟩ os a h
    have hl : Transform.lookup name ≠ some .help := by
      intro hl
      unfold Transform.lookup at hl
      cases hf : Transform.longOptions.find? (fun o => o.1 == name) with
      | none => rw [hf] at hl; simp at hl
      | some o =>
        rw [hf] at hl
        have h1 := List.find?_some hf
        have h2 := List.mem_of_find?_eq_some hf
        simp only [Option.map_some, Option.some.injEq, beq_iff_eq] at hl h1
        have h3 : ∀ o ∈ Transform.longOptions, o.2.2 = .help → o.1 = "help" := by decide
        exact h (h1 ▸ h3 o h2 hl)
    rw [Transform.getArgs]
    cases hd : Transform.lookup name with
    | none => exact Or.inr ⟨_, rfl⟩
    | some d =>
      rw [hd] at hl
      cases d <;> first | exact absurd rfl hl | exact Or.inl ⟨_, rfl⟩ | exact Or.inr ⟨_, rfl⟩

theorem wrong_flags {longs : List LongOpt} {fs : List LongOpt} {ws : List Str} (h : Wrong longs fs ws) :
    ∀ f ∈ fs, f ∈ longs := by
  intro f hf
  cases h with
  | missingLetter _ o h1 _ _ => exact (List.mem_filter.mp (h1 f hf).1).1
  | noSuchLetter _ c cs rest h1 _ _ => exact (List.mem_filter.mp (h1 f hf).1).1
  | _ => simp at hf

theorem help_name {o : LongOpt} (h : o.name ≠ "help".toList) : String.ofList o.name ≠ "help" := by
  intro e
  apply h
  rw [← e, String.toList_ofList]

theorem wrong_options (n : Name) (items : List Item) (hv : ∀ it ∈ items, Valid n.table.longs (usable n) it)
    (hh : ∀ x ∈ items.flatMap Item.options, x.1.name ≠ "help".toList) (fs : List LongOpt) (hfs : ∀ f ∈ fs, f.name ≠ "help".toList)
    (ws : List Str) (hw : Wrong n.table.longs fs ws) :
    ∃ os os' v, n.table.options (items.flatMap Item.text ++ ws) = os ++ ("?", v) :: os' ∧ ∀ x ∈ os, x.1 ≠ "help" := by
  obtain ⟨more, ops, hp⟩ := parse_wrong n hw
  have h := parse_items (good n) (usable_letters n) items hv ws
  rw [App.parse] at hp
  rw [hp] at h
  refine ⟨(items.flatMap Item.options).map named ++ fs.map (fun o => (String.ofList o.name, [])),
    more.map (fun e => (nameOf n.table.longs e.val, e.arg.getD [])), [], ?_, ?_⟩
  · rw [App.options, App.parse, h]
    dsimp only
    rw [List.map_append, List.map_append, List.map_cons, unknown_name, named_options n items hv, List.map_map, List.append_assoc]
    congr 2
    apply List.map_congr_left
    intro o ho
    simp only [Function.comp, Option.getD_none, nameOf_mem (vals n) (wrong_flags hw o ho)]
  · intro x hx
    rcases List.mem_append.mp hx with hx | hx
    · obtain ⟨y, hy, rfl⟩ := List.mem_map.mp hx
      exact help_name (hh y hy)
    · obtain ⟨o, ho, rfl⟩ := List.mem_map.mp hx
      exact help_name (hfs o ho)

/-- C69: after any options other than `--help`, a wrong option (unknown, ambiguous, with an argument that it must not have or without the one
that it needs) makes every application fail, whatever follows: it writes nothing to its output and changes no file. -/
theorem c69_wrong_option (n : Name) (p : Params) (w : World) (items : List Item)
    (hv : ∀ it ∈ items, Valid n.table.longs (usable n) it) (hh : ∀ x ∈ items.flatMap Item.options, x.1.name ≠ "help".toList)
    (fs : List LongOpt) (hfs : ∀ f ∈ fs, f.name ≠ "help".toList) (ws : List Str) (hw : Wrong n.table.longs fs ws) :
    ∃ e, n.run p (items.flatMap Item.text ++ ws) w = ⟨w.fs, [], .throw e⟩ := by
  obtain ⟨os, os', v, ho, hos⟩ := wrong_options n items hv hh fs hfs ws hw
  generalize items.flatMap Item.text ++ ws = argv at ho ⊢
  cases n <;> simp only [Name.table] at ho
  case compress =>
    obtain ⟨e, he⟩ := rejects_basic os os' v {} hos
    exact ⟨e, by simp only [Name.run, Main.compress, Main.basicArgs, withOperands, ho, he]; rfl⟩
  case decompress =>
    obtain ⟨e, he⟩ := rejects_basic os os' v {} hos
    exact ⟨e, by simp only [Name.run, Main.decompress, Main.basicArgs, withOperands, ho, he]; rfl⟩
  case diff =>
    obtain ⟨e, he⟩ := rejects_diff os os' v {} hos
    exact ⟨e, by simp only [Name.run, Main.diff, withOperands, ho, he]; rfl⟩
  case filter =>
    obtain ⟨e, he⟩ := rejects_filter os os' v {} hos
    exact ⟨e, by simp only [Name.run, Main.filter, filterArgs, withOperands, ho, he]; rfl⟩
  case info =>
    obtain ⟨e, he⟩ := rejects_info os os' v {} hos
    dsimp only at he
    exact ⟨e, by simp only [Name.run, Main.info, Info.main, ho, he]; rfl⟩
  case merge =>
    obtain ⟨e, he⟩ := rejects_merge os os' v {} hos
    exact ⟨e, by simp only [Name.run, Main.merge, Merge.main, ho, he]; rfl⟩
  case srs =>
    obtain ⟨e, he⟩ := rejects_srs os os' v {} hos
    exact ⟨e, by simp only [Name.run, Main.srs, ho, he]; rfl⟩
  case tile =>
    obtain ⟨e, he⟩ := rejects_tile os os' v {} hos
    exact ⟨e, by simp only [Name.run, Main.tile, withOperands, ho, he]; rfl⟩
  case tool =>
    obtain ⟨e, he⟩ := rejects_tool os os' v {} hos
    exact ⟨e, by simp only [Name.run, Main.tool, toolArgs, withOperands, ho, he]; rfl⟩
  case transform =>
    obtain ⟨e, he⟩ := rejects_transform os os' v {} hos
    exact ⟨e, by simp only [Name.run, Main.transform, transformArgs, withOperands, ho, he]; rfl⟩

/-- `--tile=5` is ambiguous for tile: it may be `--tiles` or `--tile-size`. -/
example : Wrong Cmd.tile.longs [] ["--tile=5".toList] := by
  have h := Wrong.ambiguous (longs := Cmd.tile.longs) ['t', 'i', 'l', 'e'] ['=', '5'] [] (by decide) (by decide) (by decide +kernel)
    ⟨['t', 'i', 'l', 'e', 's'], true, 116⟩ ⟨['t', 'i', 'l', 'e', '-', 's', 'i', 'z', 'e'], true, 115⟩ (by decide) (by decide) (by decide)
    (by decide) (by decide) (Or.inr rfl)
  exact h

/-- `-vx` has an unknown letter. -/
example : Wrong Cmd.compress.longs [⟨['v', 'e', 'r', 'b', 'o', 's', 'e'], false, 118⟩] ["-vx".toList] := by
  have h := Wrong.noSuchLetter (longs := Cmd.compress.longs) [⟨['v', 'e', 'r', 'b', 'o', 's', 'e'], false, 118⟩] 'x' [] []
    (by decide +kernel) (by decide +kernel) (by decide)
  exact h

/-! ## C70: help and version -/

/-- C70: with `--help` as the first option nothing happens, whatever follows: success, no output, no file changed. -/
theorem c70_help_first (n : Name) (p : Params) (w : World) (argv : List Str) :
    n.run p (['-', '-', 'h', 'e', 'l', 'p'] :: argv) w = ⟨w.fs, [], .ok 0⟩ := by
  have ho : ∃ os, n.table.options (['-', '-', 'h', 'e', 'l', 'p'] :: argv) = ("help", []) :: os := by
    obtain ⟨o, hmem, hname, harg⟩ : ∃ o ∈ n.table.longs, o.name = ['h', 'e', 'l', 'p'] ∧ o.hasArg = false := by
      cases n <;> exact ⟨⟨['h', 'e', 'l', 'p'], false, 104⟩, by decide, rfl, rfl⟩
    have hq : Names n.table.longs ['h', 'e', 'l', 'p'] o := ⟨hmem, Or.inl hname.symm⟩
    have hl := parse_long (shortsOf n.table.optstring) n.table.longs 'h' ['e', 'l', 'p'] argv
    rw [long_flag (good n) hq harg] at hl
    refine ⟨((Getopt.parse (shortsOf n.table.optstring) n.table.longs argv).1).map
      (fun e => (nameOf n.table.longs e.val, e.arg.getD [])), ?_⟩
    rw [App.options, App.parse, hl]
    dsimp only
    rw [List.map_cons, nameOf_mem (vals n) hmem, hname]
    rfl
  obtain ⟨os, ho⟩ := ho
  generalize ['-', '-', 'h', 'e', 'l', 'p'] :: argv = argv at ho ⊢
  cases n <;> simp only [Name.table] at ho
  case compress => simp only [Name.run, Main.compress, Main.basicArgs, withOperands, ho]; rfl
  case decompress => simp only [Name.run, Main.decompress, Main.basicArgs, withOperands, ho]; rfl
  case diff => simp only [Name.run, Main.diff, withOperands, ho]; rfl
  case filter => simp only [Name.run, Main.filter, filterArgs, withOperands, ho]; rfl
  case info => simp only [Name.run, Main.info, Info.main, ho]; rfl
  case merge => simp only [Name.run, Main.merge, Merge.main, ho]; rfl
  case srs => simp only [Name.run, Main.srs, ho]; rfl
  case tile => simp only [Name.run, Main.tile, withOperands, ho, Tile.main]; rfl
  case tool => simp only [Name.run, Main.tool, toolArgs, withOperands, ho]; rfl
  case transform => simp only [Name.run, Main.transform, transformArgs, withOperands, ho]; rfl

/-- C70: `--version` prints the version and does nothing else, in every application but diff. -/
theorem c70_version_partial (n : Name) (hn : n ≠ .diff) (p : Params) (w : World) :
    n.run p [['-', '-', 'v', 'e', 'r', 's', 'i', 'o', 'n']] w = ⟨w.fs, "Version 0.1\n".toUTF8.toList, .ok 0⟩ := by
  have ho : n.table.options [['-', '-', 'v', 'e', 'r', 's', 'i', 'o', 'n']] = [("version", [])]
      ∧ n.table.operands [['-', '-', 'v', 'e', 'r', 's', 'i', 'o', 'n']] = [] := by cases n <;> decide +kernel
  obtain ⟨ho, hf⟩ := ho
  generalize [['-', '-', 'v', 'e', 'r', 's', 'i', 'o', 'n']] = argv at ho hf ⊢
  cases n <;> simp only [Name.table] at ho hf
  case compress => simp only [Name.run, Main.compress, Main.basicArgs, withOperands, ho, hf]; rfl
  case decompress => simp only [Name.run, Main.decompress, Main.basicArgs, withOperands, ho, hf]; rfl
  case diff => exact absurd rfl hn
  case filter => simp only [Name.run, Main.filter, filterArgs, withOperands, ho, hf]; rfl
  case info =>
    have hb : bytes "Version 0.1\n".toList = "Version 0.1\n".toUTF8.toList := by decide +kernel
    rw [← hb]
    simp only [Name.run, Main.info, Info.main, ho, hf]
    rfl
  case merge => simp only [Name.run, Main.merge, Merge.main, ho, hf]; rfl
  case srs => simp only [Name.run, Main.srs, ho, hf]; rfl
  case tile => simp only [Name.run, Main.tile, withOperands, ho, hf, Tile.main]; rfl
  case tool => simp only [Name.run, Main.tool, toolArgs, withOperands, ho, hf]; rfl
  case transform => simp only [Name.run, Main.transform, transformArgs, withOperands, ho, hf]; rfl

/-- C70 fails for diff: it wants two file names before it prints its version. -/
theorem c70_diff_version (p : Params) (w : World) :
    Name.diff.run p [['-', '-', 'v', 'e', 'r', 's', 'i', 'o', 'n']] w = ⟨w.fs, [], .throw "No input filename 1 was specified"⟩ := by
  have ho : Cmd.diff.options [['-', '-', 'v', 'e', 'r', 's', 'i', 'o', 'n']] = [("version", [])]
      ∧ Cmd.diff.operands [['-', '-', 'v', 'e', 'r', 's', 'i', 'o', 'n']] = [] := by decide +kernel
  simp only [Name.run, Main.diff, withOperands, ho.1, ho.2]
  rfl

/-- How the help text shows an option. -/
def shown (o : LongOpt) : Str :=
  "--".toList ++ o.name ++ (if o.hasArg then "=<ARG>".toList else [])
    ++ (if o.val < 256 then ", -".toList ++ [letter o] ++ (if o.hasArg then " <ARG>".toList else []) else [])

theorem mapM_get (longs : List LongOpt) :
    ∀ k, k ≤ longs.length → (List.range' (longs.length - k) k).mapM (helpLineAt longs)
      = .ok ((longs.drop (longs.length - k)).map helpLine) := by
  intro k
  induction k with
  | zero => intro _; simp
  | succ k ih =>
    intro hk
    have h1 : longs.length - (k + 1) < longs.length := by omega
    have h2 : longs.length - (k + 1) + 1 = longs.length - k := by omega
    have h3 : helpLineAt longs (longs.length - (k + 1)) = .ok (helpLine longs[longs.length - (k + 1)]) := by
      rw [helpLineAt, List.getElem?_eq_getElem h1]
    rw [List.range'_succ, List.mapM_cons, h3, h2, ih (by omega), List.drop_eq_getElem_cons h1, h2]
    rfl

/-- C70: the help text is the usage followed by one line for each option of the table. -/
theorem c70_help_text (n : Name) (b : Build) (usage : Str) (hu : usage ≠ []) :
    n.table.help b usage = .ok ("Usage:\n\t".toList ++ usage ++ "\n\nOptions:\n".toList
      ++ n.table.longs.flatMap (fun o => '\t' :: shown o ++ ['\n'])) := by
  have hr : require b (!usage.isEmpty) = .ok () := by
    cases usage with
    | nil => exact absurd rfl hu
    | cons _ _ => cases b <;> rfl
  have hm := mapM_get n.table.longs n.table.longs.length (Nat.le_refl _)
  rw [Nat.sub_self, List.drop_zero, ← List.range_eq_range'] at hm
  unfold App.help printHelp
  rw [hr, Nat.add_sub_cancel, hm]
  simp only [Nat.add_eq_zero_iff, Nat.one_ne_zero, and_false, if_false]
  show Res.ok _ = Res.ok _
  congr 1
  have hl : (n.table.longs.map helpLine).flatten = n.table.longs.flatMap (fun o => '\t' :: shown o ++ ['\n']) := by
    rw [List.flatMap_def]
    rfl
  rw [hl]
  simp

/-- Every option that is shown exists: written as shown, it is recognised (the letter of `random-seed` of transform excepted). -/
theorem c70_shown_accepted_partial (n : Name) (o : LongOpt) (ho : o ∈ n.table.longs) (v : Str) :
    (o.hasArg = false → n.table.options ['-' :: '-' :: o.name] = [(String.ofList o.name, [])])
      ∧ (o.hasArg = true → n.table.options ['-' :: '-' :: (o.name ++ '=' :: v)] = [(String.ofList o.name, v)])
      ∧ (o.val < 256 → o.hasArg = false → n.table.options [['-', letter o]] = [(String.ofList o.name, [])])
      ∧ (o.val < 256 → o.hasArg = true → n ≠ .transform → n.table.options [['-', letter o], v] = [(String.ofList o.name, v)]) := by
  have hn : Names n.table.longs o.name o := ⟨ho, Or.inl rfl⟩
  refine ⟨fun ha => ?_, fun ha => ?_, fun hl ha => ?_, fun hl ha ht => ?_⟩
  · exact (c67_forms_partial n [.long o.name o] (by simpa [Valid] using ⟨hn, ha⟩)).1
  · exact (c67_forms_partial n [.longEq o.name o v] (by simpa [Valid] using ⟨hn, ha⟩)).1
  · have hu : o ∈ usable n := by
      rw [usable, List.mem_filter]
      exact ⟨by rw [withLetter, List.mem_filter]; exact ⟨ho, by simpa using hl⟩, by simp [ha]⟩
    exact (c67_forms_partial n [.letters [o]] (by simpa [Valid] using ⟨hu, ha⟩)).1
  · have hu : o ∈ usable n := by
      rw [usable, List.mem_filter]
      exact ⟨by rw [withLetter, List.mem_filter]; exact ⟨ho, by simpa using hl⟩, by simp [ht]⟩
    exact (c67_forms_partial n [.sep [] o v] (by simpa [Valid] using ⟨hu, ha⟩)).1

example : ⟨['f', 'i', 'e', 'l', 'd'], true, 102⟩ ∈ Name.diff.table.longs := by decide

example : shown ⟨['f', 'i', 'e', 'l', 'd'], true, 102⟩ = "--field=<ARG>, -f <ARG>".toList := by decide +kernel

end Spoc.Props
