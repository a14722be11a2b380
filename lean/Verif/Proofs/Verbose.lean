import Verif.Proofs.Messages

/-!
# The option `verbose` does not change what the applications do

The switch of every application takes the option into account in the field `verbose` of the arguments only, and the models of the applications do not
look at that field.
-/

namespace Spoc.Messages

open Text Main

/-- Apply a function to a result. -/
def onOk {α β : Type} (f : α → β) (r : Res α) : Res β := do
  let a ← r
  .ok (f a)

/-- The options without those named `verbose`. -/
def quiet (os : List (String × Str)) : List (String × Str) := os.filter (fun o => decide (o.1 ≠ "verbose"))

theorem quiet_verbose (x : Str) (os : List (String × Str)) : quiet (("verbose", x) :: os) = quiet os := by
  simp [quiet]

theorem quiet_other {n : String} (hn : n ≠ "verbose") (x : Str) (os : List (String × Str)) :
    quiet ((n, x) :: os) = (n, x) :: quiet os := by
  simp [quiet, hn]

theorem map_quiet (os : List (String × Str)) : (quiet os).map (·.1) = (os.map (·.1)).filter (fun o => decide (o ≠ "verbose")) := by
  induction os with
  | nil => rfl
  | cons o os ih =>
    obtain ⟨n, x⟩ := o
    by_cases h : n = "verbose"
    · subst h; rw [quiet_verbose, ih]; simp
    · rw [quiet_other h]; simp [h, ih]

/-- Two results that agree after a function has been applied: both succeed, or they fail in the same way. -/
theorem onOk_eq {α β : Type} {f : α → β} {r s : Res α} (h : onOk f r = onOk f s) :
    (∃ a b, r = .ok a ∧ s = .ok b ∧ f a = f b) ∨ ((∀ a, r ≠ .ok a) ∧ r = s) := by
  rcases r with a | e | e | _ | _ <;> rcases s with b | e' | e' | _ | _ <;> simp [onOk, Res.ok_bind] at h
  all_goals first
    | exact .inl ⟨_, _, rfl, rfl, h⟩
    | exact .inr ⟨by intro a; simp, by simp [h]⟩

theorem quiet_basic (os : List (String × Str)) : ∀ (a : Cmd.Basic) (v v' : Bool),
    onOk (fun x : Cmd.Basic => { x with verbose := false }) (Cmd.basicArgs os { a with verbose := v })
      = onOk (fun x : Cmd.Basic => { x with verbose := false }) (Cmd.basicArgs (quiet os) { a with verbose := v' }) := by
  induction os with
  | nil => intro a v v'; rfl
  | cons o os ih =>
    obtain ⟨n, x⟩ := o
    intro a v v'
    by_cases h : n = "verbose"
    · subst h; rw [quiet_verbose]; exact ih a true v'
    · rw [quiet_other h]
      simp only [Cmd.basicArgs, if_neg h]
      split_ifs
      · rfl
      · exact ih { a with version := true } v v'
      · rfl

theorem quiet_srs (os : List (String × Str)) : ∀ (a : Cmd.SrsArgs) (v v' : Bool),
    onOk (fun x : Cmd.SrsArgs => { x with verbose := false }) (Cmd.srsArgs os { a with verbose := v })
      = onOk (fun x : Cmd.SrsArgs => { x with verbose := false }) (Cmd.srsArgs (quiet os) { a with verbose := v' }) := by
  induction os with
  | nil => intro a v v'; rfl
  | cons o os ih =>
    obtain ⟨n, x⟩ := o
    intro a v v'
    by_cases h : n = "verbose"
    · subst h; rw [quiet_verbose]; exact ih a true v'
    · rw [quiet_other h]
      simp only [Cmd.srsArgs, if_neg h]
      split_ifs
      · rfl
      · exact ih { a with version := true } v v'
      · exact ih { a with srs := some x } v v'
      · rfl

theorem quiet_diff (os : List (String × Str)) : ∀ (a : Diff.Args) (v v' : Bool),
    onOk (fun x : Diff.Args => { x with verbose := false }) (Diff.getArgs os { a with verbose := v })
      = onOk (fun x : Diff.Args => { x with verbose := false }) (Diff.getArgs (quiet os) { a with verbose := v' }) := by
  induction os with
  | nil => intro a v v'; rfl
  | cons o os ih =>
    obtain ⟨n, x⟩ := o
    intro a v v'
    by_cases h : n = "verbose"
    · subst h; rw [quiet_verbose]; exact ih a true v'
    · rw [quiet_other h]
      simp only [Diff.getArgs, if_neg h]
      split_ifs
      · rfl
      · exact ih { a with version := true } v v'
      · exact ih { a with headerOnly := true } v v'
      · exact ih { a with dataOnly := true } v v'
      · exact ih { a with fields := a.fields ++ x } v v'
      · exact ih { a with reverse := true } v v'
      · rfl

theorem quiet_filter (os : List (String × Str)) : ∀ (a : Filter.Args) (v v' : Bool),
    onOk (fun x : Filter.Args => { x with verbose := false }) (Filter.getArgs os { a with verbose := v })
      = onOk (fun x : Filter.Args => { x with verbose := false }) (Filter.getArgs (quiet os) { a with verbose := v' }) := by
  induction os with
  | nil => intro a v v'; rfl
  | cons o os ih =>
    obtain ⟨n, x⟩ := o
    intro a v v'
    by_cases h : n = "verbose"
    · subst h; rw [quiet_verbose]; exact ih a true v'
    · rw [quiet_other h]
      simp only [Filter.getArgs, Filter.dispatch, if_neg h]
      split_ifs <;> simp only [Res.ok_bind, Res.throw_bind]
      · rfl
      · exact ih { a with version := true } v v'
      · exact ih { a with keepClasses := atoi x :: a.keepClasses } v v'
      · exact ih { a with seed := strtol x } v v'
      · exact ih { a with removeClasses := atoi x :: a.removeClasses } v v'
      · exact ih { a with uniqueXyz := true } v v'
      · exact ih { a with subsample := atof x } v v'
      · exact ih { a with removeCoords := x } v v'

theorem quiet_info (os : List String) : ∀ (a : Info.Args) (v v' : Bool),
    onOk (fun x : Info.Args => { x with verbose := false }) (Info.getArgs os { a with verbose := v })
      = onOk (fun x : Info.Args => { x with verbose := false })
        (Info.getArgs (os.filter (fun o => decide (o ≠ "verbose"))) { a with verbose := v' }) := by
  induction os with
  | nil => intro a v v'; rfl
  | cons n os ih =>
    intro a v v'
    by_cases h : n = "verbose"
    · subst h; rw [List.filter_cons_of_neg (by simp)]; exact ih a true v'
    · rw [List.filter_cons_of_pos (by simpa using h)]
      simp only [Info.getArgs, if_neg h]
      split_ifs
      · rfl
      · exact ih { a with version := true } v v'
      · exact ih { a with json := !a.json } v v'
      · exact ih { a with headerInfo := !a.headerInfo } v v'
      · exact ih { a with summaryInfo := !a.summaryInfo } v v'
      · exact ih { a with classInfo := !a.classInfo } v v'
      · exact ih { a with metricInfo := !a.metricInfo } v v'
      · exact ih { a with compact := !a.compact } v v'
      · exact ih { a with quartiles := !a.quartiles } v v'
      · rfl

theorem quiet_merge (os : List (String × Str)) : ∀ (a : Merge.Args) (v v' : Bool),
    onOk (fun x : Merge.Args => { x with verbose := false }) (Merge.getArgs os { a with verbose := v })
      = onOk (fun x : Merge.Args => { x with verbose := false }) (Merge.getArgs (quiet os) { a with verbose := v' }) := by
  induction os with
  | nil => intro a v v'; rfl
  | cons o os ih =>
    obtain ⟨n, x⟩ := o
    intro a v v'
    by_cases h : n = "verbose"
    · subst h; rw [quiet_verbose]; exact ih a true v'
    · rw [quiet_other h]
      simp only [Merge.getArgs, if_neg h]
      split_ifs
      · rfl
      · exact ih { a with version := true } v v'
      · exact ih { a with quiet := !a.quiet } v v'
      · exact ih { a with pointId := atoi x } v v'
      · rfl

theorem quiet_tile (os : List (String × Str)) : ∀ (a : Tile.Args) (v v' : Bool),
    onOk (fun x : Tile.Args => { x with verbose := false }) (Tile.getArgs os { a with verbose := v })
      = onOk (fun x : Tile.Args => { x with verbose := false }) (Tile.getArgs (quiet os) { a with verbose := v' }) := by
  induction os with
  | nil => intro a v v'; rfl
  | cons o os ih =>
    obtain ⟨n, x⟩ := o
    intro a v v'
    by_cases h : n = "verbose"
    · subst h; rw [quiet_verbose]; exact ih a true v'
    · rw [quiet_other h]
      simp only [Tile.getArgs, if_neg h]
      split_ifs
      · rfl
      · exact ih { a with version := true } v v'
      · exact ih { a with force := true } v v'
      · exact ih { a with tiles := UInt32.ofInt (atoi x) } v v'
      · exact ih { a with digits := UInt32.ofInt (atoi x) } v v'
      · exact ih { a with tileSize := atof x } v v'
      · exact ih { a with tileSizeX := atof x } v v'
      · exact ih { a with tileSizeY := atof x } v v'
      · exact ih { a with pre := x } v v'
      · rfl

theorem quiet_tool (os : List (String × Str)) : ∀ (a : Tool.Args) (v v' : Bool),
    onOk (fun x : Tool.Args => { x with verbose := false }) (Tool.getArgs os { a with verbose := v })
      = onOk (fun x : Tool.Args => { x with verbose := false }) (Tool.getArgs (quiet os) { a with verbose := v' }) := by
  induction os with
  | nil => intro a v v'; rfl
  | cons o os ih =>
    obtain ⟨n, x⟩ := o
    intro a v v'
    by_cases h : n = "verbose"
    · subst h; rw [quiet_verbose]; exact ih a true v'
    · rw [quiet_other h]
      simp only [Tool.getArgs, if_neg h]
      split_ifs
      · rfl
      · exact ih { a with version := true } v v'
      · simp only [Tool.setCommand]
        split_ifs
        · rfl
        · simp only [Res.ok_bind]
          exact ih { a with command := { name := n, params := x } } v v'
      · exact ih { a with fieldFn := x } v v'
      · exact ih { a with resolution := atof x } v v'
      · rfl

theorem lookup_verbose {n : String} (h : Transform.lookup n = some .verbose) : n = "verbose" := by
  by_contra hn
  simp only [Transform.lookup, Option.map_eq_some_iff] at h
  obtain ⟨o, ho, hv⟩ := h
  have hm := List.mem_of_find?_eq_some ho
  have he := List.find?_some ho
  simp only [Transform.longOptions, List.mem_cons, List.not_mem_nil, or_false] at hm
  rcases hm with h | h | h | h | h | h | h | h | h | h | h | h | h | h | h | h | h | h | h | h | h | h | h | h | h | h <;>
    subst h <;> simp_all

theorem quiet_transform (os : List (String × Str)) : ∀ (a : Transform.Args) (v v' : Bool),
    onOk (fun x : Transform.Args => { x with verbose := false }) (Transform.getArgs os { a with verbose := v })
      = onOk (fun x : Transform.Args => { x with verbose := false }) (Transform.getArgs (quiet os) { a with verbose := v' }) := by
  induction os with
  | nil => intro a v v'; rfl
  | cons o os ih =>
    obtain ⟨n, x⟩ := o
    intro a v v'
    by_cases h : n = "verbose"
    · subst h; rw [quiet_verbose]; exact ih a true v'
    · rw [quiet_other h]
      have hv : Transform.lookup n ≠ some .verbose := fun e => h (lookup_verbose e)
      unfold Transform.getArgs
      generalize Transform.lookup n = l at hv ⊢
      rcases l with _ | l
      · rfl
      · cases l <;> first
          | rfl
          | exact absurd rfl hv
          | (simp only [Transform.dispatch, Res.ok_bind]; exact ih { a with version := true } v v')
          | (simp only [Transform.dispatch, Res.ok_bind]; exact ih { a with seed := strtol x } v v')
          | (simp only [Transform.dispatch, Res.ok_bind]; exact ih { a with commands := a.commands ++ [⟨_, x⟩] } v v')

/-- Arguments that agree up to `verbose`. -/
theorem withOperands_quiet {α β γ : Type} {f : α → γ} {r s : Res α} (h : onOk f r = onOk f s) (help : α → Bool)
    (hh : ∀ a b, f a = f b → help a = help b) (d : β) (o : Res β) :
    onOk (fun x : α × β => (f x.1, x.2)) (withOperands r help d o) = onOk (fun x : α × β => (f x.1, x.2)) (withOperands s help d o) := by
  rcases onOk_eq h with ⟨a, b, ha, hb, hab⟩ | ⟨_, he⟩
  · subst ha; subst hb
    simp only [withOperands, Res.ok_bind]
    rw [hh a b hab]
    by_cases h1 : help b = true
    · simp [h1, onOk, hab]
    · simp only [h1, Bool.false_eq_true, if_false]
      rcases o with _ | _ | _ | _ | _ <;> simp [onOk, hab]
  · rw [he]

theorem args_basic {os os' : List (String × Str)} (h : quiet os = quiet os') :
    onOk (fun x : Cmd.Basic => { x with verbose := false }) (Cmd.basicArgs os {}) = onOk (fun x : Cmd.Basic => { x with verbose := false }) (Cmd.basicArgs os' {}) := by
  have h1 := quiet_basic os {} false false
  have h2 := quiet_basic os' {} false false
  rw [h] at h1
  exact h1.trans h2.symm

theorem args_srs {os os' : List (String × Str)} (h : quiet os = quiet os') :
    onOk (fun x : Cmd.SrsArgs => { x with verbose := false }) (Cmd.srsArgs os {}) = onOk (fun x : Cmd.SrsArgs => { x with verbose := false }) (Cmd.srsArgs os' {}) := by
  have h1 := quiet_srs os {} false false
  have h2 := quiet_srs os' {} false false
  rw [h] at h1
  exact h1.trans h2.symm

theorem args_diff {os os' : List (String × Str)} (h : quiet os = quiet os') :
    onOk (fun x : Diff.Args => { x with verbose := false }) (Diff.getArgs os {}) = onOk (fun x : Diff.Args => { x with verbose := false }) (Diff.getArgs os' {}) := by
  have h1 := quiet_diff os {} false false
  have h2 := quiet_diff os' {} false false
  rw [h] at h1
  exact h1.trans h2.symm

theorem args_filter {os os' : List (String × Str)} (h : quiet os = quiet os') :
    onOk (fun x : Filter.Args => { x with verbose := false }) (Filter.getArgs os {}) = onOk (fun x : Filter.Args => { x with verbose := false }) (Filter.getArgs os' {}) := by
  have h1 := quiet_filter os {} false false
  have h2 := quiet_filter os' {} false false
  rw [h] at h1
  exact h1.trans h2.symm

theorem args_merge {os os' : List (String × Str)} (h : quiet os = quiet os') :
    onOk (fun x : Merge.Args => { x with verbose := false }) (Merge.getArgs os {}) = onOk (fun x : Merge.Args => { x with verbose := false }) (Merge.getArgs os' {}) := by
  have h1 := quiet_merge os {} false false
  have h2 := quiet_merge os' {} false false
  rw [h] at h1
  exact h1.trans h2.symm

theorem args_tile {os os' : List (String × Str)} (h : quiet os = quiet os') :
    onOk (fun x : Tile.Args => { x with verbose := false }) (Tile.getArgs os {}) = onOk (fun x : Tile.Args => { x with verbose := false }) (Tile.getArgs os' {}) := by
  have h1 := quiet_tile os {} false false
  have h2 := quiet_tile os' {} false false
  rw [h] at h1
  exact h1.trans h2.symm

theorem args_tool {os os' : List (String × Str)} (h : quiet os = quiet os') :
    onOk (fun x : Tool.Args => { x with verbose := false }) (Tool.getArgs os {}) = onOk (fun x : Tool.Args => { x with verbose := false }) (Tool.getArgs os' {}) := by
  have h1 := quiet_tool os {} false false
  have h2 := quiet_tool os' {} false false
  rw [h] at h1
  exact h1.trans h2.symm

theorem args_transform {os os' : List (String × Str)} (h : quiet os = quiet os') :
    onOk (fun x : Transform.Args => { x with verbose := false }) (Transform.getArgs os {}) = onOk (fun x : Transform.Args => { x with verbose := false }) (Transform.getArgs os' {}) := by
  have h1 := quiet_transform os {} false false
  have h2 := quiet_transform os' {} false false
  rw [h] at h1
  exact h1.trans h2.symm

theorem args_info {os os' : List (String × Str)} (h : quiet os = quiet os') :
    onOk (fun x : Info.Args => { x with verbose := false }) (Info.getArgs (os.map (·.1)) {})
      = onOk (fun x : Info.Args => { x with verbose := false }) (Info.getArgs (os'.map (·.1)) {}) := by
  have h1 := quiet_info (os.map (·.1)) {} false false
  have h2 := quiet_info (os'.map (·.1)) {} false false
  rw [← map_quiet] at h1 h2
  rw [h] at h1
  exact h1.trans h2.symm

/-- Two command lines with the same file names, and the same options but for those named `verbose`, do the same. -/
theorem verbose_run (n : Name) (p : Params) (w : World) {argv argv' : List Str}
    (hf : n.table.operands argv = n.table.operands argv') (ho : quiet (n.table.options argv) = quiet (n.table.options argv')) :
    n.run p argv w = n.run p argv' w := by
  cases n <;> simp only [Name.table] at hf ho
  case compress =>
    have h := withOperands_quiet (args_basic ho) (·.help) (by intro a b h; cases a; cases b; simp_all) (([] : Str), ([] : Str)) (Cmd.inOut (Cmd.compress.operands argv))
    simp only [Name.run, Main.compress, Main.basicArgs]
    rw [← hf]
    rcases onOk_eq h with ⟨⟨a, i⟩, ⟨b, i'⟩, ha, hb, hab⟩ | ⟨_, he⟩
    · rw [ha, hb]
      simp only [Prod.mk.injEq] at hab
      obtain ⟨hab, rfl⟩ := hab
      obtain ⟨v, rfl⟩ : ∃ v, b = { a with verbose := v } := ⟨b.verbose, by cases a; cases b; simp_all⟩
      rfl
    · rw [he]
  case decompress =>
    have h := withOperands_quiet (args_basic ho) (·.help) (by intro a b h; cases a; cases b; simp_all) (([] : Str), ([] : Str)) (Cmd.inOut (Cmd.decompress.operands argv))
    simp only [Name.run, Main.decompress, Main.basicArgs]
    rw [← hf]
    rcases onOk_eq h with ⟨⟨a, i⟩, ⟨b, i'⟩, ha, hb, hab⟩ | ⟨_, he⟩
    · rw [ha, hb]
      simp only [Prod.mk.injEq] at hab
      obtain ⟨hab, rfl⟩ := hab
      obtain ⟨v, rfl⟩ : ∃ v, b = { a with verbose := v } := ⟨b.verbose, by cases a; cases b; simp_all⟩
      rfl
    · rw [he]
  case filter =>
    have h := withOperands_quiet (args_filter ho) (·.help) (by intro a b h; cases a; cases b; simp_all) (([] : Str), ([] : Str)) (Cmd.inOut (Cmd.filter.operands argv))
    simp only [Name.run, Main.filter, filterArgs]
    rw [← hf]
    rcases onOk_eq h with ⟨⟨a, i⟩, ⟨b, i'⟩, ha, hb, hab⟩ | ⟨_, he⟩
    · rw [ha, hb]
      simp only [Prod.mk.injEq] at hab
      obtain ⟨hab, rfl⟩ := hab
      obtain ⟨v, rfl⟩ : ∃ v, b = { a with verbose := v } := ⟨b.verbose, by cases a; cases b; simp_all⟩
      rfl
    · rw [he]
  case tool =>
    have h := withOperands_quiet (args_tool ho) (·.help) (by intro a b h; cases a; cases b; simp_all) (([] : Str), ([] : Str)) (Cmd.inOut (Cmd.tool.operands argv))
    simp only [Name.run, Main.tool, toolArgs]
    rw [← hf]
    rcases onOk_eq h with ⟨⟨a, i⟩, ⟨b, i'⟩, ha, hb, hab⟩ | ⟨_, he⟩
    · rw [ha, hb]
      simp only [Prod.mk.injEq] at hab
      obtain ⟨hab, rfl⟩ := hab
      obtain ⟨v, rfl⟩ : ∃ v, b = { a with verbose := v } := ⟨b.verbose, by cases a; cases b; simp_all⟩
      rfl
    · rw [he]
  case transform =>
    have h := withOperands_quiet (args_transform ho) (·.help) (by intro a b h; cases a; cases b; simp_all) (([] : Str), ([] : Str)) (Cmd.inOut (Cmd.transform.operands argv))
    simp only [Name.run, Main.transform, transformArgs]
    rw [← hf]
    rcases onOk_eq h with ⟨⟨a, i⟩, ⟨b, i'⟩, ha, hb, hab⟩ | ⟨_, he⟩
    · rw [ha, hb]
      simp only [Prod.mk.injEq] at hab
      obtain ⟨hab, rfl⟩ := hab
      obtain ⟨v, rfl⟩ : ∃ v, b = { a with verbose := v } := ⟨b.verbose, by cases a; cases b; simp_all⟩
      rfl
    · rw [he]
  case diff =>
    simp only [Name.run, Main.diff, Diff.main]
    rw [← hf]
    rcases onOk_eq (args_diff ho) with ⟨a, b, ha, hb, hab⟩ | ⟨_, he⟩
    · rw [ha, hb]
      obtain ⟨v, rfl⟩ : ∃ v, b = { a with verbose := v } := ⟨b.verbose, by cases a; cases b; simp_all⟩
      simp only [withOperands, Res.ok_bind]
      by_cases h : a.help = true
      · simp only [h, if_true]
      · simp only [h, if_false, Bool.false_eq_true]
        rcases Cmd.two (Cmd.diff.operands argv) with ⟨i, j⟩ | _ | _ | _ | _ <;> (try rfl)
        simp only [Res.ok_bind, h, if_false, Bool.false_eq_true]
    · rw [he]
  case info =>
    simp only [Name.run, Main.info, Info.main]
    rw [← hf]
    rcases onOk_eq (args_info ho) with ⟨a, b, ha, hb, hab⟩ | ⟨_, he⟩
    · rw [ha, hb]
      obtain ⟨v, rfl⟩ : ∃ v, b = { a with verbose := v } := ⟨b.verbose, by cases a; cases b; simp_all⟩
      have hp : ∀ l, Info.processAll p.build p.zlib p.sort { a with verbose := v } l = Info.processAll p.build p.zlib p.sort a l := by
        intro l
        induction l with
        | nil => rfl
        | cons s l ih => cases s <;> (simp only [Info.processAll, ih]; try rfl)
      simp only [hp]
    · rw [he]
  case merge =>
    simp only [Name.run, Main.merge, Merge.main]
    rw [← hf]
    rcases onOk_eq (args_merge ho) with ⟨a, b, ha, hb, hab⟩ | ⟨_, he⟩
    · rw [ha, hb]
      obtain ⟨v, rfl⟩ : ∃ v, b = { a with verbose := v } := ⟨b.verbose, by cases a; cases b; simp_all⟩
      have hp : ∀ l i s, Merge.mergeLoop p.build p.zlib { a with verbose := v } i l s = Merge.mergeLoop p.build p.zlib a i l s := by
        intro l
        induction l with
        | nil => intro i s; rfl
        | cons x l ih => intro i s; cases x <;> (simp only [Merge.mergeLoop, ih]; try rfl)
      simp only [hp]
      rfl
    · rw [he]
  case srs =>
    simp only [Name.run, Main.srs]
    rw [← hf]
    rcases onOk_eq (args_srs ho) with ⟨a, b, ha, hb, hab⟩ | ⟨_, he⟩
    · rw [ha, hb]
      obtain ⟨v, rfl⟩ : ∃ v, b = { a with verbose := v } := ⟨b.verbose, by cases a; cases b; simp_all⟩
      rfl
    · rw [he]
  case tile =>
    simp only [Name.run, Main.tile, Tile.main]
    rw [← hf]
    rcases onOk_eq (args_tile ho) with ⟨a, b, ha, hb, hab⟩ | ⟨_, he⟩
    · rw [ha, hb]
      obtain ⟨v, rfl⟩ : ∃ v, b = { a with verbose := v } := ⟨b.verbose, by cases a; cases b; simp_all⟩
      simp only [withOperands, Res.ok_bind]
      by_cases h : a.help = true
      · simp only [h, if_true]
        rfl
      · simp only [h, if_false, Bool.false_eq_true]
        rcases Cmd.one (Cmd.tile.operands argv) with _ | _ | _ | _ | _ <;> rfl
    · rw [he]

end Spoc.Messages
