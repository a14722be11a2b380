import Verif.Props.Cmd
import Verif.Spec.Manual

/-!
# C77: the command lines that the manual pages document
-/

namespace Spoc.Props

open Getopt Cmd Spec.Cmd Main Spec.Manual

/-- The entries of the manual that are not right. -/
def misprints : Name → List Doc
  | .filter => [flag "remove-coords" 'c']
  | .info => [flag "metric-info" 'l']
  | .tool => [opt "random-seed" 'r']
  | .transform => [opt "random-seed" 'a']
  | _ => []

/-- The entry of the option table for an entry of the manual. -/
def entry (n : Name) (d : Doc) : Option LongOpt :=
  n.table.longs.find? (fun o => decide (o.name = d.name.toList))

theorem manual_entries (n : Name) : ∀ d ∈ manual n, d ∉ misprints n →
    ∃ o ∈ n.table.longs, o.name = d.name.toList ∧ o.hasArg = d.hasArg ∧ ∀ c, d.letter = some c → o ∈ usable n ∧ letter o = c := by
  have h : ∀ d ∈ manual n, d ∉ misprints n → ∃ o, entry n d = some o ∧ o.hasArg = d.hasArg
      ∧ (d.letter = none ∨ (o ∈ usable n ∧ d.letter = some (letter o))) := by
    intro d hd hm
    have : ((entry n d).any (fun o => decide (o.hasArg = d.hasArg ∧ (d.letter = none ∨ (o ∈ usable n ∧ d.letter = some (letter o)))))) = true := by
      revert d
      cases n <;> decide +kernel
    rw [Option.any_eq_true] at this
    obtain ⟨o, h1, h2⟩ := this
    exact ⟨o, h1, of_decide_eq_true h2⟩
  intro d hd hm
  obtain ⟨o, h1, h2, h3⟩ := h d hd hm
  refine ⟨o, List.mem_of_find?_eq_some h1, by simpa using List.find?_some h1, h2, fun c hc => ?_⟩
  rcases h3 with h3 | ⟨h3, h4⟩
  · rw [h3] at hc
    simp at hc
  · rw [h4] at hc
    exact ⟨h3, Option.some.inj hc⟩

/-- **C77** (partial: without the entries of the manual that are not right, see below): every application understands every documented
option in every documented form, between any other options and file names. -/
theorem c77_manual_partial (n : Name) (d : Doc) (hd : d ∈ manual n) (hm : d ∉ misprints n) (v : Str) (ws : List Str)
    (hws : ws ∈ d.forms v) (before behind : List Item) (hv : ∀ it ∈ before ++ behind, Valid n.table.longs (usable n) it) :
    n.table.options (before.flatMap Item.text ++ ws ++ behind.flatMap Item.text)
        = (before.flatMap Item.options).map named ++ (d.name, if d.hasArg then v else []) :: (behind.flatMap Item.options).map named
      ∧ n.table.operands (before.flatMap Item.text ++ ws ++ behind.flatMap Item.text)
        = before.flatMap Item.operands ++ behind.flatMap Item.operands := by
  obtain ⟨o, ho, h1, h2, h3⟩ := manual_entries n d hd hm
  obtain ⟨it, hit, e1, e2, e3⟩ : ∃ it : Item, Valid n.table.longs (usable n) it ∧ it.text = ws
      ∧ it.options.map named = [(d.name, if d.hasArg then v else [])] ∧ it.operands = [] := by
    have hn : String.ofList o.name = d.name := by rw [h1, String.ofList_toList]
    unfold Doc.forms at hws
    split at hws
    · next ha =>
      rw [ha] at h2
      rcases List.mem_append.mp hws with hw | hw
      · obtain rfl := List.mem_singleton.mp hw
        exact ⟨.longEq o.name o v, ⟨⟨ho, .inl rfl⟩, h2⟩, by simp [Item.text, h1], by simp [Item.options, named, hn, ha], rfl⟩
      · split at hw
        · next c hc =>
          obtain rfl := List.mem_singleton.mp hw
          exact ⟨.sep [] o v, ⟨by simp, (h3 c hc).1, h2⟩, by simp [Item.text, (h3 c hc).2], by simp [Item.options, named, hn, ha], rfl⟩
        · simp at hw
    · next ha =>
      have ha : d.hasArg = false := by simpa using ha
      rw [ha] at h2
      rcases List.mem_append.mp hws with hw | hw
      · obtain rfl := List.mem_singleton.mp hw
        exact ⟨.long o.name o, ⟨⟨ho, .inl rfl⟩, h2⟩, by simp [Item.text, h1], by simp [Item.options, named, hn, ha], rfl⟩
      · split at hw
        · next c hc =>
          obtain rfl := List.mem_singleton.mp hw
          exact ⟨.letters [o], ⟨by simp, by simpa using ⟨(h3 c hc).1, h2⟩⟩, by simp [Item.text, (h3 c hc).2],
            by simp [Item.options, named, hn, ha], rfl⟩
        · simp at hw
  have h := c67_forms_partial n (before ++ it :: behind) (by
    intro x hx
    rcases List.mem_append.mp hx with hx | hx
    · exact hv x (List.mem_append_left _ hx)
    · rcases List.mem_cons.mp hx with rfl | hx
      · exact hit
      · exact hv x (List.mem_append_right _ hx))
  simp only [List.flatMap_append, List.flatMap_cons, e1, e3, List.map_append, e2, List.nil_append] at h
  rw [List.append_assoc]
  simpa using h

/-- Nothing is missing from the manual: every option that an application has is documented, except for the letter of `--field-filename`. -/
theorem c77_complete (n : Name) : ∀ o ∈ n.table.longs, ∃ d ∈ manual n, d.name.toList = o.name := by
  cases n <;> decide +kernel

/-- The manual of tool documents a random seed; tool has no such option. -/
theorem c77_tool_seed (p : Params) (w : World) :
    opt "random-seed" 'r' ∈ manual .tool
      ∧ Name.tool.run p ["--random-seed=1".toList] w = ⟨w.fs, [], .throw "Invalid option"⟩
      ∧ Name.tool.run p ["-r".toList, "1".toList] w = ⟨w.fs, [], .throw "Invalid option"⟩ := by
  refine ⟨by decide, ?_, ?_⟩
  · have : toolArgs ["--random-seed=1".toList] = .throw "Invalid option" := by decide +kernel
    simp only [Name.run, Main.tool, this]
    rfl
  · have : toolArgs ["-r".toList, "1".toList] = .throw "Invalid option" := by decide +kernel
    simp only [Name.run, Main.tool, this]
    rfl

/-- The manual of info gives the letter `l` to the metrics; it is the letter of the classifications, and that of the metrics is `m`. -/
theorem c77_metric_letter :
    flag "metric-info" 'l' ∈ manual .info ∧ Cmd.info.options ["-l".toList] = [("classification-info", [])]
      ∧ Cmd.info.options ["-m".toList] = [("metric-info", [])] := by decide +kernel

/-- The manual of filter documents `--remove-coords` without its argument. -/
theorem c77_remove_coords (p : Params) (w : World) :
    flag "remove-coords" 'c' ∈ manual .filter
      ∧ Name.filter.run p ["--remove-coords".toList] w = ⟨w.fs, [], .throw "Invalid option"⟩
      ∧ Cmd.filter.options ["-c".toList, "x > 10".toList] = [("remove-coords", "x > 10".toList)] := by
  refine ⟨by decide, ?_, by decide +kernel⟩
  have : filterArgs ["--remove-coords".toList] = .throw "Invalid option" := by decide +kernel
  simp only [Name.run, Main.filter, this]
  rfl

/-- The manual of info shows `spoc_info -h < Austin.spoc` as a report without header information (`/repo/apps/info/info.1.md` lines 97-105):
this asks for help; the report is not made. -/
theorem c77_info_example (p : Params) (w : World) : Name.info.run p ["-h".toList] w = ⟨w.fs, [], .ok 0⟩ := by
  have h : (Cmd.info.options ["-h".toList]) = [("help", [])] := by decide +kernel
  simp only [Name.run, Main.info, Info.main, h]
  rfl

/-- `spoc_transform in --set=c,2 -v`. -/
example : Cmd.transform.options ["in".toList, "--set=c,2".toList, "-v".toList] = [("set", "c,2".toList), ("verbose", [])] :=
  (c77_manual_partial .transform (cmdArg "set") (by decide) (by decide) "c,2".toList ["--set=c,2".toList] (by decide)
    [.operand "in".toList] [.letters [⟨['v', 'e', 'r', 'b', 'o', 's', 'e'], false, 118⟩]] (by
      intro it hit
      simp only [List.cons_append, List.nil_append, List.mem_cons, List.not_mem_nil, or_false] at hit
      rcases hit with rfl | rfl
      · exact .inl (by decide)
      · exact ⟨by decide, by decide +kernel⟩)).1

end Spoc.Props
