import Verif.Props.Main

/-!
# C78: the switches of info
-/

namespace Spoc.Props

open Main

/-- The switches of info, by their option (`/repo/apps/info/info.1.md` lines 60-79: "Toggle …"). -/
def switchNames : List String :=
  ["json", "header-info", "summary-info", "classification-info", "metric-info", "compact", "quartiles"]

/-- The state of a switch. -/
def switchOf (a : Info.Args) : String → Bool
  | "json" => a.json
  | "header-info" => a.headerInfo
  | "summary-info" => a.summaryInfo
  | "classification-info" => a.classInfo
  | "metric-info" => a.metricInfo
  | "compact" => a.compact
  | "quartiles" => a.quartiles
  | _ => false

/-- What the state of the switches is when no option is given: text, compact, with all parts, without quartiles. -/
def switchDefault (name : String) : Bool := decide (name ≠ "json" ∧ name ≠ "quartiles")

/-- The state of the switch after the options `os`. -/
def toggled (os : List String) (name : String) (start : Bool) : Bool := start ^^ decide (os.count name % 2 = 1)

theorem toggled_cons (o name : String) (os : List String) (start : Bool) :
    toggled (o :: os) name start = toggled os name (start ^^ decide (o = name)) := by
  unfold toggled
  rw [List.count_cons]
  by_cases h : o = name
  · subst h
    simp only [beq_self_eq_true, if_true, decide_true]
    have : ((os.count o + 1) % 2 = 1) ↔ ¬ (os.count o % 2 = 1) := by omega
    rw [decide_eq_decide.mpr this, decide_not]
    cases start <;> simp
  · simp [h]

theorem info_toggles (os : List String) (h : ∀ o ∈ os, o ∈ switchNames ∨ o = "verbose") (a : Info.Args) :
    ∃ a', Info.getArgs os a = .ok a' ∧ a'.help = a.help ∧ a'.version = a.version ∧ (a'.verbose = (a.verbose || decide ("verbose" ∈ os)))
      ∧ ∀ name ∈ switchNames, switchOf a' name = toggled os name (switchOf a name) := by
  induction os generalizing a with
  | nil => exact ⟨a, rfl, rfl, rfl, by simp, fun name _ => by simp [toggled]⟩
  | cons o os ih =>
    have ho := h o List.mem_cons_self
    have ih := fun a => ih (fun x hx => h x (List.mem_cons_of_mem _ hx)) a
    obtain ⟨a1, e, h1, h2, h3, h4⟩ : ∃ a1, Info.getArgs (o :: os) a = Info.getArgs os a1 ∧ a1.help = a.help ∧ a1.version = a.version
        ∧ a1.verbose = (a.verbose || decide (o = "verbose"))
        ∧ ∀ name ∈ switchNames, switchOf a1 name = (switchOf a name ^^ decide (o = name)) := by
      simp only [switchNames, List.mem_cons, List.not_mem_nil, or_false] at ho
      rcases ho with (rfl | rfl | rfl | rfl | rfl | rfl | rfl) | rfl
      · exact ⟨{ a with json := !a.json }, rfl, rfl, rfl, by simp, by simp (decide := true) [switchNames, switchOf]⟩
      · exact ⟨{ a with headerInfo := !a.headerInfo }, rfl, rfl, rfl, by simp, by simp (decide := true) [switchNames, switchOf]⟩
      · exact ⟨{ a with summaryInfo := !a.summaryInfo }, rfl, rfl, rfl, by simp, by simp (decide := true) [switchNames, switchOf]⟩
      · exact ⟨{ a with classInfo := !a.classInfo }, rfl, rfl, rfl, by simp, by simp (decide := true) [switchNames, switchOf]⟩
      · exact ⟨{ a with metricInfo := !a.metricInfo }, rfl, rfl, rfl, by simp, by simp (decide := true) [switchNames, switchOf]⟩
      · exact ⟨{ a with compact := !a.compact }, rfl, rfl, rfl, by simp, by simp (decide := true) [switchNames, switchOf]⟩
      · exact ⟨{ a with quartiles := !a.quartiles }, rfl, rfl, rfl, by simp, by simp (decide := true) [switchNames, switchOf]⟩
      · exact ⟨{ a with verbose := true }, rfl, rfl, rfl, by simp, by simp (decide := true) [switchNames, switchOf]⟩
    obtain ⟨a2, f, f1, f2, f3, f4⟩ := ih a1
    refine ⟨a2, e.trans f, f1.trans h1, f2.trans h2, ?_, fun name hn => ?_⟩
    · rw [f3, h3, Bool.or_assoc]
      congr 1
      simp [eq_comm]
    · rw [f4 name hn, h4 name hn, toggled_cons]

/-- **C78**: a switch is in its default state exactly if its option was given an even number of times. -/
theorem c78_switches (os : List String) (h : ∀ o ∈ os, o ∈ switchNames ∨ o = "verbose") :
    ∃ a, Info.getArgs os {} = .ok a ∧ a.help = false ∧ a.version = false
      ∧ ∀ name ∈ switchNames, (switchOf a name = switchDefault name ↔ os.count name % 2 = 0) := by
  obtain ⟨a, h1, h2, h3, -, h4⟩ := info_toggles os h {}
  refine ⟨a, h1, h2, h3, fun name hn => ?_⟩
  have hd : switchOf {} name = switchDefault name := by
    revert name
    decide
  rw [h4 name hn, hd, toggled]
  have : ¬ (os.count name % 2 = 1) ↔ os.count name % 2 = 0 := by omega
  rw [← this]
  cases switchDefault name <;> simp

theorem args_of_switches {a b : Info.Args} (h1 : a.help = b.help) (h2 : a.version = b.version) (h3 : a.verbose = b.verbose)
    (h : ∀ name ∈ switchNames, switchOf a name = switchOf b name) : a = b := by
  obtain ⟨a1, a2, a3, a4, a5, a6, a7, a8, a9, a10⟩ := a
  obtain ⟨b1, b2, b3, b4, b5, b6, b7, b8, b9, b10⟩ := b
  have e1 := h "json" (by decide)
  have e2 := h "header-info" (by decide)
  have e3 := h "summary-info" (by decide)
  have e4 := h "classification-info" (by decide)
  have e5 := h "metric-info" (by decide)
  have e6 := h "compact" (by decide)
  have e7 := h "quartiles" (by decide)
  simp only [switchOf] at e1 e2 e3 e4 e5 e6 e7
  simp_all

/-- **C78**, the application: the order of the options and how often a switch is given do not matter, only whether each switch is given an
even or an odd number of times. -/
theorem c78_same_report (p : Params) (w : World) (argv argv' : List Str)
    (h : ∀ o ∈ Cmd.info.options argv, o.1 ∈ switchNames) (h' : ∀ o ∈ Cmd.info.options argv', o.1 ∈ switchNames)
    (hc : ∀ name ∈ switchNames, ((Cmd.info.options argv).map (·.1)).count name % 2 = ((Cmd.info.options argv').map (·.1)).count name % 2)
    (ho : Cmd.info.operands argv = Cmd.info.operands argv') :
    Name.info.run p argv w = Name.info.run p argv' w := by
  have hs : ∀ os : List (String × Str), (∀ o ∈ os, o.1 ∈ switchNames) → ∀ o ∈ os.map (·.1), o ∈ switchNames := by
    intro os h o hm
    obtain ⟨x, hx, rfl⟩ := List.mem_map.mp hm
    exact h x hx
  have hv : ∀ os : List (String × Str), (∀ o ∈ os, o.1 ∈ switchNames) → decide ("verbose" ∈ os.map (·.1)) = false := by
    intro os h
    simp only [decide_eq_false_iff_not]
    exact fun hm => absurd (hs os h _ hm) (by decide)
  obtain ⟨a, e1, e2, e3, e4, e5⟩ := info_toggles _ (fun o ho => .inl (hs _ h o ho)) {}
  obtain ⟨b, f1, f2, f3, f4, f5⟩ := info_toggles _ (fun o ho => .inl (hs _ h' o ho)) {}
  obtain rfl : a = b := by
    apply args_of_switches (e2.trans f2.symm) (e3.trans f3.symm)
    · rw [e4, f4, hv _ h, hv _ h']
    · intro name hn
      rw [e5 name hn, f5 name hn, toggled, toggled, hc name hn]
  simp only [Name.run, Main.info, Info.main, e1, f1, ho]

/-- `spoc_info -j -c in` and `spoc_info -cqj -q in`. -/
example (p : Params) (w : World) :
    Name.info.run p ["-j".toList, "-c".toList, "in".toList] w = Name.info.run p ["-cqj".toList, "-q".toList, "in".toList] w :=
  c78_same_report p w _ _ (by decide +kernel) (by decide +kernel) (by decide +kernel) (by decide +kernel)

end Spoc.Props
