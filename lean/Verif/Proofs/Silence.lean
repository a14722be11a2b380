import Verif.Proofs.Verbose

/-!
# What the options set, silence without `verbose`, and names of files that are written
-/

namespace Spoc.Messages

open Text Main

/-- Is there an option of this name? -/
def given (name : String) (os : List (String × Str)) : Bool := os.any (fun o => decide (o.1 = name))

theorem given_same (name : String) (x : Str) (os : List (String × Str)) : given name ((name, x) :: os) = true := by
  simp [given]

theorem given_other {name n : String} (h : n ≠ name) (x : Str) (os : List (String × Str)) : given name ((n, x) :: os) = given name os := by
  simp [given, h]

theorem given_cons_false {name n : String} {x : Str} {os : List (String × Str)} (h : given name ((n, x) :: os) = false) :
    n ≠ name ∧ given name os = false := by
  simpa [given] using h

theorem flags_basic (os : List (String × Str)) (hh : given "help" os = false) : ∀ (a a' : Cmd.Basic), Cmd.basicArgs os a = .ok a' →
    a'.help = a.help ∧ a'.verbose = (a.verbose || given "verbose" os) ∧ a'.version = (a.version || given "version" os) := by
  induction os with
  | nil => intro a a' ha; cases ha; simp [given]
  | cons o os ih =>
    obtain ⟨n, x⟩ := o
    intro a a' ha
    obtain ⟨hn, hh'⟩ := given_cons_false hh
    have ih := ih hh'
    by_cases h1 : n = "verbose"
    · subst h1
      rw [given_same, given_other (by decide)]
      obtain ⟨i1, i2, i3⟩ := ih { a with verbose := true } a' ha
      exact ⟨i1, by rw [i2]; simp, i3⟩
    · by_cases h2 : n = "version"
      · subst h2
        rw [given_same, given_other (by decide)]
        obtain ⟨i1, i2, i3⟩ := ih { a with version := true } a' ha
        exact ⟨i1, i2, by rw [i3]; simp⟩
      · rw [given_other h1, given_other h2]
        simp only [Cmd.basicArgs, if_neg hn, if_neg h1, if_neg h2] at ha
        cases ha

theorem flags_srs (os : List (String × Str)) (hh : given "help" os = false) : ∀ (a a' : Cmd.SrsArgs), Cmd.srsArgs os a = .ok a' →
    a'.help = a.help ∧ a'.verbose = (a.verbose || given "verbose" os) ∧ a'.version = (a.version || given "version" os) := by
  induction os with
  | nil => intro a a' ha; cases ha; simp [given]
  | cons o os ih =>
    obtain ⟨n, x⟩ := o
    intro a a' ha
    obtain ⟨hn, hh'⟩ := given_cons_false hh
    have ih := ih hh'
    by_cases h1 : n = "verbose"
    · subst h1
      rw [given_same, given_other (by decide)]
      obtain ⟨i1, i2, i3⟩ := ih { a with verbose := true } a' ha
      exact ⟨i1, by rw [i2]; simp, i3⟩
    · by_cases h2 : n = "version"
      · subst h2
        rw [given_same, given_other (by decide)]
        obtain ⟨i1, i2, i3⟩ := ih { a with version := true } a' ha
        exact ⟨i1, i2, by rw [i3]; simp⟩
      · rw [given_other h1, given_other h2]
        simp only [Cmd.srsArgs, if_neg hn, if_neg h1, if_neg h2] at ha
        split_ifs at ha
        · exact ih { a with srs := some x } a' ha

theorem flags_diff (os : List (String × Str)) (hh : given "help" os = false) : ∀ (a a' : Diff.Args), Diff.getArgs os a = .ok a' →
    a'.help = a.help ∧ a'.verbose = (a.verbose || given "verbose" os) ∧ a'.version = (a.version || given "version" os) := by
  induction os with
  | nil => intro a a' ha; cases ha; simp [given]
  | cons o os ih =>
    obtain ⟨n, x⟩ := o
    intro a a' ha
    obtain ⟨hn, hh'⟩ := given_cons_false hh
    have ih := ih hh'
    by_cases h1 : n = "verbose"
    · subst h1
      rw [given_same, given_other (by decide)]
      obtain ⟨i1, i2, i3⟩ := ih { a with verbose := true } a' ha
      exact ⟨i1, by rw [i2]; simp, i3⟩
    · by_cases h2 : n = "version"
      · subst h2
        rw [given_same, given_other (by decide)]
        obtain ⟨i1, i2, i3⟩ := ih { a with version := true } a' ha
        exact ⟨i1, i2, by rw [i3]; simp⟩
      · rw [given_other h1, given_other h2]
        simp only [Diff.getArgs, if_neg hn, if_neg h1, if_neg h2] at ha
        split_ifs at ha
        · exact ih { a with headerOnly := true } a' ha
        · exact ih { a with dataOnly := true } a' ha
        · exact ih { a with fields := a.fields ++ x } a' ha
        · exact ih { a with reverse := true } a' ha

theorem flags_filter (os : List (String × Str)) (hh : given "help" os = false) : ∀ (a a' : Filter.Args), Filter.getArgs os a = .ok a' →
    a'.help = a.help ∧ a'.verbose = (a.verbose || given "verbose" os) ∧ a'.version = (a.version || given "version" os) := by
  induction os with
  | nil => intro a a' ha; cases ha; simp [given]
  | cons o os ih =>
    obtain ⟨n, x⟩ := o
    intro a a' ha
    obtain ⟨hn, hh'⟩ := given_cons_false hh
    have ih := ih hh'
    by_cases h1 : n = "verbose"
    · subst h1
      rw [given_same, given_other (by decide)]
      obtain ⟨i1, i2, i3⟩ := ih { a with verbose := true } a' ha
      exact ⟨i1, by rw [i2]; simp, i3⟩
    · by_cases h2 : n = "version"
      · subst h2
        rw [given_same, given_other (by decide)]
        obtain ⟨i1, i2, i3⟩ := ih { a with version := true } a' ha
        exact ⟨i1, i2, by rw [i3]; simp⟩
      · rw [given_other h1, given_other h2]
        simp only [Filter.getArgs, Filter.dispatch, if_neg hn, if_neg h1, if_neg h2] at ha
        split_ifs at ha <;> simp only [Res.ok_bind, Res.throw_bind] at ha
        · exact ih { a with keepClasses := atoi x :: a.keepClasses } a' ha
        · exact ih { a with seed := strtol x } a' ha
        · exact ih { a with removeClasses := atoi x :: a.removeClasses } a' ha
        · exact ih { a with uniqueXyz := true } a' ha
        · exact ih { a with subsample := atof x } a' ha
        · exact ih { a with removeCoords := x } a' ha
        · cases ha

theorem flags_merge (os : List (String × Str)) (hh : given "help" os = false) : ∀ (a a' : Merge.Args), Merge.getArgs os a = .ok a' →
    a'.help = a.help ∧ a'.verbose = (a.verbose || given "verbose" os) ∧ a'.version = (a.version || given "version" os) := by
  induction os with
  | nil => intro a a' ha; cases ha; simp [given]
  | cons o os ih =>
    obtain ⟨n, x⟩ := o
    intro a a' ha
    obtain ⟨hn, hh'⟩ := given_cons_false hh
    have ih := ih hh'
    by_cases h1 : n = "verbose"
    · subst h1
      rw [given_same, given_other (by decide)]
      obtain ⟨i1, i2, i3⟩ := ih { a with verbose := true } a' ha
      exact ⟨i1, by rw [i2]; simp, i3⟩
    · by_cases h2 : n = "version"
      · subst h2
        rw [given_same, given_other (by decide)]
        obtain ⟨i1, i2, i3⟩ := ih { a with version := true } a' ha
        exact ⟨i1, i2, by rw [i3]; simp⟩
      · rw [given_other h1, given_other h2]
        simp only [Merge.getArgs, if_neg hn, if_neg h1, if_neg h2] at ha
        split_ifs at ha
        · exact ih { a with quiet := !a.quiet } a' ha
        · exact ih { a with pointId := atoi x } a' ha

theorem flags_tile (os : List (String × Str)) (hh : given "help" os = false) : ∀ (a a' : Tile.Args), Tile.getArgs os a = .ok a' →
    a'.help = a.help ∧ a'.verbose = (a.verbose || given "verbose" os) ∧ a'.version = (a.version || given "version" os) := by
  induction os with
  | nil => intro a a' ha; cases ha; simp [given]
  | cons o os ih =>
    obtain ⟨n, x⟩ := o
    intro a a' ha
    obtain ⟨hn, hh'⟩ := given_cons_false hh
    have ih := ih hh'
    by_cases h1 : n = "verbose"
    · subst h1
      rw [given_same, given_other (by decide)]
      obtain ⟨i1, i2, i3⟩ := ih { a with verbose := true } a' ha
      exact ⟨i1, by rw [i2]; simp, i3⟩
    · by_cases h2 : n = "version"
      · subst h2
        rw [given_same, given_other (by decide)]
        obtain ⟨i1, i2, i3⟩ := ih { a with version := true } a' ha
        exact ⟨i1, i2, by rw [i3]; simp⟩
      · rw [given_other h1, given_other h2]
        simp only [Tile.getArgs, if_neg hn, if_neg h1, if_neg h2] at ha
        split_ifs at ha
        · exact ih { a with force := true } a' ha
        · exact ih { a with tiles := UInt32.ofInt (atoi x) } a' ha
        · exact ih { a with digits := UInt32.ofInt (atoi x) } a' ha
        · exact ih { a with tileSize := atof x } a' ha
        · exact ih { a with tileSizeX := atof x } a' ha
        · exact ih { a with tileSizeY := atof x } a' ha
        · exact ih { a with pre := x } a' ha

theorem flags_info (os : List (String × Str)) (hh : given "help" os = false) : ∀ (a a' : Info.Args), Info.getArgs (os.map (·.1)) a = .ok a' →
    a'.help = a.help ∧ a'.verbose = (a.verbose || given "verbose" os) ∧ a'.version = (a.version || given "version" os) := by
  induction os with
  | nil => intro a a' ha; cases ha; simp [given]
  | cons o os ih =>
    obtain ⟨n, x⟩ := o
    intro a a' ha
    obtain ⟨hn, hh'⟩ := given_cons_false hh
    have ih := ih hh'
    by_cases h1 : n = "verbose"
    · subst h1
      rw [given_same, given_other (by decide)]
      obtain ⟨i1, i2, i3⟩ := ih { a with verbose := true } a' ha
      exact ⟨i1, by rw [i2]; simp, i3⟩
    · by_cases h2 : n = "version"
      · subst h2
        rw [given_same, given_other (by decide)]
        obtain ⟨i1, i2, i3⟩ := ih { a with version := true } a' ha
        exact ⟨i1, i2, by rw [i3]; simp⟩
      · rw [given_other h1, given_other h2]
        simp only [List.map_cons, Info.getArgs, if_neg hn, if_neg h1, if_neg h2] at ha
        split_ifs at ha
        · exact ih { a with json := !a.json } a' ha
        · exact ih { a with headerInfo := !a.headerInfo } a' ha
        · exact ih { a with summaryInfo := !a.summaryInfo } a' ha
        · exact ih { a with classInfo := !a.classInfo } a' ha
        · exact ih { a with metricInfo := !a.metricInfo } a' ha
        · exact ih { a with compact := !a.compact } a' ha
        · exact ih { a with quartiles := !a.quartiles } a' ha

theorem flags_tool (os : List (String × Str)) (hh : given "help" os = false) : ∀ (a a' : Tool.Args), Tool.getArgs os a = .ok a' →
    a'.help = a.help ∧ a'.verbose = (a.verbose || given "verbose" os) ∧ a'.version = (a.version || given "version" os) := by
  induction os with
  | nil => intro a a' ha; cases ha; simp [given]
  | cons o os ih =>
    obtain ⟨n, x⟩ := o
    intro a a' ha
    obtain ⟨hn, hh'⟩ := given_cons_false hh
    have ih := ih hh'
    by_cases h1 : n = "verbose"
    · subst h1
      rw [given_same, given_other (by decide)]
      obtain ⟨i1, i2, i3⟩ := ih { a with verbose := true } a' ha
      exact ⟨i1, by rw [i2]; simp, i3⟩
    · by_cases h2 : n = "version"
      · subst h2
        rw [given_same, given_other (by decide)]
        obtain ⟨i1, i2, i3⟩ := ih { a with version := true } a' ha
        exact ⟨i1, i2, by rw [i3]; simp⟩
      · rw [given_other h1, given_other h2]
        simp only [Tool.getArgs, if_neg hn, if_neg h1, if_neg h2] at ha
        split_ifs at ha
        · simp only [Tool.setCommand] at ha
          split_ifs at ha
          · cases ha
          · exact ih { a with command := { name := n, params := x } } a' ha
        · exact ih { a with fieldFn := x } a' ha
        · exact ih { a with resolution := atof x } a' ha

theorem lookup_help {n : String} (h : Transform.lookup n = some .help) : n = "help" := by
  by_contra hn
  simp only [Transform.lookup, Option.map_eq_some_iff] at h
  obtain ⟨o, ho, hv⟩ := h
  have hm := List.mem_of_find?_eq_some ho
  have he := List.find?_some ho
  simp only [Transform.longOptions, List.mem_cons, List.not_mem_nil, or_false] at hm
  rcases hm with h | h | h | h | h | h | h | h | h | h | h | h | h | h | h | h | h | h | h | h | h | h | h | h | h | h <;>
    subst h <;> simp_all

theorem lookup_version {n : String} (h : Transform.lookup n = some .version) : n = "version" := by
  by_contra hn
  simp only [Transform.lookup, Option.map_eq_some_iff] at h
  obtain ⟨o, ho, hv⟩ := h
  have hm := List.mem_of_find?_eq_some ho
  have he := List.find?_some ho
  simp only [Transform.longOptions, List.mem_cons, List.not_mem_nil, or_false] at hm
  rcases hm with h | h | h | h | h | h | h | h | h | h | h | h | h | h | h | h | h | h | h | h | h | h | h | h | h | h <;>
    subst h <;> simp_all

theorem flags_transform (os : List (String × Str)) (hh : given "help" os = false) : ∀ (a a' : Transform.Args),
    Transform.getArgs os a = .ok a' →
    a'.help = a.help ∧ a'.verbose = (a.verbose || given "verbose" os) ∧ a'.version = (a.version || given "version" os) := by
  induction os with
  | nil => intro a a' ha; cases ha; simp [given]
  | cons o os ih =>
    obtain ⟨n, x⟩ := o
    intro a a' ha
    obtain ⟨hn, hh'⟩ := given_cons_false hh
    have ih := ih hh'
    by_cases h1 : n = "verbose"
    · subst h1
      rw [given_same, given_other (by decide)]
      obtain ⟨i1, i2, i3⟩ := ih { a with verbose := true } a' ha
      exact ⟨i1, by rw [i2]; simp, i3⟩
    · by_cases h2 : n = "version"
      · subst h2
        rw [given_same, given_other (by decide)]
        obtain ⟨i1, i2, i3⟩ := ih { a with version := true } a' ha
        exact ⟨i1, i2, by rw [i3]; simp⟩
      · rw [given_other h1, given_other h2]
        have hv : Transform.lookup n ≠ some .verbose := fun e => h1 (lookup_verbose e)
        have hv2 : Transform.lookup n ≠ some .version := fun e => h2 (lookup_version e)
        have hv3 : Transform.lookup n ≠ some .help := fun e => hn (lookup_help e)
        unfold Transform.getArgs at ha
        generalize Transform.lookup n = l at hv hv2 hv3 ha
        rcases l with _ | l
        · cases ha
        · cases l <;> first
            | exact absurd rfl hv
            | exact absurd rfl hv2
            | exact absurd rfl hv3
            | (cases ha)
            | exact ih { a with seed := strtol x } a' ha
            | exact ih { a with commands := a.commands ++ [⟨_, x⟩] } a' ha

/-! ## Messages of a kind -/

/-- All messages are of this kind. -/
def Says {α : Type} (P : Str → Prop) (x : Log α) : Prop := ∀ m ∈ x.said, P m

section Says

variable {α β : Type} {P : Str → Prop}

theorem says_pure (a : α) : Says P (pure a : Log α) := by simp [Says]

theorem says_quietly (r : Res α) : Says P (quietly r) := by simp [Says]

theorem says_tell {v : Bool} (h : v = false) (l : List Str) : Says P (tell v l) := by simp [Says, tell, h]

theorem says_bind {x : Log α} {f : α → Log β} (hx : Says P x) (hf : ∀ a, x.res = .ok a → Says P (f a)) : Says P (x >>= f) := by
  by_cases h : ∃ a, x.res = .ok a
  · obtain ⟨a, h⟩ := h
    intro m hm
    rw [Log.said_ok h, List.mem_append] at hm
    exact hm.elim (hx m) (hf a h m)
  · intro m hm
    rw [Log.said_fail (fun a ha => h ⟨a, ha⟩)] at hm
    exact hx m hm

end Says

/-- The command line says nothing unless help is asked for or an option is invalid. -/
theorem says_command {P : Str → Prop} {α : Type} (n : Name) (b : Build) (st : Style) (hu : st.usage ≠ []) (asked : α → Bool) {r : Res α}
    {k : α → Log Int} (hr : (commandLine b st n.table asked r >>= k).res ≠ .throw "Invalid option")
    (h : ∀ a, r = .ok a → asked a = false ∧ Says P (k a)) : Says P (commandLine b st n.table asked r >>= k) := by
  rw [Log.res_bind, res_commandLine n b st hu] at hr
  refine says_bind ?_ (fun a ha => (h a (by rw [← res_commandLine n b st hu asked r]; exact ha)).2)
  unfold commandLine
  rcases r with a | e | e | _ | _
  · simp only [(h a rfl).1, Bool.false_eq_true, if_false]; exact says_pure _
  · have : e ≠ "Invalid option" := fun h => hr (by rw [h]; rfl)
    simp only [this, if_false]; exact says_quietly _
  all_goals exact says_quietly _

theorem withOperands_ok {α β : Type} {r : Res α} {help : α → Bool} {d : β} {o : Res β} {x : α × β}
    (h : withOperands r help d o = .ok x) : r = .ok x.1 := by
  rcases r with a | e | e | _ | _ <;> simp [withOperands] at h
  split_ifs at h
  · cases h; rfl
  · rcases o with _ | _ | _ | _ | _ <;> simp at h
    rw [← h]

section Silence

variable {P : Str → Prop}

theorem says_inputStream {v : Bool} (h : v = false) (w : World) (fn : Str) : Says P (inputStream v w fn) :=
  says_bind (says_tell h _) (fun _ _ => says_quietly _)

theorem says_outputStream {v : Bool} (h : v = false) (w : World) (fn : Str) (o : Out Unit) : Says P (outputStream v w fn o) :=
  says_bind (says_tell h _) (fun _ _ => says_quietly _)

theorem says_openFile {v : Bool} (h : v = false) (fn : Str) (o : Option IStream) : Says P (openFile v fn o) :=
  says_bind (says_tell h _) (fun _ _ => says_quietly _)

theorem says_readThenWrite {v : Bool} (h : v = false) (w : World) (i o : Str) (read : IStream → Log SpocFile) (hr : ∀ s, Says P (read s))
    (write : SpocFile → Out Unit) : Says P (readThenWrite v w i o read write) :=
  says_bind (says_inputStream h _ _) (fun _ _ => says_bind (hr _) (fun _ _ => says_outputStream h _ _ _))

theorem says_compress (b : Build) (st : Style) (hu : st.usage ≠ []) (zl : Zlib) (argv : List Str) (w : World)
    (hv : given "verbose" (Cmd.compress.options argv) = false) (hh : given "help" (Cmd.compress.options argv) = false)
    (hr : (compress b st zl argv w).res ≠ .throw "Invalid option") : Says P (compress b st zl argv w) := by
  unfold compress at hr ⊢
  refine says_command .compress b st hu _ hr ?_
  rintro ⟨a, i, o⟩ h
  obtain ⟨h1, h2, -⟩ := flags_basic _ hh _ _ (withOperands_ok h)
  dsimp only at h1 h2
  rw [hv] at h2
  refine ⟨h1, ?_⟩
  try dsimp only
  split
  · exact says_pure _
  · exact says_readThenWrite h2 _ _ _ _ (fun _ => says_quietly _) _

theorem says_decompress (b : Build) (st : Style) (hu : st.usage ≠ []) (zl : Zlib) (argv : List Str) (w : World)
    (hv : given "verbose" (Cmd.decompress.options argv) = false) (hh : given "help" (Cmd.decompress.options argv) = false)
    (hr : (decompress b st zl argv w).res ≠ .throw "Invalid option") : Says P (decompress b st zl argv w) := by
  unfold decompress at hr ⊢
  refine says_command .decompress b st hu _ hr ?_
  rintro ⟨a, i, o⟩ h
  obtain ⟨h1, h2, -⟩ := flags_basic _ hh _ _ (withOperands_ok h)
  dsimp only at h1 h2
  rw [hv] at h2
  refine ⟨h1, ?_⟩
  try dsimp only
  split
  · exact says_pure _
  · exact says_readThenWrite h2 _ _ _ _ (fun _ => says_quietly _) _

theorem says_filter (b : Build) (st : Style) (hu : st.usage ≠ []) (zl : Zlib) (sh : Subsampling.Shuffle) (argv : List Str) (w : World)
    (hv : given "verbose" (Cmd.filter.options argv) = false) (hh : given "help" (Cmd.filter.options argv) = false)
    (hr : (filter b st zl sh argv w).res ≠ .throw "Invalid option") : Says P (filter b st zl sh argv w) := by
  unfold filter at hr ⊢
  refine says_command .filter b st hu _ hr ?_
  rintro ⟨a, i, o⟩ h
  obtain ⟨h1, h2, -⟩ := flags_filter _ hh _ _ (withOperands_ok h)
  dsimp only at h1 h2
  rw [hv] at h2
  refine ⟨h1, ?_⟩
  try dsimp only
  split
  · exact says_pure _
  · refine says_bind (says_tell h2 _) (fun _ _ => ?_)
    exact says_readThenWrite h2 _ _ _ _ (fun _ => says_quietly _) _

/-- Whether merge is quiet: the option is a toggle. -/
theorem flag_quiet (os : List (String × Str)) (hh : given "help" os = false) : ∀ (a a' : Merge.Args), Merge.getArgs os a = .ok a' →
    a'.quiet = (a.quiet ^^ decide ((os.filter (fun o => decide (o.1 = "quiet"))).length % 2 = 1)) := by
  induction os with
  | nil => intro a a' ha; cases ha; simp
  | cons o os ih =>
    obtain ⟨n, x⟩ := o
    intro a a' ha
    obtain ⟨hn, hh'⟩ := given_cons_false hh
    have ih := ih hh'
    by_cases h1 : n = "quiet"
    · subst h1
      rw [ih { a with quiet := !a.quiet } a' ha, List.filter_cons_of_pos (by simp), List.length_cons]
      generalize (List.filter _ os).length = k
      dsimp only
      rcases Nat.mod_two_eq_zero_or_one k with h | h
      · rw [show (k + 1) % 2 = 1 by omega, h]; cases a.quiet <;> rfl
      · rw [show (k + 1) % 2 = 0 by omega, h]; cases a.quiet <;> rfl
    · rw [List.filter_cons_of_neg (by simpa using h1)]
      simp only [Merge.getArgs, if_neg hn, if_neg h1] at ha
      split_ifs at ha
      · exact ih { a with verbose := true } a' ha
      · exact ih { a with version := true } a' ha
      · exact ih { a with pointId := atoi x } a' ha

/-- The messages of merge without `verbose`: warnings, and none if it is quiet. -/
def Warning (quiet : Bool) (m : Str) : Prop :=
  quiet = false ∧ (m = str Merge.srsWarning ++ ['\n'] ∨ m = str Merge.areaWarning ++ ['\n'])

theorem append_log (f1 f2 : SpocFile) (id : UInt32) (quiet : Bool) : ∀ l ∈ (Merge.append f1 f2 id quiet).2.1,
    quiet = false ∧ l = Merge.srsWarning := by
  intro l hl
  unfold Merge.append at hl
  cases quiet with
  | true => simp [Merge.srsDiffer] at hl
  | false =>
    cases h : Merge.srsDiffer f1 f2 false with
    | ok d =>
      rw [h] at hl
      cases d <;> simp at hl
      exact ⟨rfl, hl⟩
    | _ => rw [h] at hl; simp at hl

theorem says_mergeOne (a : Merge.Args) (i : Nat) (st : Merge.State) (f : SpocFile) : Says (Warning a.quiet) (mergeOne a i st f) := by
  intro m hm
  unfold mergeOne Merge.mergeOne at hm
  simp only [List.nil_append, List.mem_map] at hm
  obtain ⟨l, hl, rfl⟩ := hm
  obtain ⟨h1, h2⟩ := append_log _ _ _ _ l hl
  exact ⟨h1, .inl (by rw [h2])⟩

theorem says_mergeLoop (b : Build) (zl : Zlib) {a : Merge.Args} (h : a.verbose = false) (fs : Tile.FS) (fns : List Str) :
    ∀ (i : Nat) (st : Merge.State), Says (Warning a.quiet) (mergeLoop b zl a fs i fns st) := by
  induction fns with
  | nil => intro i st; exact says_pure _
  | cons fn fns ih =>
    intro i st
    exact says_bind (says_openFile h _ _) (fun _ _ => says_bind (says_quietly _) (fun _ _ => says_bind (says_mergeOne _ _ _ _) (fun _ _ => ih _ _)))

theorem says_areaLog (a : Merge.Args) (st : Merge.State) : Says (Warning a.quiet) (tell true ((Merge.areaLog a st).map str)) := by
  intro m hm
  simp only [tell, if_true, List.map_map, List.mem_map, Function.comp] at hm
  obtain ⟨l, hl, rfl⟩ := hm
  unfold Merge.areaLog at hl
  split_ifs at hl with h1 h2
  · simp at hl
  · simp only [List.mem_singleton] at hl
    exact ⟨by simpa using h1, .inr (by rw [hl])⟩
  · simp at hl

theorem says_merge (b : Build) (st : Style) (hu : st.usage ≠ []) (zl : Zlib) (argv : List Str) (w : World)
    (hv : given "verbose" (Cmd.merge.options argv) = false) (hh : given "help" (Cmd.merge.options argv) = false)
    (hr : (merge b st zl argv w).res ≠ .throw "Invalid option") :
    Says (Warning (decide (((Cmd.merge.options argv).filter (fun o => decide (o.1 = "quiet"))).length % 2 = 1))) (merge b st zl argv w) := by
  unfold merge at hr ⊢
  refine says_command .merge b st hu _ hr ?_
  rintro a h
  obtain ⟨h1, h2, -⟩ := flags_merge _ hh _ _ h
  have h3 := flag_quiet _ hh _ _ h
  dsimp only at h1 h2 h3
  rw [hv] at h2
  rw [Bool.false_xor] at h3
  rw [← h3]
  refine ⟨h1, ?_⟩
  split
  · exact says_pure _
  · refine says_bind (says_tell h2 _) (fun _ _ => ?_)
    split
    · exact says_quietly _
    · exact says_bind (says_mergeLoop _ _ h2 _ _ _ _) (fun _ _ => says_bind (says_areaLog _ _) (fun _ _ => says_bind (says_tell h2 _)
        (fun _ _ => says_quietly _)))

theorem says_toolRun (b : Build) (zl : Zlib) (files : Tool.Files) {a : Tool.Args} (h : a.verbose = false) (f : SpocFile) :
    Says P (toolRun b zl files a f) := by
  unfold toolRun
  split_ifs
  · exact says_bind (says_tell h _) (fun _ _ => says_quietly _)
  · refine says_bind (says_tell h _) (fun _ _ => says_bind (says_quietly _) (fun _ _ => says_bind (says_quietly _) (fun _ _ =>
      says_bind (says_quietly _) (fun _ _ => says_bind ?_ (fun _ _ => says_pure _)))))
    unfold upsampled
    rw [h]
    exact says_pure _
  · exact says_quietly _

theorem says_tool (b : Build) (st : Style) (hu : st.usage ≠ []) (zl : Zlib) (argv : List Str) (w : World)
    (hv : given "verbose" (Cmd.tool.options argv) = false) (hh : given "help" (Cmd.tool.options argv) = false)
    (hr : (tool b st zl argv w).res ≠ .throw "Invalid option") : Says P (tool b st zl argv w) := by
  unfold tool at hr ⊢
  refine says_command .tool b st hu _ hr ?_
  rintro ⟨a, i, o⟩ h
  obtain ⟨h1, h2, -⟩ := flags_tool _ hh _ _ (withOperands_ok h)
  dsimp only at h1 h2
  rw [hv] at h2
  refine ⟨h1, ?_⟩
  try dsimp only
  split
  · exact says_pure _
  · split
    · exact says_quietly _
    · refine says_bind (says_tell h2 _) (fun _ _ => ?_)
      split
      · exact says_bind (says_inputStream h2 _ _) (fun _ _ => says_bind (says_quietly _) (fun _ _ => says_pure _))
      · exact says_readThenWrite h2 _ _ _ _ (fun _ => says_bind (says_quietly _) (fun _ _ => says_toolRun _ _ _ h2 _)) _

theorem says_transform (b : Build) (st : Style) (hu : st.usage ≠ []) (env : Transform.Env) (argv : List Str) (w : World)
    (hv : given "verbose" (Cmd.transform.options argv) = false) (hh : given "help" (Cmd.transform.options argv) = false)
    (hr : (transform b st env argv w).res ≠ .throw "Invalid option") : Says P (transform b st env argv w) := by
  unfold transform at hr ⊢
  refine says_command .transform b st hu _ hr ?_
  rintro ⟨a, i, o⟩ h
  obtain ⟨h1, h2, -⟩ := flags_transform _ hh _ _ (withOperands_ok h)
  dsimp only at h1 h2
  rw [hv] at h2
  refine ⟨h1, ?_⟩
  try dsimp only
  split
  · exact says_pure _
  · split
    · exact says_quietly _
    · exact says_bind (says_tell h2 _) (fun _ _ => says_bind (says_inputStream h2 _ _) (fun _ _ => says_outputStream h2 _ _ _))

theorem says_showSrsLoop {v : Bool} (h : v = false) (fs : Tile.FS) (fns : List Str) : Says P (showSrsLoop v fs fns) := by
  induction fns with
  | nil => exact says_pure _
  | cons fn fns ih => exact says_bind (says_openFile h _ _) (fun _ _ => says_bind (says_quietly _) (fun _ _ => ih))

theorem says_srs (b : Build) (st : Style) (hu : st.usage ≠ []) (zl : Zlib) (argv : List Str) (w : World)
    (hv : given "verbose" (Cmd.srs.options argv) = false) (hh : given "help" (Cmd.srs.options argv) = false)
    (hr : (srs b st zl argv w).res ≠ .throw "Invalid option") : Says P (srs b st zl argv w) := by
  unfold srs at hr ⊢
  refine says_command .srs b st hu _ hr ?_
  rintro a h
  obtain ⟨h1, h2, -⟩ := flags_srs _ hh _ _ h
  dsimp only at h1 h2
  rw [hv] at h2
  refine ⟨h1, ?_⟩
  try dsimp only
  split
  · exact says_pure _
  · refine says_bind (says_tell h2 _) (fun _ _ => ?_)
    split
    · exact says_bind (says_tell h2 _) (fun _ _ => says_bind (says_quietly _) (fun _ _ => says_bind (says_tell h2 _) (fun _ _ => says_quietly _)))
    · exact says_bind (says_tell h2 _) (fun _ _ => says_quietly _)
    · refine says_bind (says_openFile h2 _ _) (fun _ _ => says_bind (says_quietly _) (fun _ _ => says_bind (says_tell h2 _) (fun _ _ => ?_)))
      split <;> exact says_quietly _
    · exact says_quietly _
    · exact says_bind (says_showSrsLoop h2 _ _) (fun _ _ => says_pure _)

theorem says_diff (b : Build) (st : Style) (hu : st.usage ≠ []) (zl : Zlib) (argv : List Str) (w : World)
    (hv : given "verbose" (Cmd.diff.options argv) = false) (hh : given "help" (Cmd.diff.options argv) = false)
    (hr : (diff b st zl argv w).res ≠ .throw "Invalid option") : Says P (diff b st zl argv w) := by
  unfold diff at hr ⊢
  refine says_command .diff b st hu _ hr ?_
  rintro ⟨a, i, o⟩ h
  obtain ⟨h1, h2, -⟩ := flags_diff _ hh _ _ (withOperands_ok h)
  dsimp only at h1 h2
  rw [hv] at h2
  refine ⟨h1, ?_⟩
  try dsimp only
  split
  · exact says_pure _
  · refine says_bind (says_tell h2 _) (fun _ _ => ?_)
    split
    · exact says_quietly _
    · exact says_bind (says_openFile h2 _ _) (fun _ _ => says_bind (says_openFile h2 _ _) (fun _ _ => says_bind (says_quietly _) (fun _ _ =>
        says_bind (says_quietly _) (fun _ _ => says_bind (says_quietly _) (fun _ _ => says_bind (says_tell h2 _) (fun _ _ => says_pure _))))))

theorem says_infoLoop (b : Build) (zl : Zlib) (sort : List F64 → List F64) {a : Info.Args} (h : a.verbose = false) (fs : Tile.FS)
    (fns : List Str) : Says P (infoLoop b zl sort a fs fns) := by
  induction fns with
  | nil => exact says_pure _
  | cons fn fns ih => exact says_bind (says_openFile h _ _) (fun _ _ => says_bind (says_quietly _) (fun _ _ => ih))

theorem says_info (b : Build) (st : Style) (hu : st.usage ≠ []) (zl : Zlib) (sort : List F64 → List F64) (argv : List Str) (w : World)
    (hv : given "verbose" (Cmd.info.options argv) = false) (hh : given "help" (Cmd.info.options argv) = false)
    (hr : (info b st zl sort argv w).res ≠ .throw "Invalid option") : Says P (info b st zl sort argv w) := by
  unfold info at hr ⊢
  refine says_command .info b st hu _ hr ?_
  rintro a h
  obtain ⟨h1, h2, -⟩ := flags_info _ hh _ _ h
  dsimp only at h1 h2
  rw [hv] at h2
  refine ⟨h1, ?_⟩
  try dsimp only
  split
  · exact says_pure _
  · refine says_bind (says_tell h2 _) (fun _ _ => ?_)
    split
    · exact says_bind (says_tell h2 _) (fun _ _ => says_bind (says_quietly _) (fun _ _ => says_pure _))
    · exact says_bind (says_infoLoop _ _ _ h2 _ _) (fun _ _ => says_pure _)

theorem says_writeTiles (b : Build) (zl : Zlib) (cc : Str → Bool) {a : Tile.Args} (h : a.verbose = false) (name : UInt64 → Str)
    (f : SpocFile) (m : Tile.TileMap) (ks : List UInt64) : ∀ fs : Tile.FS, Says P (writeTiles b zl cc a name f m ks fs) := by
  induction ks with
  | nil => intro fs; exact says_pure _
  | cons k ks ih =>
    intro fs
    refine says_bind (says_quietly _) (fun _ _ => says_bind (says_tell (by rw [h]; rfl) _) (fun _ _ => ?_))
    split
    · exact says_quietly _
    · exact says_bind (says_tell h _) (fun _ _ => says_bind (says_quietly _) (fun _ _ => ih _))

theorem says_tile (b : Build) (st : Style) (hu : st.usage ≠ []) (zl : Zlib) (argv : List Str) (w : World)
    (hv : given "verbose" (Cmd.tile.options argv) = false) (hh : given "help" (Cmd.tile.options argv) = false)
    (hr : (tile b st zl argv w).res ≠ .throw "Invalid option") : Says P (tile b st zl argv w) := by
  unfold tile at hr ⊢
  refine says_command .tile b st hu _ hr ?_
  rintro ⟨a, fn⟩ h
  obtain ⟨h1, h2, -⟩ := flags_tile _ hh _ _ (withOperands_ok h)
  dsimp only at h1 h2
  rw [hv] at h2
  refine ⟨h1, ?_⟩
  try dsimp only
  split
  · exact says_pure _
  · refine says_bind (says_tell h2 _) (fun _ _ => ?_)
    split
    · exact says_quietly _
    · refine says_bind (says_inputStream h2 _ _) (fun _ _ => says_bind (says_quietly _) (fun _ _ => says_bind (says_tell h2 _) (fun _ _ =>
        says_bind (says_quietly _) (fun _ _ => says_bind (says_tell h2 _) (fun _ _ => says_bind (says_quietly _) (fun _ _ =>
        says_bind (says_tell h2 _) (fun _ _ => says_bind (says_quietly _) (fun _ _ => says_bind ?_ (fun _ _ => says_pure _)))))))))
      exact says_writeTiles (a := { a with fn := fn }) _ _ _ h2 _ _ _ _ _

end Silence

end Spoc.Messages
