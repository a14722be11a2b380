import Verif.Props.EndToEnd
import Verif.Props.FilterSteps
import Verif.Props.Main
import Verif.Props.Missing
import Verif.Props.Switches
import Verif.Props.Transform

/-!
# C108: order and repetition of options
-/

namespace Spoc.Props

open Spec Main Cmd

/-! ## Specification -/

/-- What it means to give an option more than once. -/
inductive Kind
  /-- Once is enough. -/
  | switch
  /-- The second one takes back the first one. -/
  | toggle
  /-- The last one counts. -/
  | last
  /-- All of them count, in any order. -/
  | collect
  /-- All of them count, in the order in which they are given. -/
  | ordered
  deriving DecidableEq

/-- The options of the applications, without `help`. -/
def kinds : Name → List (String × Kind)
  | .compress => [("verbose", .switch), ("version", .switch)]
  | .decompress => [("verbose", .switch), ("version", .switch)]
  | .diff => [("verbose", .switch), ("version", .switch), ("header-only", .switch), ("data-only", .switch), ("reverse", .switch),
      ("field", .ordered)]
  | .filter => [("verbose", .switch), ("version", .switch), ("keep-class", .collect), ("remove-class", .collect), ("random-seed", .last),
      ("unique-xyz", .switch), ("subsample", .last), ("remove-coords", .last)]
  | .info => [("verbose", .switch), ("version", .switch), ("json", .toggle), ("header-info", .toggle), ("summary-info", .toggle),
      ("classification-info", .toggle), ("metric-info", .toggle), ("compact", .toggle), ("quartiles", .toggle)]
  | .merge => [("verbose", .switch), ("version", .switch), ("quiet", .toggle), ("point-id", .last)]
  | .srs => [("verbose", .switch), ("version", .switch), ("srs", .last)]
  | .tile => [("verbose", .switch), ("version", .switch), ("force", .switch), ("tiles", .last), ("digits", .last), ("tile-size", .last),
      ("tile-size-x", .last), ("tile-size-y", .last), ("prefix", .last)]
  | .tool => [("verbose", .switch), ("version", .switch), ("field-filename", .last), ("resolution", .last), ("get-field", .ordered),
      ("recenter-xy", .ordered), ("recenter-xyz", .ordered), ("resize-extra", .ordered), ("set-field", .ordered),
      ("subtract-min-xy", .ordered), ("subtract-min-xyz", .ordered), ("upsample-classifications", .ordered)]
  | .transform => [("verbose", .switch), ("version", .switch), ("random-seed", .last), ("add-x", .ordered), ("add-y", .ordered),
      ("add-z", .ordered), ("copy-field", .ordered), ("quantize-xyz", .ordered), ("replace", .ordered), ("replace-not", .ordered),
      ("rotate-x", .ordered), ("rotate-y", .ordered), ("rotate-z", .ordered), ("scale-x", .ordered), ("scale-y", .ordered),
      ("scale-z", .ordered), ("set", .ordered)]

/-- The two lists of options ask for the same. -/
structure SameRequest (ks : List (String × Kind)) (os os' : List (String × Str)) : Prop where
  known : ∀ o ∈ os, ∃ k, (o.1, k) ∈ ks
  known' : ∀ o ∈ os', ∃ k, (o.1, k) ∈ ks
  switch : ∀ n, (n, Kind.switch) ∈ ks → ((∃ o ∈ os, o.1 = n) ↔ ∃ o ∈ os', o.1 = n)
  toggle : ∀ n, (n, Kind.toggle) ∈ ks → (given n os).length % 2 = (given n os').length % 2
  last : ∀ n, (n, Kind.last) ∈ ks → lastGiven n os = lastGiven n os'
  collect : ∀ n, (n, Kind.collect) ∈ ks → ∀ v, v ∈ given n os ↔ v ∈ given n os'
  ordered : os.filter (fun o => decide ((o.1, Kind.ordered) ∈ ks)) = os'.filter (fun o => decide ((o.1, Kind.ordered) ∈ ks))

/-! ## The values after all options -/

/-- Is the option there? -/
def pres (n : String) (os : List (String × Str)) : Bool := decide (∃ o ∈ os, o.1 = n)

/-- Is it there an odd number of times? -/
def odd (n : String) (os : List (String × Str)) : Bool := decide ((given n os).length % 2 = 1)

/-- Its last value. -/
def val {α : Type} (n : String) (f : Str → α) (d : α) (os : List (String × Str)) : α := ((lastGiven n os).map f).getD d

theorem pres_nil (n : String) : pres n [] = false := by simp [pres]
theorem odd_nil (n : String) : odd n [] = false := by simp [odd, given]
theorem val_nil {α : Type} (n : String) (f : Str → α) (d : α) : val n f d [] = d := by simp [val, lastGiven, given]

theorem pres_cons (n m : String) (v : Str) (os : List (String × Str)) : pres n ((m, v) :: os) = (decide (m = n) || pres n os) := by
  unfold pres
  rw [← Bool.decide_or, decide_eq_decide]
  simp

theorem odd_cons (n m : String) (v : Str) (os : List (String × Str)) : odd n ((m, v) :: os) = (decide (m = n) ^^ odd n os) := by
  unfold odd
  by_cases h : m = n
  · subst h
    rw [given_cons_eq, List.length_cons]
    have : (((given m os).length + 1) % 2 = 1) ↔ ¬ ((given m os).length % 2 = 1) := by omega
    rw [decide_eq_decide.mpr this, decide_not]
    simp
  · rw [given_cons_ne h]
    simp [h]

theorem val_cons {α : Type} (n m : String) (f : Str → α) (d : α) (v : Str) (os : List (String × Str)) :
    val n f d ((m, v) :: os) = val n f (if m = n then f v else d) os := by
  unfold val lastGiven
  by_cases h : m = n
  · subst h
    rw [given_cons_eq, if_pos rfl]
    cases hg : given m os with
    | nil => rfl
    | cons x l => rw [List.getLast?_cons_cons, List.getLast?_cons]; rfl
  · rw [given_cons_ne h, if_neg h]

theorem same_pres {ks : List (String × Kind)} {os os' : List (String × Str)} (h : SameRequest ks os os') {n : String}
    (hn : (n, Kind.switch) ∈ ks) : pres n os = pres n os' := decide_eq_decide.mpr (h.switch n hn)

theorem same_odd {ks : List (String × Kind)} {os os' : List (String × Str)} (h : SameRequest ks os os') {n : String}
    (hn : (n, Kind.toggle) ∈ ks) : odd n os = odd n os' := by
  unfold odd; rw [h.toggle n hn]

theorem same_val {α : Type} {ks : List (String × Kind)} {os os' : List (String × Str)} (h : SameRequest ks os os') {n : String}
    (hn : (n, Kind.last) ∈ ks) (f : Str → α) (d : α) : val n f d os = val n f d os' := by
  unfold val; rw [h.last n hn]

/-- Some lemmas for all of them. -/
theorem known_cons {ks : List (String × Kind)} {n : String} {v : Str} {os : List (String × Str)}
    (h : ∀ o ∈ (n, v) :: os, ∃ k, (o.1, k) ∈ ks) : n ∈ ks.map (·.1) ∧ ∀ o ∈ os, ∃ k, (o.1, k) ∈ ks := by
  obtain ⟨k, hk⟩ := h (n, v) List.mem_cons_self
  exact ⟨List.mem_map.mpr ⟨_, hk, rfl⟩, fun o ho => h o (List.mem_cons_of_mem _ ho)⟩

theorem basic_final (os : List (String × Str)) (h : ∀ o ∈ os, ∃ k, (o.1, k) ∈ kinds .compress) (a : Basic) :
    Cmd.basicArgs os a = .ok
      { help := a.help, verbose := a.verbose || pres "verbose" os, version := a.version || pres "version" os } := by
  induction os generalizing a with
  | nil => simp [Cmd.basicArgs, pres_nil]
  | cons o os ih =>
    obtain ⟨n, v⟩ := o
    obtain ⟨hn, ht⟩ := known_cons h
    simp only [kinds, List.map_cons, List.map_nil, List.mem_cons, List.not_mem_nil, or_false] at hn
    rcases hn with rfl | rfl <;>
      simp only [Cmd.basicArgs, String.reduceEq, if_true, if_false, ih ht, pres_cons, decide_true, decide_false, Bool.true_or, Bool.or_true, Bool.false_or]

theorem srs_final (os : List (String × Str)) (h : ∀ o ∈ os, ∃ k, (o.1, k) ∈ kinds .srs) (a : SrsArgs) :
    Cmd.srsArgs os a = .ok
      { help := a.help, verbose := a.verbose || pres "verbose" os, version := a.version || pres "version" os,
        srs := val "srs" some a.srs os } := by
  induction os generalizing a with
  | nil => simp [Cmd.srsArgs, pres_nil, val_nil]
  | cons o os ih =>
    obtain ⟨n, v⟩ := o
    obtain ⟨hn, ht⟩ := known_cons h
    simp only [kinds, List.map_cons, List.map_nil, List.mem_cons, List.not_mem_nil, or_false] at hn
    rcases hn with rfl | rfl | rfl <;>
      simp only [Cmd.srsArgs, String.reduceEq, if_true, if_false, ih ht, pres_cons, val_cons, decide_true, decide_false, Bool.true_or, Bool.or_true, Bool.false_or]

theorem merge_final (os : List (String × Str)) (h : ∀ o ∈ os, ∃ k, (o.1, k) ∈ kinds .merge) (a : Merge.Args) :
    Merge.getArgs os a = .ok
      { help := a.help, verbose := a.verbose || pres "verbose" os, version := a.version || pres "version" os,
        quiet := a.quiet ^^ odd "quiet" os, pointId := val "point-id" Text.atoi a.pointId os } := by
  induction os generalizing a with
  | nil => simp [Merge.getArgs, pres_nil, odd_nil, val_nil]
  | cons o os ih =>
    obtain ⟨n, v⟩ := o
    obtain ⟨hn, ht⟩ := known_cons h
    simp only [kinds, List.map_cons, List.map_nil, List.mem_cons, List.not_mem_nil, or_false] at hn
    rcases hn with rfl | rfl | rfl | rfl <;>
      simp only [Merge.getArgs, String.reduceEq, if_true, if_false, ih ht, pres_cons, odd_cons, val_cons, decide_true, decide_false, Bool.true_or, Bool.or_true, Bool.false_or,
        Bool.false_xor, Bool.true_xor, Bool.not_xor, Bool.xor_not]

theorem tile_final (os : List (String × Str)) (h : ∀ o ∈ os, ∃ k, (o.1, k) ∈ kinds .tile) (a : Tile.Args) :
    Tile.getArgs os a = .ok
      { help := a.help, verbose := a.verbose || pres "verbose" os, version := a.version || pres "version" os,
        force := a.force || pres "force" os, tiles := val "tiles" (fun s => UInt32.ofInt (Text.atoi s)) a.tiles os,
        digits := val "digits" (fun s => UInt32.ofInt (Text.atoi s)) a.digits os, tileSize := val "tile-size" Text.atof a.tileSize os,
        tileSizeX := val "tile-size-x" Text.atof a.tileSizeX os, tileSizeY := val "tile-size-y" Text.atof a.tileSizeY os,
        pre := val "prefix" id a.pre os, fn := a.fn } := by
  induction os generalizing a with
  | nil => simp [Tile.getArgs, pres_nil, val_nil]
  | cons o os ih =>
    obtain ⟨n, v⟩ := o
    obtain ⟨hn, ht⟩ := known_cons h
    simp only [kinds, List.map_cons, List.map_nil, List.mem_cons, List.not_mem_nil, or_false] at hn
    rcases hn with rfl | rfl | rfl | rfl | rfl | rfl | rfl | rfl | rfl <;>
      simp only [Tile.getArgs, String.reduceEq, if_true, if_false, ih ht, pres_cons, val_cons, decide_true, decide_false, Bool.true_or, Bool.or_true, Bool.false_or, id_eq]

theorem diff_final (os : List (String × Str)) (h : ∀ o ∈ os, ∃ k, (o.1, k) ∈ kinds .diff) (a : Diff.Args) :
    Diff.getArgs os a = .ok
      { help := a.help, verbose := a.verbose || pres "verbose" os, version := a.version || pres "version" os,
        headerOnly := a.headerOnly || pres "header-only" os, dataOnly := a.dataOnly || pres "data-only" os,
        fields := a.fields ++ (os.filter (fun o => decide ((o.1, Kind.ordered) ∈ kinds .diff))).flatMap (·.2),
        reverse := a.reverse || pres "reverse" os } := by
  induction os generalizing a with
  | nil => simp [Diff.getArgs, pres_nil]
  | cons o os ih =>
    obtain ⟨n, v⟩ := o
    obtain ⟨hn, ht⟩ := known_cons h
    simp only [kinds, List.map_cons, List.map_nil, List.mem_cons, List.not_mem_nil, or_false] at hn
    rcases hn with rfl | rfl | rfl | rfl | rfl | rfl <;>
      simp (decide := true) only [Diff.getArgs, if_true, if_false, ih ht, pres_cons, decide_true, decide_false, Bool.true_or, Bool.or_true, Bool.false_or,
        List.filter_cons, List.flatMap_cons, List.append_assoc]

theorem info_final (os : List (String × Str)) (h : ∀ o ∈ os, ∃ k, (o.1, k) ∈ kinds .info) (a : Info.Args) :
    Info.getArgs (os.map (·.1)) a = .ok
      { help := a.help, verbose := a.verbose || pres "verbose" os, version := a.version || pres "version" os,
        json := a.json ^^ odd "json" os, headerInfo := a.headerInfo ^^ odd "header-info" os, summaryInfo := a.summaryInfo ^^ odd "summary-info" os,
        classInfo := a.classInfo ^^ odd "classification-info" os, metricInfo := a.metricInfo ^^ odd "metric-info" os,
        compact := a.compact ^^ odd "compact" os, quartiles := a.quartiles ^^ odd "quartiles" os } := by
  induction os generalizing a with
  | nil => simp [Info.getArgs, pres_nil, odd_nil]
  | cons o os ih =>
    obtain ⟨n, v⟩ := o
    obtain ⟨hn, ht⟩ := known_cons h
    simp only [kinds, List.map_cons, List.map_nil, List.mem_cons, List.not_mem_nil, or_false] at hn
    rcases hn with rfl | rfl | rfl | rfl | rfl | rfl | rfl | rfl | rfl <;>
      simp only [List.map_cons, Info.getArgs, String.reduceEq, if_true, if_false, ih ht, pres_cons, odd_cons, decide_true, decide_false, Bool.true_or, Bool.or_true, Bool.false_or,
        Bool.false_xor, Bool.true_xor, Bool.not_xor, Bool.xor_not]

theorem filter_final (os : List (String × Str)) (h : ∀ o ∈ os, ∃ k, (o.1, k) ∈ kinds .filter) (a : Filter.Args) :
    Filter.getArgs os a = .ok
      { help := a.help, verbose := a.verbose || pres "verbose" os, version := a.version || pres "version" os,
        keepClasses := ((given "keep-class" os).map Text.atoi).reverse ++ a.keepClasses,
        removeClasses := ((given "remove-class" os).map Text.atoi).reverse ++ a.removeClasses,
        seed := val "random-seed" Text.strtol a.seed os, uniqueXyz := a.uniqueXyz || pres "unique-xyz" os,
        subsample := val "subsample" Text.atof a.subsample os, removeCoords := val "remove-coords" id a.removeCoords os } := by
  induction os generalizing a with
  | nil => simp [Filter.getArgs, pres_nil, val_nil, given]
  | cons o os ih =>
    obtain ⟨n, v⟩ := o
    obtain ⟨hn, ht⟩ := known_cons h
    simp only [kinds, List.map_cons, List.map_nil, List.mem_cons, List.not_mem_nil, or_false] at hn
    rcases hn with rfl | rfl | rfl | rfl | rfl | rfl | rfl | rfl <;>
      simp only [Filter.getArgs, Filter.dispatch, Res.ok_bind, String.reduceEq, if_true, if_false, ih ht, pres_cons, val_cons, decide_true, decide_false, Bool.true_or, Bool.or_true,
        Bool.false_or, id_eq, given_cons_eq, given_cons_ne, ne_eq, not_false_eq_true, List.map_cons, List.reverse_cons, List.append_assoc,
        List.singleton_append]

theorem transform_final (os : List (String × Str)) (h : ∀ o ∈ os, ∃ k, (o.1, k) ∈ kinds .transform) (a : Transform.Args) :
    Transform.getArgs os a = .ok
      { help := a.help, verbose := a.verbose || pres "verbose" os, version := a.version || pres "version" os,
        commands := a.commands ++ (os.filter (fun o => decide ((o.1, Kind.ordered) ∈ kinds .transform))).map (fun o => ⟨o.1, o.2⟩),
        seed := val "random-seed" Text.strtol a.seed os } := by
  induction os generalizing a with
  | nil => simp [Transform.getArgs, pres_nil, val_nil]
  | cons o os ih =>
    obtain ⟨n, v⟩ := o
    obtain ⟨hn, ht⟩ := known_cons h
    have step : ∀ (a' : Transform.Args), Transform.dispatch a (Transform.lookup n) v = .ok a' → Transform.lookup n ≠ some .help →
        Transform.getArgs ((n, v) :: os) a = Transform.getArgs os a' := by
      intro a' h1 h2
      rw [Transform.getArgs, h1, Res.ok_bind, if_neg h2]
    simp only [kinds, List.map_cons, List.map_nil, List.mem_cons, List.not_mem_nil, or_false] at hn
    rcases hn with rfl | rfl | rfl | rfl | rfl | rfl | rfl | rfl | rfl | rfl | rfl | rfl | rfl | rfl | rfl | rfl | rfl <;>
      rw [step _ rfl (by decide), ih ht] <;>
      simp (decide := true) only [if_true, if_false, pres_cons, val_cons, decide_true, decide_false, Bool.true_or, Bool.or_true,
        Bool.false_or, List.filter_cons, List.map_cons, List.append_assoc, List.singleton_append]

/-- The command after further commands. -/
def cmdOf (c : Tool.Command) : List (String × Str) → Res Tool.Command
  | [] => .ok c
  | o :: os => if c.name ≠ "" then .throw "You can only specify one command at a time" else cmdOf { name := o.1, params := o.2 } os

theorem tool_final (os : List (String × Str)) (h : ∀ o ∈ os, ∃ k, (o.1, k) ∈ kinds .tool) (a : Tool.Args) :
    Tool.getArgs os a = (cmdOf a.command (os.filter (fun o => decide ((o.1, Kind.ordered) ∈ kinds .tool))) >>= fun c => .ok
      { help := a.help, verbose := a.verbose || pres "verbose" os, version := a.version || pres "version" os,
        resolution := val "resolution" Text.atof a.resolution os, command := c, fieldFn := val "field-filename" id a.fieldFn os }) := by
  induction os generalizing a with
  | nil => simp [Tool.getArgs, pres_nil, val_nil, cmdOf]
  | cons o os ih =>
    obtain ⟨n, v⟩ := o
    obtain ⟨hn, ht⟩ := known_cons h
    have cmd : n ∈ Tool.commandNames → n ≠ "help" → n ≠ "verbose" → n ≠ "version" → n ≠ "" →
        Tool.getArgs ((n, v) :: os) a = (cmdOf a.command ((n, v) :: os.filter (fun o => decide ((o.1, Kind.ordered) ∈ kinds .tool))) >>= fun c => .ok
          { help := a.help, verbose := a.verbose || pres "verbose" os, version := a.version || pres "version" os,
            resolution := val "resolution" Text.atof a.resolution os, command := c, fieldFn := val "field-filename" id a.fieldFn os }) := by
      intro h1 h2 h3 h4 h5
      rw [Tool.getArgs, if_neg h2, if_neg h3, if_neg h4, if_pos h1, Tool.setCommand, cmdOf]
      by_cases hc : a.command.name ≠ ""
      · rw [if_pos hc, if_pos hc]; rfl
      · rw [if_neg hc, if_neg hc, Res.ok_bind, ih ht]
    simp only [kinds, List.map_cons, List.map_nil, List.mem_cons, List.not_mem_nil, or_false] at hn
    rcases hn with rfl | rfl | rfl | rfl | rfl | rfl | rfl | rfl | rfl | rfl | rfl | rfl
    · simp (decide := true) only [Tool.getArgs, if_true, if_false, ih ht, pres_cons, val_cons, decide_true, decide_false, Bool.true_or,
        Bool.or_true, Bool.false_or, List.filter_cons]
    · simp (decide := true) only [Tool.getArgs, if_true, if_false, ih ht, pres_cons, val_cons, decide_true, decide_false, Bool.true_or,
        Bool.or_true, Bool.false_or, List.filter_cons]
    · simp (decide := true) only [Tool.getArgs, if_true, if_false, ih ht, pres_cons, val_cons, decide_false, Bool.false_or,
        List.filter_cons, id_eq]
    · simp (decide := true) only [Tool.getArgs, if_true, if_false, ih ht, pres_cons, val_cons, decide_false, Bool.false_or,
        List.filter_cons, id_eq]
    all_goals
      rw [cmd (by decide) (by decide) (by decide) (by decide) (by decide)]
      simp (decide := true) only [pres_cons, val_cons, if_false, decide_false, Bool.false_or, List.filter_cons, if_true]

/-! ## C108 -/

theorem mem_reversed {n : String} {os os' : List (String × Str)} (h : ∀ v, v ∈ given n os ↔ v ∈ given n os') (i : Int) :
    i ∈ ((given n os).map Text.atoi).reverse ↔ i ∈ ((given n os').map Text.atoi).reverse := by
  simp only [List.mem_reverse, List.mem_map]
  exact exists_congr (fun v => and_congr_left (fun _ => h v))

theorem empty_congr {α : Type} {l l' : List α} (h : ∀ v, v ∈ l ↔ v ∈ l') : l.isEmpty = l'.isEmpty := by
  rw [Bool.eq_iff_iff, List.isEmpty_iff, List.isEmpty_iff, List.eq_nil_iff_forall_not_mem, List.eq_nil_iff_forall_not_mem]
  exact forall_congr' (fun v => not_congr (h v))

/-- The classes matter as sets. -/
theorem filter_process_congr (b : Build) (sh : Subsampling.Shuffle) (verbose version u : Bool) (seed : Int) (r : F64) (t : Str) (f : SpocFile)
    {k k' m m' : List Int} (hk : ∀ i, i ∈ k ↔ i ∈ k') (hm : ∀ i, i ∈ m ↔ i ∈ m') :
    Filter.process b sh { verbose := verbose, version := version, keepClasses := k, removeClasses := m, seed := seed, uniqueXyz := u, subsample := r, removeCoords := t } f
      = Filter.process b sh { verbose := verbose, version := version, keepClasses := k', removeClasses := m', seed := seed, uniqueXyz := u, subsample := r, removeCoords := t } f := by
  have e1 : (fun g => Filter.keepClasses g k) = fun g => Filter.keepClasses g k' := by
    funext g
    unfold Filter.keepClasses
    congr 1
    funext q
    exact decide_eq_decide.mpr (hk _)
  have e2 : (fun g => Filter.removeClasses g m) = fun g => Filter.removeClasses g m' := by
    funext g
    unfold Filter.removeClasses
    congr 1
    funext q
    exact decide_eq_decide.mpr (not_congr (hm _))
  unfold Filter.process
  simp only [e1, e2, empty_congr hk, empty_congr hm]

/-- **C108**: command lines that ask for the same (`SameRequest`: the same switches, the same last values, the same collected values,
the same commands in the same order, whatever the order of everything else) and name the same files have the same effect. -/
theorem c108_same_request (n : Name) (p : Params) (argv argv' : List Str) (w : World)
    (h : SameRequest (kinds n) (n.table.options argv) (n.table.options argv'))
    (hop : n.table.operands argv = n.table.operands argv') : n.run p argv w = n.run p argv' w := by
  cases n with
  | compress =>
    have e : Cmd.basicArgs (Cmd.compress.options argv) {} = Cmd.basicArgs (Cmd.compress.options argv') {} := by
      simp only [Name.table] at h
      rw [basic_final _ h.known, basic_final _ h.known', same_pres h (n := "verbose") (by decide), same_pres h (n := "version") (by decide)]
    have hop : Cmd.compress.operands argv = Cmd.compress.operands argv' := hop
    simp only [Name.run, Main.compress, Main.basicArgs, e, hop]
  | decompress =>
    have e : Cmd.basicArgs (Cmd.decompress.options argv) {} = Cmd.basicArgs (Cmd.decompress.options argv') {} := by
      simp only [Name.table] at h
      rw [basic_final _ h.known, basic_final _ h.known', same_pres h (n := "verbose") (by decide), same_pres h (n := "version") (by decide)]
    have hop : Cmd.decompress.operands argv = Cmd.decompress.operands argv' := hop
    simp only [Name.run, Main.decompress, Main.basicArgs, e, hop]
  | diff =>
    have e : Diff.getArgs (Cmd.diff.options argv) {} = Diff.getArgs (Cmd.diff.options argv') {} := by
      have ho := h.ordered
      simp only [Name.table] at ho h
      rw [diff_final _ h.known, diff_final _ h.known', ho, same_pres h (n := "verbose") (by decide), same_pres h (n := "version") (by decide),
        same_pres h (n := "header-only") (by decide), same_pres h (n := "data-only") (by decide), same_pres h (n := "reverse") (by decide)]
    have hop : Cmd.diff.operands argv = Cmd.diff.operands argv' := hop
    simp only [Name.run, Main.diff, Diff.main, e, hop]
  | filter =>
    simp only [Name.table] at h
    have hop : Cmd.filter.operands argv = Cmd.filter.operands argv' := hop
    simp only [Name.run, Main.filter, Main.filterArgs]
    rw [filter_final _ h.known, filter_final _ h.known', hop]
    have h1 := h.collect "keep-class" (by decide)
    have h2 := h.collect "remove-class" (by decide)
    simp only [Bool.false_or, List.append_nil]
    rw [same_pres h (n := "verbose") (by decide), same_pres h (n := "version") (by decide), same_val h (n := "random-seed") (by decide),
      same_pres h (n := "unique-xyz") (by decide), same_val h (n := "subsample") (by decide), same_val h (n := "remove-coords") (by decide)]
    cases hin : inOut (Cmd.filter.operands argv') with
    | ok io =>
      obtain ⟨i, o⟩ := io
      simp only [withOperands, Res.ok_bind, Bool.false_eq_true, if_false]
      split
      · rfl
      · congr 1
        funext s
        congr 1
        funext f
        exact filter_process_congr _ _ _ _ _ _ _ _ _ (mem_reversed h1) (mem_reversed h2)
    | _ => rfl
  | info =>
    have e : Info.getArgs ((Cmd.info.options argv).map (·.1)) {} = Info.getArgs ((Cmd.info.options argv').map (·.1)) {} := by
      simp only [Name.table] at h
      rw [info_final _ h.known, info_final _ h.known', same_pres h (n := "verbose") (by decide), same_pres h (n := "version") (by decide),
        same_odd h (n := "json") (by decide), same_odd h (n := "header-info") (by decide), same_odd h (n := "summary-info") (by decide),
        same_odd h (n := "classification-info") (by decide), same_odd h (n := "metric-info") (by decide),
        same_odd h (n := "compact") (by decide), same_odd h (n := "quartiles") (by decide)]
    have hop : Cmd.info.operands argv = Cmd.info.operands argv' := hop
    simp only [Name.run, Main.info, Info.main, e, hop]
  | merge =>
    have e : Merge.getArgs (Cmd.merge.options argv) {} = Merge.getArgs (Cmd.merge.options argv') {} := by
      simp only [Name.table] at h
      rw [merge_final _ h.known, merge_final _ h.known', same_pres h (n := "verbose") (by decide), same_pres h (n := "version") (by decide),
        same_odd h (n := "quiet") (by decide), same_val h (n := "point-id") (by decide)]
    have hop : Cmd.merge.operands argv = Cmd.merge.operands argv' := hop
    simp only [Name.run, Main.merge, Merge.main, e, hop]
  | srs =>
    have e : Cmd.srsArgs (Cmd.srs.options argv) {} = Cmd.srsArgs (Cmd.srs.options argv') {} := by
      simp only [Name.table] at h
      rw [srs_final _ h.known, srs_final _ h.known', same_pres h (n := "verbose") (by decide), same_pres h (n := "version") (by decide),
        same_val h (n := "srs") (by decide)]
    have hop : Cmd.srs.operands argv = Cmd.srs.operands argv' := hop
    simp only [Name.run, Main.srs, e, hop]
  | tile =>
    have e : Tile.getArgs (Cmd.tile.options argv) {} = Tile.getArgs (Cmd.tile.options argv') {} := by
      simp only [Name.table] at h
      rw [tile_final _ h.known, tile_final _ h.known', same_pres h (n := "verbose") (by decide), same_pres h (n := "version") (by decide),
        same_pres h (n := "force") (by decide), same_val h (n := "tiles") (by decide), same_val h (n := "digits") (by decide),
        same_val h (n := "tile-size") (by decide), same_val h (n := "tile-size-x") (by decide), same_val h (n := "tile-size-y") (by decide),
        same_val h (n := "prefix") (by decide)]
    have hop : Cmd.tile.operands argv = Cmd.tile.operands argv' := hop
    simp only [Name.run, Main.tile, Tile.main, e, hop]
  | tool =>
    have e : Tool.getArgs (Cmd.tool.options argv) {} = Tool.getArgs (Cmd.tool.options argv') {} := by
      have ho := h.ordered
      simp only [Name.table] at ho h
      rw [tool_final _ h.known, tool_final _ h.known', ho, same_pres h (n := "verbose") (by decide), same_pres h (n := "version") (by decide),
        same_val h (n := "resolution") (by decide), same_val h (n := "field-filename") (by decide)]
    have hop : Cmd.tool.operands argv = Cmd.tool.operands argv' := hop
    simp only [Name.run, Main.tool, Main.toolArgs, e, hop]
  | transform =>
    have e : Transform.getArgs (Cmd.transform.options argv) {} = Transform.getArgs (Cmd.transform.options argv') {} := by
      have ho := h.ordered
      simp only [Name.table] at ho h
      rw [transform_final _ h.known, transform_final _ h.known', ho, same_pres h (n := "verbose") (by decide),
        same_pres h (n := "version") (by decide), same_val h (n := "random-seed") (by decide)]
    have hop : Cmd.transform.operands argv = Cmd.transform.operands argv' := hop
    simp only [Name.run, Main.transform, Main.transformArgs, e, hop]

/-- **C108** for merge, including its warnings (which go to the log): an even number of `--quiet` is the same as none. -/
theorem c108_merge_warnings (b : Build) (zl : Zlib) (os os' : List (String × Str)) (files : List (Option IStream))
    (h : SameRequest (kinds .merge) os os') : Merge.main b zl os files = Merge.main b zl os' files := by
  have e : Merge.getArgs os {} = Merge.getArgs os' {} := by
    rw [merge_final _ h.known, merge_final _ h.known', same_pres h (n := "verbose") (by decide), same_pres h (n := "version") (by decide),
      same_odd h (n := "quiet") (by decide), same_val h (n := "point-id") (by decide)]
  simp only [Merge.main, e]

/-- No option has two kinds. -/
theorem kinds_unique (n : Name) : ∀ x ∈ kinds n, ∀ y ∈ kinds n, x.1 = y.1 → x.2 = y.2 := by
  cases n <;> decide

theorem kind_eq {n : Name} {s : String} {k k' : Kind} (h : (s, k) ∈ kinds n) (h' : (s, k') ∈ kinds n) : k = k' :=
  kinds_unique n _ h _ h' rfl

theorem given_append (n : String) (os os' : List (String × Str)) : given n (os ++ os') = given n os ++ given n os' := by
  simp [given]

theorem given_cons' (n : String) (o : String × Str) (os : List (String × Str)) :
    given n (o :: os) = if o.1 = n then o.2 :: given n os else given n os := by
  obtain ⟨m, v⟩ := o
  split
  · rename_i h; subst h; exact given_cons_eq _ _ _
  · rename_i h; exact given_cons_ne h _ _

/-- **C108**: two neighbouring options with different names can be exchanged, unless both are commands (or fields) whose order counts. -/
theorem c108_exchange (n : Name) (p : Params) (argv argv' : List Str) (w : World) (l r : List (String × Str)) (x y : String × Str)
    (h : n.table.options argv = l ++ x :: y :: r) (h' : n.table.options argv' = l ++ y :: x :: r)
    (hop : n.table.operands argv = n.table.operands argv') (known : ∀ o ∈ l ++ x :: y :: r, ∃ k, (o.1, k) ∈ kinds n)
    (hxy : x.1 ≠ y.1) (hord : (x.1, Kind.ordered) ∉ kinds n ∨ (y.1, Kind.ordered) ∉ kinds n) : n.run p argv w = n.run p argv' w := by
  apply c108_same_request n p argv argv' w _ hop
  rw [h, h']
  have hg : ∀ m, given m (l ++ x :: y :: r) = given m (l ++ y :: x :: r) := by
    intro m
    simp only [given_append, given_cons']
    by_cases h1 : x.1 = m
    · have h2 : ¬ y.1 = m := fun h2 => hxy (h1.trans h2.symm)
      simp only [h1, h2, if_true, if_false]
    · rw [if_neg h1, if_neg h1]
  have hmem : ∀ o, o ∈ l ++ x :: y :: r ↔ o ∈ l ++ y :: x :: r := by
    intro o
    simp only [List.mem_append, List.mem_cons]
    tauto
  refine ⟨known, fun o ho => known o ((hmem o).mpr ho), fun m _ => ?_, fun m _ => by rw [hg], fun m _ => by unfold lastGiven; rw [hg],
    fun m _ v => by rw [hg], ?_⟩
  · exact exists_congr (fun o => and_congr_left (fun _ => hmem o))
  · simp only [List.filter_append, List.filter_cons]
    rcases hord with ho | ho <;> simp [ho]

/-- **C108**: of several values given for an option that takes one value, only the last one counts: the others can be left out. -/
theorem c108_overridden (n : Name) (p : Params) (argv argv' : List Str) (w : World) (l r : List (String × Str)) (x : String × Str)
    (h : n.table.options argv = l ++ x :: r) (h' : n.table.options argv' = l ++ r)
    (hop : n.table.operands argv = n.table.operands argv') (known : ∀ o ∈ l ++ x :: r, ∃ k, (o.1, k) ∈ kinds n)
    (hx : (x.1, Kind.last) ∈ kinds n) (later : ∃ o ∈ r, o.1 = x.1) : n.run p argv w = n.run p argv' w := by
  apply c108_same_request n p argv argv' w _ hop
  rw [h, h']
  have hg : ∀ m, x.1 ≠ m → given m (l ++ x :: r) = given m (l ++ r) := by
    intro m hm
    rw [given_append, given_append, given_cons', if_neg hm]
  have hne : ∀ m k, (m, k) ∈ kinds n → k ≠ Kind.last → x.1 ≠ m := by
    rintro m k hm hk rfl
    exact hk (kind_eq hm hx)
  refine ⟨known, fun o ho => known o ?_, fun m hm => ?_, fun m hm => ?_, fun m hm => ?_, fun m hm v => ?_, ?_⟩
  · rcases List.mem_append.mp ho with h1 | h1
    · exact List.mem_append_left _ h1
    · exact List.mem_append_right _ (List.mem_cons_of_mem _ h1)
  · have := hne m _ hm (by decide)
    constructor
    · rintro ⟨o, ho, rfl⟩
      simp only [List.mem_append, List.mem_cons] at ho
      rcases ho with h1 | rfl | h1
      · exact ⟨o, List.mem_append_left _ h1, rfl⟩
      · exact absurd rfl this
      · exact ⟨o, List.mem_append_right _ h1, rfl⟩
    · rintro ⟨o, ho, rfl⟩
      rcases List.mem_append.mp ho with h1 | h1
      · exact ⟨o, List.mem_append_left _ h1, rfl⟩
      · exact ⟨o, List.mem_append_right _ (List.mem_cons_of_mem _ h1), rfl⟩
  · rw [hg m (hne m _ hm (by decide))]
  · by_cases hm' : x.1 = m
    · subst hm'
      obtain ⟨o, ho, ho'⟩ := later
      have hr : given x.1 r ≠ [] := by
        intro hc
        have : o.2 ∈ given x.1 r := List.mem_map.mpr ⟨o, List.mem_filter.mpr ⟨ho, by simpa using ho'⟩, rfl⟩
        rw [hc] at this
        simp at this
      unfold lastGiven
      rw [given_append, given_append, given_cons', if_pos rfl, List.getLast?_append_of_ne_nil _ (by simp),
        List.getLast?_append_of_ne_nil _ hr]
      obtain ⟨u, us, hu⟩ := List.exists_cons_of_ne_nil hr
      rw [hu, List.getLast?_cons_cons]
    · unfold lastGiven; rw [hg m hm']
  · rw [hg m (hne m _ hm (by decide))]
  · have : (x.1, Kind.ordered) ∉ kinds n := fun hc => by simpa using kind_eq hc hx
    simp only [List.filter_append, List.filter_cons]
    simp [this]

/-- **C108**: giving a toggle twice is the same as not giving it: `merge --quiet --quiet` is not quiet. -/
theorem c108_twice (n : Name) (p : Params) (argv argv' : List Str) (w : World) (l m r : List (String × Str)) (x y : String × Str)
    (h : n.table.options argv = l ++ x :: (m ++ y :: r)) (h' : n.table.options argv' = l ++ (m ++ r))
    (hop : n.table.operands argv = n.table.operands argv') (known : ∀ o ∈ l ++ x :: (m ++ y :: r), ∃ k, (o.1, k) ∈ kinds n)
    (hx : (x.1, Kind.toggle) ∈ kinds n) (hxy : y.1 = x.1) : n.run p argv w = n.run p argv' w := by
  apply c108_same_request n p argv argv' w _ hop
  rw [h, h']
  have hg : ∀ s, x.1 ≠ s → given s (l ++ x :: (m ++ y :: r)) = given s (l ++ (m ++ r)) := by
    intro s hs
    simp only [given_append, given_cons']
    rw [if_neg hs, if_neg (by rw [hxy]; exact hs)]
  have hne : ∀ s k, (s, k) ∈ kinds n → k ≠ Kind.toggle → x.1 ≠ s := by
    rintro s k hs hk rfl
    exact hk (kind_eq hs hx)
  have hsub : ∀ o ∈ l ++ (m ++ r), o ∈ l ++ x :: (m ++ y :: r) := by
    intro o ho
    simp only [List.mem_append, List.mem_cons] at ho ⊢
    tauto
  refine ⟨known, fun o ho => known o (hsub o ho), fun s hs => ?_, fun s hs => ?_, fun s hs => ?_, fun s hs v => ?_, ?_⟩
  · have := hne s _ hs (by decide)
    constructor
    · rintro ⟨o, ho, rfl⟩
      simp only [List.mem_append, List.mem_cons] at ho
      rcases ho with h1 | rfl | h1 | rfl | h1
      · exact ⟨o, by simp [h1], rfl⟩
      · exact absurd rfl this
      · exact ⟨o, by simp [h1], rfl⟩
      · exact absurd hxy.symm this
      · exact ⟨o, by simp [h1], rfl⟩
    · rintro ⟨o, ho, rfl⟩
      exact ⟨o, hsub o ho, rfl⟩
  · by_cases hs' : x.1 = s
    · simp only [given_append, given_cons']
      rw [if_pos hs', if_pos (hxy.trans hs')]
      simp only [List.length_append, List.length_cons]
      omega
    · rw [hg s hs']
  · unfold lastGiven; rw [hg s (hne s _ hs (by decide))]
  · rw [hg s (hne s _ hs (by decide))]
  · have h1 : (x.1, Kind.ordered) ∉ kinds n := fun hc => by simpa using kind_eq hc hx
    have h2 : (y.1, Kind.ordered) ∉ kinds n := by rw [hxy]; exact h1
    simp only [List.filter_append, List.filter_cons]
    simp [h1, h2]

/-- **C108**: the tool application takes one command only: with two of them (equal or not) it fails and changes nothing. -/
theorem c108_one_command (p : Params) (argv : List Str) (w : World) (known : ∀ o ∈ Cmd.tool.options argv, ∃ k, (o.1, k) ∈ kinds .tool)
    (h2 : 2 ≤ ((Cmd.tool.options argv).filter (fun o => decide (o.1 ∈ Tool.commandNames))).length) :
    ∃ e, Name.run .tool p argv w = ⟨w.fs, [], .throw e⟩ := by
  have hfil : ((Cmd.tool.options argv).filter (fun o => decide ((o.1, Kind.ordered) ∈ kinds .tool)))
      = (Cmd.tool.options argv).filter (fun o => decide (o.1 ∈ Tool.commandNames)) := by
    apply List.filter_congr
    intro o _
    rw [decide_eq_decide]
    simp [kinds, Tool.commandNames]
  have hcmd : ∀ l : List (String × Str), 2 ≤ l.length → (∀ o ∈ l, o.1 ∈ Tool.commandNames) →
      cmdOf {} l = .throw "You can only specify one command at a time" := by
    intro l hl hm
    obtain ⟨a, b, l, rfl⟩ : ∃ a b m, l = a :: b :: m := by
      match l, hl with
      | a :: b :: m, _ => exact ⟨a, b, m, rfl⟩
    have ha : a.1 ≠ "" := by
      intro hc
      have := hm a (by simp)
      rw [hc] at this
      exact absurd this (by decide)
    simp only [cmdOf, ne_eq, not_true, if_false]
    rw [if_pos (by simpa using ha)]
  refine ⟨"You can only specify one command at a time", ?_⟩
  simp only [Name.run, Main.tool, Main.toolArgs]
  rw [tool_final _ known, hfil, hcmd _ h2 (fun o ho => by simpa using (List.mem_filter.mp ho).2)]
  rfl

/-! ## Examples -/

/-- `merge -q --point-id=3 a b --point-id 4 -q` asks for the same as `merge a b --point-id 4`. -/
example : SameRequest (kinds .merge) (Cmd.merge.options ["-q".toList, "--point-id=3".toList, "a".toList, "b".toList, "--point-id".toList, "4".toList, "-q".toList])
      (Cmd.merge.options ["a".toList, "b".toList, "--point-id".toList, "4".toList])
    ∧ Cmd.merge.operands ["-q".toList, "--point-id=3".toList, "a".toList, "b".toList, "--point-id".toList, "4".toList, "-q".toList]
      = Cmd.merge.operands ["a".toList, "b".toList, "--point-id".toList, "4".toList] := by
  have e1 : Cmd.merge.options ["-q".toList, "--point-id=3".toList, "a".toList, "b".toList, "--point-id".toList, "4".toList, "-q".toList]
      = [("quiet", []), ("point-id", "3".toList), ("point-id", "4".toList), ("quiet", [])] := by decide +kernel
  have e2 : Cmd.merge.options ["a".toList, "b".toList, "--point-id".toList, "4".toList] = [("point-id", "4".toList)] := by decide +kernel
  rw [e1, e2]
  refine ⟨⟨?_, ?_, ?_, ?_, ?_, ?_, ?_⟩, by decide +kernel⟩
  · intro o ho
    simp only [List.mem_cons, List.not_mem_nil, or_false] at ho
    rcases ho with rfl | rfl | rfl | rfl
    · exact ⟨.toggle, by decide⟩
    · exact ⟨.last, by decide⟩
    · exact ⟨.last, by decide⟩
    · exact ⟨.toggle, by decide⟩
  · intro o ho
    simp only [List.mem_cons, List.not_mem_nil, or_false] at ho
    subst ho
    exact ⟨.last, by decide⟩
  · intro n hn
    simp only [kinds, List.mem_cons, Prod.mk.injEq, reduceCtorEq, and_false, or_false, and_true, List.not_mem_nil] at hn
    rcases hn with rfl | rfl <;> simp
  · intro n hn
    simp only [kinds, List.mem_cons, Prod.mk.injEq, reduceCtorEq, and_false, or_false, false_or, and_true, List.not_mem_nil] at hn
    subst hn
    decide
  · intro n hn
    simp only [kinds, List.mem_cons, Prod.mk.injEq, reduceCtorEq, and_false, or_false, false_or, and_true, List.not_mem_nil] at hn
    subst hn
    decide
  · intro n hn
    simp [kinds] at hn
  · decide

/-- Two commands. -/
example : 2 ≤ ((Cmd.tool.options ["--recenter-xy".toList, "--resize-extra".toList, "3".toList]).filter
    (fun o => decide (o.1 ∈ Tool.commandNames))).length := by decide +kernel

end Spoc.Props
