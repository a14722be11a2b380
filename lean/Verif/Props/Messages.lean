import Verif.Proofs.Assigned
import Verif.Props.ToolFiles
import Verif.Props.Displaced

/-!
# C124: messages on the standard error

The messages of the applications do not belong to their results.  The option `--verbose` adds messages and changes nothing else.
-/

namespace Spoc.Props

open Text Main Messages Getopt Cmd Spec

/-- The command line has an option of this name, as `getopt_long` sees it. -/
def HasOption (n : Name) (argv : List Str) (name : String) : Prop := ∃ o ∈ n.table.options argv, o.1 = name

theorem hasOption_iff {n : Name} {argv : List Str} {name : String} : Messages.given name (n.table.options argv) = true ↔ HasOption n argv name := by
  simp [Messages.given, HasOption]

theorem hasOption_false {n : Name} {argv : List Str} {name : String} (h : ¬HasOption n argv name) : Messages.given name (n.table.options argv) = false := by
  rw [← Bool.not_eq_true, hasOption_iff]; exact h

/-- **C124**: two command lines with the same file names and with the same options, apart from `--verbose`, do the same: the same files, the same
standard output and the same outcome. -/
theorem c124_verbose (n : Name) (p : Params) (w : World) (argv argv' : List Str) (hf : n.table.operands argv = n.table.operands argv')
    (ho : (n.table.options argv).filter (fun o => decide (o.1 ≠ "verbose")) = (n.table.options argv').filter (fun o => decide (o.1 ≠ "verbose"))) :
    n.run p argv w = n.run p argv' w :=
  verbose_run n p w hf ho

/-- C124: `--verbose` before anything else. -/
theorem c124_prepend_long (n : Name) (p : Params) (w : World) (argv : List Str) :
    n.run p ("--verbose".toList :: argv) w = n.run p argv w := by
  obtain ⟨o, hmem, hname, harg⟩ : ∃ o ∈ n.table.longs, o.name = "verbose".toList ∧ o.hasArg = false := by
    cases n <;> exact ⟨⟨"verbose".toList, false, 118⟩, by decide, rfl, rfl⟩
  have hq : Spec.Cmd.Names n.table.longs "verbose".toList o := ⟨hmem, Or.inl hname.symm⟩
  have hl := parse_long (shortsOf n.table.optstring) n.table.longs 'v' "erbose".toList argv
  rw [show 'v' :: "erbose".toList = "verbose".toList from rfl, long_flag (good n) hq harg] at hl
  rw [show '-' :: '-' :: "verbose".toList = "--verbose".toList from rfl] at hl
  refine c124_verbose n p w _ _ ?_ ?_
  · rw [App.operands, App.operands, App.parse, App.parse, hl]
  · rw [App.options, App.options, App.parse, App.parse, hl]
    dsimp only
    rw [List.map_cons, nameOf_mem (vals n) hmem, hname, List.filter_cons_of_neg (by show ¬decide (String.ofList "verbose".toList ≠ "verbose") = true; decide)]

/-- C124: `-v` before anything else. -/
theorem c124_prepend_letter (n : Name) (p : Params) (w : World) (argv : List Str) : n.run p ("-v".toList :: argv) w = n.run p argv w := by
  have h1 : (shortsOf n.table.optstring).lookup 'v' = some false := by cases n <;> decide +kernel
  have h2 : nameOf n.table.longs 118 = "verbose" := by cases n <;> decide +kernel
  have hc : cluster (shortsOf n.table.optstring) ['v'] argv = ([⟨118, none⟩], argv) := by
    rw [cluster.eq_def]
    dsimp only
    rw [h1]
    rfl
  have hl := parse_letters (shortsOf n.table.optstring) n.table.longs 'v' [] (by decide) argv
  rw [hc, show '-' :: 'v' :: [] = "-v".toList from rfl] at hl
  refine c124_verbose n p w _ _ ?_ ?_
  · rw [App.operands, App.operands, App.parse, App.parse, hl]
  · rw [App.options, App.options, App.parse, App.parse, hl]
    dsimp only
    rw [List.cons_append, List.nil_append, List.map_cons, h2, List.filter_cons_of_neg (by decide)]

/-- C124: whether an application is gone through for its messages or for its results, the outcome is the same. -/
theorem c124_outcome (n : Name) (p : Params) (st : Style) (hu : st.usage ≠ []) (argv : List Str) (w : World) :
    (messages n p st argv w).res = (n.run p argv w).res :=
  res_messages n p st hu argv w

/-- **C124**: without `--verbose` and `--help`, with options that are known, an application other than merge prints nothing on the standard error
but, after an exception, what it says. -/
theorem c124_silent (n : Name) (hn : n ≠ .merge) (p : Params) (st : Style) (hu : st.usage ≠ []) (argv : List Str) (w : World)
    (hv : ¬HasOption n argv "verbose") (hh : ¬HasOption n argv "help") (hr : (n.run p argv w).res ≠ .throw "Invalid option") :
    standardError n p st argv w = match (n.run p argv w).res with
      | .throw e => [e.toList ++ ['\n']]
      | _ => [] := by
  have hv := hasOption_false hv
  have hh := hasOption_false hh
  have hs : Says (fun _ => False) (messages n p st argv w) := by
    rw [← c124_outcome n p st hu] at hr
    cases n
    case compress => exact says_compress _ _ hu _ _ _ hv hh hr
    case decompress => exact says_decompress _ _ hu _ _ _ hv hh hr
    case diff => exact says_diff _ _ hu _ _ _ hv hh hr
    case filter => exact says_filter _ _ hu _ _ _ _ hv hh hr
    case info => exact says_info _ _ hu _ _ _ _ hv hh hr
    case merge => exact absurd rfl hn
    case srs => exact says_srs _ _ hu _ _ _ hv hh hr
    case tile => exact says_tile _ _ hu _ _ _ hv hh hr
    case tool => exact says_tool _ _ hu _ _ _ hv hh hr
    case transform => exact says_transform _ _ hu _ _ _ hv hh hr
  have hz : (messages n p st argv w).said = [] := List.eq_nil_iff_forall_not_mem.mpr hs
  rw [standardError, hz, List.nil_append, c124_outcome n p st hu]
  rfl

/-- C124 for merge: without `--verbose` and `--help` there are the two warnings, and what an exception says; the warnings only if the option
`--quiet`, which is a toggle, is not given or given an even number of times. -/
theorem c124_warnings (p : Params) (st : Style) (hu : st.usage ≠ []) (argv : List Str) (w : World) (hv : ¬HasOption .merge argv "verbose")
    (hh : ¬HasOption .merge argv "help") (hr : (Name.merge.run p argv w).res ≠ .throw "Invalid option") :
    ∀ m ∈ standardError .merge p st argv w, (∃ e, (Name.merge.run p argv w).res = .throw e ∧ m = e.toList ++ ['\n'])
      ∨ ((Name.merge.table.options argv).countP (fun o => decide (o.1 = "quiet")) % 2 = 0
        ∧ (m = "WARNING: The spatial reference systems differ\n".toList
          ∨ m = "WARNING: 99% of the final merged area does not contain any points\n".toList)) := by
  have hv := hasOption_false hv
  have hh := hasOption_false hh
  intro m hm
  rw [standardError, List.mem_append] at hm
  rcases hm with hm | hm
  · right
    have hr' := hr
    rw [← c124_outcome .merge p st hu] at hr'
    obtain ⟨h1, h2⟩ := says_merge _ _ hu _ _ _ hv hh hr' m hm
    refine ⟨?_, ?_⟩
    · rw [List.countP_eq_length_filter]
      exact (Nat.mod_two_eq_zero_or_one _).resolve_right (of_decide_eq_false h1)
    · rcases h2 with h2 | h2
      · left; rw [h2]; decide
      · right; rw [h2]; decide
  · left
    rw [c124_outcome .merge p st hu] at hm
    cases h : (Name.merge.run p argv w).res with
    | throw e =>
      rw [h] at hm
      exact ⟨e, rfl, by simpa [str] using hm⟩
    | _ => rw [h] at hm; simp at hm

/-- **C124**: with `--verbose` each file that an application changes is named, also if it fails afterwards. -/
theorem c124_named (n : Name) (p : Params) (st : Style) (hu : st.usage ≠ []) (argv : List Str) (w : World) (hv : HasOption n argv "verbose")
    (hh : ¬HasOption n argv "help") (fn : Str) (h : (n.run p argv w).fs fn ≠ w.fs fn) :
    "Writing to ".toList ++ fn ++ ['\n'] ∈ standardError n p st argv w ∨ "Writing ".toList ++ fn ++ ['\n'] ∈ standardError n p st argv w := by
  have hv := hasOption_iff.mpr hv
  have hh := hasOption_false hh
  have key : writingTo fn ∈ (messages n p st argv w).said ∨ writing fn ∈ (messages n p st argv w).said := by
    cases n
    case compress => exact .inl (written_compress _ _ hu _ _ _ _ hv hh h)
    case decompress => exact .inl (written_decompress _ _ hu _ _ _ _ hv hh h)
    case diff =>
      exfalso
      refine h ?_
      simp only [Name.run, Main.diff]
      split
      · split_ifs <;> rfl
      · rfl
    case filter => exact .inl (written_filter _ _ hu _ _ _ _ _ hv hh h)
    case info => exact absurd rfl h
    case merge => exact absurd rfl h
    case srs => exact .inr (written_srs _ _ hu _ _ _ _ hv hh h)
    case tile => exact .inr (written_tile _ _ hu _ _ _ _ hv hh h)
    case tool => exact .inl (written_tool _ _ hu _ _ _ _ hv hh h)
    case transform => exact .inl (written_transform _ _ hu _ _ _ _ hv hh h)
  rcases key with key | key
  · exact .inl (List.mem_append_left _ key)
  · exact .inr (List.mem_append_left _ key)

/-! ## C125: what the messages say -/

theorem throw_ne_ok {α : Type} (e : String) (a : α) : (Res.throw e : Res α) ≠ .ok a := by simp

theorem last_bind {α β : Type} {x : Log α} {f : α → Log β} {c : β} {m : Str} (hc : (x >>= f).res = .ok c)
    (h : ∀ a, x.res = .ok a → (f a).res = .ok c → (f a).said.getLast? = some m) : (x >>= f).said.getLast? = some m := by
  rw [Log.res_bind] at hc
  cases hx : x.res with
  | ok a =>
    rw [hx, Res.ok_bind] at hc
    rw [Log.said_ok hx, List.getLast?_append, h a hx hc]
    rfl
  | _ => rw [hx] at hc; cases hc

/-- The last message of diff. -/
theorem diff_last (b : Build) (st : Style) (hu : st.usage ≠ []) (zl : Zlib) (argv : List Str) (w : World)
    (hv : Messages.given "verbose" (Cmd.diff.options argv) = true) (hh : Messages.given "help" (Cmd.diff.options argv) = false)
    (hw : Messages.given "version" (Cmd.diff.options argv) = false) (c : Int) (hc : (Messages.diff b st zl argv w).res = .ok c) :
    (Messages.diff b st zl argv w).said.getLast? = some ("The files are ".toList ++ (if c = 0 then "the same".toList else "different".toList) ++ ['\n']) := by
  unfold Messages.diff at hc ⊢
  refine last_bind hc ?_
  rintro ⟨a, i, j⟩ h1 h2
  have h1' := (res_commandLine .diff b st hu _ _).symm.trans h1
  obtain ⟨h3, h4, h5⟩ := flags_diff _ hh _ _ (withOperands_ok h1')
  dsimp only at h2 h3 h4 h5 ⊢
  rw [hv, Bool.or_true] at h4
  rw [hw] at h5
  have h35 : ¬((a.version || a.help) = true) := by rw [h3, h5]; decide
  rw [if_neg h35] at h2 ⊢
  refine last_bind h2 (fun _ _ h6 => ?_)
  have h7 : ¬((a.headerOnly && a.dataOnly && !List.isEmpty a.fields) = true) := by
    intro h7
    rw [if_pos h7, res_quietly] at h6
    exact throw_ne_ok _ _ h6
  rw [if_neg h7] at h6 ⊢
  clear h7 h2 h1 h1' hc
  refine last_bind h6 (fun _ _ h6 => last_bind h6 (fun _ _ h6 => last_bind h6 (fun _ _ h6 => last_bind h6 (fun _ _ h6 =>
    last_bind h6 (fun code _ h6 => ?_)))))
  rw [Log.res_bind, res_tell, Res.ok_bind, Log.res_pure, Res.ok.injEq] at h6
  subst h6
  rw [Log.said_ok (a := ()) rfl, h4]
  have key : ∀ x y : Str, ((tell true [x]).said ++ (pure code : Log Int).said).getLast? = some (x ++ ['\n']) := by intro x y; rfl
  exact key _ []

/-- The comparison decides. -/
theorem diff_decides (b : Build) (z : Zlib) (m : Mode) (reverse : Bool) (s t s' t' : IStream) (f g : SpocFile)
    (hs : Io.readFile b z s = .ok (f, s')) (ht : Io.readFile b z t = .ok (g, t')) :
    ∃ code, Diff.main b z (modeOptions m reverse) (some s) (some t) = .ok code ∧ verdict reverse (Same m f g) code := by
  have df := describable_of_writable (readable_writable hs)
  have dg := describable_of_writable (readable_writable ht)
  cases m with
  | full =>
    obtain ⟨code, h1, h2⟩ := c54_full b f g df dg reverse
    refine ⟨code, ?_, h2⟩
    rw [← h1]
    cases reverse <;> simp [Diff.main, modeOptions, Diff.getArgs, hs, ht, Apps.fileOf]
  | header =>
    obtain ⟨code, h1, h2⟩ := c54_header_only b f g df dg reverse
    refine ⟨code, ?_, h2⟩
    rw [← h1]
    cases reverse <;> simp [Diff.main, modeOptions, Diff.getArgs, hs, ht, Apps.fileOf]
  | data =>
    obtain ⟨code, h1, h2⟩ := c54_data_only b f g df.uniform dg.uniform false reverse
    refine ⟨code, ?_, h2⟩
    rw [← h1]
    cases reverse <;> simp [Diff.main, modeOptions, Diff.getArgs, hs, ht, Apps.fileOf]

theorem diff_main_quiet (b : Build) (z : Zlib) {os os' : List (String × Str)} (h : quiet os = quiet os') (x y : Option IStream) :
    Diff.main b z os x y = Diff.main b z os' x y := by
  unfold Diff.main
  rcases onOk_eq (args_diff h) with ⟨a, b, ha, hb, hab⟩ | ⟨_, he⟩
  · rw [ha, hb]
    obtain ⟨v, rfl⟩ : ∃ v, b = { a with verbose := v } := ⟨b.verbose, by cases a; cases b; simp_all⟩
    rfl
  · rw [he]

/-- The last message of a verbose comparison: "the same" for the same files, unless the result is reversed. -/
theorem diff_message (p : Params) (st : Style) (hu : st.usage ≠ []) (w : World) (argv : List Str) (m : Mode) (reverse : Bool)
    (hv : HasOption .diff argv "verbose")
    (hopt : (Name.diff.table.options argv).filter (fun o => decide (o.1 ≠ "verbose")) = modeOptions m reverse) (i j : Str)
    (hops : Name.diff.table.operands argv = [i, j]) (f g : SpocFile) (hf : HasCloud p w.fs i f) (hg : HasCloud p w.fs j g) :
    ∃ code : Int, verdict reverse (Same m f g) code ∧ (standardError .diff p st argv w).getLast?
      = some ("The files are ".toList ++ (if code = 0 then "the same".toList else "different".toList) ++ ['\n']) := by
  have key : ∀ x : String, x ≠ "verbose" → x ∉ (modeOptions m reverse).map (·.1) → ¬HasOption .diff argv x := by
    rintro x hx hm ⟨o, ho, rfl⟩
    refine hm ?_
    rw [← hopt]
    exact List.mem_map_of_mem (List.mem_filter.mpr ⟨ho, by simpa using hx⟩)
  have hh : ¬HasOption .diff argv "help" := key _ (by decide) (by cases m <;> cases reverse <;> decide)
  have hw : ¬HasOption .diff argv "version" := key _ (by decide) (by cases m <;> cases reverse <;> decide)
  obtain ⟨s, s', h1, h2⟩ := hasCloud_open hf
  obtain ⟨t, t', h3, h4⟩ := hasCloud_open hg
  obtain ⟨code, h5, h6⟩ := diff_decides p.build p.zlib m reverse s t s' t' f g h2 h4
  have hq : quiet (Name.diff.table.options argv) = quiet (modeOptions m reverse) := by
    rw [quiet, hopt]
    cases m <;> cases reverse <;> rfl
  refine ⟨code, h6, ?_⟩
  have hrun : (Name.diff.run p argv w).res = .ok code := by
    have h7 : Diff.main p.build p.zlib (Name.diff.table.options argv) (some s) (some t) = .ok code := by
      rw [diff_main_quiet _ _ hq]; exact h5
    have hv' := hasOption_iff.mpr hv
    obtain ⟨a, ha⟩ : ∃ a, Diff.getArgs (Name.diff.table.options argv) {} = .ok a := by
      unfold Diff.main at h7
      cases h8 : Diff.getArgs (Name.diff.table.options argv) {} with
      | ok a => exact ⟨a, rfl⟩
      | _ => rw [h8] at h7; cases h7
    obtain ⟨f1, -, f3⟩ := flags_diff _ (hasOption_false hh) _ _ ha
    rw [hasOption_false hw] at f3
    simp only [Name.run, Main.diff, withOperands]
    rw [show Cmd.diff = Name.diff.table from rfl, ha, hops]
    have f1 : a.help = false := f1
    have f3 : a.version = false := f3
    simp only [Res.ok_bind, f1, f3, Bool.false_eq_true, if_false, Cmd.two, h1, h3]
    exact h7
  have hm : (messages .diff p st argv w).res = .ok code := by rw [c124_outcome .diff p st hu, hrun]
  rw [standardError, hm, List.append_nil]
  exact diff_last _ _ hu _ _ _ (hasOption_iff.mpr hv) (hasOption_false hh) (hasOption_false hw) code hm

/-- **C125**, diff: with `--verbose` and without `--reverse` the last message says whether what was compared is the same. -/
theorem c125_diff_partial (p : Params) (st : Style) (hu : st.usage ≠ []) (w : World) (argv : List Str) (m : Mode)
    (hv : HasOption .diff argv "verbose")
    (hopt : (Name.diff.table.options argv).filter (fun o => decide (o.1 ≠ "verbose")) = modeOptions m false) (i j : Str)
    (hops : Name.diff.table.operands argv = [i, j]) (f g : SpocFile) (hf : HasCloud p w.fs i f) (hg : HasCloud p w.fs j g) :
    (Same m f g ∧ (standardError .diff p st argv w).getLast? = some "The files are the same\n".toList)
      ∨ (¬Same m f g ∧ (standardError .diff p st argv w).getLast? = some "The files are different\n".toList) := by
  obtain ⟨code, h1, h2⟩ := diff_message p st hu w argv m false hv hopt i j hops f g hf hg
  rw [h2]
  simp only [verdict, Bool.false_eq_true, if_false] at h1
  rcases h1 with ⟨h1, rfl⟩ | ⟨h1, rfl⟩
  · exact .inl ⟨h1, by decide⟩
  · exact .inr ⟨h1, by decide⟩

/-- Why C125 is partial: with `--reverse` the message says the opposite, "the same" for different files and "different" for the same. -/
theorem c125_diff_reversed (p : Params) (st : Style) (hu : st.usage ≠ []) (w : World) (argv : List Str) (m : Mode)
    (hv : HasOption .diff argv "verbose")
    (hopt : (Name.diff.table.options argv).filter (fun o => decide (o.1 ≠ "verbose")) = modeOptions m true) (i j : Str)
    (hops : Name.diff.table.operands argv = [i, j]) (f g : SpocFile) (hf : HasCloud p w.fs i f) (hg : HasCloud p w.fs j g) :
    (Same m f g ∧ (standardError .diff p st argv w).getLast? = some "The files are different\n".toList)
      ∨ (¬Same m f g ∧ (standardError .diff p st argv w).getLast? = some "The files are the same\n".toList) := by
  obtain ⟨code, h1, h2⟩ := diff_message p st hu w argv m true hv hopt i j hops f g hf hg
  rw [h2]
  simp only [verdict, if_true] at h1
  rcases h1 with ⟨h1, rfl⟩ | ⟨h1, rfl⟩
  · exact .inl ⟨h1, by decide⟩
  · exact .inr ⟨h1, by decide⟩

/-- The message about the number of points. -/
def assignedText (k n : Nat) : Str :=
  showNat k ++ " of ".toList ++ showNat n ++
    " upsampled point record classifications were assigned a value from the subsampled point records.\n".toList

/-- The question whether the low-resolution file is the right one; there is no end of line after it. -/
def rightFileQuestion : Str :=
  "Was the low resolution spoc file subsampled from the high resolution spoc file and at the same resolution?".toList

/-- The options of upsampling, with `--verbose` among them. -/
def UpsamplesVerbosely (argv : List Str) (h t : Str) : Prop :=
  HasOption .tool argv "verbose" ∧
    (Name.tool.table.options argv).filter (fun o => decide (o.1 ≠ "verbose")) = [("upsample-classifications", h), ("resolution", t)]

/-- A whole line. -/
def WholeLine (m : Str) : Prop := m.getLast? = some '\n'

theorem says_lines {P : Str → Prop} (hP : ∀ m, WholeLine m → P m) (v : Bool) (l : List Str) : Says P (tell v l) := by
  intro m hm
  cases v with
  | false => simp [tell] at hm
  | true =>
    simp only [tell, if_true, List.mem_map] at hm
    obtain ⟨x, -, rfl⟩ := hm
    exact hP _ (by simp [WholeLine])

theorem quietly_bind {α β : Type} (a : α) (k : α → Log β) : (quietly (.ok a) >>= k) = k a := rfl

theorem commandLine_pure {α : Type} (b : Build) (st : Style) (app : App) (asked : α → Bool) {a : α} (h : asked a = false) :
    commandLine b st app asked (.ok a) = pure a := by
  simp [commandLine, h]

/-- What a verbose transfer says about the number of assignments. -/
theorem upsample_messages (p : Params) (st : Style) (w : World) (argv : List Str) (i h t o : Str)
    (ho : UpsamplesVerbosely argv h t) (hops : Name.tool.table.operands argv = [i, o]) (hi : i ≠ []) (l f : SpocFile)
    (hl : HasCloud p w.fs i l) (hf : HasCloud p w.fs h f) (hr : F64.gt (atof t) F64.zero = true) (vh vl : List VoxelIndex)
    (hvh : Voxel.getIndexes f.prs (atof t) = .ok vh) (hvl : Voxel.getIndexesIn l.prs (Extent.ofPoints f.prs) (atof t) = .ok vl) :
    ∃ n, n = (vl.map (fun v => vh.count v)).sum ∧ assignedText n f.prs.length ∈ standardError .tool p st argv w
      ∧ (rightFileQuestion ∈ standardError .tool p st argv w ↔ n ≠ f.prs.length) := by
  obtain ⟨hv, ho⟩ := ho
  obtain ⟨s, s', e1, e2⟩ := inputStream_cloud (w := w) hi hl
  obtain ⟨sh, sh', e3, e4⟩ := hasCloud_open hf
  have hul := (readable_writable e2).uniform
  have huf := (readable_writable e4).uniform
  obtain ⟨g, n, g1, -, g3, -⟩ := c52_upsample p.build l f hul huf (atof t) hr vh vl hvh hvl
  have hn : n = (vl.map (fun v => vh.count v)).sum := by
    have g1' := g1
    unfold Tool.upsample at g1'
    rw [Tool.uniform_valid hul, Tool.uniform_valid huf, hr, Tool.copy_ok huf] at g1'
    simp only [require_true, Res.ok_bind, hvh, hvl] at g1'
    rw [upsampleLoop_count _ _ _ _ _ _ _ _ _ g1', Nat.zero_add]
  refine ⟨n, hn, ?_⟩
  clear hn hvh hvl
  -- the arguments
  have hq : quiet (Name.tool.table.options argv) = quiet [("upsample-classifications", h), ("resolution", t)] := by
    rw [quiet, ho]
    rfl
  have hargs : Tool.getArgs (Name.tool.table.options argv) {}
      = .ok { verbose := true, command := { name := "upsample-classifications", params := h }, resolution := atof t } := by
    have h1 : Tool.getArgs [("upsample-classifications", h), ("resolution", t)] {}
        = .ok { command := { name := "upsample-classifications", params := h }, resolution := atof t } := by rfl
    have hh : Messages.given "help" (Name.tool.table.options argv) = false := by
      refine hasOption_false ?_
      rintro ⟨x, hx, hx'⟩
      have : x ∈ [("upsample-classifications", h), ("resolution", t)] := by
        rw [← ho]; exact List.mem_filter.mpr ⟨hx, by rw [hx']; decide⟩
      simp only [List.mem_cons, List.not_mem_nil, or_false] at this
      rcases this with rfl | rfl <;> revert hx' <;> show ¬_ <;> dsimp only <;> decide
    rcases onOk_eq (args_tool hq) with ⟨a, b, ha, hb, hab⟩ | ⟨h2, he⟩
    · obtain ⟨-, h3, -⟩ := flags_tool _ hh _ _ ha
      rw [hasOption_iff.mpr hv] at h3
      rw [h1, Res.ok.injEq] at hb
      subst hb
      rw [ha]
      cases a
      simp_all
    · rw [he, h1] at h2
      exact absurd rfl (h2 _)
  have hle : F64.le (atof t) F64.zero = false := by
    unfold F64.gt F64.lt at hr
    unfold F64.le
    rw [Bool.and_eq_true, Bool.and_eq_true, Bool.not_eq_true', Bool.not_eq_true', decide_eq_true_eq] at hr
    rw [hr.1.2, hr.1.1]
    simpa using hr.2
  generalize ha : ({ verbose := true, command := { name := "upsample-classifications", params := h }, resolution := atof t } : Tool.Args) = a at hargs
  have a1 : a.verbose = true := by rw [← ha]
  have a2 : a.help = false := by rw [← ha]
  have a3 : a.version = false := by rw [← ha]
  have a4 : a.command.name = "upsample-classifications" := by rw [← ha]
  have a5 : a.command.params = h := by rw [← ha]
  have a6 : a.resolution = atof t := by rw [← ha]
  have hm : messages .tool p st argv w = (do
      tell true (toolSettings st a i o)
      Messages.readThenWrite true w i o (fun s => do
          let f ← quietly (Apps.fileOf (Io.readFile p.build p.zlib s))
          toolRun p.build p.zlib (toolFiles w.fs) a f)
        (Io.writeFile p.build p.zlib)) := by
    simp only [messages, Messages.tool, toolArgs, withOperands]
    rw [show Cmd.tool = Name.tool.table from rfl, hargs, hops]
    simp only [Res.ok_bind, a2, Bool.false_eq_true, if_false, Cmd.inOut]
    rw [commandLine_pure _ _ _ _ (by exact a2)]
    show (if (a.version || a.help) = true then _ else _) = _
    rw [if_neg (by rw [a2, a3]; decide), if_neg (by rw [a4]; decide), if_neg (by rw [a4]; decide), a1]
  have hfl : Apps.fileOf (Io.readFile p.build p.zlib s) = .ok l := by rw [e2]; rfl
  have hff : Apps.fileOf (Io.readFile p.build p.zlib sh) = .ok f := by rw [e4]; rfl
  have hrun : toolRun p.build p.zlib (toolFiles w.fs) a l = (do
      tell true ["Opening ".toList ++ h ++ " for reading".toList]
      upsampled true n f.prs.length
      pure g) := by
    unfold toolRun
    rw [if_neg (by rw [a4]; exact fun h => absurd h.1 (by decide)), if_pos ⟨a4, by rw [a6]; exact hle⟩, a1, a5, a6]
    rw [show (toolFiles w.fs).spoc h = some sh from e3]
    dsimp only
    simp only [quietly_bind, hff, g1, g3]
    rfl
  rw [standardError, hm]
  constructor
  · refine List.mem_append_left _ (mem_right rfl (mem_right (a := s) (by rw [res_inputStream, e1]) (mem_left ?_ _)))
    dsimp only
    rw [hfl, quietly_bind, hrun]
    refine mem_right rfl (mem_left ?_ _)
    unfold upsampled
    rw [if_pos rfl]
    refine mem_left ?_ _
    simp [say, assignedText, str]
  · constructor
    · intro hmem heq
      subst heq
      have hall : ∀ m ∈ (tell true (toolSettings st a i o) >>= fun _ => Messages.readThenWrite true w i o (fun s => do
          let f ← quietly (Apps.fileOf (Io.readFile p.build p.zlib s))
          toolRun p.build p.zlib (toolFiles w.fs) a f) (Io.writeFile p.build p.zlib)).said, WholeLine m := by
        refine says_bind (says_lines (fun _ h => h) _ _) (fun _ _ => says_bind (says_bind (says_lines (fun _ h => h) _ _) (fun _ _ => says_quietly _))
          (fun s2 h2 => says_bind ?_ (fun _ _ => says_bind (says_lines (fun _ h => h) _ _) (fun _ _ => says_quietly _))))
        rw [res_inputStream, e1, Res.ok.injEq] at h2
        subst h2
        dsimp only
        rw [hfl, quietly_bind, hrun]
        refine says_bind (says_lines (fun _ h => h) _ _) (fun _ _ => says_bind ?_ (fun _ _ => says_pure _))
        unfold upsampled
        rw [if_pos rfl, if_neg (fun h => h rfl)]
        refine says_bind ?_ (fun _ _ => says_pure _)
        intro m hm
        simp only [say, List.mem_singleton] at hm
        rw [hm]
        unfold WholeLine
        rw [List.getLast?_append]
        rfl
      rw [List.mem_append] at hmem
      have hq : ¬WholeLine rightFileQuestion := by unfold WholeLine; decide
      rcases hmem with hmem | hmem
      · exact hq (hall _ hmem)
      · refine hq ?_
        cases hres : (tell true (toolSettings st a i o) >>= fun _ => Messages.readThenWrite true w i o (fun s => do
          let f ← quietly (Apps.fileOf (Io.readFile p.build p.zlib s))
          toolRun p.build p.zlib (toolFiles w.fs) a f) (Io.writeFile p.build p.zlib)).res with
        | throw e =>
          rw [hres] at hmem
          simp only [List.mem_singleton] at hmem
          rw [hmem]
          simp [WholeLine]
        | _ => rw [hres] at hmem; simp at hmem
    · intro hne
      refine List.mem_append_left _ (mem_right rfl (mem_right (a := s) (by rw [res_inputStream, e1]) (mem_left ?_ _)))
      dsimp only
      rw [hfl, quietly_bind, hrun]
      refine mem_right rfl (mem_left ?_ _)
      unfold upsampled
      rw [if_pos rfl]
      refine mem_right rfl ?_
      rw [if_pos hne]
      exact List.mem_singleton_self rightFileQuestion

/-- **C125**, upsample-classifications: if no two low-resolution points share a voxel, the first message counts the points whose voxel has a
low-resolution point, which are those that are assigned a class (C52), and the question is asked exactly if there are others. -/
theorem c125_upsample_partial (p : Params) (st : Style) (w : World) (argv : List Str) (i h t o : Str)
    (ho : UpsamplesVerbosely argv h t) (hops : Name.tool.table.operands argv = [i, o]) (hi : i ≠ []) (l f : SpocFile)
    (hl : HasCloud p w.fs i l) (hf : HasCloud p w.fs h f) (hr : F64.gt (atof t) F64.zero = true) (vh vl : List VoxelIndex)
    (hvh : Voxel.getIndexes f.prs (atof t) = .ok vh) (hvl : Voxel.getIndexesIn l.prs (Extent.ofPoints f.prs) (atof t) = .ok vl) (hd : vl.Nodup) :
    assignedText (vh.countP (fun v => decide (v ∈ vl))) f.prs.length ∈ standardError .tool p st argv w
      ∧ (rightFileQuestion ∈ standardError .tool p st argv w ↔ ∃ v ∈ vh, v ∉ vl) := by
  obtain ⟨n, h1, h2, h3⟩ := upsample_messages p st w argv i h t o ho hops hi l f hl hf hr vh vl hvh hvl
  rw [sum_count_nodup vh vl hd] at h1
  rw [← h1]
  refine ⟨h2, h3.trans ?_⟩
  have hlen : vh.length = f.prs.length := mapM_length hvh
  rw [h1, ← hlen, ne_eq, List.countP_eq_length]
  simp

/-- The voxels of points that subsampling returned: each voxel of the cloud, once. -/
theorem subsample_voxels (b : Build) (sh : Subsampling.Shuffle) (hsh : sh.Lawful) (l f : SpocFile) (r : F64)
    (seed : Nat) (qs : List PointRecord) (hq : Subsampling.subsamplePoints b sh f.prs r seed = .ok qs)
    (hl : List.Forall₂ (SameExcept [.c]) qs l.prs) :
    ∃ vs vl, Voxel.getIndexes f.prs r = .ok vs ∧ Voxel.getIndexesIn l.prs (Extent.ofPoints f.prs) r = .ok vl ∧ vl.Nodup ∧ ∀ v ∈ vs, v ∈ vl := by
  have hdef : ∃ vs, Voxel.getIndexes f.prs r = .ok vs := by
    cases hv : Voxel.getIndexes f.prs r with
    | ok vs => exact ⟨vs, rfl⟩
    | _ =>
      have := c23_undefined b sh f.prs r seed (by rw [hv]; rfl)
      rw [hq] at this
      simp [Res.isOk] at this
  obtain ⟨vs, hv⟩ := hdef
  obtain ⟨ks, qs', h1, h2, h3, h4, h5, h6, h7⟩ := c23_one_per_voxel b sh hsh f.prs r seed vs hv
  rw [hq] at h2
  obtain rfl := Res.ok.inj h2
  have hvlen : vs.length = f.prs.length := mapM_length hv
  -- the voxels of the low-resolution points
  have hvox : ∀ (i : Nat) (q : PointRecord), l.prs[i]? = some q → ∃ (k : Nat) (v : VoxelIndex), ks[i]? = some k ∧ vs[k]? = some v
      ∧ Voxel.getIndex (pt q) (Extent.ofPoints f.prs).minp r = .ok v := by
    intro i q hiq
    obtain ⟨hi, e⟩ := List.getElem?_eq_some_iff.mp hiq
    have hi1 : i < qs.length := by rw [hl.length_eq]; exact hi
    have hi2 : i < ks.length := by rw [h3.length_eq]; exact hi1
    have e1 := forall₂_get h3 hi2 hi1
    have e2 := forall₂_get hl hi1 hi
    obtain ⟨v, w1, w2⟩ := Spoc.mapM_get hv e1
    refine ⟨ks[i], v, List.getElem?_eq_getElem hi2, w1, ?_⟩
    rw [← e, getIndex_congr e2]
    exact w2
  obtain ⟨vl, hvl⟩ : ∃ vl, Voxel.getIndexesIn l.prs (Extent.ofPoints f.prs) r = .ok vl := by
    apply mapM_ok_of
    intro q hql
    obtain ⟨i, hi, rfl⟩ := List.mem_iff_getElem.mp hql
    obtain ⟨k, v, _, _, w⟩ := hvox i _ (List.getElem?_eq_getElem hi)
    exact ⟨v, w⟩
  have hlv : ∀ (i k : Nat), ks[i]? = some k → vl[i]? = vs[k]? := by
    intro i k hk
    have hi2 := (List.getElem?_eq_some_iff.mp hk).1
    have hi : i < l.prs.length := by rw [← hl.length_eq, ← h3.length_eq]; exact hi2
    obtain ⟨k', v, w1, w2, w3⟩ := hvox i _ (List.getElem?_eq_getElem hi)
    rw [hk] at w1
    obtain rfl := Option.some.inj w1
    obtain ⟨v', u1, u2⟩ := Spoc.mapM_get hvl (List.getElem?_eq_getElem hi)
    rw [w3] at u2
    rw [u1, w2, Res.ok.inj u2]
  have hlen : vl.length = ks.length := by
    rw [show vl.length = l.prs.length from mapM_length hvl, h3.length_eq, hl.length_eq]
  refine ⟨vs, vl, hv, hvl, ?_, ?_⟩
  · rw [List.nodup_iff_injective_getElem]
    rintro ⟨i, hi⟩ ⟨j, hj⟩ e
    simp only at e
    have hi' : i < ks.length := by omega
    have hj' : j < ks.length := by omega
    have e1 := hlv i ks[i] (List.getElem?_eq_getElem hi')
    have e2 := hlv j ks[j] (List.getElem?_eq_getElem hj')
    rw [List.getElem?_eq_getElem hi] at e1
    rw [List.getElem?_eq_getElem hj] at e2
    have : ks[i] = ks[j] := h6 _ (List.getElem_mem hi') _ (List.getElem_mem hj') (by rw [← e1, ← e2, e])
    simpa using (h4.getElem_inj_iff).mp this
  · intro v hvm
    obtain ⟨j, hj, rfl⟩ := List.mem_iff_getElem.mp hvm
    obtain ⟨k, hk, e⟩ := h7 j (by omega)
    obtain ⟨i, hi, e'⟩ := List.mem_iff_getElem.mp hk
    have := hlv i k (by rw [List.getElem?_eq_getElem hi, e'])
    rw [e, List.getElem?_eq_getElem hj] at this
    exact List.mem_of_getElem? this

/-- C125: if the low-resolution points are those that subsampling the cloud at the same resolution returns (with any classes), all points are
counted and the question is not asked. -/
theorem c125_subsampled (p : Params) (st : Style) (w : World) (argv : List Str) (i h t o : Str)
    (ho : UpsamplesVerbosely argv h t) (hops : Name.tool.table.operands argv = [i, o]) (hi : i ≠ []) (l f : SpocFile)
    (hl : HasCloud p w.fs i l) (hf : HasCloud p w.fs h f) (hr : F64.gt (atof t) F64.zero = true) (b : Build) (sh : Subsampling.Shuffle)
    (hsh : sh.Lawful) (seed : Nat) (qs : List PointRecord) (hq : Subsampling.subsamplePoints b sh f.prs (atof t) seed = .ok qs)
    (hc : List.Forall₂ (SameExcept [.c]) qs l.prs) :
    assignedText f.prs.length f.prs.length ∈ standardError .tool p st argv w ∧ rightFileQuestion ∉ standardError .tool p st argv w := by
  obtain ⟨vh, vl, h1, h2, h3, h4⟩ := subsample_voxels b sh hsh l f (atof t) seed qs hq hc
  obtain ⟨h5, h6⟩ := c125_upsample_partial p st w argv i h t o ho hops hi l f hl hf hr vh vl h1 h2 h3
  have h7 : vh.countP (fun v => decide (v ∈ vl)) = f.prs.length := by
    rw [← show vh.length = f.prs.length from mapM_length h1, List.countP_eq_length]
    exact fun v hv => by simpa using h4 v hv
  rw [h7] at h5
  exact ⟨h5, fun h8 => by obtain ⟨v, hv, hn⟩ := h6.mp h8; exact hn (h4 v hv)⟩

/-! ## Examples, and why C125 is partial -/

/-- A style of printing. -/
def plainStyle : Style := ⟨fun x => showNat x.bits.toNat, id, "usage".toList⟩

/-- The cloud `highRes` in the file `h` and `lowRes` in the file `l`; a cloud of two points in different voxels in `s`, and one of two points that
are in the voxel of the first one in `t`. -/
def resDisk : World where
  fs := fun n =>
    if n = ['h'] then some { content := (Io.writeFile .release toyZlib highRes).bytes, readable := true, writable := true }
    else if n = ['l'] then some { content := (Io.writeFile .release toyZlib lowRes).bytes, readable := true, writable := true }
    else if n = ['s'] then
      some { content := (Io.writeFile .release toyZlib { SpocFile.empty with prs := [{ x := num 0 }, { x := num 5 }] }).bytes, readable := true, writable := true }
    else if n = ['t'] then
      some { content := (Io.writeFile .release toyZlib { SpocFile.empty with prs := [{ x := num 0, c := 2 }, { x := num 0, c := 3 }] }).bytes,
             readable := true, writable := true }
    else none
  canCreate _ := true
  stdin := { rest := [] }

/-- The transfer from one file of the disk to another one. -/
def transferLine (low high : Char) : List Str := ["-v".toList, "--upsample-classifications".toList, [high], "--resolution=1".toList, [low], ['o']]

/-- Why C125 is partial: the count is of assignments, not of points; with two low-resolution points in a voxel it can say "5 of 4". -/
theorem c125_five_of_four : assignedText 5 4 ∈ standardError .tool textParams plainStyle (transferLine 'l' 'h') resDisk := by decide +kernel

/-- Why C125 is partial: two assignments to one of two points are reported as "2 of 2", and the question is not asked, though the class of the other
point was not assigned. -/
theorem c125_two_of_two : assignedText 2 2 ∈ standardError .tool textParams plainStyle (transferLine 't' 's') resDisk
    ∧ rightFileQuestion ∉ standardError .tool textParams plainStyle (transferLine 't' 's') resDisk
    ∧ Tool.upsample .release { SpocFile.empty with prs := [{ x := num 0, c := 2 }, { x := num 0, c := 3 }] }
        { SpocFile.empty with prs := [{ x := num 0 }, { x := num 5 }] } F64.one
      = .ok ({ SpocFile.empty with prs := [{ x := num 0, c := 3 }, { x := num 5 }] }, 2) := by
  refine ⟨?_, ?_, ?_⟩ <;> decide +kernel

/-- `-v` between the file names: the same options otherwise, and the same files. -/
example : Name.compress.table.operands [['a'], "-v".toList, ['o']] = Name.compress.table.operands [['a'], ['o']]
    ∧ (Name.compress.table.options [['a'], "-v".toList, ['o']]).filter (fun o => decide (o.1 ≠ "verbose"))
      = (Name.compress.table.options [['a'], ['o']]).filter (fun o => decide (o.1 ≠ "verbose")) := by decide +kernel

/-- A command line without `--verbose` and `--help`: it fails, as there is no file `x`. -/
example : ¬HasOption .compress [['x'], ['o']] "verbose" ∧ ¬HasOption .compress [['x'], ['o']] "help"
    ∧ (Name.compress.run exampleParams [['x'], ['o']] exampleDisk).res ≠ .throw "Invalid option"
    ∧ standardError .compress exampleParams plainStyle [['x'], ['o']] exampleDisk ≠ [] :=
  ⟨by rw [← hasOption_iff]; decide +kernel, by rw [← hasOption_iff]; decide +kernel, by decide +kernel, by decide +kernel⟩

/-- Merging two files, the options of which are known. -/
example : ¬HasOption .merge [['a'], ['d'], ['o']] "verbose" ∧ ¬HasOption .merge [['a'], ['d'], ['o']] "help"
    ∧ (Name.merge.run exampleParams [['a'], ['d'], ['o']] exampleDisk).res ≠ .throw "Invalid option" :=
  ⟨by rw [← hasOption_iff]; decide +kernel, by rw [← hasOption_iff]; decide +kernel, by decide +kernel⟩

/-- A verbose run that writes the file `o`. -/
example : HasOption .compress ["-v".toList, ['a'], ['o']] "verbose" ∧ ¬HasOption .compress ["-v".toList, ['a'], ['o']] "help"
    ∧ (Name.compress.run exampleParams ["-v".toList, ['a'], ['o']] exampleDisk).fs ['o'] ≠ exampleDisk.fs ['o'] :=
  ⟨by rw [← hasOption_iff]; decide +kernel, by rw [← hasOption_iff]; decide +kernel, by decide +kernel⟩

/-- A verbose comparison of two files. -/
example := c125_diff_partial exampleParams plainStyle (by decide) exampleDisk ["-v".toList, ['a'], ['d']] .full (by rw [← hasOption_iff]; decide +kernel)
  (by decide +kernel) ['a'] ['d'] (by decide +kernel) cloudA cloudA cloudA_on_disk.1 cloudA_on_disk.2

/-- The same with `--reverse`. -/
example := c125_diff_reversed exampleParams plainStyle (by decide) exampleDisk ["-v".toList, "-r".toList, ['a'], ['d']] .full
  (by rw [← hasOption_iff]; decide +kernel) (by decide +kernel) ['a'] ['d'] (by decide +kernel) cloudA cloudA cloudA_on_disk.1 cloudA_on_disk.2

/-- The two points in different voxels. -/
def apart : SpocFile := { SpocFile.empty with prs := [{ x := num 0 }, { x := num 5 }] }

theorem apart_on_disk : HasCloud textParams resDisk.fs ['s'] apart := by
  have h := (survives_roundtrip .release toyZlib toyZlib_correct apart
    ⟨⟨rfl, rfl, by decide, by unfold Uniform; decide +kernel, by decide +kernel, by decide⟩, fun _ => by decide +kernel, nofun⟩).2 []
  rw [List.append_nil] at h
  exact ⟨_, _, rfl, rfl, h⟩

/-- Each of the two points takes its own class. -/
example := c125_upsample_partial textParams plainStyle resDisk (transferLine 's' 's') ['s'] ['s'] ['1'] ['o'] ⟨by rw [← hasOption_iff]; decide +kernel, by decide +kernel⟩
  (by decide +kernel) (by decide) apart apart apart_on_disk apart_on_disk (by decide +kernel)
  [⟨0, 0, 0⟩, ⟨5, 0, 0⟩] [⟨0, 0, 0⟩, ⟨5, 0, 0⟩] (by decide +kernel) (by decide +kernel) (by decide)

/-- Subsampling the two points returns both. -/
example : let sh : Subsampling.Shuffle := fun _ x => x
    sh.Lawful ∧ Subsampling.subsamplePoints .release sh apart.prs F64.one 0 = .ok apart.prs
      ∧ List.Forall₂ (SameExcept [.c]) apart.prs [{ x := num 0, c := 2 }, { x := num 5, c := 3 }] := by
  refine ⟨fun _ _ => List.Perm.refl _, by decide +kernel, .cons ⟨rfl, ?_⟩ (.cons ⟨rfl, ?_⟩ .nil)⟩ <;>
  · intro fld hfld
    cases fld <;> first | rfl | simp at hfld

end Spoc.Props
