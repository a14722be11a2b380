import Verif.Proofs.Twice
import Verif.Props.TransformMerge

/-!
# C106: running an application on its own output
-/

namespace Spoc.Props

open Getopt Cmd Main Spec Spec.Cmd Text Twice
open Transform (applyOps parseCommand Op)
open Io (hdr hdr_write writeFile_uncompressed_eq)

/-- The run succeeds, and the same run on what it has written succeeds and writes the very same bytes. -/
def Settled (n : Name) (p : Params) (argv : List Str) (w : World) : Prop :=
  (n.run p argv w).res = .ok 0
    ∧ ∀ w' : World, w'.fs = w.fs → w'.stdin = { rest := (n.run p argv w).out } →
        (n.run p argv w').res = .ok 0 ∧ (n.run p argv w').out = (n.run p argv w).out

/-- Applications that change a cloud which they read from the standard input. -/
theorem settled_of {n : Name} {p : Params} (hz : p.zlib.Correct) {argv : List Str} {w : World} {f g : SpocFile} {s' : IStream}
    (T : SpocFile → Res SpocFile)
    (hrun : ∀ (w' : World) (f g : SpocFile) (s' : IStream), w'.fs = w.fs → Io.readFile p.build p.zlib w'.stdin = .ok (f, s') →
      T f = .ok g → n.run p argv w' = outputStream w' [] (Io.writeFile p.build p.zlib g))
    (hf : Io.readFile p.build p.zlib w.stdin = .ok (f, s')) (h1 : T f = .ok g) (h2 : T g = .ok g) (hs : Survives p.zlib g) :
    Settled n p argv w := by
  obtain ⟨a1, a2⟩ := survives_roundtrip p.build p.zlib hz g hs
  have key : ∀ w' : World, (outputStream w' [] (Io.writeFile p.build p.zlib g)).res = .ok 0
      ∧ (outputStream w' [] (Io.writeFile p.build p.zlib g)).out = (Io.writeFile p.build p.zlib g).bytes := by
    intro w'
    simp only [outputStream, List.isEmpty_nil, if_true, a1]
    exact ⟨rfl, trivial⟩
  have e := hrun w f g s' rfl hf h1
  refine ⟨by rw [e]; exact (key w).1, fun w' hfs hw => ?_⟩
  rw [e, (key w).2] at hw
  have e' := hrun w' g g { rest := [] } hfs (by rw [hw]; simpa using a2 []) h2
  rw [e, e', (key w).2, (key w').2]
  exact ⟨(key w').1, rfl⟩

/-- **C106**, filter: filtering what has been filtered, with the same options, changes nothing.

Partial: without `--subsample`, and `--unique-xyz` only without a seed (`c106_subsample`, `c106_seed`); the result has to survive a round
trip (C01, C02). -/
theorem c106_filter_partial (p : Params) (hz : p.zlib.Correct) (hsh : p.shuffle.Lawful) (w : World) (argv : List Str) (r : FilterRequest)
    (hopt : Asks (Cmd.filter.options argv) r) (hops : Cmd.filter.operands argv = []) (hres : r.resolution = none)
    (hseed : r.unique = true → r.seed = 0) (f : SpocFile) (s' : IStream) (hf : Io.readFile p.build p.zlib w.stdin = .ok (f, s'))
    (qs : List PointRecord) (hq : FilterSteps p.build p.shuffle r f.prs qs) (hs : Survives p.zlib { f with prs := qs }) :
    Settled .filter p argv w := by
  obtain ⟨a, ha, av, ah, -⟩ := filter_process p.build p.shuffle hsh f (readable_writable hf).uniform _ r hopt
  have hproc : ∀ (f : SpocFile) (qs : List PointRecord), Uniform f.prs → FilterSteps p.build p.shuffle r f.prs qs →
      Filter.process p.build p.shuffle a f = .ok { f with prs := qs } := by
    intro f qs hu hq
    obtain ⟨a', ha', -, -, hp⟩ := filter_process p.build p.shuffle hsh f hu _ r hopt
    rw [ha] at ha'
    obtain rfl := Res.ok.inj ha'
    rcases hp with ⟨qs', h3, h4⟩ | ⟨h3, -⟩
    · obtain rfl := filterSteps_unique hq h3
      exact h4
    · exact absurd ⟨_, hq⟩ h3
  refine settled_of hz (T := Filter.process p.build p.shuffle a) ?_ hf (hproc f qs (readable_writable hf).uniform hq)
    (hproc _ qs hs.1.uniform (filterSteps_again p.build p.shuffle hsh r hres hseed f.prs qs hq)) hs
  intro w' f g s' _ hf hg
  simp only [Name.run, Main.filter, filterArgs, withOperands, ha, hops, inOut, Res.ok_bind, av, ah, Bool.false_eq_true, if_false,
    readThenWrite, inputStream, List.isEmpty_nil, if_true, Apps.fileOf, hf, hg]

/-- **C106**, srs: setting the same text again changes nothing.

Partial: the result has to survive a round trip (C01, C02). -/
theorem c106_srs_partial (p : Params) (hz : p.zlib.Correct) (w : World) (argv : List Str) (t : Str)
    (hopt : Cmd.srs.options argv = [("srs", t)]) (hops : Cmd.srs.operands argv = []) (f : SpocFile) (s' : IStream)
    (hf : Io.readFile p.build p.zlib w.stdin = .ok (f, s')) (hs : Survives p.zlib { f with wkt := Main.bytes t }) :
    Settled .srs p argv w := by
  refine settled_of hz (T := fun f => .ok { f with wkt := Main.bytes t }) ?_ hf rfl rfl hs
  intro w' f g s' _ hf hg
  obtain rfl := Res.ok.inj hg
  have ha : Cmd.srsArgs [("srs", t)] {} = .ok { srs := some t } := rfl
  simp only [Name.run, Main.srs, hopt, hops, ha, Bool.false_eq_true, if_false, Apps.setSrs, Apps.fileOf, hf]
  rfl

/-- The commands of tool that settle. -/
def settling : List String := ["resize-extra", "set-field", "subtract-min-xy", "subtract-min-xyz"]

theorem tool_again (b : Build) (z : Zlib) (files : Tool.Files) (a : Tool.Args) (f g : SpocFile) (hu : Uniform f.prs)
    (hn : a.command.name ∈ settling)
    (hfin : a.command.name ∈ ["subtract-min-xy", "subtract-min-xyz"] →
      ∀ q ∈ f.prs, q.x.isFinite = true ∧ q.y.isFinite = true ∧ (a.command.name = "subtract-min-xyz" → q.z.isFinite = true))
    (h : Tool.run b z files a f = .ok g) : Tool.run b z files a g = .ok g := by
  simp only [settling, List.mem_cons, List.not_mem_nil, or_false] at hn
  unfold Tool.run at h ⊢
  rcases hn with e | e | e | e
  · simp (decide := true) only [e, if_true, if_false] at h ⊢
    split at h
    · simp at h
    · rename_i n k he
      split at h
      · simp at h
      · rename_i h0
        split at h
        · simp at h
        · rename_i h1
          simp only [h0, h1, if_false]
          exact resizeExtra_twice b f g n hu h
  · simp (decide := true) only [e, if_true, if_false] at h ⊢
    split at h
    · simp at h
    · rename_i h0
      simp only [h0]
      split at h
      · simp at h
      · rename_i t ht
        obtain ⟨⟨name, rest⟩, h1, h2⟩ := Res.bind_eq_ok.mp h
        rw [h1, Res.ok_bind]
        exact setField_twice b f g _ name h2
  · simp (decide := true) only [e, if_true, if_false] at h ⊢
    refine subtractMin_twice b f g hu false (fun q hq => ?_) h
    have := hfin (by simp [e]) q hq
    exact ⟨this.1, this.2.1, fun h => by simp at h⟩
  · simp (decide := true) only [e, if_true, if_false] at h ⊢
    refine subtractMin_twice b f g hu true (fun q hq => ?_) h
    have := hfin (by simp [e]) q hq
    exact ⟨this.1, this.2.1, fun _ => this.2.2 e⟩

/-- **C106**, tool: resizing the extra fields, setting a field from a file and subtracting the least coordinates a second time change nothing.

Partial: subtracting for finite coordinates (`c106_infinite`); the result has to survive a round trip (C01, C02). -/
theorem c106_tool_partial (p : Params) (hz : p.zlib.Correct) (w : World) (argv : List Str) (a : Tool.Args)
    (ha : Tool.getArgs (Cmd.tool.options argv) {} = .ok a) (hv : a.version = false) (hh : a.help = false)
    (hops : Cmd.tool.operands argv = []) (hn : a.command.name ∈ settling) (f : SpocFile) (s' : IStream)
    (hf : Io.readFile p.build p.zlib w.stdin = .ok (f, s'))
    (hfin : a.command.name ∈ ["subtract-min-xy", "subtract-min-xyz"] →
      ∀ q ∈ f.prs, q.x.isFinite = true ∧ q.y.isFinite = true ∧ (a.command.name = "subtract-min-xyz" → q.z.isFinite = true))
    (hs : ∀ g, Tool.run p.build p.zlib (toolFiles w.fs) a f = .ok g → Survives p.zlib g)
    (hok : (Name.tool.run p argv w).res = .ok 0) : Settled .tool p argv w := by
  have hn1 : a.command.name ≠ "" := by
    intro e
    rw [e] at hn
    exact absurd hn (by decide)
  have hn2 : a.command.name ≠ "get-field" := by
    intro e
    rw [e] at hn
    exact absurd hn (by decide)
  have hrun : ∀ (w' : World) (f : SpocFile) (s' : IStream), w'.fs = w.fs → Io.readFile p.build p.zlib w'.stdin = .ok (f, s') →
      Name.tool.run p argv w' = match Tool.run p.build p.zlib (toolFiles w.fs) a f with
        | .ok g => outputStream w' [] (Io.writeFile p.build p.zlib g)
        | r => ⟨w'.fs, [], failWith r⟩ := by
    intro w' f s' hfs hf
    simp only [Name.run, Main.tool, toolArgs, withOperands, ha, hops, inOut, Res.ok_bind, hv, hh, hn1, hn2, Bool.false_eq_true, if_false,
      readThenWrite, inputStream, List.isEmpty_nil, if_true, Apps.fileOf, hf, hfs]
    cases Tool.run p.build p.zlib (toolFiles w.fs) a f <;> rfl
  rw [hrun w f s' rfl hf] at hok
  cases hg : Tool.run p.build p.zlib (toolFiles w.fs) a f with
  | ok g =>
    refine settled_of hz (T := Tool.run p.build p.zlib (toolFiles w.fs) a) ?_ hf hg
      (tool_again _ _ _ a f g (readable_writable hf).uniform hn hfin hg) (hs g hg)
    intro w' f g s' hfs hf hg
    rw [hrun w' f s' hfs hf, hg]
  | _ =>
    rw [hg] at hok
    simp [failWith] at hok

/-- **C106**, transform: giving fields values a second time changes nothing.

Partial: no command may write what a command before it reads (`c106_replace_order`), a copied field is not its own copy; not for
`replace-not` of a field that it does not change (`wrongFields`); the input has to survive a round trip (C01). -/
theorem c106_transform_partial (p : Params) (w : World) (argv : List Str) (os : List (String × Str))
    (hopt : Cmd.transform.options argv = os) (hne : os ≠ []) (hos : ∀ o ∈ os, o.1 ∈ assigning) (hops : Cmd.transform.operands argv = [])
    (hwrong : ∀ o ∈ os, o.1 = "replace-not" → ∀ f ∈ wrongFields, ¬ Named o.1 o.2 [f])
    (hcopy : ∀ o ∈ os, o.1 = "copy-field" → ∀ R W, Uses o.1 o.2 R → Named o.1 o.2 W → ∀ f ∈ R, f ∉ W)
    (hord : os.Pairwise (fun c d => ∀ R W, Uses c.1 c.2 R → Named d.1 d.2 W → ∀ f ∈ W, f ∉ R))
    (f : SpocFile) (hc : f.compressed = false) (hf : Survives p.zlib f) (tl : Bytes)
    (hin : w.stdin = { rest := (Io.writeFile p.build p.zlib f).bytes ++ tl })
    (hok : (Name.transform.run p argv w).res = .ok 0) : Settled .transform p argv w := by
  have hos' : ∀ o ∈ os, o.1 ∈ commandOptions := by
    intro o ho
    have := hos o ho
    simp only [assigning, List.mem_cons, List.not_mem_nil, or_false] at this
    rcases this with e | e | e | e <;> rw [e] <;> decide
  have hrun := fun w' => transform_stdin p w' argv os hopt hne hos' hops
  have hres : ∃ bs, Transform.apply p.build p.env { rest := (Io.writeFile p.build p.zlib f).bytes ++ tl } (commandsOf os) 0 = ⟨bs, .ok ()⟩ := by
    rw [hrun w, hin] at hok
    generalize Transform.apply p.build p.env { rest := (Io.writeFile p.build p.zlib f).bytes ++ tl } (commandsOf os) 0 = r at hok
    obtain ⟨bs, r⟩ := r
    simp only [outputStream, List.isEmpty_nil, if_true] at hok
    cases r with
    | ok u => exact ⟨bs, rfl⟩
    | _ => simp [Main.zero] at hok
  obtain ⟨bs, hbs⟩ := hres
  obtain ⟨ops, qs, h1, h2, h3⟩ := (apply_written p.build p.zlib p.env f hf.1 hc tl _ _ _).mp hbs
  obtain ⟨hs', hw'⟩ := changed (b := p.build) (z := p.zlib) hf hc h1 h2
  obtain ⟨l, hl, hord', hst⟩ := plan_of p.build p.env 0 f.extraFields _ ops h1
    (List.forall_mem_map.mpr hos)
    (List.forall_mem_map.mpr hwrong)
    (List.forall_mem_map.mpr hcopy)
    (by rw [commandsOf, List.pairwise_map]; exact hord)
  have hagain : applyAll ops 0 qs = .ok qs := by
    rw [applyAll_ok]
    refine ⟨rfl, fun i q hi => ⟨q, hi, ?_⟩⟩
    obtain ⟨hlen, hq⟩ := (applyAll_ok ops 0 f.prs qs).mp h2
    have hlt : i < f.prs.length := by
      rw [← hlen]
      exact (List.getElem?_eq_some_iff.mp hi).1
    obtain ⟨q', h5, h6⟩ := hq i f.prs[i] (List.getElem?_eq_getElem hlt)
    rw [hi] at h5
    obtain rfl := Option.some.inj h5
    rw [← hl] at h6 ⊢
    exact plan_again l hst hord' _ _ _ h6
  have hout : ∀ w' : World, w'.stdin = { rest := bs } → Name.transform.run p argv w' = outputStream w' [] ⟨bs, .ok ()⟩ := by
    intro w' hw
    rw [hrun w', hw]
    congr 1
    have hb : bs = (Io.writeFile p.build p.zlib { f with prs := qs }).bytes := by rw [h3, hw']
    have h6 := (apply_written p.build p.zlib p.env { f with prs := qs } hs'.1 hc [] (commandsOf os) 0 bs).mpr
      ⟨ops, qs, by rw [← h1]; exact parse_extra p _ _ os, hagain, by
        rw [hb, writeFile_uncompressed_eq p.build p.zlib (by exact hc) ((uniform_iff _).mp hs'.1.uniform) hs'.1.wkt]⟩
    rw [List.append_nil, ← hb] at h6
    exact h6
  have hrun' : Name.transform.run p argv w = outputStream w [] ⟨bs, .ok ()⟩ := by rw [hrun w, hin, hbs]
  refine ⟨hok, fun w' _ hw => ?_⟩
  rw [hrun'] at hw ⊢
  rw [hout w' hw]
  exact ⟨rfl, rfl⟩

/-! ## What does not settle -/

/-- The same run on what it has written. -/
def again (n : Name) (p : Params) (argv : List Str) (w : World) : World := { w with stdin := { rest := (n.run p argv w).out } }

theorem not_settled {n : Name} {p : Params} {argv : List Str} {w : World}
    (h : (n.run p argv (again n p argv w)).out ≠ (n.run p argv w).out) : ¬ Settled n p argv w :=
  fun hs => h (hs.2 (again n p argv w) rfl rfl).2

/-- A cloud on the standard input. -/
def onInput (f : SpocFile) : World := { exampleDisk with stdin := { rest := (Io.writeFile .release toyZlib f).bytes } }

/-- **C106, negation**: subsampling again can remove more points. -/
theorem c106_subsample : ∃ (p : Params) (w : World), (Name.filter.run p ["--subsample=1".toList] w).res = .ok 0
    ∧ ¬ Settled .filter p ["--subsample=1".toList] w := by
  refine ⟨exampleParams, onInput { SpocFile.empty with prs := [pointX ⟨0x3FE0000000000000⟩, pointX (num 0), pointX ⟨0x3FF3333333333333⟩] },
    ?_, not_settled ?_⟩ <;> decide +kernel

/-- **C106, negation**: with a seed the points that are unique can come in another order. -/
theorem c106_seed : ∃ (p : Params) (w : World), p.shuffle.Lawful
    ∧ (Name.filter.run p ["--unique-xyz".toList, "--random-seed=1".toList] w).res = .ok 0
    ∧ ¬ Settled .filter p ["--unique-xyz".toList, "--random-seed=1".toList] w := by
  refine ⟨{ exampleParams with shuffle := fun _ l => l.reverse }, onInput { SpocFile.empty with prs := [pointX (num 0), pointX (num 1)] },
    fun _ l => List.reverse_perm l, ?_, not_settled ?_⟩ <;> decide +kernel

/-- **C106, negation**: a cloud that has been recentred is moved again. -/
theorem c106_recenter : ∃ (p : Params) (w : World), (Name.tool.run p ["--recenter-xy".toList] w).res = .ok 0
    ∧ ¬ Settled .tool p ["--recenter-xy".toList] w := by
  refine ⟨exampleParams, onInput { SpocFile.empty with prs := [num 0, num 0, num 1].map pointX }, ?_, not_settled ?_⟩ <;> decide +kernel

/-- **C106, negation**: if a coordinate is infinite, subtracting the least coordinates again changes the cloud. -/
theorem c106_infinite : ∃ (p : Params) (w : World), (Name.tool.run p ["--subtract-min-xy".toList] w).res = .ok 0
    ∧ ¬ Settled .tool p ["--subtract-min-xy".toList] w := by
  refine ⟨exampleParams, onInput { SpocFile.empty with prs := [⟨0xFFF0000000000000⟩, num 1].map pointX }, ?_, not_settled ?_⟩ <;> decide +kernel

/-- **C106, negation**: coordinates that have been quantized move when they are quantized again. -/
theorem c106_quantize : ∃ (p : Params) (w : World), p.env.stod = Text.stod
    ∧ (Name.transform.run p ["--quantize-xyz=0.01".toList] w).res = .ok 0
    ∧ ¬ Settled .transform p ["--quantize-xyz=0.01".toList] w := by
  refine ⟨{ exampleParams with env := { exampleEnv with stod := Text.stod } },
    onInput { SpocFile.empty with prs := [⟨0x3fd2e147ae147ae1⟩].map pointX }, rfl, ?_, not_settled ?_⟩ <;> decide +kernel

/-- **C106, negation**: a command may meet what a later command has written. -/
theorem c106_replace_order : ∃ (p : Params) (w : World), (Name.transform.run p ["--replace=c,1,2".toList, "--replace=c,0,1".toList] w).res = .ok 0
    ∧ ¬ Settled .transform p ["--replace=c,1,2".toList, "--replace=c,0,1".toList] w := by
  refine ⟨exampleParams, onInput { SpocFile.empty with prs := [pointX (num 0)] }, ?_, not_settled ?_⟩ <;> decide +kernel

/-! ## Examples -/

theorem cloudA_input (w : World) (hw : w.stdin = { rest := (Io.writeFile .release toyZlib cloudA).bytes }) :
    Io.readFile exampleParams.build exampleParams.zlib w.stdin = .ok (cloudA, { rest := [] }) := by
  have h := (survives_roundtrip .release toyZlib toyZlib_correct cloudA cloudA_survives).2 []
  rw [List.append_nil] at h
  rw [hw]
  exact h

example : Settled .filter exampleParams ["-cx > 13".toList] (onInput cloudA) :=
  c106_filter_partial exampleParams toyZlib_correct (fun _ l => List.Perm.refl l) _ _ { coords := some (⟨0, false⟩, num 13) }
    (example_asks (by decide +kernel)) (by decide +kernel) rfl (by simp) cloudA _ (cloudA_input _ rfl) _ (filterSteps_keeps ⟨rfl, rfl⟩ _)
    (survives_sublist cloudA_survives rfl List.filter_sublist)

example : FilterSteps .release noShuffle { unique := true } (tilePoints ++ tilePoints) tilePoints
    ∧ FilterSteps .release noShuffle { unique := true } tilePoints tilePoints := by
  have h : FilterSteps .release noShuffle { unique := true } (tilePoints ++ tilePoints) tilePoints :=
    ⟨_, _, _, _, rfl, rfl, (by decide +kernel : uniqueXyzPoints .release noShuffle _ _ = .ok tilePoints), rfl, rfl⟩
  exact ⟨h, filterSteps_again _ _ (fun _ l => List.Perm.refl l) _ rfl (fun _ => rfl) _ _ h⟩

example : Settled .srs exampleParams ["--srs=W".toList] (onInput cloudA) :=
  c106_srs_partial exampleParams toyZlib_correct _ _ ['W'] (by decide +kernel) (by decide +kernel) cloudA _ (cloudA_input _ rfl)
    ⟨⟨rfl, rfl, by decide, cloudA_survives.1.uniform, by decide, by decide⟩, fun _ => by decide, fun h => by simp [cloudA, SpocFile.empty] at h⟩

/-- Subtracting changes the cloud the first time. -/
example : Settled .tool exampleParams ["--subtract-min-xy".toList] (onInput { cloudA with prs := [pointX (num 3), pointX (num 5)] })
    ∧ (Name.tool.run exampleParams ["--subtract-min-xy".toList] (onInput { cloudA with prs := [pointX (num 3), pointX (num 5)] })).out
      = (Io.writeFile .release toyZlib { cloudA with prs := [pointX (num 0), pointX (num 2)] }).bytes := by
  have hsv : ∀ g : SpocFile, g = { cloudA with prs := [pointX (num 0), pointX (num 2)] } ∨ g = { cloudA with prs := [pointX (num 3), pointX (num 5)] } →
      Survives toyZlib g := by
    rintro g (rfl | rfl) <;>
    exact ⟨⟨rfl, rfl, by decide, by unfold Uniform; decide, by decide, by decide⟩, fun _ => by decide, fun h => by simp [cloudA, SpocFile.empty] at h⟩
  have hin := (survives_roundtrip .release toyZlib toyZlib_correct _ (hsv _ (.inr rfl))).2 []
  rw [List.append_nil] at hin
  refine ⟨c106_tool_partial exampleParams toyZlib_correct _ _ { command := ⟨"subtract-min-xy", []⟩ } (by decide +kernel) rfl rfl (by decide +kernel)
    (by decide) _ _ hin (fun _ => by decide +kernel) (fun g hg => hsv g (.inl ?_)) (by decide +kernel), by decide +kernel⟩
  have e : Tool.run .release toyZlib (toolFiles (onInput { cloudA with prs := [pointX (num 3), pointX (num 5)] }).fs) { command := ⟨"subtract-min-xy", []⟩ }
      { cloudA with prs := [pointX (num 3), pointX (num 5)] } = .ok { cloudA with prs := [pointX (num 0), pointX (num 2)] } := by
    decide +kernel
  exact (Res.ok.inj (e.symm.trans hg)).symm

example : Settled .transform exampleParams ["--replace=c,0,1".toList, "--set=p,7".toList] (onInput cloudA) := by
  refine c106_transform_partial exampleParams _ _ [("replace", "c,0,1".toList), ("set", "p,7".toList)] (by decide +kernel) (by simp) (by decide)
    (by decide +kernel) ?_ ?_ ?_ cloudA rfl cloudA_survives [] (by rw [List.append_nil]; rfl) (by decide +kernel)
  · simp
  · simp
  · refine List.pairwise_cons.mpr ⟨?_, by simp⟩
    intro d hd
    rw [List.mem_singleton] at hd
    subst hd
    intro R W hR hW
    rw [Transform.uses_first (by decide) hR, Transform.named_first (by decide) hW]
    decide

end Spoc.Props
