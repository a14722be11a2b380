import Verif.Props.Main
import Verif.Props.Merge

/-!
# C79: files that cannot be opened, and wrong numbers of file names
-/

namespace Spoc.Props

open Cmd Main Text

/-- Neither `--help` nor `--version` is given. -/
def Plain (os : List (String × Str)) : Prop := ∀ o ∈ os, o.1 ≠ "help" ∧ o.1 ≠ "version"

theorem plain_of {A : Type} (g : List (String × Str) → A → Res A) (flags : A → Bool × Bool) (h0 : ∀ a, g [] a = .ok a)
    (hstep : ∀ x os a, x.1 ≠ "help" → x.1 ≠ "version" → (∃ a', g (x :: os) a = g os a' ∧ flags a' = flags a) ∨ ∃ e, g (x :: os) a = .throw e)
    {os : List (String × Str)} (h : Plain os) {a a' : A} (hg : g os a = .ok a') : flags a' = flags a := by
  induction os generalizing a with
  | nil =>
    rw [h0] at hg
    rw [Res.ok.inj hg]
  | cons x os ih =>
    rcases hstep x os a (h x List.mem_cons_self).1 (h x List.mem_cons_self).2 with ⟨a1, h1, h2⟩ | ⟨e, h1⟩
    · rw [h1] at hg
      exact (ih (fun y hy => h y (List.mem_cons_of_mem _ hy)) hg).trans h2
    · rw [h1] at hg
      simp at hg

theorem plain_basic {os : List (String × Str)} (h : Plain os) {a a' : Basic} (hg : Cmd.basicArgs os a = .ok a') :
    (a'.help, a'.version) = (a.help, a.version) := by
  refine plain_of Cmd.basicArgs (fun a => (a.help, a.version)) (fun _ => rfl) ?_ h hg
  rintro ⟨name, arg⟩ os a h1 h2
  rw [Cmd.basicArgs, if_neg h1]
  repeat' split
  all_goals first | exact absurd ‹_› h2 | exact Or.inl ⟨_, rfl, rfl⟩ | exact Or.inr ⟨_, rfl⟩

theorem plain_srs {os : List (String × Str)} (h : Plain os) {a a' : SrsArgs} (hg : Cmd.srsArgs os a = .ok a') :
    (a'.help, a'.version) = (a.help, a.version) := by
  refine plain_of Cmd.srsArgs (fun a => (a.help, a.version)) (fun _ => rfl) ?_ h hg
  rintro ⟨name, arg⟩ os a h1 h2
  rw [Cmd.srsArgs, if_neg h1]
  repeat' split
  all_goals first | exact absurd ‹_› h2 | exact Or.inl ⟨_, rfl, rfl⟩ | exact Or.inr ⟨_, rfl⟩

theorem plain_merge {os : List (String × Str)} (h : Plain os) {a a' : Merge.Args} (hg : Merge.getArgs os a = .ok a') :
    (a'.help, a'.version) = (a.help, a.version) := by
  refine plain_of Merge.getArgs (fun a => (a.help, a.version)) (fun _ => rfl) ?_ h hg
  rintro ⟨name, arg⟩ os a h1 h2
  rw [Merge.getArgs, if_neg h1]
  repeat' split
  all_goals first | exact absurd ‹_› h2 | exact Or.inl ⟨_, rfl, rfl⟩ | exact Or.inr ⟨_, rfl⟩

theorem plain_diff {os : List (String × Str)} (h : Plain os) {a a' : Diff.Args} (hg : Diff.getArgs os a = .ok a') :
    (a'.help, a'.version) = (a.help, a.version) := by
  refine plain_of Diff.getArgs (fun a => (a.help, a.version)) (fun _ => rfl) ?_ h hg
  rintro ⟨name, arg⟩ os a h1 h2
  rw [Diff.getArgs, if_neg h1]
  repeat' split
  all_goals first | exact absurd ‹_› h2 | exact Or.inl ⟨_, rfl, rfl⟩ | exact Or.inr ⟨_, rfl⟩

theorem plain_tile {os : List (String × Str)} (h : Plain os) {a a' : Tile.Args} (hg : Tile.getArgs os a = .ok a') :
    (a'.help, a'.version) = (a.help, a.version) := by
  refine plain_of Tile.getArgs (fun a => (a.help, a.version)) (fun _ => rfl) ?_ h hg
  rintro ⟨name, arg⟩ os a h1 h2
  rw [Tile.getArgs, if_neg h1]
  repeat' split
  all_goals first | exact absurd ‹_› h2 | exact Or.inl ⟨_, rfl, rfl⟩ | exact Or.inr ⟨_, rfl⟩

theorem plain_info {os : List (String × Str)} (h : Plain os) {a a' : Info.Args} (hg : Info.getArgs (os.map (·.1)) a = .ok a') :
    (a'.help, a'.version) = (a.help, a.version) := by
  refine plain_of (fun os a => Info.getArgs (os.map (·.1)) a) (fun a => (a.help, a.version)) (fun _ => rfl) ?_ h hg
  rintro ⟨name, arg⟩ os a h1 h2
  simp only [List.map_cons]
  rw [Info.getArgs, if_neg h1]
  repeat' split
  all_goals first | exact absurd ‹_› h2 | exact Or.inl ⟨_, rfl, rfl⟩ | exact Or.inr ⟨_, rfl⟩

theorem plain_filter {os : List (String × Str)} (h : Plain os) {a a' : Filter.Args} (hg : Filter.getArgs os a = .ok a') :
    (a'.help, a'.version) = (a.help, a.version) := by
  refine plain_of Filter.getArgs (fun a => (a.help, a.version)) (fun _ => rfl) ?_ h hg
  rintro ⟨name, arg⟩ os a h1 h2
  have hd : (∃ a', Filter.dispatch a name arg = .ok a' ∧ (a'.help, a'.version) = (a.help, a.version))
      ∨ ∃ e, Filter.dispatch a name arg = .throw e := by
    unfold Filter.dispatch
    repeat' split
    all_goals first | exact absurd ‹_› h1 | exact absurd ‹_› h2 | exact Or.inl ⟨_, rfl, rfl⟩ | exact Or.inr ⟨_, rfl⟩
  rw [Filter.getArgs]
  rcases hd with ⟨a', hd, hf⟩ | ⟨e, hd⟩
  · rw [hd]
    exact Or.inl ⟨a', if_neg h1, hf⟩
  · rw [hd]
    exact Or.inr ⟨e, rfl⟩

theorem plain_tool {os : List (String × Str)} (h : Plain os) {a a' : Tool.Args} (hg : Tool.getArgs os a = .ok a') :
    (a'.help, a'.version) = (a.help, a.version) := by
  refine plain_of Tool.getArgs (fun a => (a.help, a.version)) (fun _ => rfl) ?_ h hg
  rintro ⟨name, arg⟩ os a h1 h2
  rw [Tool.getArgs, if_neg h1]
  unfold Tool.setCommand
  repeat' split
  all_goals first | exact absurd ‹_› h2 | exact Or.inl ⟨_, rfl, rfl⟩ | exact Or.inr ⟨_, rfl⟩

theorem plain_transform {os : List (String × Str)} (h : Plain os) {a a' : Transform.Args} (hg : Transform.getArgs os a = .ok a') :
    (a'.help, a'.version) = (a.help, a.version) := by
  refine plain_of Transform.getArgs (fun a => (a.help, a.version)) (fun _ => rfl) ?_ h hg
  rintro ⟨name, arg⟩ os a h1 h2
  have hl : ∀ v, Transform.lookup name = some v → v ≠ .help ∧ v ≠ .version := by
    intro v hl
    unfold Transform.lookup at hl
    cases hf : Transform.longOptions.find? (fun o => o.1 == name) with
    | none => rw [hf] at hl; simp at hl
    | some o =>
      rw [hf] at hl
      have h3 := List.find?_some hf
      have h4 := List.mem_of_find?_eq_some hf
      simp only [Option.map_some, Option.some.injEq, beq_iff_eq] at hl h3
      have h5 : ∀ o ∈ Transform.longOptions, (o.2.2 = .help → o.1 = "help") ∧ (o.2.2 = .version → o.1 = "version") := by decide
      exact ⟨fun e => h1 (h3 ▸ (h5 o h4).1 (hl.trans e)), fun e => h2 (h3 ▸ (h5 o h4).2 (hl.trans e))⟩
  rw [Transform.getArgs]
  cases hd : Transform.lookup name with
  | none => exact Or.inr ⟨_, rfl⟩
  | some d =>
    obtain ⟨h3, h4⟩ := hl d hd
    cases d <;> first | exact absurd rfl h3 | exact absurd rfl h4 | exact Or.inl ⟨_, rfl, rfl⟩ | exact Or.inr ⟨_, rfl⟩

/-- The application fails, and no file is changed. -/
def Fails (w : World) (r : Result) : Prop := (∀ c, r.res ≠ .ok c) ∧ r.fs = w.fs

theorem failWith_ne {α β : Type} (r : Res α) (c : β) : failWith r ≠ .ok c := by
  cases r <;> simp [failWith]

theorem fails_with {α : Type} (w : World) (out : Bytes) (r : Res α) : Fails w ⟨w.fs, out, failWith r⟩ := ⟨failWith_ne r, rfl⟩

theorem fails_throw (w : World) (out : Bytes) (e : String) : Fails w ⟨w.fs, out, .throw e⟩ := ⟨fun c h => by simp at h, rfl⟩

/-- There is no such file, or it must not be read. -/
def Unreadable (w : World) (i : Str) : Prop := ∀ f, w.fs i = some f → f.readable = false

theorem openRead_none {w : World} {i : Str} (h : Unreadable w i) : openRead w.fs i = none := by
  unfold openRead
  cases hf : w.fs i with
  | none => rfl
  | some f => simp [h f hf]

/-- The words on the command line that name input files. -/
def inputNames (n : Name) (os : List (String × Str)) (ops : List Str) : List Str :=
  match n with
  | .compress | .decompress | .filter | .tool | .transform | .tile => ops.take 1
  | .srs => if "srs" ∈ os.map (·.1) then ops.take 1 else ops
  | .diff | .info | .merge => ops

theorem inputStream_missing {w : World} {i : Str} (hi : i ≠ []) (h : Unreadable w i) :
    inputStream w i = .throw "Could not open file for reading" := by
  simp [inputStream, hi, openRead_none h]

theorem readThenWrite_missing {w : World} {i o : Str} (hi : i ≠ []) (h : Unreadable w i) (read : IStream → Res SpocFile)
    (write : SpocFile → Out Unit) : Fails w (readThenWrite w i o read write) := by
  unfold readThenWrite
  rw [inputStream_missing hi h]
  exact fails_with w _ _

theorem inOut_first {ops : List Str} {i : Str} (h : i ∈ ops.take 1) {x y : Str} (he : inOut ops = .ok (x, y)) : x = i := by
  match ops, h, he with
  | [a], h, he => simp_all [inOut]
  | [a, b], h, he => simp_all [inOut]
  | _ :: _ :: _ :: _, _, he => simp [inOut] at he

theorem withOperands_ok {α β : Type} {r : Res α} {help : α → Bool} {d : β} {ops : Res β} {a : α} {o : β}
    (h : withOperands r help d ops = .ok (a, o)) : r = .ok a ∧ (help a = false → ops = .ok o) := by
  unfold withOperands at h
  obtain ⟨a', h1, h2⟩ := Res.bind_eq_ok.mp h
  split at h2
  · next hh =>
    simp only [Res.ok.injEq, Prod.mk.injEq] at h2
    obtain ⟨rfl, rfl⟩ := h2
    exact ⟨h1, fun e => by rw [hh] at e; simp at e⟩
  · obtain ⟨o', h3, h4⟩ := Res.bind_eq_ok.mp h2
    simp only [Res.ok.injEq, Prod.mk.injEq] at h4
    obtain ⟨rfl, rfl⟩ := h4
    exact ⟨h1, fun _ => h3⟩

theorem out_bind_ok {α β : Type} {x : Out α} {f : α → Out β} {b : β} (h : (x >>= f).res = .ok b) : ∃ a, x.res = .ok a ∧ (f a).res = .ok b := by
  obtain ⟨bs, r⟩ := x
  cases r with
  | ok a => exact ⟨a, rfl, by simpa using h⟩
  | _ => exact absurd h (fun h => by cases h)

theorem showSrsLoop_missing {fs : Tile.FS} {ns : List Str} {i : Str} (hi : i ∈ ns) (h : openRead fs i = none) :
    (showSrsLoop fs ns).res ≠ .ok () := by
  induction ns with
  | nil => simp at hi
  | cons n ns ih =>
    unfold showSrsLoop
    by_cases hn : n = i
    · rw [hn, h]
      intro hc
      obtain ⟨_, h1, -⟩ := out_bind_ok hc
      cases h1
    · have hi' : i ∈ ns := by
        rcases List.mem_cons.mp hi with e | e
        · exact absurd e.symm hn
        · exact e
      cases hs : openRead fs n with
      | none =>
        intro hc
        obtain ⟨_, h1, -⟩ := out_bind_ok hc
        cases h1
      | some s =>
        simp only [Out.lift_ok_bind]
        intro hc
        obtain ⟨_, -, h2⟩ := out_bind_ok hc
        exact ih hi' h2

theorem processAll_missing {b : Build} {zl : Zlib} {sort : List F64 → List F64} {a : Info.Args} {files : List (Option IStream)}
    (h : none ∈ files) : (Info.processAll b zl sort a files).2 ≠ .ok () := by
  induction files with
  | nil => simp at h
  | cons f fs ih =>
    cases f with
    | none => simp [Info.processAll]
    | some s =>
      have h' : none ∈ fs := by simpa using h
      unfold Info.processAll
      split
      · exact ih h'
      all_goals simp

theorem zero_ne {r : Res Unit} (h : r ≠ .ok ()) (c : Int) : zero r ≠ .ok c := by
  intro hc
  obtain ⟨u, h1, -⟩ := Res.bind_eq_ok.mp hc
  exact h h1

/-- **C79**: a file to be read that does not exist or must not be read makes every application fail, wherever it stands among the inputs;
no file is changed. -/
theorem c79_missing_input (n : Name) (p : Params) (argv : List Str) (w : World) (hp : Plain (n.table.options argv)) (i : Str)
    (hi : i ∈ inputNames n (n.table.options argv) (n.table.operands argv)) (hne : i ≠ []) (hm : Unreadable w i) :
    Fails w (n.run p argv w) := by
  have ho := openRead_none hm
  cases n <;> simp only [Name.table, inputNames] at hp hi <;> simp only [Name.run]
  case compress =>
    unfold Main.compress
    cases e : Main.basicArgs Cmd.compress argv with
    | ok x =>
      obtain ⟨a, x, y⟩ := x
      obtain ⟨h1, h2⟩ := withOperands_ok e
      have h3 := plain_basic hp h1
      simp only [Prod.mk.injEq] at h3
      obtain rfl := inOut_first hi (h2 h3.1)
      simp only [h3.1, h3.2, Bool.false_eq_true, if_false]
      exact readThenWrite_missing hne hm _ _
    | _ => exact fails_with w _ _
  case decompress =>
    unfold Main.decompress
    cases e : Main.basicArgs Cmd.decompress argv with
    | ok x =>
      obtain ⟨a, x, y⟩ := x
      obtain ⟨h1, h2⟩ := withOperands_ok e
      have h3 := plain_basic hp h1
      simp only [Prod.mk.injEq] at h3
      obtain rfl := inOut_first hi (h2 h3.1)
      simp only [h3.1, h3.2, Bool.false_eq_true, if_false]
      exact readThenWrite_missing hne hm _ _
    | _ => exact fails_with w _ _
  case filter =>
    unfold Main.filter
    cases e : filterArgs argv with
    | ok x =>
      obtain ⟨a, x, y⟩ := x
      obtain ⟨h1, h2⟩ := withOperands_ok e
      have h3 := plain_filter hp h1
      simp only [Prod.mk.injEq] at h3
      obtain rfl := inOut_first hi (h2 h3.1)
      simp only [h3.1, h3.2, Bool.false_eq_true, if_false]
      exact readThenWrite_missing hne hm _ _
    | _ => exact fails_with w _ _
  case tool =>
    unfold Main.tool
    cases e : toolArgs argv with
    | ok x =>
      obtain ⟨a, x, y⟩ := x
      obtain ⟨h1, h2⟩ := withOperands_ok e
      have h3 := plain_tool hp h1
      simp only [Prod.mk.injEq] at h3
      obtain rfl := inOut_first hi (h2 h3.1)
      simp only [h3.1, h3.2, Bool.false_eq_true, if_false]
      split
      · exact fails_throw w _ _
      split
      · rw [inputStream_missing hne hm]
        exact fails_with w _ _
      · exact readThenWrite_missing hne hm _ _
    | _ => exact fails_with w _ _
  case transform =>
    unfold Main.transform
    cases e : transformArgs argv with
    | ok x =>
      obtain ⟨a, x, y⟩ := x
      obtain ⟨h1, h2⟩ := withOperands_ok e
      have h3 := plain_transform hp h1
      simp only [Prod.mk.injEq] at h3
      obtain rfl := inOut_first hi (h2 h3.1)
      simp only [h3.1, h3.2, Bool.false_eq_true, if_false]
      split
      · exact fails_throw w _ _
      · rw [inputStream_missing hne hm]
        exact fails_with w _ _
    | _ => exact fails_with w _ _
  case tile =>
    unfold Main.tile
    cases e : withOperands (Tile.getArgs (Cmd.tile.options argv) {}) (·.help) [] (one (Cmd.tile.operands argv)) with
    | ok x =>
      obtain ⟨a, x⟩ := x
      obtain ⟨h1, h2⟩ := withOperands_ok e
      have h3 := plain_tile hp h1
      simp only [Prod.mk.injEq] at h3
      have h4 := h2 h3.1
      obtain rfl : x = i := by
        match ho : Cmd.tile.operands argv with
        | [] => rw [ho] at hi; simp at hi
        | [a] => rw [ho] at hi h4; simp_all [one]
        | _ :: _ :: _ => rw [ho] at h4; simp [one] at h4
      have hx : x.isEmpty = false := by simpa using hne
      simp only [h3.2, Bool.false_eq_true, if_false, Tile.main, h1, h3.1, Bool.or_self, hx, Bool.false_and]
      unfold openRead at ho
      cases hf : w.fs x with
      | none => exact ⟨fun c h => by simp [zero, Tile.failWith] at h, rfl⟩
      | some f => simp [hm f hf, Tile.failWith, zero]; exact fails_throw w _ _
    | _ => exact fails_with w _ _
  case diff =>
    unfold Main.diff
    cases e : withOperands (Diff.getArgs (Cmd.diff.options argv) {}) (·.help) ([], []) (two (Cmd.diff.operands argv)) with
    | ok x =>
      obtain ⟨a, x, y⟩ := x
      obtain ⟨h1, h2⟩ := withOperands_ok e
      have h3 := plain_diff hp h1
      simp only [Prod.mk.injEq] at h3
      have h4 := h2 h3.1
      have h5 : x = i ∨ y = i := by
        match ho : Cmd.diff.operands argv with
        | [] => rw [ho] at hi; simp at hi
        | [_] => rw [ho] at h4; simp [two] at h4
        | [a, b] => rw [ho] at hi h4; simp only [two, Res.ok.injEq, Prod.mk.injEq] at h4; simp at hi; rcases hi with rfl | rfl <;> simp [h4]
        | _ :: _ :: _ :: _ => rw [ho] at h4; simp [two] at h4
      simp only [h3.1, h3.2, Bool.false_eq_true, if_false]
      refine ⟨fun c h => ?_, rfl⟩
      simp only [Diff.main, h1, Res.ok_bind, h3.1, h3.2, Bool.false_eq_true, if_false] at h
      split at h
      · simp at h
      · rcases h5 with rfl | rfl
        · rw [ho] at h
          simp at h
        · rw [ho] at h
          cases openRead w.fs x <;> simp at h
    | _ => exact fails_with w _ _
  case info =>
    have hn : none ∈ (Cmd.info.operands argv).map (openRead w.fs) := List.mem_map.mpr ⟨i, hi, ho⟩
    have key : (Info.main p.build p.zlib p.sort ((Cmd.info.options argv).map (fun x : String × Str => x.1))
        ((Cmd.info.operands argv).map (openRead w.fs)) w.stdin).2 ≠ .ok () := by
      unfold Info.main
      cases e : Info.getArgs ((Cmd.info.options argv).map (·.1)) {} with
      | ok a =>
        have h3 := plain_info hp e
        simp only [Prod.mk.injEq] at h3
        simp only [h3.1, h3.2, Bool.false_eq_true, if_false]
        split
        · next he =>
          rw [List.isEmpty_iff] at he
          rw [he] at hn
          simp at hn
        · exact processAll_missing hn
      | _ => simp
    refine ⟨fun c => zero_ne key c, rfl⟩
  case merge =>
    have hn : none ∈ (Cmd.merge.operands argv).map (openRead w.fs) := List.mem_map.mpr ⟨i, hi, ho⟩
    refine ⟨fun c => zero_ne ?_ c, rfl⟩
    unfold Merge.main
    cases e : Merge.getArgs (Cmd.merge.options argv) {} with
    | ok a =>
      have h3 := plain_merge hp e
      simp only [Prod.mk.injEq] at h3
      simp only [h3.1, h3.2, Bool.false_eq_true, if_false]
      split
      · simp [Out.lift]
      · cases e : Merge.mergeLoop p.build p.zlib a 0 ((Cmd.merge.operands argv).map (openRead w.fs))
            { g := SpocFile.empty.setCompressed true, areaSum := F64.zero, log := [] } with
        | mk st r =>
          cases r with
          | ok u =>
            obtain ⟨fs, hc⟩ := mergeLoop_inputs e
            exfalso
            generalize (Cmd.merge.operands argv).map (openRead w.fs) = files at hn hc
            clear e
            induction hc with
            | nil => simp at hn
            | cons hx _ ih =>
              obtain ⟨s, s', h1, h2⟩ := hx
              rcases List.mem_cons.mp hn with e | e
              · rw [h1] at e
                simp at e
              · exact ih e
          | _ => simp [Out.lift]
    | _ => simp [Out.lift, Merge.failWith]
  case srs =>
    replace hi : i ∈ if "srs" ∈ (Cmd.srs.options argv).map (·.1) then (Cmd.srs.operands argv).take 1 else Cmd.srs.operands argv := hi
    unfold Main.srs
    cases e : Cmd.srsArgs (Cmd.srs.options argv) {} with
    | ok a =>
      have h3 := plain_srs hp e
      simp only [Prod.mk.injEq] at h3
      simp only [h3.1, h3.2, Bool.false_eq_true, if_false]
      cases hs : a.srs with
      | some t =>
        have hm : "srs" ∈ (Cmd.srs.options argv).map (·.1) := by
          rcases srsArgs_srs e t hs with h | h
          · simp at h
          · exact List.mem_map.mpr ⟨_, h, rfl⟩
        rw [if_pos hm] at hi
        match hops : Cmd.srs.operands argv with
        | [] => rw [hops] at hi; simp at hi
        | [_] => exact fails_throw w _ _
        | [x, y] =>
          rw [hops] at hi
          obtain rfl : i = x := by simpa using hi
          simp only [ho]
          exact fails_throw w _ _
        | _ :: _ :: _ :: _ => exact fails_throw w _ _
      | none =>
        have hm : ¬ "srs" ∈ (Cmd.srs.options argv).map (·.1) := by
          intro hm
          obtain ⟨⟨x, t⟩, h1, h2⟩ := List.mem_map.mp hm
          obtain rfl : x = "srs" := h2
          rcases srs_given e (.inr ⟨t, h1⟩) with h | h
          · rw [h3.1] at h; simp at h
          · exact h hs
        rw [if_neg hm] at hi
        have hl := showSrsLoop_missing hi ho
        have hne : Cmd.srs.operands argv ≠ [] := List.ne_nil_of_mem hi
        have key : Fails w (outputStream w [] (showSrsLoop w.fs (Cmd.srs.operands argv))) := ⟨fun c => zero_ne hl c, rfl⟩
        match hops : Cmd.srs.operands argv with
        | [] => exact absurd hops hne
        | [x] => rw [hops] at key; exact key
        | [x, y] => rw [hops] at key; exact key
        | _ :: _ :: _ :: _ => rw [hops] at key; exact key
    | _ => exact fails_with w _ _

/-- The file exists but must not be written, or does not exist and cannot be created. -/
def Unwritable (w : World) (o : Str) : Prop :=
  match w.fs o with
  | some f => f.writable = false
  | none => w.canCreate o = false

theorem openWrite_none {w : World} {o : Str} (h : Unwritable w o) : Tile.openWrite w.canCreate w.fs o = none := by
  unfold Unwritable at h
  unfold Tile.openWrite
  cases hf : w.fs o with
  | some f => simp only [hf] at h; simp [h]
  | none => simp only [hf] at h; simp [h]

theorem outputStream_unwritable {w : World} {o : Str} (ho : o ≠ []) (h : Unwritable w o) (x : Out Unit) : Fails w (outputStream w o x) := by
  have he : o.isEmpty = false := by simpa using ho
  simp only [outputStream, he, Bool.false_eq_true, if_false, openWrite_none h]
  exact fails_throw w _ _

theorem readThenWrite_unwritable {w : World} {i o : Str} (ho : o ≠ []) (h : Unwritable w o) (read : IStream → Res SpocFile)
    (write : SpocFile → Out Unit) : Fails w (readThenWrite w i o read write) := by
  unfold readThenWrite
  split
  · exact outputStream_unwritable ho h _
  · exact fails_with w _ _

theorem tool_command {os : List (String × Str)} (h : ∀ o ∈ os, o.1 ≠ "get-field") {a a' : Tool.Args} (ha : a.command.name ≠ "get-field")
    (hg : Tool.getArgs os a = .ok a') : a'.command.name ≠ "get-field" := by
  induction os generalizing a with
  | nil =>
    rw [Tool.getArgs, Res.ok.injEq] at hg
    rw [← hg]
    exact ha
  | cons x os ih =>
    obtain ⟨name, arg⟩ := x
    have hx : name ≠ "get-field" := h _ List.mem_cons_self
    have ih := fun a ha hg => ih (a := a) (fun y hy => h y (List.mem_cons_of_mem _ hy)) ha hg
    rw [Tool.getArgs] at hg
    unfold Tool.setCommand at hg
    repeat' split at hg
    all_goals first
      | exact absurd ‹_› hx
      | (simp at hg; done)
      | (refine ih _ ?_ hg; exact ha)
      | (rw [Res.ok.injEq] at hg; rw [← hg]; exact ha)
      | (refine ih _ ?_ hg; exact hx)

/-- The applications that write one output file, and when they do. -/
def Writes (n : Name) (os : List (String × Str)) : Prop :=
  match n with
  | .compress | .decompress | .filter | .transform => True
  | .tool => ∀ o ∈ os, o.1 ≠ "get-field"
  | .srs => "srs" ∈ os.map (·.1)
  | .diff | .info | .merge | .tile => False

/-- **C79**: an output file that cannot be written makes every application fail; no file is changed. -/
theorem c79_unwritable_output (n : Name) (p : Params) (argv : List Str) (w : World) (hp : Plain (n.table.options argv))
    (hn : Writes n (n.table.options argv)) (i o : Str) (hops : n.table.operands argv = [i, o]) (ho : o ≠ []) (hm : Unwritable w o) :
    Fails w (n.run p argv w) := by
  cases n <;> simp only [Name.table] at hp hops <;> simp only [Name.run]
  case compress =>
    unfold Main.compress
    cases e : Main.basicArgs Cmd.compress argv with
    | ok x =>
      obtain ⟨a, x, y⟩ := x
      obtain ⟨h1, h2⟩ := withOperands_ok e
      have h3 := plain_basic hp h1
      simp only [Prod.mk.injEq] at h3
      have h4 := h2 h3.1
      simp only [hops, inOut, Res.ok.injEq, Prod.mk.injEq] at h4
      simp only [h3.1, h3.2, Bool.false_eq_true, if_false, ← h4.2]
      exact readThenWrite_unwritable ho hm _ _
    | _ => exact fails_with w _ _
  case decompress =>
    unfold Main.decompress
    cases e : Main.basicArgs Cmd.decompress argv with
    | ok x =>
      obtain ⟨a, x, y⟩ := x
      obtain ⟨h1, h2⟩ := withOperands_ok e
      have h3 := plain_basic hp h1
      simp only [Prod.mk.injEq] at h3
      have h4 := h2 h3.1
      simp only [hops, inOut, Res.ok.injEq, Prod.mk.injEq] at h4
      simp only [h3.1, h3.2, Bool.false_eq_true, if_false, ← h4.2]
      exact readThenWrite_unwritable ho hm _ _
    | _ => exact fails_with w _ _
  case filter =>
    unfold Main.filter
    cases e : filterArgs argv with
    | ok x =>
      obtain ⟨a, x, y⟩ := x
      obtain ⟨h1, h2⟩ := withOperands_ok e
      have h3 := plain_filter hp h1
      simp only [Prod.mk.injEq] at h3
      have h4 := h2 h3.1
      simp only [hops, inOut, Res.ok.injEq, Prod.mk.injEq] at h4
      simp only [h3.1, h3.2, Bool.false_eq_true, if_false, ← h4.2]
      exact readThenWrite_unwritable ho hm _ _
    | _ => exact fails_with w _ _
  case tool =>
    unfold Main.tool
    cases e : toolArgs argv with
    | ok x =>
      obtain ⟨a, x, y⟩ := x
      obtain ⟨h1, h2⟩ := withOperands_ok e
      have h3 := plain_tool hp h1
      simp only [Prod.mk.injEq] at h3
      have h4 := h2 h3.1
      simp only [hops, inOut, Res.ok.injEq, Prod.mk.injEq] at h4
      have h5 := tool_command hn (by decide) h1
      simp only [h3.1, h3.2, Bool.false_eq_true, if_false, ← h4.2, h5]
      split
      · exact fails_throw w _ _
      · exact readThenWrite_unwritable ho hm _ _
    | _ => exact fails_with w _ _
  case transform =>
    unfold Main.transform
    cases e : transformArgs argv with
    | ok x =>
      obtain ⟨a, x, y⟩ := x
      obtain ⟨h1, h2⟩ := withOperands_ok e
      have h3 := plain_transform hp h1
      simp only [Prod.mk.injEq] at h3
      have h4 := h2 h3.1
      simp only [hops, inOut, Res.ok.injEq, Prod.mk.injEq] at h4
      simp only [h3.1, h3.2, Bool.false_eq_true, if_false, ← h4.2]
      split
      · exact fails_throw w _ _
      · split
        · exact outputStream_unwritable ho hm _
        · exact fails_with w _ _
    | _ => exact fails_with w _ _
  case srs =>
    unfold Main.srs
    cases e : Cmd.srsArgs (Cmd.srs.options argv) {} with
    | ok a =>
      have h3 := plain_srs hp e
      simp only [Prod.mk.injEq] at h3
      simp only [h3.1, h3.2, Bool.false_eq_true, if_false, hops]
      obtain ⟨⟨x, t⟩, h1, h2⟩ := List.mem_map.mp hn
      obtain rfl : x = "srs" := h2
      cases hs : a.srs with
      | none =>
        rcases srs_given e (.inr ⟨t, h1⟩) with h | h
        · rw [h3.1] at h; simp at h
        · exact absurd hs h
      | some t =>
        simp only [openWrite_none hm]
        split
        · exact fails_throw w _ _
        · exact fails_with w _ _
    | _ => exact fails_with w _ _
  all_goals exact absurd hn (by simp [Writes])

/-- The numbers of file names that an application accepts. -/
def NamesAccepted (n : Name) (os : List (String × Str)) (k : Nat) : Prop :=
  match n with
  | .compress | .decompress | .filter | .tool | .transform => k ≤ 2
  | .tile => k ≤ 1
  | .diff => k = 2
  | .merge => 2 ≤ k
  | .info => True
  | .srs => "srs" ∈ os.map (·.1) → k = 0 ∨ k = 2

theorem inOut_length {ops : List Str} {x : Str × Str} (h : inOut ops = .ok x) : ops.length ≤ 2 := by
  match ops, h with
  | [], _ => simp
  | [_], _ => simp
  | [_, _], _ => simp
  | _ :: _ :: _ :: _, h => simp [inOut] at h

/-- **C79**: with too many or too few file names every application fails and prints nothing; no file is changed. -/
theorem c79_number_of_names (n : Name) (p : Params) (argv : List Str) (w : World) (hp : Plain (n.table.options argv))
    (hk : ¬ NamesAccepted n (n.table.options argv) (n.table.operands argv).length) :
    Fails w (n.run p argv w) ∧ (n.run p argv w).out = [] := by
  cases n <;> simp only [Name.table] at hp hk <;> simp only [Name.run]
  case compress =>
    unfold Main.compress
    cases e : Main.basicArgs Cmd.compress argv with
    | ok x =>
      obtain ⟨a, x⟩ := x
      obtain ⟨h1, h2⟩ := withOperands_ok e
      have h3 := plain_basic hp h1
      exact absurd (inOut_length (h2 (Prod.mk.inj h3).1)) hk
    | _ => exact ⟨fails_with w _ _, rfl⟩
  case decompress =>
    unfold Main.decompress
    cases e : Main.basicArgs Cmd.decompress argv with
    | ok x =>
      obtain ⟨a, x⟩ := x
      obtain ⟨h1, h2⟩ := withOperands_ok e
      have h3 := plain_basic hp h1
      exact absurd (inOut_length (h2 (Prod.mk.inj h3).1)) hk
    | _ => exact ⟨fails_with w _ _, rfl⟩
  case filter =>
    unfold Main.filter
    cases e : filterArgs argv with
    | ok x =>
      obtain ⟨a, x⟩ := x
      obtain ⟨h1, h2⟩ := withOperands_ok e
      have h3 := plain_filter hp h1
      exact absurd (inOut_length (h2 (Prod.mk.inj h3).1)) hk
    | _ => exact ⟨fails_with w _ _, rfl⟩
  case tool =>
    unfold Main.tool
    cases e : toolArgs argv with
    | ok x =>
      obtain ⟨a, x⟩ := x
      obtain ⟨h1, h2⟩ := withOperands_ok e
      have h3 := plain_tool hp h1
      exact absurd (inOut_length (h2 (Prod.mk.inj h3).1)) hk
    | _ => exact ⟨fails_with w _ _, rfl⟩
  case transform =>
    unfold Main.transform
    cases e : transformArgs argv with
    | ok x =>
      obtain ⟨a, x⟩ := x
      obtain ⟨h1, h2⟩ := withOperands_ok e
      have h3 := plain_transform hp h1
      exact absurd (inOut_length (h2 (Prod.mk.inj h3).1)) hk
    | _ => exact ⟨fails_with w _ _, rfl⟩
  case tile =>
    unfold Main.tile
    cases e : withOperands (Tile.getArgs (Cmd.tile.options argv) {}) (·.help) [] (one (Cmd.tile.operands argv)) with
    | ok x =>
      obtain ⟨a, x⟩ := x
      obtain ⟨h1, h2⟩ := withOperands_ok e
      have h3 := plain_tile hp h1
      have h4 := h2 (Prod.mk.inj h3).1
      exfalso
      match ho : Cmd.tile.operands argv with
      | [] => rw [ho] at hk; exact hk (by simp [NamesAccepted])
      | [_] => rw [ho] at hk; exact hk (by simp [NamesAccepted])
      | _ :: _ :: _ => rw [ho] at h4; simp [one] at h4
    | _ => exact ⟨fails_with w _ _, rfl⟩
  case diff =>
    unfold Main.diff
    cases e : withOperands (Diff.getArgs (Cmd.diff.options argv) {}) (·.help) ([], []) (two (Cmd.diff.operands argv)) with
    | ok x =>
      obtain ⟨a, x⟩ := x
      obtain ⟨h1, h2⟩ := withOperands_ok e
      have h3 := plain_diff hp h1
      have h4 := h2 (Prod.mk.inj h3).1
      exfalso
      match ho : Cmd.diff.operands argv with
      | [] => rw [ho] at h4; simp [two] at h4
      | [_] => rw [ho] at h4; simp [two] at h4
      | [_, _] => rw [ho] at hk; exact hk (by simp [NamesAccepted])
      | _ :: _ :: _ :: _ => rw [ho] at h4; simp [two] at h4
    | _ => exact ⟨fails_with w _ _, rfl⟩
  case info => exact absurd trivial hk
  case merge =>
    have hk : (Cmd.merge.operands argv).length < 2 := by simpa [NamesAccepted] using hk
    have key : (Merge.main p.build p.zlib (Cmd.merge.options argv) ((Cmd.merge.operands argv).map (openRead w.fs))).2.res ≠ .ok ()
        ∧ (Merge.main p.build p.zlib (Cmd.merge.options argv) ((Cmd.merge.operands argv).map (openRead w.fs))).2.bytes = [] := by
      unfold Merge.main
      cases e : Merge.getArgs (Cmd.merge.options argv) {} with
      | ok a =>
        have h3 := plain_merge hp e
        simp only [Prod.mk.injEq] at h3
        simp only [h3.1, h3.2, Bool.false_eq_true, if_false]
        rw [if_pos (by simpa using hk)]
        simp [Out.lift]
      | _ => simp [Out.lift, Merge.failWith]
    exact ⟨⟨fun c => zero_ne key.1 c, rfl⟩, key.2⟩
  case srs =>
    have hk : "srs" ∈ (Cmd.srs.options argv).map (·.1) ∧ (Cmd.srs.operands argv).length ≠ 0 ∧ (Cmd.srs.operands argv).length ≠ 2 := by
      by_contra hc
      exact hk (fun h => by
        by_contra hd
        exact hc ⟨h, fun e => hd (.inl e), fun e => hd (.inr e)⟩)
    obtain ⟨hn, k0, k2⟩ := hk
    unfold Main.srs
    cases e : Cmd.srsArgs (Cmd.srs.options argv) {} with
    | ok a =>
      have h3 := plain_srs hp e
      simp only [Prod.mk.injEq] at h3
      simp only [h3.1, h3.2, Bool.false_eq_true, if_false]
      obtain ⟨⟨x, t⟩, h1, h2⟩ := List.mem_map.mp hn
      obtain rfl : x = "srs" := h2
      cases hs : a.srs with
      | none =>
        rcases srs_given e (.inr ⟨t, h1⟩) with h | h
        · rw [h3.1] at h; simp at h
        · exact absurd hs h
      | some t =>
        match hops : Cmd.srs.operands argv with
        | [] => rw [hops] at k0; simp at k0
        | [_] => exact ⟨fails_throw w _ _, rfl⟩
        | [_, _] => rw [hops] at k2; simp at k2
        | _ :: _ :: _ :: _ => exact ⟨fails_throw w _ _, rfl⟩
    | _ => exact ⟨fails_with w _ _, rfl⟩

/-- `spoc_info a b` where `b` does not exist; `spoc_srs --srs=W a a` where `a` must not be written; `spoc_filter a b c`. -/
example (p : Params) : Fails exampleWorld (Name.info.run p [['a'], ['b']] exampleWorld)
    ∧ Fails { exampleWorld with canCreate := fun _ => false }
        (Name.srs.run p (srsLine ['W'] ['a'] ['b']) { exampleWorld with canCreate := fun _ => false })
    ∧ Fails exampleWorld (Name.filter.run p [['a'], ['b'], ['c']] exampleWorld) := by
  refine ⟨c79_missing_input .info p _ exampleWorld ?_ ['b'] (by decide +kernel) (by decide) ?_,
    c79_unwritable_output .srs p _ _ ?_ ?_ ['a'] ['b'] (srsLine_parse _ _ _).2 (by decide) rfl,
    (c79_number_of_names .filter p _ exampleWorld ?_ ?_).1⟩
  · unfold Plain; decide +kernel
  · intro f hf; simp [exampleWorld] at hf
  · rw [(srsLine_parse _ _ _).1]; unfold Plain; decide
  · rw [(srsLine_parse _ _ _).1]; unfold Writes; decide
  · unfold Plain; decide +kernel
  · unfold NamesAccepted; decide +kernel

end Spoc.Props
