import Verif.Props.MergeStages
import Verif.Proofs.Flag

/-!
# C105: the applications do the same with a file whether it is compressed or not
-/

namespace Spoc.Props

open Getopt Cmd Main Spec Spec.Cmd Text Spoc.Flag

/-- The clouds differ at most in the compression flag: the same spatial reference and the same points. -/
def Twins (f g : SpocFile) : Prop := g.wkt = f.wkt ∧ g.prs = f.prs

/-- The run leaves, in the file `o`, what writing the cloud `g` writes, and all other files as they were; it succeeds if writing does. -/
def Leaves (p : Params) (w : World) (o : Str) (g : SpocFile) (r : Result) : Prop :=
  r.out = [] ∧ content r.fs o = some (Io.writeFile p.build p.zlib g).bytes ∧ (r.res = .ok 0 ↔ (Io.writeFile p.build p.zlib g).res = .ok ())
    ∧ ∀ m, m ≠ o → r.fs m = w.fs m

/-- The two runs leave clouds that differ at most in the compression flag in their output files, or they print the same, come to the same
end, and change no file. -/
def Alike (p : Params) (w : World) (o o' : Str) (r r' : Result) : Prop :=
  (∃ g g', Twins g g' ∧ Leaves p w o g r ∧ Leaves p w o' g' r') ∨ (r = r' ∧ r.fs = w.fs)

theorem twins_flag {p : Params} {fs : Tile.FS} {i i' : Str} {f f' : SpocFile} (h : HasCloud p fs i f) (h' : HasCloud p fs i' f')
    (ht : Twins f f') : f' = flag f'.compressed f := by
  obtain ⟨_, _, _, _, h1⟩ := h
  obtain ⟨_, _, _, _, h2⟩ := h'
  have w1 := readable_writable h1
  have w2 := readable_writable h2
  obtain ⟨a, b, c, d, e⟩ := f
  obtain ⟨a', b', c', d', e'⟩ := f'
  obtain ⟨rfl, rfl⟩ := ht
  obtain rfl : a = _ := w1.major
  obtain rfl : b = _ := w1.minor
  obtain rfl : a' = _ := w2.major
  obtain rfl : b' = _ := w2.minor
  rfl

theorem outputStream_cloud_leaves {p : Params} {w : World} {o : Str} (ho : o ≠ []) (hc : CanReplace w o) (g : SpocFile) :
    Leaves p w o g (outputStream w o (Io.writeFile p.build p.zlib g)) := by
  obtain ⟨f, h1, -⟩ := openWrite_readable hc
  have he : o.isEmpty = false := by simpa using ho
  simp only [outputStream, he, Bool.false_eq_true, if_false, h1]
  refine ⟨rfl, by simp [content, Tile.FS.set], ?_, fun m hm => by simp [Tile.FS.set, hm]⟩
  cases (Io.writeFile p.build p.zlib g).res <;> simp [zero]

theorem alike_files {p : Params} {w : World} {i i' o o' : Str} (hi : i ≠ []) (hi' : i' ≠ []) (ho : o ≠ []) (ho' : o' ≠ [])
    (hc : CanReplace w o) (hc' : CanReplace w o') {f f' : SpocFile} (hf : HasCloud p w.fs i f) (hf' : HasCloud p w.fs i' f')
    (change : SpocFile → Res SpocFile) (T : SpocFile → SpocFile) (hT : ∀ g, Twins g (T g)) (hch : change f' = T <$> change f) :
    Alike p w o o'
      (readThenWrite w i o (fun s => do
        let f ← Apps.fileOf (Io.readFile p.build p.zlib s)
        change f) (Io.writeFile p.build p.zlib))
      (readThenWrite w i' o' (fun s => do
        let f ← Apps.fileOf (Io.readFile p.build p.zlib s)
        change f) (Io.writeFile p.build p.zlib)) := by
  obtain ⟨s, s', h1, h2⟩ := inputStream_cloud hi hf
  obtain ⟨t, t', h3, h4⟩ := inputStream_cloud hi' hf'
  simp only [readThenWrite, h1, h3, Res.ok_bind, Apps.fileOf, h2, h4, hch]
  cases hr : change f with
  | ok g => exact .inl ⟨g, T g, hT g, outputStream_cloud_leaves ho hc g, outputStream_cloud_leaves ho' hc' (T g)⟩
  | throw e => exact .inr ⟨rfl, rfl⟩
  | ub e => exact .inr ⟨rfl, rfl⟩
  | abort => exact .inr ⟨rfl, rfl⟩
  | hang => exact .inr ⟨rfl, rfl⟩

/-- **C105**, filter and tool: with the same options, whatever these are, a file and its compressed twin lead to the same. -/
theorem c105_filter_tool (n : Name) (hn : n = .filter ∨ n = .tool) (p : Params) (w : World) (argv argv' : List Str) (i i' o o' : Str)
    (hopt : n.table.options argv' = n.table.options argv) (hops : n.table.operands argv = [i, o]) (hops' : n.table.operands argv' = [i', o'])
    (hi : i ≠ []) (hi' : i' ≠ []) (ho : o ≠ []) (ho' : o' ≠ []) (hc : CanReplace w o) (hc' : CanReplace w o')
    (f f' : SpocFile) (hf : HasCloud p w.fs i f) (hf' : HasCloud p w.fs i' f') (ht : Twins f f') :
    Alike p w o o' (n.run p argv w) (n.run p argv' w) := by
  have e := twins_flag hf hf' ht
  rcases hn with rfl | rfl
  · replace hopt : Cmd.filter.options argv' = Cmd.filter.options argv := hopt
    replace hops : Cmd.filter.operands argv = [i, o] := hops
    replace hops' : Cmd.filter.operands argv' = [i', o'] := hops'
    simp only [Name.run, Main.filter, filterArgs, withOperands, hopt, hops, hops', inOut, Res.ok_bind]
    cases Filter.getArgs (Cmd.filter.options argv) {} with
    | ok a =>
      simp only [Res.ok_bind]
      by_cases hh : a.help = true
      · simp only [hh, if_true]
        split <;> exact .inr ⟨rfl, rfl⟩
      · simp only [hh, Bool.false_eq_true, if_false]
        split
        · exact .inr ⟨rfl, rfl⟩
        · exact alike_files hi hi' ho ho' hc hc' hf hf' (Filter.process p.build p.shuffle a) (flag f'.compressed) (fun g => ⟨rfl, rfl⟩)
            (by rw [e, process_flag]; rfl)
    | throw e => exact .inr ⟨rfl, rfl⟩
    | ub e => exact .inr ⟨rfl, rfl⟩
    | abort => exact .inr ⟨rfl, rfl⟩
    | hang => exact .inr ⟨rfl, rfl⟩
  · replace hopt : Cmd.tool.options argv' = Cmd.tool.options argv := hopt
    replace hops : Cmd.tool.operands argv = [i, o] := hops
    replace hops' : Cmd.tool.operands argv' = [i', o'] := hops'
    simp only [Name.run, Main.tool, toolArgs, withOperands, hopt, hops, hops', inOut, Res.ok_bind]
    cases Tool.getArgs (Cmd.tool.options argv) {} with
    | ok a =>
      simp only [Res.ok_bind]
      by_cases hh : a.help = true
      · simp only [hh, if_true]
        split <;> exact .inr ⟨rfl, rfl⟩
      · simp only [hh, Bool.false_eq_true, if_false]
        split
        · exact .inr ⟨rfl, rfl⟩
        · split
          · exact .inr ⟨rfl, rfl⟩
          · split
            · right
              obtain ⟨s, s', h1, h2⟩ := inputStream_cloud hi hf
              obtain ⟨t, t', h3, h4⟩ := inputStream_cloud hi' hf'
              simp only [h1, h3, Res.ok_bind, Apps.fileOf, h2, h4]
              rw [e]
              simp only [getField_flag, true_and]
              split <;> rfl
            · exact alike_files hi hi' ho ho' hc hc' hf hf' (Tool.run p.build p.zlib (toolFiles w.fs) a) (outFlag f'.compressed a.command.name)
                (fun g => by unfold outFlag; split <;> exact ⟨rfl, rfl⟩) (by rw [e, run_flag]; rfl)
    | throw e => exact .inr ⟨rfl, rfl⟩
    | ub e => exact .inr ⟨rfl, rfl⟩
    | abort => exact .inr ⟨rfl, rfl⟩
    | hang => exact .inr ⟨rfl, rfl⟩

/-- **C105**, srs: setting the spatial reference of a file and of its compressed twin leads to the same. -/
theorem c105_srs (p : Params) (w : World) (argv argv' : List Str) (i i' o o' : Str) (a : Cmd.SrsArgs)
    (hopt : Cmd.srsArgs (Cmd.srs.options argv) {} = .ok a) (hset : a.srs ≠ none) (hopt' : Cmd.srs.options argv' = Cmd.srs.options argv)
    (hops : Cmd.srs.operands argv = [i, o]) (hops' : Cmd.srs.operands argv' = [i', o']) (hc : CanReplace w o) (hc' : CanReplace w o')
    (f f' : SpocFile) (hf : HasCloud p w.fs i f) (hf' : HasCloud p w.fs i' f') (ht : Twins f f') :
    Alike p w o o' (Name.srs.run p argv w) (Name.srs.run p argv' w) := by
  obtain ⟨t, hset⟩ := Option.ne_none_iff_exists'.mp hset
  obtain ⟨s, s', h1, h2⟩ := hasCloud_open hf
  obtain ⟨u, u', h3, h4⟩ := hasCloud_open hf'
  obtain ⟨x, h5, -⟩ := openWrite_readable hc
  obtain ⟨x', h6, -⟩ := openWrite_readable hc'
  have key : ∀ (o : Str) (x : Tile.File) (g : SpocFile), Leaves p w o g
      ⟨w.fs.set o { x with content := (Io.writeFile p.build p.zlib g).bytes }, [], zero (Io.writeFile p.build p.zlib g).res⟩ := by
    intro o x g
    refine ⟨rfl, by simp [content, Tile.FS.set], ?_, fun m hm => by simp [Tile.FS.set, hm]⟩
    cases (Io.writeFile p.build p.zlib g).res <;> simp [zero]
  simp only [Name.run, Main.srs, hopt', hopt, hops, hops', hset, h1, h3, h2, h4, Apps.fileOf, Res.ok_bind, h5, h6]
  split
  · exact .inr ⟨rfl, rfl⟩
  · split
    · exact .inr ⟨rfl, rfl⟩
    · exact .inl ⟨f.setWkt (Main.bytes t), f'.setWkt (Main.bytes t), ⟨rfl, ht.2⟩, key o x _, key o' x' _⟩

/-- **C105**, srs: showing the spatial references prints the same for files and for their twins. -/
theorem c105_show_srs (p : Params) (w : World) (argv argv' : List Str) (hopt : Cmd.srs.options argv = []) (hopt' : Cmd.srs.options argv' = [])
    (hne : Cmd.srs.operands argv ≠ []) (fs fs' : List SpocFile) (hf : List.Forall₂ (fun n f => HasCloud p w.fs n f) (Cmd.srs.operands argv) fs)
    (hf' : List.Forall₂ (fun n f => HasCloud p w.fs n f) (Cmd.srs.operands argv') fs') (ht : List.Forall₂ Twins fs fs') :
    Name.srs.run p argv' w = Name.srs.run p argv w := by
  have hne' : Cmd.srs.operands argv' ≠ [] := by
    intro h
    have e := hf.length_eq.trans (ht.length_eq.trans hf'.length_eq.symm)
    rw [h] at e
    exact hne (List.eq_nil_of_length_eq_zero e)
  rw [c76_show_srs p w argv hopt hne fs hf, c76_show_srs p w argv' hopt' hne' fs' hf']
  congr 1
  clear hf hf'
  induction ht with
  | nil => rfl
  | cons h _ ih => rw [List.flatMap_cons, List.flatMap_cons, ih, h.1]

/-- **C105**, merge: with the same options, files and their twins, some compressed and some not, are merged to clouds that differ at most in
the compression flag, or both runs come to the same end without writing a cloud. -/
theorem c105_merge (p : Params) (w : World) (argv argv' : List Str) (hopt : Cmd.merge.options argv' = Cmd.merge.options argv)
    (fs fs' : List SpocFile) (hf : List.Forall₂ (fun n f => HasCloud p w.fs n f) (Cmd.merge.operands argv) fs)
    (hf' : List.Forall₂ (fun n f => HasCloud p w.fs n f) (Cmd.merge.operands argv') fs') (ht : List.Forall₂ Twins fs fs') :
    (∃ g g', Twins g g' ∧ Name.merge.run p argv w = outputStream w [] (Io.writeFile p.build p.zlib g)
        ∧ Name.merge.run p argv' w = outputStream w [] (Io.writeFile p.build p.zlib g'))
      ∨ Name.merge.run p argv' w = Name.merge.run p argv w := by
  have hs : List.Forall₂ (fun s s' => ∃ x x' f c r r', s = some x ∧ s' = some x' ∧ Io.readFile p.build p.zlib x = .ok (f, r)
      ∧ Io.readFile p.build p.zlib x' = .ok (flag c f, r')) ((Cmd.merge.operands argv).map (openRead w.fs))
        ((Cmd.merge.operands argv').map (openRead w.fs)) := by
    generalize Cmd.merge.operands argv = ns at hf
    generalize Cmd.merge.operands argv' = ns' at hf'
    induction ht generalizing ns ns' with
    | nil => cases hf; cases hf'; exact .nil
    | cons h _ ih =>
      cases hf with
      | cons a1 a2 =>
        cases hf' with
        | cons b1 b2 =>
          refine .cons ?_ (ih _ a2 _ b2)
          have e := twins_flag a1 b1 h
          obtain ⟨s, s', h1, h2⟩ := hasCloud_open a1
          obtain ⟨t, t', h3, h4⟩ := hasCloud_open b1
          exact ⟨s, t, _, _, s', t', h1, h3, h2, e ▸ h4⟩
  have hl := hs.length_eq
  simp only [Name.run, Main.merge, Merge.main, hopt]
  cases Merge.getArgs (Cmd.merge.options argv) {} with
  | ok a =>
    simp only [hl]
    split
    · exact .inr rfl
    · split
      · exact .inr rfl
      · split
        · exact .inr rfl
        · obtain ⟨⟨⟨c, k1⟩, -, -⟩, k2⟩ := mergeLoop_flag p.build p.zlib a _ _ 0 { g := SpocFile.empty.setCompressed true, areaSum := F64.zero, log := [] }
            { g := SpocFile.empty.setCompressed true, areaSum := F64.zero, log := [] } ⟨⟨true, rfl⟩, rfl, rfl⟩ hs
          rcases hm : Merge.mergeLoop p.build p.zlib a 0 ((Cmd.merge.operands argv).map (openRead w.fs))
            { g := SpocFile.empty.setCompressed true, areaSum := F64.zero, log := [] } with ⟨t, q⟩
          rcases hm' : Merge.mergeLoop p.build p.zlib a 0 ((Cmd.merge.operands argv').map (openRead w.fs))
            { g := SpocFile.empty.setCompressed true, areaSum := F64.zero, log := [] } with ⟨t', q'⟩
          rw [hm, hm'] at k1 k2
          obtain rfl : q' = q := k2
          cases q' with
          | ok _ =>
            refine .inl ⟨t.g, t'.g, ?_, rfl, rfl⟩
            rw [show t'.g = flag c t.g from k1]
            exact ⟨rfl, rfl⟩
          | _ => exact .inr rfl
  | _ => exact .inr rfl

/-- The options ask to compare the data or some fields. -/
def ComparesNoHeader (os : List (String × Str)) : Prop := ∃ o ∈ os, o.1 = "data-only" ∨ (o.1 = "field" ∧ o.2 ≠ [])

theorem diff_getArgs_keep (os : List (String × Str)) (a0 a : Diff.Args) (h : Diff.getArgs os a0 = .ok a) :
    a.help = true ∨ ((a0.dataOnly = true → a.dataOnly = true) ∧ (a0.fields ≠ [] → a.fields ≠ [])
      ∧ (ComparesNoHeader os → a.fields ≠ [] ∨ a.dataOnly = true)) := by
  induction os generalizing a0 with
  | nil =>
    obtain rfl := Res.ok.inj h
    exact .inr ⟨id, id, fun ⟨o, ho, _⟩ => by cases ho⟩
  | cons o os ih =>
    obtain ⟨name, arg⟩ := o
    have skip : ∀ a1 : Diff.Args, a1.dataOnly = a0.dataOnly → a1.fields = a0.fields → name ≠ "data-only" → name ≠ "field" →
        Diff.getArgs os a1 = .ok a → _ := fun a1 e1 e2 n1 n2 h => (ih a1 h).imp_right fun ⟨k1, k2, k3⟩ =>
      show (a0.dataOnly = true → a.dataOnly = true) ∧ (a0.fields ≠ [] → a.fields ≠ [])
        ∧ (ComparesNoHeader ((name, arg) :: os) → a.fields ≠ [] ∨ a.dataOnly = true) from
      ⟨e1 ▸ k1, e2 ▸ k2, fun ⟨o, ho, hh⟩ => by
        rcases List.mem_cons.mp ho with rfl | ho
        · rcases hh with hh | ⟨hh, -⟩
          · exact absurd hh n1
          · exact absurd hh n2
        · exact k3 ⟨o, ho, hh⟩⟩
    rw [Diff.getArgs] at h
    split at h
    · obtain rfl := Res.ok.inj h
      exact .inl rfl
    split at h
    · rename_i hn
      exact skip _ (by rfl) (by rfl) (by rw [hn]; decide) (by rw [hn]; decide) h
    split at h
    · rename_i hn
      exact skip _ (by rfl) (by rfl) (by rw [hn]; decide) (by rw [hn]; decide) h
    split at h
    · rename_i hn
      exact skip _ (by rfl) (by rfl) (by rw [hn]; decide) (by rw [hn]; decide) h
    split at h
    · exact (ih _ h).imp_right fun ⟨k1, k2, _⟩ => ⟨fun _ => k1 rfl, k2, fun _ => .inr (k1 rfl)⟩
    split at h
    · rename_i hn1 hn2
      refine (ih _ h).imp_right fun ⟨k1, k2, k3⟩ => ⟨k1, fun hne => k2 (by simp [hne]), fun ⟨o, ho, hh⟩ => ?_⟩
      rcases List.mem_cons.mp ho with rfl | ho
      · rcases hh with hh | ⟨-, hh⟩
        · exact absurd hh hn1
        · exact .inl (k2 (by simp [show arg ≠ [] from hh]))
      · exact k3 ⟨o, ho, hh⟩
    split at h
    · rename_i hn
      exact skip _ (by rfl) (by rfl) (by rw [hn]; decide) (by rw [hn]; decide) h
    · cases h

/-- **C105**, diff: comparing the data or some fields comes to the same result for two files and for their twins. -/
theorem c105_diff (p : Params) (w : World) (argv argv' : List Str) (hopt : Cmd.diff.options argv' = Cmd.diff.options argv)
    (hcmp : ComparesNoHeader (Cmd.diff.options argv)) (i i' j j' : Str) (hops : Cmd.diff.operands argv = [i, j])
    (hops' : Cmd.diff.operands argv' = [i', j']) (f f' g g' : SpocFile) (hf : HasCloud p w.fs i f) (hf' : HasCloud p w.fs i' f')
    (hg : HasCloud p w.fs j g) (hg' : HasCloud p w.fs j' g') (hff : Twins f f') (hgg : Twins g g') :
    Name.diff.run p argv' w = Name.diff.run p argv w := by
  have e1 := twins_flag hf hf' hff
  have e2 := twins_flag hg hg' hgg
  obtain ⟨s1, t1, a1, b1⟩ := hasCloud_open hf
  obtain ⟨s2, t2, a2, b2⟩ := hasCloud_open hf'
  obtain ⟨s3, t3, a3, b3⟩ := hasCloud_open hg
  obtain ⟨s4, t4, a4, b4⟩ := hasCloud_open hg'
  simp only [Name.run, Main.diff, withOperands, hopt, hops, hops', two, Res.ok_bind]
  cases ha : Diff.getArgs (Cmd.diff.options argv) {} with
  | ok a =>
    simp only [Res.ok_bind]
    by_cases hh : a.help = true
    · simp only [hh, if_true]
    · simp only [hh, Bool.false_eq_true, if_false]
      split
      · rfl
      · congr 1
        unfold Diff.main
        rw [ha]
        simp only [Res.ok_bind, a1, a2, a3, a4, Apps.fileOf, b1, b2, b3, b4]
        have := ((diff_getArgs_keep _ _ _ ha).resolve_left hh).2.2 hcmp
        rw [e1, e2, diff_flag _ _ _ _ _ _ _ _ _ this]
  | _ => rfl

/-- **C105**, diff: with the headers, a file differs from its twin if the flags differ. -/
theorem c105_diff_header (p : Params) (w : World) (argv : List Str) (m : Mode) (hm : m ≠ .data) (hopt : Cmd.diff.options argv = modeOptions m false)
    (i j : Str) (hops : Cmd.diff.operands argv = [i, j]) (f g : SpocFile) (hf : HasCloud p w.fs i f) (hg : HasCloud p w.fs j g)
    (hne : f.compressed ≠ g.compressed) : Diff.exitStatus (Name.diff.run p argv w).res ≠ some 0 := by
  rw [Ne, (c76_diff p w argv m false hopt i j hops f g hf hg).1]
  cases m with
  | data => exact absurd rfl hm
  | full => simp [Same, SameHeader, hne]
  | header => simp [Same, SameHeader, hne]

/-- **C105**, info: without the header, the report is the same for files and for their twins. -/
theorem c105_info (p : Params) (w : World) (argv argv' : List Str) (hopt' : Cmd.info.options argv' = Cmd.info.options argv) (a : Info.Args)
    (hopt : Info.getArgs ((Cmd.info.options argv).map (·.1)) {} = .ok a) (hh : a.headerInfo = false)
    (fs fs' : List SpocFile) (hf : List.Forall₂ (fun n f => HasCloud p w.fs n f) (Cmd.info.operands argv) fs)
    (hf' : List.Forall₂ (fun n f => HasCloud p w.fs n f) (Cmd.info.operands argv') fs') (ht : List.Forall₂ Twins fs fs') :
    Name.info.run p argv' w = Name.info.run p argv w := by
  have key : ∀ (ns ns' : List Str), List.Forall₂ (fun n f => HasCloud p w.fs n f) ns fs → List.Forall₂ (fun n f => HasCloud p w.fs n f) ns' fs' →
      ns'.length = ns.length
      ∧ Info.processAll p.build p.zlib p.sort a (ns'.map (openRead w.fs)) = Info.processAll p.build p.zlib p.sort a (ns.map (openRead w.fs)) := by
    clear hf hf'
    induction ht with
    | nil => intro ns ns' h1 h2; cases h1; cases h2; exact ⟨rfl, rfl⟩
    | cons h _ ih =>
      intro ns ns' h1 h2
      cases h1 with
      | cons a1 a2 =>
        cases h2 with
        | cons b1 b2 =>
          obtain ⟨k1, k2⟩ := ih _ _ a2 b2
          have e := twins_flag a1 b1 h
          obtain ⟨s, s', h1, h2⟩ := hasCloud_open a1
          obtain ⟨t, t', h3, h4⟩ := hasCloud_open b1
          refine ⟨congrArg (· + 1) k1, ?_⟩
          simp only [List.map_cons, h1, h3, Info.processAll, Apps.fileOf, h2, h4, Res.ok_bind, k2]
          rw [e, info_flag _ _ _ _ hh]
  obtain ⟨k1, k2⟩ := key _ _ hf hf'
  have e : ((Cmd.info.operands argv').map (openRead w.fs)).isEmpty = ((Cmd.info.operands argv).map (openRead w.fs)).isEmpty := by
    rw [Bool.eq_iff_iff, List.isEmpty_iff_length_eq_zero, List.isEmpty_iff_length_eq_zero, List.length_map, List.length_map, k1]
  simp only [Name.run, Main.info, Info.main, hopt', hopt, e, k2]

/-- **C105**, info: with the header, the reports about a file and about its twin are the same up to the word that says whether it is
compressed, or both runs come to the same end and print nothing. -/
theorem c105_info_header (p : Params) (w : World) (argv argv' : List Str) (hopt' : Cmd.info.options argv' = Cmd.info.options argv) (a : Info.Args)
    (hopt : Info.getArgs ((Cmd.info.options argv).map (·.1)) {} = .ok a) (hv : a.version = false) (ha : a.help = false)
    (hh : a.headerInfo = true) (i i' : Str) (hops : Cmd.info.operands argv = [i]) (hops' : Cmd.info.operands argv' = [i'])
    (f f' : SpocFile) (hf : HasCloud p w.fs i f) (hf' : HasCloud p w.fs i' f') (ht : Twins f f') :
    (∃ pre post, Name.info.run p argv w = ⟨w.fs, pre ++ (Main.bytes (word a.json f.compressed) ++ post), .ok 0⟩
        ∧ Name.info.run p argv' w = ⟨w.fs, pre ++ (Main.bytes (word a.json f'.compressed) ++ post), .ok 0⟩)
      ∨ (Name.info.run p argv' w = Name.info.run p argv w ∧ (Name.info.run p argv w).out = []) := by
  have e := twins_flag hf hf' ht
  obtain ⟨s, s', h1, h2⟩ := hasCloud_open hf
  obtain ⟨t, t', h3, h4⟩ := hasCloud_open hf'
  simp only [Name.run, Main.info, Info.main, hopt', hopt, hops, hops', hv, ha, Bool.false_eq_true, if_false, List.map_cons, List.map_nil,
    List.isEmpty_cons, h1, h3, Info.processAll, Apps.fileOf, h2, h4, Res.ok_bind]
  rcases info_word p.build p.sort a f hh with ⟨pre, post, k⟩ | k
  · left
    have k1 := k f.compressed
    have k2 := k f'.compressed
    rw [← e] at k2
    rw [show flag f.compressed f = f from rfl] at k1
    refine ⟨Main.bytes pre, Main.bytes post, ?_, ?_⟩
    · simp only [k1, Main.bytes, List.map_append, List.append_nil]
      rfl
    · simp only [k2, Main.bytes, List.map_append, List.append_nil]
      rfl
  · right
    have k1 := k f'.compressed
    rw [← e] at k1
    rw [k1.1]
    refine ⟨rfl, ?_⟩
    cases hp : Info.process p.build p.sort a f with
    | ok t => exact absurd hp (k1.2 t)
    | _ => rfl

/-- **C105**, tile: with the same options, a file and its twin are split into the same tiles, up to the compression flag.  (The names of the
tiles have to be new, and writing them has to succeed.) -/
theorem c105_tile (p : Params) (w : World) (argv argv' : List Str) (hopt : Cmd.tile.options argv' = Cmd.tile.options argv) (i i' : Str)
    (hops : Cmd.tile.operands argv = [i]) (hops' : Cmd.tile.operands argv' = [i']) (hi : i ≠ []) (hi' : i' ≠ []) (f f' : SpocFile)
    (hf : HasCloud p w.fs i f) (hf' : HasCloud p w.fs i' f') (ht : Twins f f') (a : Tile.Args)
    (ha : Tile.getArgs (Cmd.tile.options argv) {} = .ok a) (hv : a.version = false) (hh : a.help = false) {sx sy : F64}
    {numbers : List UInt64} (hsz : Tile.tileSizes a (Extent.ofPoints f.prs) = .ok (sx, sy))
    (hn : Tile.getTileIndexes f.prs (Extent.ofPoints f.prs) sx sy = .ok numbers)
    (hpre : (if a.pre.isEmpty then Tile.stem i else a.pre) ≠ []) (hpre' : (if a.pre.isEmpty then Tile.stem i' else a.pre) ≠ [])
    (hnew : ∀ k ∈ numbers, w.fs (tileName { a with fn := i } f k) = none ∧ w.canCreate (tileName { a with fn := i } f k) = true)
    (hnew' : ∀ k ∈ numbers, w.fs (tileName { a with fn := i' } f' k) = none ∧ w.canCreate (tileName { a with fn := i' } f' k) = true)
    (hw : ∀ k ∈ numbers, (Io.writeFile p.build p.zlib (tileOf f numbers k)).res = .ok ())
    (hw' : ∀ k ∈ numbers, (Io.writeFile p.build p.zlib (tileOf f' numbers k)).res = .ok ()) :
    (Name.tile.run p argv w).res = .ok 0 ∧ (Name.tile.run p argv' w).res = .ok 0
      ∧ ∀ k ∈ numbers, ∃ g g', Twins g g' ∧ g.compressed = f.compressed ∧ g'.compressed = f'.compressed
          ∧ content (Name.tile.run p argv w).fs (tileName { a with fn := i } f k) = some (Io.writeFile p.build p.zlib g).bytes
          ∧ content (Name.tile.run p argv' w).fs (tileName { a with fn := i' } f' k) = some (Io.writeFile p.build p.zlib g').bytes := by
  obtain ⟨x, s, x1, x2, x3⟩ := hf
  obtain ⟨x', s', y1, y2, y3⟩ := hf'
  have hin : tileInput i w.stdin w.fs = some { rest := x.content } := by
    have hi' : i.isEmpty = false := by simpa using hi
    simp only [tileInput, hi', Bool.false_eq_true, if_false, x1, x2, if_true]
  have hin' : tileInput i' w.stdin w.fs = some { rest := x'.content } := by
    have hi' : i'.isEmpty = false := by simpa using hi'
    simp only [tileInput, hi', Bool.false_eq_true, if_false, y1, y2, if_true]
  obtain ⟨fs1, e1, h1, -⟩ := c43_tiles_written p.build p.zlib w.canCreate (Cmd.tile.options argv) i w.stdin _ s w.fs a f ha hv hh
    (Or.inl hi) hin x3 hsz hn hpre (fun k hk => (hnew k hk).1) (fun k hk => (hnew k hk).2) hw
  rw [← ht.2] at hsz hn
  obtain ⟨fs2, e2, h2, -⟩ := c43_tiles_written p.build p.zlib w.canCreate (Cmd.tile.options argv) i' w.stdin _ s' w.fs a f' ha hv hh
    (Or.inl hi') hin' y3 hsz hn hpre' (fun k hk => (hnew' k hk).1) (fun k hk => (hnew' k hk).2) hw'
  have er : Name.tile.run p argv w = ⟨fs1, [], .ok 0⟩ := by
    simp only [Name.run, Main.tile, withOperands, ha, hh, hops, one, Res.ok_bind, hv, Bool.false_eq_true, if_false, e1]
    rfl
  have er' : Name.tile.run p argv' w = ⟨fs2, [], .ok 0⟩ := by
    simp only [Name.run, Main.tile, withOperands, hopt, ha, hh, hops', one, Res.ok_bind, hv, Bool.false_eq_true, if_false, e2]
    rfl
  rw [er, er']
  refine ⟨rfl, rfl, fun k hk => ⟨tileOf f numbers k, tileOf f' numbers k, ⟨ht.1, ?_⟩, rfl, rfl, ?_, ?_⟩⟩
  · show pointsNumbered f'.prs numbers k = pointsNumbered f.prs numbers k
    rw [ht.2]
  · simp only [content, h1 k hk, Option.map_some]
  · simp only [content, h2 k hk, Option.map_some]

/-- **C105**, transform is the exception: it rejects every compressed file, whatever the commands, and leaves an empty output file. -/
theorem c105_transform (p : Params) (w : World) (argv : List Str) (i o : Str) (hops : Cmd.transform.operands argv = [i, o])
    (hi : i ≠ []) (ho : o ≠ []) (hio : i ≠ o) (hc : CanReplace w o) (f : SpocFile) (hf : HasCloud p w.fs i f) (hfc : f.compressed = true)
    (a : Transform.Args) (ha : Transform.getArgs (Cmd.transform.options argv) {} = .ok a) (hv : a.version = false) (hh : a.help = false)
    (hcs : a.commands ≠ []) :
    (Name.transform.run p argv w).res = .throw "Expected an uncompressed file" ∧ content (Name.transform.run p argv w).fs o = some [] := by
  obtain ⟨s, s', h1, h2⟩ := inputStream_cloud hi hf
  obtain ⟨h, s1, h3, -, -, -, h4⟩ := (c09_reader_safe p.build p.zlib s).2.2 f s' h2
  obtain ⟨x, h5, -⟩ := openWrite_readable hc
  have he : o.isEmpty = false := by simpa using ho
  have hcs' : a.commands.isEmpty = false := by simpa using hcs
  have hio' : decide (i = o) = false := by simpa using hio
  have hgood : s.good = true := by
    obtain ⟨y, _, e1, e2, _⟩ := hf
    simp only [inputStream, openRead, e1, e2, if_true] at h1
    have hi' : i.isEmpty = false := by simpa using hi
    rw [if_neg (by simp [hi'])] at h1
    obtain rfl := Res.ok.inj h1
    rfl
  have key : Transform.apply p.build p.env s a.commands (UInt64.ofInt a.seed).toNat = ⟨[], .throw "Expected an uncompressed file"⟩ := by
    unfold Transform.apply Transform.readHeaderUncompressed
    rw [hgood, require_true]
    simp only [Out.lift_ok_bind, Res.ok_bind, h3]
    rw [if_pos (h4.mp hfc)]
    rfl
  simp only [Name.run, Main.transform, transformArgs, withOperands, ha, hh, hops, inOut, Res.ok_bind, hv, Bool.false_eq_true, if_false, hcs', h1,
    hio', Bool.and_false, key, outputStream, he, h5]
  exact ⟨rfl, by simp [content, Tile.FS.set]⟩

/-! ## Examples -/

theorem example_twins : Twins cloudA { cloudA with compressed := true } := ⟨rfl, rfl⟩

/-- Keeping class 2, and the option is the same in both command lines. -/
example : Alike exampleParams exampleDisk ['o'] ['u'] (Name.filter.run exampleParams [['-', 'k', '2'], ['a'], ['o']] exampleDisk)
    (Name.filter.run exampleParams [['-', 'k', '2'], ['z'], ['u']] exampleDisk) :=
  c105_filter_tool .filter (.inl rfl) exampleParams exampleDisk _ _ ['a'] ['z'] ['o'] ['u'] (by decide +kernel) (by decide +kernel)
    (by decide +kernel) (by decide) (by decide) (by decide) (by decide) rfl rfl _ _ cloudA_on_disk.1 cloudZ_on_disk example_twins

example : Alike exampleParams exampleDisk ['o'] ['u'] (Name.tool.run exampleParams ["--subtract-min-xy".toList, ['a'], ['o']] exampleDisk)
    (Name.tool.run exampleParams ["--subtract-min-xy".toList, ['z'], ['u']] exampleDisk) :=
  c105_filter_tool .tool (.inr rfl) exampleParams exampleDisk _ _ ['a'] ['z'] ['o'] ['u'] (by decide +kernel) (by decide +kernel)
    (by decide +kernel) (by decide) (by decide) (by decide) (by decide) rfl rfl _ _ cloudA_on_disk.1 cloudZ_on_disk example_twins

example : Alike exampleParams exampleDisk ['o'] ['u'] (Name.srs.run exampleParams (srsLine ['W'] ['a'] ['o']) exampleDisk)
    (Name.srs.run exampleParams (srsLine ['W'] ['z'] ['u']) exampleDisk) :=
  c105_srs exampleParams exampleDisk _ _ ['a'] ['z'] ['o'] ['u'] { srs := some ['W'] }
    (by rw [show Cmd.srs.options _ = _ from (srsLine_parse _ _ _).1]; rfl) (by simp)
    ((srsLine_parse _ _ _).1.trans (srsLine_parse _ _ _).1.symm)
    (srsLine_parse _ _ _).2 (srsLine_parse _ _ _).2 rfl rfl _ _ cloudA_on_disk.1 cloudZ_on_disk example_twins

example : Name.srs.run exampleParams [['z'], ['a']] exampleDisk = Name.srs.run exampleParams [['a'], ['d']] exampleDisk :=
  c105_show_srs exampleParams exampleDisk _ _ (by decide +kernel) (by decide +kernel) (by decide +kernel) [cloudA, cloudA]
    [{ cloudA with compressed := true }, cloudA] (.cons cloudA_on_disk.1 (.cons cloudA_on_disk.2 .nil))
    (.cons cloudZ_on_disk (.cons cloudA_on_disk.1 .nil)) (.cons example_twins (.cons ⟨rfl, rfl⟩ .nil))

example : (∃ g g', Twins g g' ∧ Name.merge.run exampleParams [['a'], ['d']] exampleDisk
        = outputStream exampleDisk [] (Io.writeFile .release toyZlib g)
      ∧ Name.merge.run exampleParams [['z'], ['z']] exampleDisk = outputStream exampleDisk [] (Io.writeFile .release toyZlib g'))
    ∨ Name.merge.run exampleParams [['z'], ['z']] exampleDisk = Name.merge.run exampleParams [['a'], ['d']] exampleDisk :=
  c105_merge exampleParams exampleDisk _ _ (by decide +kernel) [cloudA, cloudA]
    [{ cloudA with compressed := true }, { cloudA with compressed := true }] (.cons cloudA_on_disk.1 (.cons cloudA_on_disk.2 .nil))
    (.cons cloudZ_on_disk (.cons cloudZ_on_disk .nil)) (.cons example_twins (.cons example_twins .nil))

example : Name.diff.run exampleParams [['-', 'd'], ['a'], ['z']] exampleDisk = Name.diff.run exampleParams [['-', 'd'], ['a'], ['d']] exampleDisk :=
  c105_diff exampleParams exampleDisk _ _ (by decide +kernel) ⟨("data-only", []), by decide +kernel, .inl rfl⟩ ['a'] ['a'] ['d'] ['z']
    (by decide +kernel) (by decide +kernel) cloudA cloudA cloudA _ cloudA_on_disk.1 cloudA_on_disk.1 cloudA_on_disk.2 cloudZ_on_disk
    ⟨rfl, rfl⟩ example_twins

example : Diff.exitStatus (Name.diff.run exampleParams [['a'], ['z']] exampleDisk).res ≠ some 0 :=
  c105_diff_header exampleParams exampleDisk _ .full (by simp) (by decide +kernel) ['a'] ['z'] (by decide +kernel) _ _ cloudA_on_disk.1
    cloudZ_on_disk (by decide)

example : Name.info.run exampleParams [['-', 'a'], ['z']] exampleDisk = Name.info.run exampleParams [['-', 'a'], ['a']] exampleDisk :=
  c105_info exampleParams exampleDisk _ _ (by decide +kernel) { headerInfo := false } (by decide +kernel) rfl [cloudA]
    [{ cloudA with compressed := true }] (.cons cloudA_on_disk.1 .nil) (.cons cloudZ_on_disk .nil) (.cons example_twins .nil)

example : (∃ pre post, Name.info.run exampleParams [['-', 'j'], ['a']] exampleDisk = ⟨exampleDisk.fs, pre ++ ([48] ++ post), .ok 0⟩
      ∧ Name.info.run exampleParams [['-', 'j'], ['z']] exampleDisk = ⟨exampleDisk.fs, pre ++ ([49] ++ post), .ok 0⟩)
    ∨ (Name.info.run exampleParams [['-', 'j'], ['z']] exampleDisk = Name.info.run exampleParams [['-', 'j'], ['a']] exampleDisk
      ∧ (Name.info.run exampleParams [['-', 'j'], ['a']] exampleDisk).out = []) :=
  c105_info_header exampleParams exampleDisk _ _ (by decide +kernel) { json := true } (by decide +kernel) rfl rfl rfl ['a'] ['z']
    (by decide +kernel) (by decide +kernel) _ _ cloudA_on_disk.1 cloudZ_on_disk example_twins

example : (Name.tile.run exampleParams ["-s10".toList, ['z']] exampleDisk).res = .ok 0 :=
  (c105_tile exampleParams exampleDisk ["-s10".toList, ['a']] ["-s10".toList, ['z']] (by decide +kernel) ['a'] ['z'] (by decide +kernel)
    (by decide +kernel) (by decide) (by decide) cloudA { cloudA with compressed := true } cloudA_on_disk.1 cloudZ_on_disk example_twins
    { tileSize := num 10 } (by decide +kernel) rfl rfl (sx := num 10) (sy := num 10) (numbers := [0, 1, 3]) (by decide +kernel)
    (by decide +kernel) (by decide)
    (by decide) (by decide +kernel) (by decide +kernel) (by decide +kernel) (by decide +kernel)).2.1

example : (Name.transform.run exampleParams (transformLine ['z'] ['o']) exampleDisk).res = .throw "Expected an uncompressed file" :=
  (c105_transform exampleParams exampleDisk _ ['z'] ['o'] (by decide +kernel) (by decide) (by decide) (by decide) rfl _ cloudZ_on_disk rfl
    { commands := [⟨"copy-field", "i,c".toList⟩] } (by decide +kernel) rfl rfl (by decide)).1

end Spoc.Props
