import Verif.Props.Transparent
import Verif.Props.FilterTransform
import Verif.Proofs.Label
import Verif.Proofs.AppSafe2

/-!
# C129: the spatial reference is only carried along
-/

namespace Spoc.Props

open Getopt Cmd Main Spec Spec.Cmd Text Spoc.Label
open Spoc.Transform (parseCommand)

/-- The clouds differ at most in the spatial reference: both compressed or both not, and the same points. -/
def ButText (f g : SpocFile) : Prop := g.compressed = f.compressed ∧ g.prs = f.prs

/-- The two runs, on files with the clouds `f` and `f'`, leave clouds that differ at most in the spatial reference in their output files, and
each has the spatial reference of its input; or they print the same, come to the same end, and change no file. -/
def CarriedAlong (p : Params) (w : World) (o o' : Str) (f f' : SpocFile) (r r' : Result) : Prop :=
  (∃ g g', ButText g g' ∧ g.wkt = f.wkt ∧ g'.wkt = f'.wkt ∧ Leaves p w o g r ∧ Leaves p w o' g' r') ∨ (r = r' ∧ r.fs = w.fs)

theorem butText_label {p : Params} {fs : Tile.FS} {i i' : Str} {f f' : SpocFile} (h : HasCloud p fs i f) (h' : HasCloud p fs i' f')
    (ht : ButText f f') : f' = label f'.wkt f := by
  obtain ⟨_, _, _, _, h1⟩ := h
  obtain ⟨_, _, _, _, h2⟩ := h'
  have w1 := readable_writable h1
  have w2 := readable_writable h2
  obtain ⟨a, b, c, d, e⟩ := f
  obtain ⟨a', b', c', d', e'⟩ := f'
  obtain ⟨rfl, rfl⟩ := ht
  obtain rfl : a = _ := w1.major
  obtain rfl : b = _ := w1.minor
  obtain rfl : a' = _ := w2.major
  obtain rfl : b' = _ := w2.minor
  rfl

theorem hasCloud_wkt {p : Params} {fs : Tile.FS} {i : Str} {f : SpocFile} (h : HasCloud p fs i f) : f.wkt.length ≤ 0xFFFF := by
  obtain ⟨_, _, _, _, h1⟩ := h
  exact (readable_writable h1).wkt

/-- What does not look at the text keeps it. -/
theorem keeps_text {change : SpocFile → Res SpocFile} (h : ∀ (c : Bytes) (f : SpocFile), change (label c f) = label c <$> change f)
    {f g : SpocFile} (hg : change f = .ok g) : g.wkt = f.wkt := by
  have := h f.wkt f
  rw [show label f.wkt f = f from rfl, hg] at this
  have := Res.ok.inj this
  rw [this]
  rfl

theorem carried_files {p : Params} {w : World} {i i' o o' : Str} (hi : i ≠ []) (hi' : i' ≠ []) (ho : o ≠ []) (ho' : o' ≠ [])
    (hc : CanReplace w o) (hc' : CanReplace w o') {f f' : SpocFile} (hf : HasCloud p w.fs i f) (hf' : HasCloud p w.fs i' f')
    (ht : ButText f f') (change : SpocFile → Res SpocFile)
    (h : ∀ (c : Bytes) (f : SpocFile), change (label c f) = label c <$> change f) :
    CarriedAlong p w o o' f f'
      (readThenWrite w i o (fun s => do
        let f ← Apps.fileOf (Io.readFile p.build p.zlib s)
        change f) (Io.writeFile p.build p.zlib))
      (readThenWrite w i' o' (fun s => do
        let f ← Apps.fileOf (Io.readFile p.build p.zlib s)
        change f) (Io.writeFile p.build p.zlib)) := by
  have e := butText_label hf hf' ht
  obtain ⟨s, s', h1, h2⟩ := inputStream_cloud hi hf
  obtain ⟨t, t', h3, h4⟩ := inputStream_cloud hi' hf'
  have hch : change f' = label f'.wkt <$> change f := by
    conv_lhs => rw [e]
    exact h _ _
  simp only [readThenWrite, h1, h3, Res.ok_bind, Apps.fileOf, h2, h4, hch]
  cases hr : change f with
  | ok g => exact .inl ⟨g, label f'.wkt g, ⟨rfl, rfl⟩, keeps_text h hr, rfl, outputStream_cloud_leaves ho hc g,
      outputStream_cloud_leaves ho' hc' (label f'.wkt g)⟩
  | throw e => exact .inr ⟨rfl, rfl⟩
  | ub e => exact .inr ⟨rfl, rfl⟩
  | abort => exact .inr ⟨rfl, rfl⟩
  | hang => exact .inr ⟨rfl, rfl⟩

/-- **C129**, filter and tool: with the same options, whatever these are, except that tool must not be asked to upsample classes, the points
that are written do not depend on the spatial reference, and the output has that of the input. -/
theorem c129_filter_tool (n : Name) (hn : n = .filter ∨ n = .tool) (p : Params) (w : World) (argv argv' : List Str) (i i' o o' : Str)
    (hopt : n.table.options argv' = n.table.options argv) (hops : n.table.operands argv = [i, o]) (hops' : n.table.operands argv' = [i', o'])
    (hi : i ≠ []) (hi' : i' ≠ []) (ho : o ≠ []) (ho' : o' ≠ []) (hc : CanReplace w o) (hc' : CanReplace w o')
    (f f' : SpocFile) (hf : HasCloud p w.fs i f) (hf' : HasCloud p w.fs i' f') (ht : ButText f f')
    (hup : n = .tool → ∀ q ∈ n.table.options argv, q.1 ≠ "upsample-classifications") :
    CarriedAlong p w o o' f f' (n.run p argv w) (n.run p argv' w) := by
  have e := butText_label hf hf' ht
  rcases hn with rfl | rfl
  · replace hopt : Cmd.filter.options argv' = Cmd.filter.options argv := hopt
    replace hops : Cmd.filter.operands argv = [i, o] := hops
    replace hops' : Cmd.filter.operands argv' = [i', o'] := hops'
    simp only [Name.run, Main.filter, filterArgs, withOperands, hopt, hops, hops', inOut, Res.ok_bind]
    cases Filter.getArgs (Cmd.filter.options argv) {} with
    | ok a =>
      simp only [Res.ok_bind]
      by_cases hh : a.help = true
      · simp only [hh, if_true]
        split <;> exact .inr ⟨rfl, rfl⟩
      · simp only [hh, Bool.false_eq_true, if_false]
        split
        · exact .inr ⟨rfl, rfl⟩
        · exact carried_files hi hi' ho ho' hc hc' hf hf' ht (Filter.process p.build p.shuffle a) (fun c f => process_label p.build p.shuffle a f)
    | throw e => exact .inr ⟨rfl, rfl⟩
    | ub e => exact .inr ⟨rfl, rfl⟩
    | abort => exact .inr ⟨rfl, rfl⟩
    | hang => exact .inr ⟨rfl, rfl⟩
  · replace hopt : Cmd.tool.options argv' = Cmd.tool.options argv := hopt
    replace hops : Cmd.tool.operands argv = [i, o] := hops
    replace hops' : Cmd.tool.operands argv' = [i', o'] := hops'
    simp only [Name.run, Main.tool, toolArgs, withOperands, hopt, hops, hops', inOut, Res.ok_bind]
    cases ha : Tool.getArgs (Cmd.tool.options argv) {} with
    | ok a =>
      simp only [Res.ok_bind]
      by_cases hh : a.help = true
      · simp only [hh, if_true]
        split <;> exact .inr ⟨rfl, rfl⟩
      · simp only [hh, Bool.false_eq_true, if_false]
        split
        · exact .inr ⟨rfl, rfl⟩
        · split
          · exact .inr ⟨rfl, rfl⟩
          · split
            · right
              obtain ⟨s, s', h1, h2⟩ := inputStream_cloud hi hf
              obtain ⟨t, t', h3, h4⟩ := inputStream_cloud hi' hf'
              simp only [h1, h3, Res.ok_bind, Apps.fileOf, h2, h4]
              rw [e]
              simp only [getField_label, true_and]
              split <;> rfl
            · have hu : a.command.name ≠ "upsample-classifications" := by
                intro hu
                rcases AppSafe.tool_command ha with k | k
                · rw [k] at hu
                  revert hu
                  decide
                · exact hup rfl _ k hu
              refine carried_files hi hi' ho ho' hc hc' hf hf' ht (Tool.run p.build p.zlib (toolFiles w.fs) a) fun c f => ?_
              rw [run_label]
              congr 1
              funext g
              exact if_neg hu
    | throw e => exact .inr ⟨rfl, rfl⟩
    | ub e => exact .inr ⟨rfl, rfl⟩
    | abort => exact .inr ⟨rfl, rfl⟩
    | hang => exact .inr ⟨rfl, rfl⟩

/-- **C129**, diff: comparing the data or some fields comes to the same result whatever the spatial references. -/
theorem c129_diff (p : Params) (w : World) (argv argv' : List Str) (hopt : Cmd.diff.options argv' = Cmd.diff.options argv)
    (hcmp : ComparesNoHeader (Cmd.diff.options argv)) (i i' j j' : Str) (hops : Cmd.diff.operands argv = [i, j])
    (hops' : Cmd.diff.operands argv' = [i', j']) (f f' g g' : SpocFile) (hf : HasCloud p w.fs i f) (hf' : HasCloud p w.fs i' f')
    (hg : HasCloud p w.fs j g) (hg' : HasCloud p w.fs j' g') (hff : ButText f f') (hgg : ButText g g') :
    Name.diff.run p argv' w = Name.diff.run p argv w := by
  have e1 := butText_label hf hf' hff
  have e2 := butText_label hg hg' hgg
  obtain ⟨s1, t1, a1, b1⟩ := hasCloud_open hf
  obtain ⟨s2, t2, a2, b2⟩ := hasCloud_open hf'
  obtain ⟨s3, t3, a3, b3⟩ := hasCloud_open hg
  obtain ⟨s4, t4, a4, b4⟩ := hasCloud_open hg'
  simp only [Name.run, Main.diff, withOperands, hopt, hops, hops', two, Res.ok_bind]
  cases ha : Diff.getArgs (Cmd.diff.options argv) {} with
  | ok a =>
    simp only [Res.ok_bind]
    by_cases hh : a.help = true
    · simp only [hh, if_true]
    · simp only [hh, Bool.false_eq_true, if_false]
      split
      · rfl
      · congr 1
        unfold Diff.main
        rw [ha]
        simp only [Res.ok_bind, a1, a2, a3, a4, Apps.fileOf, b1, b2, b3, b4]
        have := ((diff_getArgs_keep _ _ _ ha).resolve_left hh).2.2 hcmp
        rw [e1, e2, diff_label _ _ _ _ _ _ _ _ _ this]
  | _ => rfl

/-- **C129**, info: without the header, the report does not depend on the spatial reference. -/
theorem c129_info (p : Params) (w : World) (argv argv' : List Str) (hopt' : Cmd.info.options argv' = Cmd.info.options argv) (a : Info.Args)
    (hopt : Info.getArgs ((Cmd.info.options argv).map (·.1)) {} = .ok a) (hh : a.headerInfo = false)
    (fs fs' : List SpocFile) (hf : List.Forall₂ (fun n f => HasCloud p w.fs n f) (Cmd.info.operands argv) fs)
    (hf' : List.Forall₂ (fun n f => HasCloud p w.fs n f) (Cmd.info.operands argv') fs') (ht : List.Forall₂ ButText fs fs') :
    Name.info.run p argv' w = Name.info.run p argv w := by
  have key : ∀ (ns ns' : List Str), List.Forall₂ (fun n f => HasCloud p w.fs n f) ns fs → List.Forall₂ (fun n f => HasCloud p w.fs n f) ns' fs' →
      ns'.length = ns.length
      ∧ Info.processAll p.build p.zlib p.sort a (ns'.map (openRead w.fs)) = Info.processAll p.build p.zlib p.sort a (ns.map (openRead w.fs)) := by
    clear hf hf'
    induction ht with
    | nil => intro ns ns' h1 h2; cases h1; cases h2; exact ⟨rfl, rfl⟩
    | cons h _ ih =>
      intro ns ns' h1 h2
      cases h1 with
      | cons a1 a2 =>
        cases h2 with
        | cons b1 b2 =>
          obtain ⟨k1, k2⟩ := ih _ _ a2 b2
          have e := butText_label a1 b1 h
          obtain ⟨s, s', h1, h2⟩ := hasCloud_open a1
          obtain ⟨t, t', h3, h4⟩ := hasCloud_open b1
          refine ⟨congrArg (· + 1) k1, ?_⟩
          simp only [List.map_cons, h1, h3, Info.processAll, Apps.fileOf, h2, h4, Res.ok_bind, k2]
          rw [e, info_label _ _ _ _ hh]
  obtain ⟨k1, k2⟩ := key _ _ hf hf'
  have e : ((Cmd.info.operands argv').map (openRead w.fs)).isEmpty = ((Cmd.info.operands argv).map (openRead w.fs)).isEmpty := by
    rw [Bool.eq_iff_iff, List.isEmpty_iff_length_eq_zero, List.isEmpty_iff_length_eq_zero, List.length_map, List.length_map, k1]
  simp only [Name.run, Main.info, Info.main, hopt', hopt, e, k2]

/-- **C129**, tile: with the same options, files that differ only in the spatial reference are split into tiles with the same points, each with the spatial reference of
its file.  (The names of the
tiles have to be new, and writing them has to succeed.) -/
theorem c129_tile (p : Params) (w : World) (argv argv' : List Str) (hopt : Cmd.tile.options argv' = Cmd.tile.options argv) (i i' : Str)
    (hops : Cmd.tile.operands argv = [i]) (hops' : Cmd.tile.operands argv' = [i']) (hi : i ≠ []) (hi' : i' ≠ []) (f f' : SpocFile)
    (hf : HasCloud p w.fs i f) (hf' : HasCloud p w.fs i' f') (ht : ButText f f') (a : Tile.Args)
    (ha : Tile.getArgs (Cmd.tile.options argv) {} = .ok a) (hv : a.version = false) (hh : a.help = false) {sx sy : F64}
    {numbers : List UInt64} (hsz : Tile.tileSizes a (Extent.ofPoints f.prs) = .ok (sx, sy))
    (hn : Tile.getTileIndexes f.prs (Extent.ofPoints f.prs) sx sy = .ok numbers)
    (hpre : (if a.pre.isEmpty then Tile.stem i else a.pre) ≠ []) (hpre' : (if a.pre.isEmpty then Tile.stem i' else a.pre) ≠ [])
    (hnew : ∀ k ∈ numbers, w.fs (tileName { a with fn := i } f k) = none ∧ w.canCreate (tileName { a with fn := i } f k) = true)
    (hnew' : ∀ k ∈ numbers, w.fs (tileName { a with fn := i' } f' k) = none ∧ w.canCreate (tileName { a with fn := i' } f' k) = true)
    (hw : ∀ k ∈ numbers, (Io.writeFile p.build p.zlib (tileOf f numbers k)).res = .ok ())
    (hw' : ∀ k ∈ numbers, (Io.writeFile p.build p.zlib (tileOf f' numbers k)).res = .ok ()) :
    (Name.tile.run p argv w).res = .ok 0 ∧ (Name.tile.run p argv' w).res = .ok 0
      ∧ ∀ k ∈ numbers, ∃ g g', ButText g g' ∧ g.wkt = f.wkt ∧ g'.wkt = f'.wkt
          ∧ content (Name.tile.run p argv w).fs (tileName { a with fn := i } f k) = some (Io.writeFile p.build p.zlib g).bytes
          ∧ content (Name.tile.run p argv' w).fs (tileName { a with fn := i' } f' k) = some (Io.writeFile p.build p.zlib g').bytes := by
  obtain ⟨x, s, x1, x2, x3⟩ := hf
  obtain ⟨x', s', y1, y2, y3⟩ := hf'
  have hin : tileInput i w.stdin w.fs = some { rest := x.content } := by
    have hi' : i.isEmpty = false := by simpa using hi
    simp only [tileInput, hi', Bool.false_eq_true, if_false, x1, x2, if_true]
  have hin' : tileInput i' w.stdin w.fs = some { rest := x'.content } := by
    have hi' : i'.isEmpty = false := by simpa using hi'
    simp only [tileInput, hi', Bool.false_eq_true, if_false, y1, y2, if_true]
  obtain ⟨fs1, e1, h1, -⟩ := c43_tiles_written p.build p.zlib w.canCreate (Cmd.tile.options argv) i w.stdin _ s w.fs a f ha hv hh
    (Or.inl hi) hin x3 hsz hn hpre (fun k hk => (hnew k hk).1) (fun k hk => (hnew k hk).2) hw
  rw [← ht.2] at hsz hn
  obtain ⟨fs2, e2, h2, -⟩ := c43_tiles_written p.build p.zlib w.canCreate (Cmd.tile.options argv) i' w.stdin _ s' w.fs a f' ha hv hh
    (Or.inl hi') hin' y3 hsz hn hpre' (fun k hk => (hnew' k hk).1) (fun k hk => (hnew' k hk).2) hw'
  have er : Name.tile.run p argv w = ⟨fs1, [], .ok 0⟩ := by
    simp only [Name.run, Main.tile, withOperands, ha, hh, hops, one, Res.ok_bind, hv, Bool.false_eq_true, if_false, e1]
    rfl
  have er' : Name.tile.run p argv' w = ⟨fs2, [], .ok 0⟩ := by
    simp only [Name.run, Main.tile, withOperands, hopt, ha, hh, hops', one, Res.ok_bind, hv, Bool.false_eq_true, if_false, e2]
    rfl
  rw [er, er']
  refine ⟨rfl, rfl, fun k hk => ⟨tileOf f numbers k, tileOf f' numbers k, ⟨ht.1, ?_⟩, rfl, rfl, ?_, ?_⟩⟩
  · show pointsNumbered f'.prs numbers k = pointsNumbered f.prs numbers k
    rw [ht.2]
  · simp only [content, h1 k hk, Option.map_some]
  · simp only [content, h2 k hk, Option.map_some]

/-- **C129**, merge: with the same options, the points that merge writes do not depend on the spatial references of the files, and the
merged cloud has that of the first file; or both runs come to the same end without writing a cloud. -/
theorem c129_merge (p : Params) (w : World) (argv argv' : List Str) (hopt : Cmd.merge.options argv' = Cmd.merge.options argv)
    (f f' : SpocFile) (fs fs' : List SpocFile) (hf : List.Forall₂ (fun n f => HasCloud p w.fs n f) (Cmd.merge.operands argv) (f :: fs))
    (hf' : List.Forall₂ (fun n f => HasCloud p w.fs n f) (Cmd.merge.operands argv') (f' :: fs'))
    (ht : List.Forall₂ ButText (f :: fs) (f' :: fs')) :
    (∃ g g', ButText g g' ∧ g.wkt = f.wkt ∧ g'.wkt = f'.wkt ∧ Name.merge.run p argv w = outputStream w [] (Io.writeFile p.build p.zlib g)
        ∧ Name.merge.run p argv' w = outputStream w [] (Io.writeFile p.build p.zlib g'))
      ∨ Name.merge.run p argv' w = Name.merge.run p argv w := by
  have hs : ∀ {ns ns' : List Str} {fs fs' : List SpocFile}, List.Forall₂ ButText fs fs' → List.Forall₂ (fun n f => HasCloud p w.fs n f) ns fs →
      List.Forall₂ (fun n f => HasCloud p w.fs n f) ns' fs' →
      List.Forall₂ (fun s s' => ∃ x x' f c r r', s = some x ∧ s' = some x' ∧ Io.readFile p.build p.zlib x = .ok (f, r)
        ∧ Io.readFile p.build p.zlib x' = .ok (label c f, r') ∧ f.wkt.length ≤ 0xFFFF ∧ c.length ≤ 0xFFFF) (ns.map (openRead w.fs))
          (ns'.map (openRead w.fs)) := by
    intro ns ns' fs fs' ht
    induction ht generalizing ns ns' with
    | nil => intro hf hf'; cases hf; cases hf'; exact .nil
    | cons h _ ih =>
      intro hf hf'
      cases hf with
      | cons a1 a2 =>
        cases hf' with
        | cons b1 b2 =>
          refine .cons ?_ (ih a2 b2)
          have e := butText_label a1 b1 h
          obtain ⟨s, s', h1, h2⟩ := hasCloud_open a1
          obtain ⟨t, t', h3, h4⟩ := hasCloud_open b1
          exact ⟨s, t, _, _, s', t', h1, h3, h2, e ▸ h4, hasCloud_wkt a1, hasCloud_wkt b1⟩
  obtain ⟨n, ns, a1, a2, en⟩ := List.forall₂_cons_right_iff.mp hf
  obtain ⟨n', ns', b1, b2, en'⟩ := List.forall₂_cons_right_iff.mp hf'
  obtain ⟨t1, t2⟩ := List.forall₂_cons.mp ht
  have hs2 := hs t2 a2 b2
  have hl : (n' :: ns').length = (n :: ns).length := by
    have := hs2.length_eq
    simp only [List.length_map] at this
    simp only [List.length_cons, this]
  have e := butText_label a1 b1 t1
  obtain ⟨s, s', h1, h2⟩ := hasCloud_open a1
  obtain ⟨t, t', h3, h4⟩ := hasCloud_open b1
  simp only [Name.run, Main.merge, Merge.main, hopt, en, en', List.length_map, hl]
  cases Merge.getArgs (Cmd.merge.options argv) {} with
  | ok a =>
    simp only
    split
    · exact .inr rfl
    · split
      · exact .inr rfl
      · split
        · exact .inr rfl
        · simp only [List.map_cons, h1, h3, Merge.mergeLoop, Apps.fileOf, h2, h4, Res.ok_bind]
          obtain ⟨m1, m2⟩ := mergeOne_label (c := f'.wkt) a 0 (t := []) (t' := [])
            (st := { g := SpocFile.empty.setCompressed true, areaSum := F64.zero, log := [] })
            (st' := { g := SpocFile.empty.setCompressed true, areaSum := F64.zero, log := [] }) ⟨rfl, rfl, rfl⟩ f (u := f.wkt) (u' := f'.wkt) rfl rfl
            (hasCloud_wkt a1) (hasCloud_wkt b1) (hasCloud_wkt a1) (hasCloud_wkt b1)
          rw [← e] at m1 m2
          rcases hm : Merge.mergeOne a 0 { g := SpocFile.empty.setCompressed true, areaSum := F64.zero, log := [] } f with ⟨v, q⟩
          rcases hm' : Merge.mergeOne a 0 { g := SpocFile.empty.setCompressed true, areaSum := F64.zero, log := [] } f' with ⟨v', q'⟩
          rw [hm, hm'] at m1 m2
          obtain rfl : q' = q := m2
          cases q' with
          | ok _ =>
            simp only
            obtain ⟨k1, k2⟩ := mergeLoop_label p.build p.zlib a _ _ (0 + 1) (by omega) m1 (hasCloud_wkt a1) (hasCloud_wkt b1) hs2
            rcases hl : Merge.mergeLoop p.build p.zlib a (0 + 1) (ns.map (openRead w.fs)) v with ⟨x, q⟩
            rcases hl' : Merge.mergeLoop p.build p.zlib a (0 + 1) (ns'.map (openRead w.fs)) v' with ⟨x', q'⟩
            rw [hl, hl'] at k1 k2
            obtain rfl : q' = q := k2
            cases q' with
            | ok _ =>
              obtain ⟨c1, c2, -⟩ := k1
              refine .inl ⟨x.g, x'.g, ?_, c2, ?_, rfl, rfl⟩
              · rw [show x'.g = label f'.wkt x.g from c1]
                exact ⟨rfl, rfl⟩
              · rw [show x'.g = label f'.wkt x.g from c1]
                rfl
            | _ => exact .inr rfl
          | _ => exact .inr rfl
  | _ => exact .inr rfl

/-- **C129**, transform: if a run with some commands succeeds, then it succeeds for the file with another spatial reference too, with the
same points, and each output has the spatial reference of its input. -/
theorem c129_transform (p : Params) (w : World) (argv argv' : List Str)
    (hopt : Cmd.transform.options argv' = Cmd.transform.options argv) (i i' o o' : Str) (hops : Cmd.transform.operands argv = [i, o])
    (hops' : Cmd.transform.operands argv' = [i', o']) (hi : i ≠ []) (hi' : i' ≠ []) (ho : o ≠ []) (ho' : o' ≠ []) (hio : i ≠ o) (hio' : i' ≠ o')
    (hc : CanReplace w o) (hc' : CanReplace w o') (f f' : SpocFile) (hf : Holds p w.fs i f) (hf' : Holds p w.fs i' f') (ht : f'.prs = f.prs)
    (a : Transform.Args) (ha : Transform.getArgs (Cmd.transform.options argv) {} = .ok a) (hv : a.version = false) (hh : a.help = false)
    (hok : (Name.transform.run p argv w).res = .ok 0) :
    (Name.transform.run p argv' w).res = .ok 0
      ∧ ∃ qs, Leaves p w o { f with prs := qs } (Name.transform.run p argv w) ∧ Leaves p w o' { f' with prs := qs } (Name.transform.run p argv' w) := by
  obtain ⟨hu, hs, x, tl, x1, x2, x3⟩ := hf
  obtain ⟨hu', hs', x', tl', y1, y2, y3⟩ := hf'
  have hef : f'.extraFields = f.extraFields := by
    unfold SpocFile.extraFields
    rw [ht]
  have hin : inputStream w i = .ok { rest := x.content } := by simp [inputStream, hi, openRead, x1, x2]
  have hin' : inputStream w i' = .ok { rest := x'.content } := by simp [inputStream, hi', openRead, y1, y2]
  have he : (decide (i = o)) = false := by simpa using hio
  have he' : (decide (i' = o')) = false := by simpa using hio'
  have hk : a.commands.isEmpty = false := by
    cases hk : a.commands.isEmpty with
    | false => rfl
    | true =>
      exfalso
      simp only [Name.run, Main.transform, transformArgs, withOperands, ha, hh, hops, inOut, Res.ok_bind, hv, Bool.false_eq_true, if_false,
        hk, if_true] at hok
      cases hok
  have r1 : Name.transform.run p argv w = outputStream w o (Transform.apply p.build p.env { rest := x.content } a.commands (UInt64.ofInt a.seed).toNat) := by
    simp only [Name.run, Main.transform, transformArgs, withOperands, ha, hh, hops, inOut, Res.ok_bind, hv, Bool.false_eq_true, if_false,
      hk, hin, he, Bool.and_false]
  have r2 : Name.transform.run p argv' w = outputStream w o' (Transform.apply p.build p.env { rest := x'.content } a.commands (UInt64.ofInt a.seed).toNat) := by
    simp only [Name.run, Main.transform, transformArgs, withOperands, hopt, ha, hh, hops', inOut, Res.ok_bind, hv, Bool.false_eq_true, if_false,
      hk, hin', he', Bool.and_false]
  have hres : (Transform.apply p.build p.env { rest := x.content } a.commands (UInt64.ofInt a.seed).toNat).res = .ok () := by
    obtain ⟨z, hz, -⟩ := openWrite_readable hc
    have hoe : o.isEmpty = false := by simpa using ho
    rw [r1] at hok
    simp only [outputStream, hoe, Bool.false_eq_true, if_false, hz] at hok
    cases hr : (Transform.apply p.build p.env { rest := x.content } a.commands (UInt64.ofInt a.seed).toNat).res with
    | ok u => rfl
    | _ => rw [hr] at hok; simp [zero] at hok
  rw [x3] at hres r1
  rw [y3] at r2
  obtain ⟨ops, qs, t1, t2, t3⟩ := (apply_written p.build p.zlib p.env f hs.1 hu tl a.commands _ _).mp (show _ = (⟨_, .ok ()⟩ : Out Unit) by rw [← hres])
  obtain ⟨-, c1⟩ := changed (b := p.build) hs hu t1 t2
  rw [← hef] at t1
  rw [← ht] at t2
  have t4 := (apply_written p.build p.zlib p.env f' hs'.1 hu' tl' a.commands _ _).mpr ⟨ops, qs, t1, t2, rfl⟩
  obtain ⟨-, c2⟩ := changed (b := p.build) hs' hu' t1 t2
  have e1 : Transform.apply p.build p.env { rest := (Io.writeFile p.build p.zlib f).bytes ++ tl } a.commands (UInt64.ofInt a.seed).toNat
      = Io.writeFile p.build p.zlib { f with prs := qs } := by
    rw [c1, ← t3, ← hres]
  have e2 : Transform.apply p.build p.env { rest := (Io.writeFile p.build p.zlib f').bytes ++ tl' } a.commands (UInt64.ofInt a.seed).toNat
      = Io.writeFile p.build p.zlib { f' with prs := qs } := by
    rw [c2, t4]
  rw [e1] at r1
  rw [e2] at r2
  have k1 := outputStream_cloud_leaves (p := p) ho hc { f with prs := qs }
  have k2 := outputStream_cloud_leaves (p := p) ho' hc' { f' with prs := qs }
  rw [← r1] at k1
  rw [← r2] at k2
  exact ⟨k2.2.2.1.mpr (by rw [c2]), qs, k1, k2⟩

/-- **C129**: setting the spatial reference and then filtering gives the cloud that filtering and then setting the spatial reference gives. -/
theorem c129_srs_filter (p : Params) (hz : p.zlib.Correct) (hsh : p.shuffle.Lawful) (w : World) (sargv sargv' fargv fargv' : List Str)
    (i m m' o o' t : Str) (hsopt : Cmd.srs.options sargv = [("srs", t)]) (hsops : Cmd.srs.operands sargv = [i, m])
    (hsopt' : Cmd.srs.options sargv' = [("srs", t)]) (hsops' : Cmd.srs.operands sargv' = [m', o']) (r : FilterRequest)
    (hfopt : Asks (Cmd.filter.options fargv) r) (hfops : Cmd.filter.operands fargv = [m, o])
    (hfopt' : Asks (Cmd.filter.options fargv') r) (hfops' : Cmd.filter.operands fargv' = [i, m'])
    (hi : i ≠ []) (hm : m ≠ []) (hm' : m' ≠ []) (ho : o ≠ [])
    (hcm : CanReplace w m) (hcm' : CanReplace w m') (hco : CanReplace (after .srs p sargv w) o) (hco' : CanReplace (after .filter p fargv' w) o')
    (f : SpocFile) (hf : HasCloud p w.fs i f) (qs : List PointRecord) (hq : FilterSteps p.build p.shuffle r f.prs qs)
    (hs : Survives p.zlib { f with wkt := Main.bytes t }) (hs1 : Survives p.zlib { f with prs := qs })
    (hs2 : Survives p.zlib { f with wkt := Main.bytes t, prs := qs }) :
    Makes .srs p w sargv m { f with wkt := Main.bytes t } ∧ Makes .filter p w fargv' m' { f with prs := qs }
      ∧ Makes .filter p (after .srs p sargv w) fargv o { f with wkt := Main.bytes t, prs := qs }
      ∧ Makes .srs p (after .filter p fargv' w) sargv' o' { f with wkt := Main.bytes t, prs := qs } := by
  have k1 := c76_srs_partial p hz w sargv i m t hsopt hsops hcm f hf hs
  have k2 := c76_filter_partial p hz hsh w fargv' i m' r hfopt' hfops' hi hm' hcm' f hf qs hq hs1
  exact ⟨k1, k2, c76_filter_partial p hz hsh _ fargv m o r hfopt hfops hm ho hco _ k1.2.2.1 qs hq hs2,
    c76_srs_partial p hz _ sargv' m' o' t hsopt' hsops' hco' _ k2.2.2.1 hs2⟩

/-- **C129**, upsampling: the spatial reference of the file that the classes come from does not matter; the same cloud is written. -/
theorem c129_upsample (p : Params) (w : World) (argv argv' : List Str) (i i' o o' : Str)
    (hopt : Cmd.tool.options argv' = Cmd.tool.options argv) (hops : Cmd.tool.operands argv = [i, o]) (hops' : Cmd.tool.operands argv' = [i', o'])
    (hi : i ≠ []) (hi' : i' ≠ []) (ho : o ≠ []) (ho' : o' ≠ []) (hc : CanReplace w o) (hc' : CanReplace w o')
    (a : Tool.Args) (ha : Tool.getArgs (Cmd.tool.options argv) {} = .ok a) (hup : a.command.name = "upsample-classifications")
    (f f' : SpocFile) (hf : HasCloud p w.fs i f) (hf' : HasCloud p w.fs i' f') (ht : ButText f f') :
    (∃ g, Leaves p w o g (Name.tool.run p argv w) ∧ Leaves p w o' g (Name.tool.run p argv' w))
      ∨ (Name.tool.run p argv w = Name.tool.run p argv' w ∧ (Name.tool.run p argv w).fs = w.fs) := by
  have e := butText_label hf hf' ht
  obtain ⟨s, s', h1, h2⟩ := inputStream_cloud hi hf
  obtain ⟨t, t', h3, h4⟩ := inputStream_cloud hi' hf'
  have hch : Tool.run p.build p.zlib (toolFiles w.fs) a f' = Tool.run p.build p.zlib (toolFiles w.fs) a f := by
    have k : outLabel f'.wkt a.command.name = id := by
      funext g
      exact if_pos hup
    rw [e, run_label, k, id_map]
  have hg : (a.command.name = "get-field") = False := by
    rw [hup]
    decide
  simp only [Name.run, Main.tool, toolArgs, withOperands, hopt, hops, hops', inOut, Res.ok_bind, ha]
  by_cases hh : a.help = true
  · right
    simp only [hh, if_true, true_and]
    split <;> rfl
  · simp only [hh, Bool.false_eq_true, if_false]
    split
    · exact .inr ⟨rfl, rfl⟩
    · split
      · exact .inr ⟨rfl, rfl⟩
      · simp only [hg, if_false, readThenWrite, h1, h3, Res.ok_bind, Apps.fileOf, h2, h4, hch]
        cases hr : Tool.run p.build p.zlib (toolFiles w.fs) a f with
        | ok g => exact .inl ⟨g, outputStream_cloud_leaves ho hc g, outputStream_cloud_leaves ho' hc' g⟩
        | throw e => exact .inr ⟨rfl, rfl⟩
        | ub e => exact .inr ⟨rfl, rfl⟩
        | abort => exact .inr ⟨rfl, rfl⟩
        | hang => exact .inr ⟨rfl, rfl⟩

/-! ## Examples -/

/-- The files of the examples, and a file called `e` with the same points and the spatial reference `W`. -/
def textDisk : World where
  fs := fun n =>
    if n = ['e'] then some { content := (Io.writeFile .release toyZlib { cloudA with wkt := [87] }).bytes, readable := true, writable := true }
    else exampleDisk.fs n
  canCreate _ := true
  stdin := { rest := [] }

theorem cloudE_survives : Survives toyZlib { cloudA with wkt := [87] } :=
  ⟨⟨rfl, rfl, by decide, cloudA_survives.1.uniform, by decide, by decide⟩, fun _ => by decide, fun h => by simp [cloudA, SpocFile.empty] at h⟩

theorem text_on_disk : Holds exampleParams textDisk.fs ['a'] cloudA ∧ Holds exampleParams textDisk.fs ['e'] { cloudA with wkt := [87] } :=
  ⟨⟨rfl, cloudA_survives, _, [], rfl, rfl, (List.append_nil _).symm⟩, ⟨rfl, cloudE_survives, _, [], rfl, rfl, (List.append_nil _).symm⟩⟩

theorem textA : HasCloud exampleParams textDisk.fs ['a'] cloudA := holds_cloud toyZlib_correct text_on_disk.1
theorem textE : HasCloud exampleParams textDisk.fs ['e'] { cloudA with wkt := [87] } := holds_cloud toyZlib_correct text_on_disk.2

theorem butE : ButText cloudA { cloudA with wkt := [87] } := ⟨rfl, rfl⟩

example : CarriedAlong exampleParams textDisk ['o'] ['u'] cloudA { cloudA with wkt := [87] }
    (Name.tool.run exampleParams ["--subtract-min-xy".toList, ['a'], ['o']] textDisk)
    (Name.tool.run exampleParams ["--subtract-min-xy".toList, ['e'], ['u']] textDisk) :=
  c129_filter_tool .tool (.inr rfl) exampleParams textDisk _ _ ['a'] ['e'] ['o'] ['u'] (by decide +kernel) (by decide +kernel)
    (by decide +kernel) (by decide) (by decide) (by decide) (by decide) rfl rfl _ _ textA textE butE (fun _ => by decide +kernel)

example : Name.diff.run exampleParams [['-', 'd'], ['a'], ['e']] textDisk = Name.diff.run exampleParams [['-', 'd'], ['a'], ['a']] textDisk :=
  c129_diff exampleParams textDisk _ _ (by decide +kernel) ⟨("data-only", []), by decide +kernel, .inl rfl⟩ ['a'] ['a'] ['a'] ['e']
    (by decide +kernel) (by decide +kernel) cloudA cloudA cloudA _ textA textA textA textE ⟨rfl, rfl⟩ butE

example : Name.info.run exampleParams [['-', 'a'], ['e']] textDisk = Name.info.run exampleParams [['-', 'a'], ['a']] textDisk :=
  c129_info exampleParams textDisk _ _ (by decide +kernel) { headerInfo := false } (by decide +kernel) rfl [cloudA]
    [{ cloudA with wkt := [87] }] (.cons textA .nil) (.cons textE .nil) (.cons butE .nil)

example : (Name.tile.run exampleParams ["-s10".toList, ['e']] textDisk).res = .ok 0 :=
  (c129_tile exampleParams textDisk ["-s10".toList, ['a']] ["-s10".toList, ['e']] (by decide +kernel) ['a'] ['e'] (by decide +kernel)
    (by decide +kernel) (by decide) (by decide) cloudA { cloudA with wkt := [87] } textA textE butE
    { tileSize := num 10 } (by decide +kernel) rfl rfl (sx := num 10) (sy := num 10) (numbers := [0, 1, 3]) (by decide +kernel)
    (by decide +kernel) (by decide)
    (by decide) (by decide +kernel) (by decide +kernel) (by decide +kernel) (by decide +kernel)).2.1

example : (∃ g g', ButText g g' ∧ g.wkt = [] ∧ g'.wkt = [87]
      ∧ Name.merge.run exampleParams [['a'], ['e']] textDisk = outputStream textDisk [] (Io.writeFile .release toyZlib g)
      ∧ Name.merge.run exampleParams [['e'], ['a']] textDisk = outputStream textDisk [] (Io.writeFile .release toyZlib g'))
    ∨ Name.merge.run exampleParams [['e'], ['a']] textDisk = Name.merge.run exampleParams [['a'], ['e']] textDisk :=
  c129_merge exampleParams textDisk [['a'], ['e']] [['e'], ['a']] (by decide +kernel) cloudA { cloudA with wkt := [87] }
    [{ cloudA with wkt := [87] }] [cloudA] (.cons textA (.cons textE .nil)) (.cons textE (.cons textA .nil))
    (.cons butE (.cons ⟨rfl, rfl⟩ .nil))

example : (Name.transform.run exampleParams (transformLine ['e'] ['u']) textDisk).res = .ok 0 :=
  (c129_transform exampleParams textDisk (transformLine ['a'] ['o']) (transformLine ['e'] ['u']) (by decide +kernel) ['a'] ['e'] ['o'] ['u']
    (by decide +kernel) (by decide +kernel) (by decide) (by decide) (by decide) (by decide) (by decide) (by decide) rfl rfl _ _
    text_on_disk.1 text_on_disk.2 rfl { commands := [⟨"copy-field", "i,c".toList⟩] } (by decide +kernel) rfl rfl (by decide +kernel)).1

example : (∃ g, Leaves exampleParams textDisk ['o'] g
        (Name.tool.run exampleParams ["--upsample-classifications=d".toList, "--resolution=10".toList, ['a'], ['o']] textDisk)
      ∧ Leaves exampleParams textDisk ['u'] g
        (Name.tool.run exampleParams ["--upsample-classifications=d".toList, "--resolution=10".toList, ['e'], ['u']] textDisk))
    ∨ (Name.tool.run exampleParams ["--upsample-classifications=d".toList, "--resolution=10".toList, ['a'], ['o']] textDisk
        = Name.tool.run exampleParams ["--upsample-classifications=d".toList, "--resolution=10".toList, ['e'], ['u']] textDisk
      ∧ (Name.tool.run exampleParams ["--upsample-classifications=d".toList, "--resolution=10".toList, ['a'], ['o']] textDisk).fs = textDisk.fs) := by
  have h : (match Tool.getArgs (Cmd.tool.options ["--upsample-classifications=d".toList, "--resolution=10".toList, ['a'], ['o']]) {} with
      | .ok a => decide (a.command.name = "upsample-classifications")
      | _ => false) = true := by decide +kernel
  cases ha : Tool.getArgs (Cmd.tool.options ["--upsample-classifications=d".toList, "--resolution=10".toList, ['a'], ['o']]) {} with
  | ok a =>
    rw [ha] at h
    exact c129_upsample exampleParams textDisk _ _ ['a'] ['e'] ['o'] ['u'] (by decide +kernel) (by decide +kernel) (by decide +kernel)
      (by decide) (by decide) (by decide) (by decide) rfl rfl a ha (of_decide_eq_true h) _ _ textA textE butE
  | _ => rw [ha] at h; cases h

/-- Setting the spatial reference of `a` to `W` and keeping class 2, in both orders. -/
example : Makes .srs exampleParams (after .filter exampleParams [['-', 'k', '2'], ['a'], ['o']] exampleDisk) (srsLine ['W'] ['o'] ['u']) ['u']
    { cloudA with wkt := [87], prs := [] } := by
  have e : ∀ i o : Str, i = ['a'] ∧ o = ['o'] ∨ i = ['m'] ∧ o = ['n'] → Cmd.filter.options [['-', 'k', '2'], i, o] = [("keep-class", ['2'])]
      ∧ Cmd.filter.operands [['-', 'k', '2'], i, o] = [i, o] := by
    rintro i o (⟨rfl, rfl⟩ | ⟨rfl, rfl⟩) <;> decide +kernel
  have asks : Asks [("keep-class", ['2'])] { keep := [2] } :=
    ⟨by decide, by decide, by decide, by decide, by decide, by simp, rfl, .inr ⟨rfl, rfl⟩, by decide, .inl rfl⟩
  refine (c129_srs_filter exampleParams toyZlib_correct (fun _ l => List.Perm.refl l) exampleDisk (srsLine ['W'] ['a'] ['m'])
    (srsLine ['W'] ['o'] ['u']) [['-', 'k', '2'], ['m'], ['n']] [['-', 'k', '2'], ['a'], ['o']] ['a'] ['m'] ['o'] ['n'] ['u'] ['W']
    (srsLine_parse _ _ _).1 (srsLine_parse _ _ _).2 (srsLine_parse _ _ _).1 (srsLine_parse _ _ _).2 { keep := [2] }
    (by rw [(e ['m'] ['n'] (.inr ⟨rfl, rfl⟩)).1]; exact asks) (e ['m'] ['n'] (.inr ⟨rfl, rfl⟩)).2
    (by rw [(e ['a'] ['o'] (.inl ⟨rfl, rfl⟩)).1]; exact asks) (e ['a'] ['o'] (.inl ⟨rfl, rfl⟩)).2 (by decide) (by decide) (by decide)
    (by decide) rfl rfl ?_ ?_ cloudA cloudA_on_disk.1 [] ⟨_, _, _, _, rfl, rfl, rfl, rfl, ?_⟩ cloudE_survives
    (survives_sublist cloudA_survives rfl (List.nil_sublist _)) (survives_sublist cloudE_survives rfl (List.nil_sublist _))).2.2.2
  · have e1 : ((after .srs exampleParams (srsLine ['W'] ['a'] ['m']) exampleDisk).fs ['n']).isNone = true := by decide +kernel
    unfold CanReplace
    rw [Option.isNone_iff_eq_none.mp e1]
    rfl
  · have e1 : ((after .filter exampleParams [['-', 'k', '2'], ['a'], ['o']] exampleDisk).fs ['u']).isNone = true := by decide +kernel
    unfold CanReplace
    rw [Option.isNone_iff_eq_none.mp e1]
    rfl
  · decide

end Spoc.Props
