import Verif.Proofs.Reordered
import Verif.Props.Carried
import Verif.Props.FilterTransform

/-!
# C130: the points in another order lead to the same points in another order
-/

namespace Spoc.Props

open Getopt Cmd Main Spec Spec.Cmd Text Transform Spoc.Reordered

/-- The second cloud has the points of the first in another order; the rest is the same. -/
def Rearranged (f g : SpocFile) : Prop := g.wkt = f.wkt ∧ g.compressed = f.compressed ∧ f.prs.Perm g.prs

/-- The two runs leave rearranged clouds in their output files, or they print the same, come to the same end, and change no file. -/
def InStep (p : Params) (w : World) (o o' : Str) (r r' : Result) : Prop :=
  (∃ g g', Rearranged g g' ∧ Leaves p w o g r ∧ Leaves p w o' g' r') ∨ (r = r' ∧ r.fs = w.fs)

theorem rearranged_like {p : Params} {fs : Tile.FS} {i i' : Str} {f f' : SpocFile} (h : HasCloud p fs i f) (h' : HasCloud p fs i' f')
    (ht : Rearranged f f') : Like f f' := by
  obtain ⟨_, _, _, _, h1⟩ := h
  obtain ⟨_, _, _, _, h2⟩ := h'
  have w1 := readable_writable h1
  have w2 := readable_writable h2
  refine ⟨?_, ht.2.2, w1.uniform⟩
  obtain ⟨a, b, c, d, e⟩ := f
  obtain ⟨a', b', c', d', e'⟩ := f'
  obtain ⟨rfl, rfl, -⟩ := ht
  obtain rfl : a = _ := w1.major
  obtain rfl : b = _ := w1.minor
  obtain rfl : a' = _ := w2.major
  obtain rfl : b' = _ := w2.minor
  rfl

theorem like_rearranged {f g : SpocFile} (h : Like f g) : Rearranged f g := by
  refine ⟨?_, ?_, h.2.1⟩ <;> rw [h.1]

theorem inStep_files {p : Params} {w : World} {i i' o o' : Str} (hi : i ≠ []) (hi' : i' ≠ []) (ho : o ≠ []) (ho' : o' ≠ [])
    (hc : CanReplace w o) (hc' : CanReplace w o') {f f' : SpocFile} (hf : HasCloud p w.fs i f) (hf' : HasCloud p w.fs i' f')
    (change : SpocFile → Res SpocFile) (h : Both (change f) (change f')) :
    InStep p w o o'
      (readThenWrite w i o (fun s => do
        let f ← Apps.fileOf (Io.readFile p.build p.zlib s)
        change f) (Io.writeFile p.build p.zlib))
      (readThenWrite w i' o' (fun s => do
        let f ← Apps.fileOf (Io.readFile p.build p.zlib s)
        change f) (Io.writeFile p.build p.zlib)) := by
  obtain ⟨s, s', h1, h2⟩ := inputStream_cloud hi hf
  obtain ⟨t, t', h3, h4⟩ := inputStream_cloud hi' hf'
  simp only [readThenWrite, h1, h3, Res.ok_bind, Apps.fileOf, h2, h4]
  rcases h with ⟨g, g', e, e', h⟩ | ⟨e, hn⟩
  · rw [e, e']
    exact .inl ⟨g, g', like_rearranged h, outputStream_cloud_leaves ho hc g, outputStream_cloud_leaves ho' hc' g'⟩
  · rw [← e]
    cases hr : change f with
    | ok g => rw [hr] at hn; cases hn
    | throw e => exact .inr ⟨rfl, rfl⟩
    | ub e => exact .inr ⟨rfl, rfl⟩
    | abort => exact .inr ⟨rfl, rfl⟩
    | hang => exact .inr ⟨rfl, rfl⟩

/-- **C130**, filter: by class and by coordinates, whatever the options, a file and the file with the points in another order lead to the same
points in another order.  (Without `--unique-xyz` and `--subsample`, which choose between points.) -/
theorem c130_filter_partial (p : Params) (w : World) (argv argv' : List Str) (i i' o o' : Str)
    (hopt : Cmd.filter.options argv' = Cmd.filter.options argv) (hops : Cmd.filter.operands argv = [i, o])
    (hops' : Cmd.filter.operands argv' = [i', o']) (hno : ∀ x ∈ Cmd.filter.options argv, x.1 ≠ "unique-xyz" ∧ x.1 ≠ "subsample")
    (hi : i ≠ []) (hi' : i' ≠ []) (ho : o ≠ []) (ho' : o' ≠ []) (hc : CanReplace w o) (hc' : CanReplace w o')
    (f f' : SpocFile) (hf : HasCloud p w.fs i f) (hf' : HasCloud p w.fs i' f') (ht : Rearranged f f') :
    InStep p w o o' (Name.filter.run p argv w) (Name.filter.run p argv' w) := by
  have hl := rearranged_like hf hf' ht
  simp only [Name.run, Main.filter, filterArgs, withOperands, hopt, hops, hops', inOut, Res.ok_bind]
  cases ha : Filter.getArgs (Cmd.filter.options argv) {} with
  | ok a =>
    obtain ⟨k1, k2⟩ := getArgs_keeps _ _ ha
    simp only [Res.ok_bind]
    by_cases hh : a.help = true
    · simp only [hh, if_true]
      split <;> exact .inr ⟨rfl, rfl⟩
    · simp only [hh, Bool.false_eq_true, if_false]
      split
      · exact .inr ⟨rfl, rfl⟩
      · refine inStep_files hi hi' ho ho' hc hc' hf hf' (Filter.process p.build p.shuffle a) (process_both _ _ a ?_ ?_ hl)
        · exact k1 fun x hx => (hno x hx).1
        · rw [k2 fun x hx => (hno x hx).2]
          decide +kernel
  | throw e => exact .inr ⟨rfl, rfl⟩
  | ub e => exact .inr ⟨rfl, rfl⟩
  | abort => exact .inr ⟨rfl, rfl⟩
  | hang => exact .inr ⟨rfl, rfl⟩

/-- **C130**, tool: the commands resize-extra and subtract-min lead to the same points in another order.  (For subtract-min, no NaN and no zeros
of both signs among the coordinates.) -/
theorem c130_tool_partial (p : Params) (w : World) (argv argv' : List Str) (i i' o o' : Str)
    (hopt : Cmd.tool.options argv' = Cmd.tool.options argv) (hops : Cmd.tool.operands argv = [i, o])
    (hops' : Cmd.tool.operands argv' = [i', o']) (hi : i ≠ []) (hi' : i' ≠ []) (ho : o ≠ []) (ho' : o' ≠ []) (hc : CanReplace w o)
    (hc' : CanReplace w o') (a : Tool.Args) (ha : Tool.getArgs (Cmd.tool.options argv) {} = .ok a)
    (f f' : SpocFile) (hf : HasCloud p w.fs i f) (hf' : HasCloud p w.fs i' f') (ht : Rearranged f f')
    (hcmd : a.command.name = "resize-extra" ∨ ((a.command.name = "subtract-min-xy" ∨ a.command.name = "subtract-min-xyz") ∧ PlainCoordinates f.prs)) :
    InStep p w o o' (Name.tool.run p argv w) (Name.tool.run p argv' w) := by
  have hl := rearranged_like hf hf' ht
  have hch : Both (Tool.run p.build p.zlib (toolFiles w.fs) a f) (Tool.run p.build p.zlib (toolFiles w.fs) a f') := by
    unfold Tool.run
    rcases hcmd with h | ⟨h | h, hp⟩
    · simp only [h, String.reduceEq, if_false, if_true]
      split
      · exact .inr ⟨rfl, rfl⟩
      · split
        · exact .inr ⟨rfl, rfl⟩
        · split
          · exact .inr ⟨rfl, rfl⟩
          · exact resizeExtra_both _ _ hl
    · simp only [h, String.reduceEq, if_false, if_true]
      exact subtractMin_both _ _ hl hp
    · simp only [h, String.reduceEq, if_false, if_true]
      exact subtractMin_both _ _ hl hp
  have hg : (a.command.name = "get-field") = False := by
    rcases hcmd with h | ⟨h | h, -⟩ <;> rw [h] <;> decide
  simp only [Name.run, Main.tool, toolArgs, withOperands, hopt, hops, hops', inOut, Res.ok_bind, ha]
  by_cases hh : a.help = true
  · right
    simp only [hh, if_true, true_and]
    split <;> rfl
  · simp only [hh, Bool.false_eq_true, if_false]
    split
    · exact .inr ⟨rfl, rfl⟩
    · split
      · exact .inr ⟨rfl, rfl⟩
      · simp only [hg, if_false]
        exact inStep_files hi hi' ho ho' hc hc' hf hf' _ hch

/-- **C130**, merge: with the same options, the files with the points in another order are merged to the same points in another order, or both
runs come to the same end without writing a cloud. -/
theorem c130_merge (p : Params) (w : World) (argv argv' : List Str) (hopt : Cmd.merge.options argv' = Cmd.merge.options argv)
    (fs fs' : List SpocFile) (hf : List.Forall₂ (fun n f => HasCloud p w.fs n f) (Cmd.merge.operands argv) fs)
    (hf' : List.Forall₂ (fun n f => HasCloud p w.fs n f) (Cmd.merge.operands argv') fs') (ht : List.Forall₂ Rearranged fs fs') :
    (∃ g g', Rearranged g g' ∧ Name.merge.run p argv w = outputStream w [] (Io.writeFile p.build p.zlib g)
        ∧ Name.merge.run p argv' w = outputStream w [] (Io.writeFile p.build p.zlib g'))
      ∨ Name.merge.run p argv' w = Name.merge.run p argv w := by
  have hs : List.Forall₂ (fun s s' => ∃ x x' f f' r r', s = some x ∧ s' = some x' ∧ Io.readFile p.build p.zlib x = .ok (f, r)
      ∧ Io.readFile p.build p.zlib x' = .ok (f', r') ∧ Like f f' ∧ f.wkt.length ≤ 0xFFFF) ((Cmd.merge.operands argv).map (openRead w.fs))
        ((Cmd.merge.operands argv').map (openRead w.fs)) := by
    generalize Cmd.merge.operands argv = ns at hf
    generalize Cmd.merge.operands argv' = ns' at hf'
    induction ht generalizing ns ns' with
    | nil => cases hf; cases hf'; exact .nil
    | cons h _ ih =>
      cases hf with
      | cons a1 a2 =>
        cases hf' with
        | cons b1 b2 =>
          refine .cons ?_ (ih _ a2 _ b2)
          obtain ⟨s, s', h1, h2⟩ := hasCloud_open a1
          obtain ⟨t, t', h3, h4⟩ := hasCloud_open b1
          exact ⟨s, t, _, _, s', t', h1, h3, h2, h4, rearranged_like a1 b1 h, hasCloud_wkt a1⟩
  have hl := hs.length_eq
  simp only [Name.run, Main.merge, Merge.main, hopt]
  cases Merge.getArgs (Cmd.merge.options argv) {} with
  | ok a =>
    simp only [hl]
    split
    · exact .inr rfl
    · split
      · exact .inr rfl
      · split
        · exact .inr rfl
        · obtain ⟨k1, k2⟩ := mergeLoop_both p.build p.zlib a _ _ 0 (st := { g := SpocFile.empty.setCompressed true, areaSum := F64.zero, log := [] })
            (st' := { g := SpocFile.empty.setCompressed true, areaSum := F64.zero, log := [] })
            ⟨rfl, List.Perm.refl _, fun _ h => by simp [SpocFile.empty, SpocFile.setCompressed] at h⟩ (by decide) hs
          rcases hm : Merge.mergeLoop p.build p.zlib a 0 ((Cmd.merge.operands argv).map (openRead w.fs))
            { g := SpocFile.empty.setCompressed true, areaSum := F64.zero, log := [] } with ⟨v, q⟩
          rcases hm' : Merge.mergeLoop p.build p.zlib a 0 ((Cmd.merge.operands argv').map (openRead w.fs))
            { g := SpocFile.empty.setCompressed true, areaSum := F64.zero, log := [] } with ⟨v', q'⟩
          rw [hm, hm'] at k1 k2
          obtain rfl : q' = q := k2
          cases q' with
          | ok _ => exact .inl ⟨v.g, v'.g, like_rearranged k1, rfl, rfl⟩
          | _ => exact .inr rfl
  | _ => exact .inr rfl

/-- **C130**, transform: if a run with commands other than noise succeeds, then it succeeds for the points in another order too, with the same
points in that order: each point becomes the same point, wherever it stands. -/
theorem c130_transform_partial (p : Params) (w : World) (argv argv' : List Str) (os : List (String × Str))
    (hopt : Cmd.transform.options argv = os) (hopt' : Cmd.transform.options argv' = os) (hne : os ≠ []) (hos : ∀ o ∈ os, o.1 ∈ commandOptions)
    (i i' o o' : Str) (hops : Cmd.transform.operands argv = [i, o]) (hops' : Cmd.transform.operands argv' = [i', o']) (hi : i ≠ [])
    (hi' : i' ≠ []) (ho : o ≠ []) (ho' : o' ≠ []) (hio : i ≠ o) (hio' : i' ≠ o') (hc : CanReplace w o) (hc' : CanReplace w o')
    (f f' : SpocFile) (hf : Holds p w.fs i f) (hf' : Holds p w.fs i' f') (ht : Rearranged f f') (hok : (Name.transform.run p argv w).res = .ok 0) :
    (Name.transform.run p argv' w).res = .ok 0
      ∧ ∃ qs qs', Leaves p w o { f with prs := qs } (Name.transform.run p argv w) ∧ Leaves p w o' { f' with prs := qs' } (Name.transform.run p argv' w)
        ∧ (f.prs.zip qs).Perm (f'.prs.zip qs') := by
  obtain ⟨hu, hs, x, tl, x1, x2, x3⟩ := hf
  obtain ⟨hu', hs', x', tl', y1, y2, y3⟩ := hf'
  have hef : f'.extraFields = f.extraFields := by
    have h := ht.2.2
    unfold SpocFile.extraFields
    cases e : f.prs with
    | nil =>
      rw [e] at h
      rw [h.nil_eq.symm]
    | cons q l =>
      cases e' : f'.prs with
      | nil => rw [e'] at h; rw [h.eq_nil] at e; cases e
      | cons q' l' => exact hs'.1.uniform q' (by simp [e']) q (h.mem_iff.mp (by simp [e]))
  have r1 := transform_run p w argv os hopt hne hos i o hops hi hio x x1 x2
  have r2 := transform_run p w argv' os hopt' hne hos i' o' hops' hi' hio' x' y1 y2
  have hres : (Transform.apply p.build p.env { rest := x.content } (commandsOf os) 0).res = .ok () := by
    obtain ⟨z, hz, -⟩ := openWrite_readable hc
    have hoe : o.isEmpty = false := by simpa using ho
    rw [r1] at hok
    simp only [outputStream, hoe, Bool.false_eq_true, if_false, hz] at hok
    cases hr : (Transform.apply p.build p.env { rest := x.content } (commandsOf os) 0).res with
    | ok u => rfl
    | _ => rw [hr] at hok; simp [zero] at hok
  rw [x3] at hres r1
  rw [y3] at r2
  obtain ⟨ops, qs, t1, t2, t3⟩ := (apply_written p.build p.zlib p.env f hs.1 hu tl (commandsOf os) 0 _).mp
    (show _ = (⟨_, .ok ()⟩ : Out Unit) by rw [← hres])
  obtain ⟨-, c1⟩ := changed (b := p.build) hs hu t1 t2
  have hcs : ∀ c ∈ commandsOf os, c.name ∈ commandOptions := by
    intro c hc
    obtain ⟨x, hx, rfl⟩ := List.mem_map.mp hc
    exact hos x hx
  have hm : f.prs.mapM (applyOps 0 ops) = .ok qs := mapM_eq_ok.mpr ((applyAll_rel hcs t1 0 _ _).mp t2)
  obtain ⟨qs', hm', hz⟩ := mapM_perm ht.2.2 hm
  have t2' := (applyAll_rel hcs t1 0 _ _).mpr (mapM_eq_ok.mp hm')
  rw [← hef] at t1
  have t4 := (apply_written p.build p.zlib p.env f' hs'.1 hu' tl' (commandsOf os) 0 _).mpr ⟨ops, qs', t1, t2', rfl⟩
  obtain ⟨-, c2⟩ := changed (b := p.build) hs' hu' t1 t2'
  have e1 : Transform.apply p.build p.env { rest := (Io.writeFile p.build p.zlib f).bytes ++ tl } (commandsOf os) 0
      = Io.writeFile p.build p.zlib { f with prs := qs } := by
    rw [c1, ← t3, ← hres]
  have e2 : Transform.apply p.build p.env { rest := (Io.writeFile p.build p.zlib f').bytes ++ tl' } (commandsOf os) 0
      = Io.writeFile p.build p.zlib { f' with prs := qs' } := by
    rw [c2, t4]
  rw [e1] at r1
  rw [e2] at r2
  have k1 := outputStream_cloud_leaves (p := p) ho hc { f with prs := qs }
  have k2 := outputStream_cloud_leaves (p := p) ho' hc' { f' with prs := qs' }
  rw [← r1] at k1
  rw [← r2] at k2
  exact ⟨k2.2.2.1.mpr (by rw [c2]), qs, qs', k1, k2, hz⟩

theorem survives_rearranged {zl : Zlib} {f g : SpocFile} (h : Survives zl f) (ht : Rearranged f g) (h1 : g.major = f.major)
    (h2 : g.minor = f.minor) : Survives zl g := by
  obtain ⟨w, c, hp⟩ := ht
  refine ⟨⟨h1.trans h.1.major, h2.trans h.1.minor, w ▸ h.1.wkt, uniform_perm hp h.1.uniform, fun q hq => h.1.extra q (hp.mem_iff.mpr hq),
    hp.length_eq ▸ h.1.count⟩, fun e q hq => h.2.1 (c ▸ e) q (hp.mem_iff.mpr hq), fun e => ?_⟩
  obtain ⟨k1, k2⟩ := h.2.2 (c ▸ e)
  exact ⟨hp.length_eq ▸ k1, fun axis ha ho q hq => k2 axis ha (fun r hr => ho r (hp.mem_iff.mp hr)) q (hp.mem_iff.mpr hq)⟩

/-- The tile numbers do not depend on the order of the points. -/
theorem tiles_order {ps qs : List PointRecord} (hp : ps.Perm qs) (hf : ∀ q ∈ ps, Spec.Fin (pt q)) (a : Tile.Args) :
    Tile.tileSizes a (Extent.ofPoints qs) = Tile.tileSizes a (Extent.ofPoints ps)
      ∧ ∀ sx sy, Tile.getTileIndexes qs (Extent.ofPoints qs) sx sy = Tile.getTileIndexes qs (Extent.ofPoints ps) sx sy := by
  by_cases hne : ps = []
  · subst hne
    rw [hp.nil_eq.symm]
    exact ⟨rfl, fun _ _ => rfl⟩
  · have off : ∀ {q : PointRecord}, Spec.Fin (pt q) → Off 0 0 0 (pt q) (pt q) := fun h => off_zero h h ⟨rfl, rfl, rfl⟩
    obtain ⟨hmin, hmax⟩ := extent_off (D := 0) (E := 0) (F := 0) hne (fun p hp' => ⟨p, hp.mem_iff.mp hp', off (hf p hp')⟩)
      (fun q hq => ⟨q, hp.mem_iff.mpr hq, off (hf q (hp.mem_iff.mpr hq))⟩)
    refine ⟨?_, fun sx sy => ?_⟩
    · unfold Tile.tileSizes
      rw [getTileSize_off hmin hmax]
    · unfold Tile.getTileIndexes
      have h1 : Tile.getStride (Extent.ofPoints qs) sx = Tile.getStride (Extent.ofPoints ps) sx := by
        unfold Tile.getStride
        split
        · exact (F64.toU64_same (F64.add_same (F64.div_same (F64.sub_same hmax.fp.1 hmin.fp.1 hmax.fq.1 hmin.fq.1
            (by rw [hmin.x, hmax.x]; ring)) sx) (by decide))).symm
        · rfl
      have h2 : ∀ {s m n v : F64}, m.isFinite = true → n.isFinite = true → v.isFinite = true → n.fv = m.fv + 0 →
          Tile.index1 s n v = Tile.index1 s m v := by
        intro s m n v hm hn hv e
        unfold Tile.index1
        split
        · exact F64.toU64_same (F64.div_same (F64.sub_same hv hn hv hm (by rw [e]; ring)) s)
        · rfl
      rw [h1]
      refine congrArg _ (funext fun st => mapM_agree fun q hq => ?_)
      have k := hf q (hp.mem_iff.mpr hq)
      rw [h2 (v := q.x) hmin.fp.1 hmin.fq.1 k.1 hmin.x, h2 (v := q.y) hmin.fp.2.1 hmin.fq.2.1 k.2.1 hmin.y]

/-- **C130**, tile: with the same options, the points in another order are cut into the tiles with the same numbers, and each tile has the same
points in another order.  (For finite coordinates; the names of the tiles have to be new, and the tiles such that they can be written, see C01 and C02.) -/
theorem c130_tile_partial (p : Params) (w : World) (argv argv' : List Str) (hopt : Cmd.tile.options argv' = Cmd.tile.options argv) (i i' : Str)
    (hops : Cmd.tile.operands argv = [i]) (hops' : Cmd.tile.operands argv' = [i']) (hi : i ≠ []) (hi' : i' ≠ []) (f f' : SpocFile)
    (hf : HasCloud p w.fs i f) (hf' : HasCloud p w.fs i' f') (ht : Rearranged f f') (hfin : ∀ q ∈ f.prs, Spec.Fin (pt q)) (a : Tile.Args)
    (ha : Tile.getArgs (Cmd.tile.options argv) {} = .ok a) (hv : a.version = false) (hh : a.help = false) {sx sy : F64}
    {numbers : List UInt64} (hsz : Tile.tileSizes a (Extent.ofPoints f.prs) = .ok (sx, sy))
    (hn : Tile.getTileIndexes f.prs (Extent.ofPoints f.prs) sx sy = .ok numbers)
    (hpre : (if a.pre.isEmpty then Tile.stem i else a.pre) ≠ []) (hpre' : (if a.pre.isEmpty then Tile.stem i' else a.pre) ≠ [])
    (hnew : ∀ k ∈ numbers, w.fs (tileName { a with fn := i } f k) = none ∧ w.canCreate (tileName { a with fn := i } f k) = true)
    (hnew' : ∀ k ∈ numbers, w.fs (tileName { a with fn := i' } f' k) = none ∧ w.canCreate (tileName { a with fn := i' } f' k) = true)
    (hz : p.zlib.Correct) (hw : ∀ k ∈ numbers, Survives p.zlib (tileOf f numbers k)) :
    (Name.tile.run p argv w).res = .ok 0 ∧ (Name.tile.run p argv' w).res = .ok 0
      ∧ ∀ k ∈ numbers, ∃ g g', Rearranged g g' ∧ g = tileOf f numbers k
          ∧ content (Name.tile.run p argv w).fs (tileName { a with fn := i } f k) = some (Io.writeFile p.build p.zlib g).bytes
          ∧ content (Name.tile.run p argv' w).fs (tileName { a with fn := i' } f' k) = some (Io.writeFile p.build p.zlib g').bytes := by
  obtain ⟨x, s, x1, x2, x3⟩ := hf
  obtain ⟨x', s', y1, y2, y3⟩ := hf'
  have hin : tileInput i w.stdin w.fs = some { rest := x.content } := by
    have hi' : i.isEmpty = false := by simpa using hi
    simp only [tileInput, hi', Bool.false_eq_true, if_false, x1, x2, if_true]
  have hin' : tileInput i' w.stdin w.fs = some { rest := x'.content } := by
    have hi' : i'.isEmpty = false := by simpa using hi'
    simp only [tileInput, hi', Bool.false_eq_true, if_false, y1, y2, if_true]
  obtain ⟨k1, k2⟩ := tiles_order ht.2.2 hfin a
  have hn0 := hn
  unfold Tile.getTileIndexes at hn0
  obtain ⟨st, e1, e2⟩ := Res.bind_eq_ok.mp hn0
  obtain ⟨numbers', e3, e4⟩ := mapM_perm ht.2.2 e2
  have l1 : numbers.length = f.prs.length := mapM_length e2
  have l2 : numbers'.length = f'.prs.length := mapM_length e3
  have hn' : Tile.getTileIndexes f'.prs (Extent.ofPoints f'.prs) sx sy = .ok numbers' := by
    rw [k2]
    unfold Tile.getTileIndexes
    exact Res.bind_eq_ok.mpr ⟨st, e1, e3⟩
  have hnn : ∀ k, k ∈ numbers' ↔ k ∈ numbers := by
    have := e4.map Prod.snd
    rw [List.map_snd_zip (by omega), List.map_snd_zip (by omega)] at this
    exact fun k => this.mem_iff.symm
  have hpn : ∀ k, Rearranged (tileOf f numbers k) (tileOf f' numbers' k) := fun k => ⟨ht.1, ht.2.1, (e4.filter _).map _⟩
  have hsp : ∀ k ∈ numbers, Survives p.zlib (tileOf f' numbers' k) := fun k hk => survives_rearranged (hw k hk) (hpn k) rfl rfl
  obtain ⟨fs1, e1, h1, -⟩ := c43_tiles_written p.build p.zlib w.canCreate (Cmd.tile.options argv) i w.stdin _ s w.fs a f ha hv hh
    (Or.inl hi) hin x3 hsz hn hpre (fun k hk => (hnew k hk).1) (fun k hk => (hnew k hk).2)
    (fun k hk => (survives_roundtrip p.build p.zlib hz _ (hw k hk)).1)
  obtain ⟨fs2, e2, h2, -⟩ := c43_tiles_written p.build p.zlib w.canCreate (Cmd.tile.options argv) i' w.stdin _ s' w.fs a f' ha hv hh
    (Or.inl hi') hin' y3 (k1.trans hsz) hn' hpre' (fun k hk => (hnew' k ((hnn k).mp hk)).1) (fun k hk => (hnew' k ((hnn k).mp hk)).2)
    (fun k hk => (survives_roundtrip p.build p.zlib hz _ (hsp k ((hnn k).mp hk))).1)
  have er : Name.tile.run p argv w = ⟨fs1, [], .ok 0⟩ := by
    simp only [Name.run, Main.tile, withOperands, ha, hh, hops, one, Res.ok_bind, hv, Bool.false_eq_true, if_false, e1]
    rfl
  have er' : Name.tile.run p argv' w = ⟨fs2, [], .ok 0⟩ := by
    simp only [Name.run, Main.tile, withOperands, hopt, ha, hh, hops', one, Res.ok_bind, hv, Bool.false_eq_true, if_false, e2]
    rfl
  rw [er, er']
  refine ⟨rfl, rfl, fun k hk => ⟨tileOf f numbers k, tileOf f' numbers' k, hpn k, rfl, ?_, ?_⟩⟩
  · simp only [content, h1 k hk, Option.map_some]
  · simp only [content, h2 k ((hnn k).mpr hk), Option.map_some]

/-! ## What does depend on the order -/

/-- **C130**: recentering depends on the order: the mean is rounded, and the points are moved to other places. -/
theorem c130_recenter : ∃ f f' g g' : SpocFile, Rearranged f f' ∧ Tool.recenter .release f false = .ok g ∧ Tool.recenter .release f' false = .ok g'
    ∧ ¬ g.prs.Perm g'.prs :=
  ⟨{ SpocFile.empty with prs := [{ x := num (2 ^ 53) }, { x := num 1 }, { x := num 1 }] },
    { SpocFile.empty with prs := [{ x := num 1 }, { x := num 1 }, { x := num (2 ^ 53) }] }, _, _, ⟨rfl, rfl, by decide +kernel⟩, rfl, rfl,
    by decide +kernel⟩

/-- **C130**: with zeros of both signs, the points after subtract-min depend on the order in the signs of their zeros. -/
theorem c130_zero_signs : ∃ f f' g g' : SpocFile, Rearranged f f' ∧ Tool.subtractMin .release f false = .ok g
    ∧ Tool.subtractMin .release f' false = .ok g' ∧ ¬ g.prs.Perm g'.prs :=
  ⟨{ SpocFile.empty with prs := [{ x := F64.zero }, { x := F64.negZero }] },
    { SpocFile.empty with prs := [{ x := F64.negZero }, { x := F64.zero }] }, _, _, ⟨rfl, rfl, by decide +kernel⟩, rfl, rfl, by decide +kernel⟩

/-- **C130**: which of the points at the same place `--unique-xyz` keeps depends on the order. -/
theorem c130_unique : ∃ f f' g g' : SpocFile, Rearranged f f' ∧ Filter.uniqueXyz .release noShuffle f 0 = .ok g
    ∧ Filter.uniqueXyz .release noShuffle f' 0 = .ok g' ∧ ¬ g.prs.Perm g'.prs :=
  ⟨{ SpocFile.empty with prs := [{ c := 1 }, { c := 2 }] }, { SpocFile.empty with prs := [{ c := 2 }, { c := 1 }] },
    { SpocFile.empty with prs := [{ c := 1 }] }, { SpocFile.empty with prs := [{ c := 2 }] },
    ⟨rfl, rfl, by decide +kernel⟩, by decide +kernel, by decide +kernel, by decide +kernel⟩

/-- **C130**: which of the points of a voxel `--subsample` keeps depends on the order. -/
theorem c130_subsample : ∃ f f' g g' : SpocFile, Rearranged f f' ∧ Filter.subsampleFile .release noShuffle f (num 10) 0 = .ok g
    ∧ Filter.subsampleFile .release noShuffle f' (num 10) 0 = .ok g' ∧ ¬ g.prs.Perm g'.prs :=
  ⟨{ SpocFile.empty with prs := [{ x := num 1 }, { x := num 2 }] }, { SpocFile.empty with prs := [{ x := num 2 }, { x := num 1 }] },
    { SpocFile.empty with prs := [{ x := num 1 }] }, { SpocFile.empty with prs := [{ x := num 2 }] },
    ⟨rfl, rfl, by decide +kernel⟩, by decide +kernel, by decide +kernel, by decide +kernel⟩

/-- Noise that adds the number of the point. -/
def countingEnv : Env := { exampleEnv with noise := ⟨fun _ _ _ _ n => ⟨num n, num 0, num 0⟩, fun _ _ _ _ n => ⟨num n, num 0, num 0⟩⟩ }

/-- **C130**: noise is drawn for the points one after the other: which point is moved by how much depends on the order. -/
theorem c130_noise : ∃ (env : Env) (f f' g g' : SpocFile), Rearranged f f'
    ∧ Transform.apply .release env { rest := (Io.writeFile .release toyZlib f).bytes } [⟨"gaussian-noise", ['1']⟩] 0 = Io.writeFile .release toyZlib g
    ∧ Transform.apply .release env { rest := (Io.writeFile .release toyZlib f').bytes } [⟨"gaussian-noise", ['1']⟩] 0 = Io.writeFile .release toyZlib g'
    ∧ ¬ g.prs.Perm g'.prs :=
  ⟨countingEnv, { SpocFile.empty with prs := [{ x := num 1 }, { x := num 2 }] }, { SpocFile.empty with prs := [{ x := num 2 }, { x := num 1 }] },
    { SpocFile.empty with prs := [{ x := num 1 }, { x := num 3 }] }, { SpocFile.empty with prs := [{ x := num 2 }, { x := num 2 }] },
    ⟨rfl, rfl, by decide +kernel⟩, by decide +kernel, by decide +kernel, by decide +kernel⟩

/-! ## Examples -/

/-- The cloud of the examples with its points in reverse order. -/
def backA : SpocFile := { cloudA with prs := tilePoints.reverse }

/-- The files of the examples, and a file called `e` with the points of `a` in reverse order. -/
def backDisk : World where
  fs := fun n =>
    if n = ['e'] then some { content := (Io.writeFile .release toyZlib backA).bytes, readable := true, writable := true }
    else exampleDisk.fs n
  canCreate _ := true
  stdin := { rest := [] }

theorem backA_rearranged : Rearranged cloudA backA := ⟨rfl, rfl, (List.reverse_perm _).symm⟩

theorem back_on_disk : Holds exampleParams backDisk.fs ['a'] cloudA ∧ Holds exampleParams backDisk.fs ['e'] backA :=
  ⟨⟨rfl, cloudA_survives, _, [], rfl, rfl, (List.append_nil _).symm⟩,
    ⟨rfl, survives_rearranged cloudA_survives backA_rearranged rfl rfl, _, [], rfl, rfl, (List.append_nil _).symm⟩⟩

theorem backDiskA : HasCloud exampleParams backDisk.fs ['a'] cloudA := holds_cloud toyZlib_correct back_on_disk.1
theorem backDiskE : HasCloud exampleParams backDisk.fs ['e'] backA := holds_cloud toyZlib_correct back_on_disk.2

example : InStep exampleParams backDisk ['o'] ['u'] (Name.filter.run exampleParams ["--remove-coords=x > 12".toList, ['a'], ['o']] backDisk)
    (Name.filter.run exampleParams ["--remove-coords=x > 12".toList, ['e'], ['u']] backDisk) :=
  c130_filter_partial exampleParams backDisk _ _ ['a'] ['e'] ['o'] ['u'] (by decide +kernel) (by decide +kernel) (by decide +kernel)
    (by decide +kernel) (by decide) (by decide) (by decide) (by decide) rfl rfl _ _ backDiskA backDiskE backA_rearranged

example : InStep exampleParams backDisk ['o'] ['u'] (Name.tool.run exampleParams ["--subtract-min-xy".toList, ['a'], ['o']] backDisk)
    (Name.tool.run exampleParams ["--subtract-min-xy".toList, ['e'], ['u']] backDisk) :=
  c130_tool_partial exampleParams backDisk _ _ ['a'] ['e'] ['o'] ['u'] (by decide +kernel) (by decide +kernel) (by decide +kernel)
    (by decide) (by decide) (by decide) (by decide) rfl rfl { command := ⟨"subtract-min-xy", []⟩ } (by decide +kernel) _ _ backDiskA backDiskE
    backA_rearranged (.inr ⟨.inl rfl, cloudA_plain⟩)

example : (∃ g g', Rearranged g g'
      ∧ Name.merge.run exampleParams [['a'], ['e']] backDisk = outputStream backDisk [] (Io.writeFile .release toyZlib g)
      ∧ Name.merge.run exampleParams [['e'], ['a']] backDisk = outputStream backDisk [] (Io.writeFile .release toyZlib g'))
    ∨ Name.merge.run exampleParams [['e'], ['a']] backDisk = Name.merge.run exampleParams [['a'], ['e']] backDisk :=
  c130_merge exampleParams backDisk [['a'], ['e']] [['e'], ['a']] (by decide +kernel) [cloudA, backA] [backA, cloudA]
    (.cons backDiskA (.cons backDiskE .nil)) (.cons backDiskE (.cons backDiskA .nil))
    (.cons backA_rearranged (.cons ⟨rfl, rfl, List.reverse_perm _⟩ .nil))

example : (Name.transform.run exampleParams (transformLine ['e'] ['u']) backDisk).res = .ok 0 :=
  (c130_transform_partial exampleParams backDisk (transformLine ['a'] ['o']) (transformLine ['e'] ['u']) [("copy-field", "i,c".toList)]
    (by decide +kernel) (by decide +kernel) (by decide) (by decide +kernel) ['a'] ['e'] ['o'] ['u'] (by decide +kernel) (by decide +kernel)
    (by decide) (by decide) (by decide) (by decide) (by decide) (by decide) rfl rfl _ _ back_on_disk.1 back_on_disk.2 backA_rearranged
    (by decide +kernel)).1

example : (Name.tile.run exampleParams ["-s10".toList, ['e']] backDisk).res = .ok 0 :=
  (c130_tile_partial exampleParams backDisk ["-s10".toList, ['a']] ["-s10".toList, ['e']] (by decide +kernel) ['a'] ['e'] (by decide +kernel)
    (by decide +kernel) (by decide) (by decide) cloudA backA backDiskA backDiskE backA_rearranged (by unfold Spec.Fin; decide +kernel)
    { tileSize := num 10 } (by decide +kernel) rfl rfl (sx := num 10) (sy := num 10) (numbers := [0, 1, 3]) (by decide +kernel)
    (by decide +kernel) (by decide)
    (by decide) (by decide +kernel) (by decide +kernel) toyZlib_correct
    (fun k _ => survives_subperm (f := cloudA) cloudA_survives rfl
      (l := pointsNumbered cloudA.prs [0, 1, 3] k) (Tile.pointsNumbered_sublist _ _ _).subperm)).2.1

end Spoc.Props
