import Verif.Props.Related

/-!
# C132: cutting into tiles commutes with changes that leave `x` and `y` alone
-/

namespace Spoc.Props

open Getopt Cmd Main Spec Spec.Cmd Text
open Transform (parseCommand applyOps)

/-- The points are above each other. -/
def SameXy (p q : PointRecord) : Prop := p.x = q.x ∧ p.y = q.y

/-- The bounding boxes in `x` and `y` depend on these coordinates only. -/
theorem ofPoints_xy {ps qs : List PointRecord} (h : List.Forall₂ SameXy ps qs) :
    (Extent.ofPoints ps).minp.x = (Extent.ofPoints qs).minp.x ∧ (Extent.ofPoints ps).minp.y = (Extent.ofPoints qs).minp.y
      ∧ (Extent.ofPoints ps).maxp.x = (Extent.ofPoints qs).maxp.x ∧ (Extent.ofPoints ps).maxp.y = (Extent.ofPoints qs).maxp.y := by
  unfold Extent.ofPoints
  suffices ∀ e e' : Extent, e.minp.x = e'.minp.x → e.minp.y = e'.minp.y → e.maxp.x = e'.maxp.x → e.maxp.y = e'.maxp.y →
      (ps.foldl (fun e p => Extent.grow e (pt p)) e).minp.x = (qs.foldl (fun e p => Extent.grow e (pt p)) e').minp.x
      ∧ (ps.foldl (fun e p => Extent.grow e (pt p)) e).minp.y = (qs.foldl (fun e p => Extent.grow e (pt p)) e').minp.y
      ∧ (ps.foldl (fun e p => Extent.grow e (pt p)) e).maxp.x = (qs.foldl (fun e p => Extent.grow e (pt p)) e').maxp.x
      ∧ (ps.foldl (fun e p => Extent.grow e (pt p)) e).maxp.y = (qs.foldl (fun e p => Extent.grow e (pt p)) e').maxp.y from
    this _ _ rfl rfl rfl rfl
  induction h with
  | nil => exact fun _ _ h1 h2 h3 h4 => ⟨h1, h2, h3, h4⟩
  | @cons p q _ _ h _ ih =>
    intro e e' h1 h2 h3 h4
    rw [List.foldl_cons, List.foldl_cons]
    have hx : (pt p).x = (pt q).x := h.1
    have hy : (pt p).y = (pt q).y := h.2
    refine ih _ _ ?_ ?_ ?_ ?_
    · simp only [Extent.grow, h1, hx]
    · simp only [Extent.grow, h2, hy]
    · simp only [Extent.grow, h3, hx]
    · simp only [Extent.grow, h4, hy]

/-- The tile sizes and tile numbers depend on `x` and `y` only. -/
theorem tiles_xy {ps qs : List PointRecord} (h : List.Forall₂ SameXy ps qs) (a : Tile.Args) :
    Tile.tileSizes a (Extent.ofPoints qs) = Tile.tileSizes a (Extent.ofPoints ps)
      ∧ ∀ sx sy, Tile.getTileIndexes qs (Extent.ofPoints qs) sx sy = Tile.getTileIndexes ps (Extent.ofPoints ps) sx sy := by
  obtain ⟨h1, h2, h3, h4⟩ := ofPoints_xy h
  refine ⟨?_, fun sx sy => ?_⟩
  · unfold Tile.tileSizes Tile.getTileSize
    rw [h1, h2, h3, h4]
  · unfold Tile.getTileIndexes Tile.getStride
    rw [h1, h2, h3]
    exact congrArg _ (funext fun st => (Related.mapM_same (fun p q h => by rw [h.1, h.2]) h).symm)

/-- Points that are related one by one are so in every tile. -/
theorem pointsNumbered_rel {R : PointRecord → PointRecord → Prop} {ps qs : List PointRecord} (h : List.Forall₂ R ps qs) (numbers : List UInt64)
    (k : UInt64) : List.Forall₂ R (pointsNumbered ps numbers k) (pointsNumbered qs numbers k) := by
  unfold pointsNumbered
  induction h generalizing numbers with
  | nil => exact .nil
  | cons h _ ih =>
    cases numbers with
    | nil => exact .nil
    | cons n ns =>
      simp only [List.zip_cons_cons, List.filter_cons]
      split
      · exact .cons h (ih ns)
      · exact ih ns

/-- A run of tile on a file with new names for the tiles. -/
theorem tile_made (p : Params) (hz : p.zlib.Correct) (w : World) (argv : List Str) (a : Tile.Args)
    (ha : Tile.getArgs (Cmd.tile.options argv) {} = .ok a) (hv : a.version = false) (hh : a.help = false) (i : Str)
    (hops : Cmd.tile.operands argv = [i]) (hi : i ≠ []) (f : SpocFile) (hf : HasCloud p w.fs i f) {sx sy : F64} {numbers : List UInt64}
    (hsz : Tile.tileSizes a (Extent.ofPoints f.prs) = .ok (sx, sy)) (hn : Tile.getTileIndexes f.prs (Extent.ofPoints f.prs) sx sy = .ok numbers)
    (hpre : (if a.pre.isEmpty then Tile.stem i else a.pre) ≠ [])
    (hnew : ∀ k ∈ numbers, w.fs (tileName { a with fn := i } f k) = none ∧ w.canCreate (tileName { a with fn := i } f k) = true)
    (hw : ∀ k ∈ numbers, Survives p.zlib (tileOf f numbers k)) :
    (Name.tile.run p argv w).res = .ok 0 ∧ ∀ k ∈ numbers, (Name.tile.run p argv w).fs (tileName { a with fn := i } f k)
      = some { content := (Io.writeFile p.build p.zlib (tileOf f numbers k)).bytes, readable := true, writable := true } := by
  obtain ⟨x, s, x1, x2, x3⟩ := hf
  have hin : tileInput i w.stdin w.fs = some { rest := x.content } := by
    have hi' : i.isEmpty = false := by simpa using hi
    simp only [tileInput, hi', Bool.false_eq_true, if_false, x1, x2, if_true]
  obtain ⟨fs1, e1, h1, -⟩ := c43_tiles_written p.build p.zlib w.canCreate (Cmd.tile.options argv) i w.stdin _ s w.fs a f ha hv hh
    (Or.inl hi) hin x3 hsz hn hpre (fun k hk => (hnew k hk).1) (fun k hk => (hnew k hk).2)
    (fun k hk => (survives_roundtrip p.build p.zlib hz _ (hw k hk)).1)
  have er : Name.tile.run p argv w = ⟨fs1, [], .ok 0⟩ := by
    simp only [Name.run, Main.tile, withOperands, ha, hh, hops, one, Res.ok_bind, hv, Bool.false_eq_true, if_false, e1]
    rfl
  rw [er]
  exact ⟨rfl, h1⟩

/-- A run of transform, with commands other than noise, succeeds if and only if the commands can be applied to every point, and then leaves the cloud
with the changed points. -/
theorem transform_made (p : Params) (w : World) (argv : List Str) (os : List (String × Str)) (hopt : Cmd.transform.options argv = os) (hne : os ≠ [])
    (hos : ∀ o ∈ os, o.1 ∈ commandOptions) (i o : Str) (hops : Cmd.transform.operands argv = [i, o]) (hi : i ≠ []) (ho : o ≠ []) (hio : i ≠ o)
    (hc : CanReplace w o) (f : SpocFile) (hf : Holds p w.fs i f) :
    ((Name.transform.run p argv w).res = .ok 0 ↔ ∃ ops qs, (commandsOf os).mapM (parseCommand p.build p.env 0 f.extraFields) = .ok ops
        ∧ List.Forall₂ (fun q r => applyOps 0 ops q = .ok r) f.prs qs)
      ∧ ∀ ops qs, (commandsOf os).mapM (parseCommand p.build p.env 0 f.extraFields) = .ok ops →
        List.Forall₂ (fun q r => applyOps 0 ops q = .ok r) f.prs qs →
        Survives p.zlib { f with prs := qs } ∧ Name.transform.run p argv w = outputStream w o (Io.writeFile p.build p.zlib { f with prs := qs }) := by
  obtain ⟨hu, hs, x, tl, x1, x2, x3⟩ := hf
  have hcs : ∀ c ∈ commandsOf os, c.name ∈ commandOptions := by
    intro c hc
    obtain ⟨x, hx, rfl⟩ := List.mem_map.mp hc
    exact hos x hx
  have r1 := transform_run p w argv os hopt hne hos i o hops hi hio x x1 x2
  rw [x3] at r1
  have made : ∀ ops qs, (commandsOf os).mapM (parseCommand p.build p.env 0 f.extraFields) = .ok ops →
        List.Forall₂ (fun q r => applyOps 0 ops q = .ok r) f.prs qs →
        Survives p.zlib { f with prs := qs } ∧ Name.transform.run p argv w = outputStream w o (Io.writeFile p.build p.zlib { f with prs := qs })
          ∧ (Name.transform.run p argv w).res = .ok 0 := by
    intro ops qs h1 h2
    have t2 := (applyAll_rel hcs h1 0 _ _).mpr h2
    have t4 := (apply_written p.build p.zlib p.env f hs.1 hu tl (commandsOf os) 0 _).mpr ⟨ops, qs, h1, t2, rfl⟩
    obtain ⟨s1, c1⟩ := changed (b := p.build) hs hu h1 t2
    have e1 : Transform.apply p.build p.env { rest := (Io.writeFile p.build p.zlib f).bytes ++ tl } (commandsOf os) 0
        = Io.writeFile p.build p.zlib { f with prs := qs } := by
      rw [c1, t4]
    rw [e1] at r1
    exact ⟨s1, r1, by rw [r1]; exact (outputStream_cloud_leaves (p := p) ho hc { f with prs := qs }).2.2.1.mpr (by rw [c1])⟩
  refine ⟨⟨fun hok => ?_, fun ⟨ops, qs, h1, h2⟩ => (made ops qs h1 h2).2.2⟩, fun ops qs h1 h2 => ⟨(made ops qs h1 h2).1, (made ops qs h1 h2).2.1⟩⟩
  have hres : (Transform.apply p.build p.env { rest := (Io.writeFile p.build p.zlib f).bytes ++ tl } (commandsOf os) 0).res = .ok () := by
    obtain ⟨z, hz, -⟩ := openWrite_readable hc
    have hoe : o.isEmpty = false := by simpa using ho
    rw [r1] at hok
    simp only [outputStream, hoe, Bool.false_eq_true, if_false, hz] at hok
    cases hr : (Transform.apply p.build p.env { rest := (Io.writeFile p.build p.zlib f).bytes ++ tl } (commandsOf os) 0).res with
    | ok u => rfl
    | _ => rw [hr] at hok; simp [zero] at hok
  obtain ⟨ops, qs, t1, t2, t3⟩ := (apply_written p.build p.zlib p.env f hs.1 hu tl (commandsOf os) 0 _).mp
    (show _ = (⟨_, .ok ()⟩ : Out Unit) by rw [← hres])
  exact ⟨ops, qs, t1, (applyAll_rel hcs t1 0 _ _).mp t2⟩

/-- The tiles of an uncompressed cloud that can be written can be written. -/
theorem tile_survives {z : Zlib} {g : SpocFile} (hg : Survives z g) (hgc : g.compressed = false) (numbers : List UInt64) (k : UInt64) :
    Survives z (tileOf g numbers k) := by
  have := survives_subperm hg hgc (l := pointsNumbered g.prs numbers k) (Tile.pointsNumbered_sublist _ _ _).subperm
  have e : tileOf g numbers k = { g with prs := pointsNumbered g.prs numbers k } := by
    obtain ⟨mj, mn, wk, cp, pr⟩ := g
    obtain rfl : mj = _ := hg.1.major
    obtain rfl : mn = _ := hg.1.minor
    rfl
  rw [e]
  exact this

/-- A tile has as many extra fields as the cloud. -/
theorem tile_extra {f : SpocFile} (hf : Uniform f.prs) {numbers : List UInt64} (hl : numbers.length = f.prs.length) {k : UInt64} (hk : k ∈ numbers) :
    (tileOf f numbers k).extraFields = f.extraFields := by
  obtain ⟨j, hj, rfl⟩ := List.getElem_of_mem hk
  have hm : f.prs[j]'(hl ▸ hj) ∈ pointsNumbered f.prs numbers numbers[j] := by
    unfold pointsNumbered
    refine List.mem_map.mpr ⟨(f.prs[j]'(hl ▸ hj), numbers[j]), List.mem_filter.mpr ⟨?_, by simp⟩, rfl⟩
    rw [List.mem_iff_getElem]
    exact ⟨j, by rw [List.length_zip]; omega, by rw [List.getElem_zip]⟩
  have sub : ∀ q ∈ pointsNumbered f.prs numbers numbers[j], q ∈ f.prs := fun q hq => (Tile.pointsNumbered_sublist _ _ _).subset hq
  unfold SpocFile.extraFields tileOf
  cases e : pointsNumbered f.prs numbers numbers[j] with
  | nil => rw [e] at hm; cases hm
  | cons q l =>
    cases e' : f.prs with
    | nil => rw [e] at sub; have := sub q (by simp); rw [e'] at this; cases this
    | cons q' l' => exact hf q (sub q (by simp [e])) q' (by simp [e'])

/-- A run of an application changes the points of the cloud in `i`, and those of its tiles, one by one, and neither `x` nor `y` of any point.  Then
cutting the result into tiles gives the same files as cutting the cloud into tiles and changing each of them. -/
theorem tile_commutes (n : Name) (p : Params) (hz : p.zlib.Correct) (w : World) (argv : List Str) (R : PointRecord → PointRecord → Prop)
    (hR : ∀ q r, R q r → SameXy q r) (i o : Str) (hi : i ≠ []) (ho : o ≠ []) (hc : CanReplace w o) (f : SpocFile) (hf : Holds p w.fs i f)
    (f' : SpocFile) (hcomp : f'.compressed = f.compressed) (hqs : List.Forall₂ R f.prs f'.prs) (hs' : Survives p.zlib f')
    (hrun : n.run p argv w = outputStream w o (Io.writeFile p.build p.zlib f'))
    (large large' : List Str) (lopt : Cmd.tile.options large' = Cmd.tile.options large) (lops : Cmd.tile.operands large = [i])
    (lops' : Cmd.tile.operands large' = [o]) (a : Tile.Args) (ha : Tile.getArgs (Cmd.tile.options large) {} = .ok a) (hv : a.version = false)
    (hh : a.help = false) {sx sy : F64} {numbers : List UInt64} (hsz : Tile.tileSizes a (Extent.ofPoints f.prs) = .ok (sx, sy))
    (hn : Tile.getTileIndexes f.prs (Extent.ofPoints f.prs) sx sy = .ok numbers)
    (hpre : (if a.pre.isEmpty then Tile.stem i else a.pre) ≠ []) (hpre' : (if a.pre.isEmpty then Tile.stem o else a.pre) ≠ [])
    (hnew : ∀ k ∈ numbers, w.fs (tileName { a with fn := i } f k) = none ∧ w.canCreate (tileName { a with fn := i } f k) = true)
    (hnew' : ∀ k ∈ numbers, (after n p argv w).fs (tileName { a with fn := o } f k) = none
      ∧ w.canCreate (tileName { a with fn := o } f k) = true) :
    (Name.tile.run p large w).res = .ok 0 ∧ (Name.tile.run p large' (after n p argv w)).res = .ok 0
      ∧ ∀ k ∈ numbers, Holds p (after .tile p large w).fs (tileName { a with fn := i } f k) (tileOf f numbers k)
        ∧ List.Forall₂ R (tileOf f numbers k).prs (tileOf f' numbers k).prs
        ∧ Survives p.zlib (tileOf f' numbers k)
        ∧ ∀ (each : List Str) (u : Str), u ≠ [] → CanReplace (after .tile p large w) u →
          n.run p each (after .tile p large w)
            = outputStream (after .tile p large w) u (Io.writeFile p.build p.zlib (tileOf f' numbers k)) →
          (n.run p each (after .tile p large w)).res = .ok 0
            ∧ ∃ bs, content (n.run p each (after .tile p large w)).fs u = some bs
              ∧ content (Name.tile.run p large' (after n p argv w)).fs (tileName { a with fn := o } f k) = some bs := by
  have hu := hf.1
  have hs := hf.2.1
  have hu' : f'.compressed = false := hcomp.trans hu
  have hname : ∀ k, tileName { a with fn := o } f' k = tileName { a with fn := o } f k := fun k => by unfold tileName; rw [hcomp]
  obtain ⟨k1, k2⟩ := tiles_xy (hqs.imp hR) a
  obtain ⟨a1, a2⟩ := tile_made p hz w large a ha hv hh i lops hi f (holds_cloud hz hf) hsz hn hpre hnew (fun k _ => tile_survives hs hu numbers k)
  have hg : HasCloud p (after n p argv w).fs o f' := (outputStream_cloud hz ho hc hs' hrun).2.2.1
  obtain ⟨b1, b2⟩ := tile_made p hz (after n p argv w) large' a (lopt ▸ ha) hv hh o lops' ho f' hg (k1.trans hsz)
    ((k2 sx sy).trans hn) hpre' (fun k hk => by rw [hname]; exact hnew' k hk) (fun k _ => tile_survives hs' hu' numbers k)
  refine ⟨a1, b1, fun k hk => ⟨⟨hu, tile_survives hs hu numbers k, _, [], a2 k hk, rfl, (List.append_nil _).symm⟩, pointsNumbered_rel hqs numbers k,
    tile_survives hs' hu' numbers k, fun each u hne hcu he => ?_⟩⟩
  have hl := outputStream_cloud_leaves (p := p) hne hcu (tileOf f' numbers k)
  rw [he]
  refine ⟨hl.2.2.1.mpr (survives_roundtrip p.build p.zlib hz _ (tile_survives hs' hu' numbers k)).1, _, hl.2.1, ?_⟩
  rw [← hname]
  exact congrArg (Option.map _) (b2 k hk)

theorem numbers_length {ps : List PointRecord} {e : Extent} {sx sy : F64} {numbers : List UInt64}
    (hn : Tile.getTileIndexes ps e sx sy = .ok numbers) : numbers.length = ps.length := by
  unfold Tile.getTileIndexes at hn
  obtain ⟨st, -, hm⟩ := Res.bind_eq_ok.mp hn
  exact mapM_length hm

/-- **C132**, transform: if the commands leave `x` and `y` alone and succeed on the cloud in `i`, then cutting the result into tiles gives the
same files as cutting the cloud into tiles and transforming each of them. -/
theorem c132_transform (p : Params) (hz : p.zlib.Correct) (w : World) (argv : List Str) (os : List (String × Str))
    (hopt : Cmd.transform.options argv = os) (hne : os ≠ []) (hos : ∀ o ∈ os, o.1 ∈ commandOptions)
    (hspare : ∀ o ∈ os, ∀ fs, Changes o.1 o.2 fs → Field.x ∉ fs ∧ Field.y ∉ fs) (i o : Str) (hops : Cmd.transform.operands argv = [i, o])
    (hi : i ≠ []) (ho : o ≠ []) (hio : i ≠ o) (hc : CanReplace w o) (f : SpocFile) (hf : Holds p w.fs i f)
    (hok : (Name.transform.run p argv w).res = .ok 0)
    (large large' : List Str) (lopt : Cmd.tile.options large' = Cmd.tile.options large) (lops : Cmd.tile.operands large = [i])
    (lops' : Cmd.tile.operands large' = [o]) (a : Tile.Args) (ha : Tile.getArgs (Cmd.tile.options large) {} = .ok a) (hv : a.version = false)
    (hh : a.help = false) {sx sy : F64} {numbers : List UInt64} (hsz : Tile.tileSizes a (Extent.ofPoints f.prs) = .ok (sx, sy))
    (hn : Tile.getTileIndexes f.prs (Extent.ofPoints f.prs) sx sy = .ok numbers)
    (hpre : (if a.pre.isEmpty then Tile.stem i else a.pre) ≠ []) (hpre' : (if a.pre.isEmpty then Tile.stem o else a.pre) ≠ [])
    (hnew : ∀ k ∈ numbers, w.fs (tileName { a with fn := i } f k) = none ∧ w.canCreate (tileName { a with fn := i } f k) = true)
    (hnew' : ∀ k ∈ numbers, (after .transform p argv w).fs (tileName { a with fn := o } f k) = none
      ∧ w.canCreate (tileName { a with fn := o } f k) = true) :
    (Name.tile.run p large w).res = .ok 0 ∧ (Name.tile.run p large' (after .transform p argv w)).res = .ok 0
      ∧ ∀ k ∈ numbers, ∀ (each : List Str) (u : Str), Cmd.transform.options each = os →
        Cmd.transform.operands each = [tileName { a with fn := i } f k, u] → tileName { a with fn := i } f k ≠ [] → u ≠ [] →
        tileName { a with fn := i } f k ≠ u → CanReplace (after .tile p large w) u →
        (Name.transform.run p each (after .tile p large w)).res = .ok 0
          ∧ ∃ bs, content (Name.transform.run p each (after .tile p large w)).fs u = some bs
            ∧ content (Name.tile.run p large' (after .transform p argv w)).fs (tileName { a with fn := o } f k) = some bs := by
  obtain ⟨m1, m2⟩ := transform_made p w argv os hopt hne hos i o hops hi ho hio hc f hf
  obtain ⟨ops, qs, t1, t2⟩ := m1.mp hok
  obtain ⟨s1, l1⟩ := m2 ops qs t1 t2
  have hxy : ∀ q r, applyOps 0 ops q = .ok r → SameXy q r := by
    intro q r h
    have hsp : ∀ fld : Field, (∀ o ∈ os, ∀ fs, Changes o.1 o.2 fs → fld ∉ fs) → fld.get r = fld.get q := by
      intro fld hfld
      refine ops_spare fld (fun c hc fs hn => ?_) t1 h
      obtain ⟨o, ho, rfl⟩ := List.mem_map.mp hc
      exact hfld o ho fs hn
    exact ⟨(Transform.get_x (hsp .x fun o ho fs h => (hspare o ho fs h).1)).symm, (Transform.get_y (hsp .y fun o ho fs h => (hspare o ho fs h).2)).symm⟩
  obtain ⟨a1, b1, ab⟩ := tile_commutes .transform p hz w argv _ hxy i o hi ho hc f hf { f with prs := qs } rfl t2 s1 l1 large large' lopt lops lops' a ha hv hh hsz hn
    hpre hpre' hnew hnew'
  refine ⟨a1, b1, fun k hk each u h1 h2 h3 h4 h5 h6 => ?_⟩
  obtain ⟨c1, c2, c3, c4⟩ := ab k hk
  refine c4 each u h4 h6 ?_
  obtain ⟨n1, n2⟩ := transform_made p (after .tile p large w) each os h1 hne hos _ u h2 h3 h4 h5 h6 _ c1
  rw [← tile_extra hf.2.1.1.uniform (numbers_length hn) hk] at t1
  exact (n2 ops _ t1 c2).2

/-- A run of tool with the command resize-extra. -/
theorem resize_made (p : Params) (w : World) (argv : List Str) (n : Nat) (hn : n ≤ 255) (hopt : Cmd.tool.options argv = [("resize-extra", showNat n)])
    (i o : Str) (hops : Cmd.tool.operands argv = [i, o]) (hi : i ≠ []) (f : SpocFile) (hf : HasCloud p w.fs i f) :
    ∃ qs, List.Forall₂ (Resized n) f.prs qs ∧ Name.tool.run p argv w = outputStream w o (Io.writeFile p.build p.zlib { f with prs := qs }) := by
  obtain ⟨s, s', h1, h2⟩ := inputStream_cloud hi hf
  obtain ⟨_, _, _, _, hr⟩ := hf
  obtain ⟨g, g1, g2, g3⟩ := c49_resize p.build f (readable_writable hr).uniform n (by omega)
  refine ⟨g.prs, g3, ?_⟩
  have hg : ({ f with prs := g.prs } : SpocFile) = g := by
    obtain ⟨a1, a2, a3, a4⟩ := g2
    cases f; cases g
    simp_all
  have ha : Tool.getArgs (Cmd.tool.options argv) {} = .ok { command := { name := "resize-extra", params := showNat n } } := by rw [hopt]; rfl
  have hrun : Tool.run p.build p.zlib (toolFiles w.fs) { command := { name := "resize-extra", params := showNat n } } f = .ok g := by
    unfold Tool.run
    rw [if_neg (by simp), if_neg (by simp), if_pos rfl]
    simp only [Tool.stoi_show (show n < 2 ^ 31 by omega)]
    rw [if_neg (by omega), if_neg (by omega), g1]
  rw [hg]
  simp only [Name.run, Main.tool, toolArgs, withOperands, ha, hops, inOut, Res.ok_bind, Bool.false_eq_true, if_false, readThenWrite, h1, Apps.fileOf, h2,
    hrun, String.reduceEq]

theorem resized_all_unique {n : Nat} {ps qs rs : List PointRecord} (h : List.Forall₂ (Resized n) ps qs) (h' : List.Forall₂ (Resized n) ps rs) :
    rs = qs := by
  induction h generalizing rs with
  | nil => cases h'; rfl
  | cons h _ ih =>
    cases h' with
    | cons k k' => rw [resized_unique h k, ih k']

/-- **C132**, tool: giving a cloud another number of extra fields and cutting the result into tiles gives the same files as cutting the cloud into
tiles and giving each of them that number of extra fields.  (At most 123, or the result cannot be read again, see C01.) -/
theorem c132_resize (p : Params) (hz : p.zlib.Correct) (w : World) (argv : List Str) (n : Nat) (hn255 : n ≤ 123)
    (hopt : Cmd.tool.options argv = [("resize-extra", showNat n)]) (i o : Str) (hops : Cmd.tool.operands argv = [i, o])
    (hi : i ≠ []) (ho : o ≠ []) (hc : CanReplace w o) (f : SpocFile) (hf : Holds p w.fs i f)
    (large large' : List Str) (lopt : Cmd.tile.options large' = Cmd.tile.options large) (lops : Cmd.tile.operands large = [i])
    (lops' : Cmd.tile.operands large' = [o]) (a : Tile.Args) (ha : Tile.getArgs (Cmd.tile.options large) {} = .ok a) (hv : a.version = false)
    (hh : a.help = false) {sx sy : F64} {numbers : List UInt64} (hsz : Tile.tileSizes a (Extent.ofPoints f.prs) = .ok (sx, sy))
    (hn : Tile.getTileIndexes f.prs (Extent.ofPoints f.prs) sx sy = .ok numbers)
    (hpre : (if a.pre.isEmpty then Tile.stem i else a.pre) ≠ []) (hpre' : (if a.pre.isEmpty then Tile.stem o else a.pre) ≠ [])
    (hnew : ∀ k ∈ numbers, w.fs (tileName { a with fn := i } f k) = none ∧ w.canCreate (tileName { a with fn := i } f k) = true)
    (hnew' : ∀ k ∈ numbers, (after .tool p argv w).fs (tileName { a with fn := o } f k) = none
      ∧ w.canCreate (tileName { a with fn := o } f k) = true) :
    (Name.tile.run p large w).res = .ok 0 ∧ (Name.tile.run p large' (after .tool p argv w)).res = .ok 0
      ∧ ∀ k ∈ numbers, ∀ (each : List Str) (u : Str), Cmd.tool.options each = [("resize-extra", showNat n)] →
        Cmd.tool.operands each = [tileName { a with fn := i } f k, u] → tileName { a with fn := i } f k ≠ [] → u ≠ [] →
        CanReplace (after .tile p large w) u →
        (Name.tool.run p each (after .tile p large w)).res = .ok 0
          ∧ ∃ bs, content (Name.tool.run p each (after .tile p large w)).fs u = some bs
            ∧ content (Name.tile.run p large' (after .tool p argv w)).fs (tileName { a with fn := o } f k) = some bs := by
  obtain ⟨qs, t2, l1⟩ := resize_made p w argv n (by omega) hopt i o hops hi f (holds_cloud hz hf)
  have hs := hf.2.1
  have hext : ∀ q ∈ qs, q.extra.length = n := by
    intro q hq
    obtain ⟨j, hj, rfl⟩ := List.mem_iff_getElem.mp hq
    exact (forall₂_get t2 (by rw [t2.length_eq]; exact hj) hj).size
  have s1 : Survives p.zlib { f with prs := qs } :=
    ⟨⟨hs.1.major, hs.1.minor, hs.1.wkt, fun q hq r hr => by rw [hext q hq, hext r hr], fun q hq => by rw [hext q hq]; omega,
      t2.length_eq ▸ hs.1.count⟩, fun _ q hq => by rw [hext q hq]; omega, fun h => nomatch hf.1.symm.trans h⟩
  have hxy : ∀ q r, Resized n q r → SameXy q r := fun q r h => ⟨(Transform.get_x (h.same .x rfl)).symm, (Transform.get_y (h.same .y rfl)).symm⟩
  obtain ⟨a1, b1, ab⟩ := tile_commutes .tool p hz w argv _ hxy i o hi ho hc f hf { f with prs := qs } rfl t2 s1 l1 large large' lopt lops lops' a ha hv hh hsz hn
    hpre hpre' hnew hnew'
  refine ⟨a1, b1, fun k hk each u h1 h2 h3 h4 h6 => ?_⟩
  obtain ⟨c1, c2, c3, c4⟩ := ab k hk
  refine c4 each u h4 h6 ?_
  obtain ⟨rs, d1, d2⟩ := resize_made p (after .tile p large w) each n (by omega) h1 _ u h2 h3 _ (holds_cloud hz c1)
  rw [d2, resized_all_unique c2 d1]
  rfl

/-- A run of srs that sets the spatial reference. -/
theorem srs_made (p : Params) (w : World) (argv : List Str) (t : Str) (hopt : Cmd.srs.options argv = [("srs", t)]) (i o : Str)
    (hops : Cmd.srs.operands argv = [i, o]) (ho : o ≠ []) (f : SpocFile) (hf : HasCloud p w.fs i f) :
    Name.srs.run p argv w = outputStream w o (Io.writeFile p.build p.zlib { f with wkt := bytes t }) := by
  obtain ⟨s, s', h1, h2⟩ := hasCloud_open hf
  have ha : Cmd.srsArgs (Cmd.srs.options argv) {} = .ok { srs := some t } := by rw [hopt]; rfl
  have hoe : o.isEmpty = false := by simpa using ho
  simp only [Name.run, Main.srs, ha, hops, Bool.false_eq_true, if_false, h1, Apps.fileOf, h2, outputStream, hoe]
  rfl

/-- **C132**, srs: setting the spatial reference of a cloud and cutting the result into tiles gives the same files as cutting the cloud into tiles
and setting the spatial reference of each of them. -/
theorem c132_srs (p : Params) (hz : p.zlib.Correct) (w : World) (argv : List Str) (t : Str) (ht : (bytes t).length ≤ 65535)
    (hopt : Cmd.srs.options argv = [("srs", t)]) (i o : Str) (hops : Cmd.srs.operands argv = [i, o])
    (hi : i ≠ []) (ho : o ≠ []) (hc : CanReplace w o) (f : SpocFile) (hf : Holds p w.fs i f)
    (large large' : List Str) (lopt : Cmd.tile.options large' = Cmd.tile.options large) (lops : Cmd.tile.operands large = [i])
    (lops' : Cmd.tile.operands large' = [o]) (a : Tile.Args) (ha : Tile.getArgs (Cmd.tile.options large) {} = .ok a) (hv : a.version = false)
    (hh : a.help = false) {sx sy : F64} {numbers : List UInt64} (hsz : Tile.tileSizes a (Extent.ofPoints f.prs) = .ok (sx, sy))
    (hn : Tile.getTileIndexes f.prs (Extent.ofPoints f.prs) sx sy = .ok numbers)
    (hpre : (if a.pre.isEmpty then Tile.stem i else a.pre) ≠ []) (hpre' : (if a.pre.isEmpty then Tile.stem o else a.pre) ≠ [])
    (hnew : ∀ k ∈ numbers, w.fs (tileName { a with fn := i } f k) = none ∧ w.canCreate (tileName { a with fn := i } f k) = true)
    (hnew' : ∀ k ∈ numbers, (after .srs p argv w).fs (tileName { a with fn := o } f k) = none
      ∧ w.canCreate (tileName { a with fn := o } f k) = true) :
    (Name.tile.run p large w).res = .ok 0 ∧ (Name.tile.run p large' (after .srs p argv w)).res = .ok 0
      ∧ ∀ k ∈ numbers, ∀ (each : List Str) (u : Str), Cmd.srs.options each = [("srs", t)] →
        Cmd.srs.operands each = [tileName { a with fn := i } f k, u] → u ≠ [] → CanReplace (after .tile p large w) u →
        (Name.srs.run p each (after .tile p large w)).res = .ok 0
          ∧ ∃ bs, content (Name.srs.run p each (after .tile p large w)).fs u = some bs
            ∧ content (Name.tile.run p large' (after .srs p argv w)).fs (tileName { a with fn := o } f k) = some bs := by
  have l1 := srs_made p w argv t hopt i o hops ho f (holds_cloud hz hf)
  have hs := hf.2.1
  have s1 : Survives p.zlib { f with wkt := bytes t } :=
    ⟨⟨hs.1.major, hs.1.minor, ht, hs.1.uniform, hs.1.extra, hs.1.count⟩, hs.2.1, fun h => nomatch hf.1.symm.trans h⟩
  obtain ⟨a1, b1, ab⟩ := tile_commutes .srs p hz w argv (fun q r => q = r) (fun q r h => h ▸ ⟨rfl, rfl⟩) i o hi ho hc f hf { f with wkt := bytes t } rfl
    (by rw [List.forall₂_eq_eq_eq]) s1 l1 large large' lopt lops lops' a ha hv hh hsz hn hpre hpre' hnew hnew'
  refine ⟨a1, b1, fun k hk each u h1 h2 h4 h6 => ?_⟩
  obtain ⟨c1, c2, c3, c4⟩ := ab k hk
  exact c4 each u h4 h6 (srs_made p (after .tile p large w) each t h1 _ u h2 h4 _ (holds_cloud hz c1))

/-- **C132, negation**: a command that changes `x` moves points to other tiles: the cloud in `a` has a point in tile 3, but there is no such tile
when the cloud is transformed first. -/
theorem c132_moved : ∃ (p : Params) (w : World) (t large large' : List Str), (Name.transform.run p t w).res = .ok 0
    ∧ Cmd.tile.options large' = Cmd.tile.options large ∧ Cmd.tile.operands large = [['a']] ∧ Cmd.tile.operands large' = [['o']]
    ∧ (Name.tile.run p large w).res = .ok 0 ∧ (Name.tile.run p large' (after .transform p t w)).res = .ok 0
    ∧ (content (Name.tile.run p large w).fs "a003".toList).isSome = true
    ∧ content (Name.tile.run p large' (after .transform p t w)).fs "o003".toList = none :=
  ⟨exampleParams, exampleDisk, ["--set=x,0".toList, ['a'], ['o']], ["-s10".toList, ['a']], ["-s10".toList, ['o']], by decide +kernel⟩

/-! ## The hypotheses are met -/

/-- The commands of the example leave `x` and `y` alone. -/
theorem set_spares : ∀ o ∈ [("set", "c,7".toList)], ∀ fs, Changes o.1 o.2 fs → Field.x ∉ fs ∧ Field.y ∉ fs := by
  intro o ho fs h
  obtain rfl := List.mem_singleton.mp ho
  rw [Transform.named_first (by simp) (Transform.changes_named (by decide) h)]
  decide

example : (Name.tile.run exampleParams ["-s10".toList, ['o']] (after .transform exampleParams ["--set=c,7".toList, ['a'], ['o']] exampleDisk)).res = .ok 0 :=
  (c132_transform exampleParams toyZlib_correct exampleDisk ["--set=c,7".toList, ['a'], ['o']] [("set", "c,7".toList)] (by decide +kernel)
    (by decide) (by decide) set_spares ['a'] ['o'] (by decide +kernel) (by decide) (by decide) (by decide) rfl cloudA cloudA_holds.1 (by decide +kernel)
    ["-s10".toList, ['a']] ["-s10".toList, ['o']] (by decide +kernel) (by decide +kernel) (by decide +kernel) { tileSize := num 10 }
    (by decide +kernel) rfl rfl (sx := num 10) (sy := num 10) (numbers := [0, 1, 3]) (by decide +kernel) (by decide +kernel) (by decide)
    (by decide) (by decide +kernel) (by decide +kernel)).2.1

example : (Name.tile.run exampleParams ["-s10".toList, ['o']] (after .tool exampleParams ["--resize-extra=2".toList, ['a'], ['o']] exampleDisk)).res
    = .ok 0 :=
  (c132_resize exampleParams toyZlib_correct exampleDisk ["--resize-extra=2".toList, ['a'], ['o']] 2 (by decide) (by decide +kernel)
    ['a'] ['o'] (by decide +kernel) (by decide) (by decide) rfl cloudA cloudA_holds.1
    ["-s10".toList, ['a']] ["-s10".toList, ['o']] (by decide +kernel) (by decide +kernel) (by decide +kernel) { tileSize := num 10 }
    (by decide +kernel) rfl rfl (sx := num 10) (sy := num 10) (numbers := [0, 1, 3]) (by decide +kernel) (by decide +kernel) (by decide)
    (by decide) (by decide +kernel) (by decide +kernel)).2.1

example : (Name.tile.run exampleParams ["-s10".toList, ['o']] (after .srs exampleParams (srsLine ['W'] ['a'] ['o']) exampleDisk)).res = .ok 0 :=
  (c132_srs exampleParams toyZlib_correct exampleDisk (srsLine ['W'] ['a'] ['o']) ['W'] (by decide) (by decide +kernel)
    ['a'] ['o'] (by decide +kernel) (by decide) (by decide) rfl cloudA cloudA_holds.1
    ["-s10".toList, ['a']] ["-s10".toList, ['o']] (by decide +kernel) (by decide +kernel) (by decide +kernel) { tileSize := num 10 }
    (by decide +kernel) rfl rfl (sx := num 10) (sy := num 10) (numbers := [0, 1, 3]) (by decide +kernel) (by decide +kernel) (by decide)
    (by decide) (by decide +kernel) (by decide +kernel)).2.1

end Spoc.Props
