import Verif.Props.EndToEnd

/-!
# C43, C46, C76: tiles of any input, also over existing files
-/

namespace Spoc

namespace Tile

/-- The name can be used for a tile, and the tile can be read afterwards: there is no file of this name and one can be created, or
there is one that can be read and written, and it may be overwritten. -/
def Free (cc : Str → Bool) (force : Bool) (fs : FS) (n : Str) : Prop :=
  (fs n = none ∧ cc n = true) ∨ (force = true ∧ ∃ x, fs n = some x ∧ x.readable = true ∧ x.writable = true)

theorem writeTile_free (b : Build) (zl : Zlib) (cc : Str → Bool) (force : Bool) (fs : FS) (n : Str) (t : SpocFile) (h : Free cc force fs n) :
    writeTile b zl cc force fs n t
      = (fs.set n { content := (Io.writeFile b zl t).bytes, readable := true, writable := true }, (Io.writeFile b zl t).res) := by
  rcases h with ⟨h1, h2⟩ | ⟨rfl, x, h1, h2, h3⟩
  · exact writeTile_new b zl cc force fs n t h1 h2
  · unfold writeTile openWrite
    rw [h1]
    simp only [Bool.not_true, Bool.false_and, Bool.false_eq_true, if_false, h3, if_true, h2]

/-- All tiles are written when the names are free. -/
theorem writeTiles_free (b : Build) (zl : Zlib) (cc : Str → Bool) (force : Bool) (name : UInt64 → Str) (g : SpocFile) (m : TileMap)
    (tile : UInt64 → SpocFile) (ks : List UInt64) (fs : FS) (hinj : ∀ k k', name k = name k' → k = k') (hnd : ks.Nodup)
    (ht : ∀ k ∈ ks, tileFile b g m k = .ok (tile k)) (hn : ∀ k ∈ ks, Free cc force fs (name k))
    (hw : ∀ k ∈ ks, (Io.writeFile b zl (tile k)).res = .ok ()) :
    (writeTiles b zl cc force name g m ks fs).2 = .ok () ∧
      ∀ k ∈ ks, (writeTiles b zl cc force name g m ks fs).1 (name k)
        = some { content := (Io.writeFile b zl (tile k)).bytes, readable := true, writable := true } := by
  induction ks generalizing fs with
  | nil => exact ⟨rfl, by simp⟩
  | cons k ks ih =>
    rw [List.nodup_cons] at hnd
    have e : writeTiles b zl cc force name g m (k :: ks) fs
        = writeTiles b zl cc force name g m ks
            (fs.set (name k) { content := (Io.writeFile b zl (tile k)).bytes, readable := true, writable := true }) := by
      rw [writeTiles, ht k (by simp)]
      simp only
      rw [writeTile_free b zl cc force fs _ _ (hn k (by simp)), hw k (by simp)]
    have hne : ∀ k' ∈ ks, name k' ≠ name k := fun k' hk' h => hnd.1 (hinj _ _ h ▸ hk')
    obtain ⟨h1, h2⟩ := ih
      (fs.set (name k) { content := (Io.writeFile b zl (tile k)).bytes, readable := true, writable := true }) hnd.2
      (fun k' hk' => ht k' (by simp [hk'])) (by
        intro k' hk'
        unfold Free
        rw [set_other _ _ (hne k' hk')]
        exact hn k' (by simp [hk'])) (fun k' hk' => hw k' (by simp [hk']))
    rw [e]
    refine ⟨h1, fun k' hk' => ?_⟩
    rcases List.mem_cons.mp hk' with rfl | hk'
    · rw [writeTiles_others _ _ _ _ _ _ _ _ _ (fun k2 hk2 => (hne k2 hk2).symm), set_same]
    · exact h2 k' hk'

end Tile

namespace Props

open Getopt Cmd Main Spec Spec.Cmd Text

theorem tileOf_eq {f : SpocFile} (hf : Writable f) (numbers : List UInt64) (k : UInt64) :
    tileOf f numbers k = { f with prs := pointsNumbered f.prs numbers k } := by
  unfold tileOf
  have h1 := hf.major
  have h2 := hf.minor
  cases f
  simp only at h1 h2 ⊢
  rw [h1, h2]; rfl

/-- What tile leaves, byte for byte: `tileOf` in a file of its own for every number. -/
theorem tile_leaves (p : Params) (hz : p.zlib.Correct) (w : World) (argv : List Str) (i : Str)
    (hops : Cmd.tile.operands argv = [i]) (hi : i ≠ []) (f : SpocFile) (hf : HasCloud p w.fs i f)
    (a : Tile.Args) (ha : Tile.getArgs (Cmd.tile.options argv) {} = .ok a) (hv : a.version = false)
    (hh : a.help = false) {sx sy : F64} {numbers : List UInt64} (hsz : Tile.tileSizes a (Extent.ofPoints f.prs) = .ok (sx, sy))
    (hn : Tile.getTileIndexes f.prs (Extent.ofPoints f.prs) sx sy = .ok numbers)
    (hs : (f.compressed = false → ∀ q ∈ f.prs, q.extra.length ≤ 123)
      ∧ (f.compressed = true → FitsZlib p.zlib f.prs.length ∧ ∀ k ∈ numbers, NoHiddenNegZero (pointsNumbered f.prs numbers k)))
    (hpre : (if a.pre.isEmpty then Tile.stem i else a.pre) ≠ [])
    (hfree : ∀ k ∈ numbers, Tile.Free w.canCreate a.force w.fs (tileName { a with fn := i } f k)) :
    (Name.tile.run p argv w).res = .ok 0 ∧ (Name.tile.run p argv w).out = []
      ∧ (∀ k ∈ numbers, Survives p.zlib (tileOf f numbers k)
          ∧ (Name.tile.run p argv w).fs (tileName { a with fn := i } f k)
            = some { content := (Io.writeFile p.build p.zlib (tileOf f numbers k)).bytes, readable := true, writable := true })
      ∧ ∀ m, (∀ k ∈ numbers, m ≠ tileName { a with fn := i } f k) → (Name.tile.run p argv w).fs m = w.fs m := by
  obtain ⟨x, s', h1, h2, h3⟩ := hf
  have hw := readable_writable h3
  have hsv : ∀ k ∈ numbers, Survives p.zlib (tileOf f numbers k) := by
    intro k hk
    rw [tileOf_eq hw]
    have hl := Tile.pointsNumbered_sublist f.prs numbers k
    refine ⟨⟨hw.major, hw.minor, hw.wkt, Filter.uniform_sublist hw.uniform hl, fun q hq => hw.extra q (hl.subset hq),
      lt_of_le_of_lt hl.length_le hw.count⟩, fun hc q hq => hs.1 hc q (hl.subset hq), fun hc => ?_⟩
    obtain ⟨⟨e1, e2⟩, e3⟩ := hs.2 hc
    have := hl.length_le
    exact ⟨⟨lt_of_le_of_lt (Nat.mul_le_mul_left 8 this) e1, fun bs hb => e2 bs (le_trans hb (Nat.mul_le_mul_left 8 this))⟩, e3 k hk⟩
  have hin : tileInput i w.stdin w.fs = some { rest := x.content } := by
    have hi' : i.isEmpty = false := by simpa using hi
    simp only [tileInput, hi', Bool.false_eq_true, if_false, h1, h2, if_true]
  have key : ∃ fs', Tile.main p.build p.zlib w.canCreate (Cmd.tile.options argv) i w.stdin w.fs = (fs', .ok ())
      ∧ (∀ k ∈ numbers, fs' (tileName { a with fn := i } f k)
          = some { content := (Io.writeFile p.build p.zlib (tileOf f numbers k)).bytes, readable := true, writable := true })
      ∧ ∀ n, (∀ k ∈ numbers, n ≠ tileName { a with fn := i } f k) → fs' n = w.fs n := by
    rw [tileMain_eq p.build p.zlib w.canCreate _ i w.stdin _ s' w.fs a f ha hv hh (Or.inl hi) hin h3]
    rw [tileAll_eq p.build p.zlib w.canCreate { a with fn := i } f w.fs hsz hn hpre]
    obtain ⟨k1, k2⟩ := Tile.sortedKeys_spec numbers
    have hl : numbers.length = f.prs.length := by
      unfold Tile.getTileIndexes at hn
      rw [Res.bind_eq_ok] at hn
      obtain ⟨st, _, hm⟩ := hn
      exact mapM_length hm
    obtain ⟨e1, e2⟩ := Tile.writeTiles_free p.build p.zlib w.canCreate a.force (tileName { a with fn := i } f) f (Tile.getTileMap numbers)
      (tileOf f numbers) (Tile.sortedKeys (Tile.getTileMap numbers)) w.fs (fun k k' h => Tile.outputName_inj _ _ _ _ h)
      (k1.imp (fun h => UInt64.ne_of_lt h))
      (fun k hk => (Tile.tileFile_eq p.build f hw.uniform numbers hl k ((k2 k).mp hk)).1)
      (fun k hk => hfree k ((k2 k).mp hk))
      (fun k hk => (survives_roundtrip p.build p.zlib hz _ (hsv k ((k2 k).mp hk))).1)
    refine ⟨_, Prod.ext rfl e1, fun k hk => e2 k ((k2 k).mpr hk), fun n hn => ?_⟩
    exact Tile.writeTiles_others _ _ _ _ _ _ _ _ _ (fun k hk => hn k ((k2 k).mp hk))
  obtain ⟨fs', e, h4, h5⟩ := key
  have er : Name.tile.run p argv w = ⟨fs', [], .ok 0⟩ := by
    simp only [Name.run, Main.tile, withOperands, ha, hh, hops, one, Res.ok_bind, hv, Bool.false_eq_true, if_false, e]
    rfl
  rw [er]
  exact ⟨rfl, rfl, fun k hk => ⟨hsv k hk, h4 k hk⟩, h5⟩

/-- **C76**, tile: every tile of C43 is in a file of its own, for every input that can be stored, compressed or not, and also if files of
these names exist and `--force` is given.  (`hs`: if the file is compressed, no tile may consist of a column of zeros with a negative
zero among them, see C02.) -/
theorem c76_tile (p : Params) (hz : p.zlib.Correct) (w : World) (argv : List Str) (i : Str)
    (hops : Cmd.tile.operands argv = [i]) (hi : i ≠ []) (f : SpocFile) (hf : HasCloud p w.fs i f)
    (a : Tile.Args) (ha : Tile.getArgs (Cmd.tile.options argv) {} = .ok a) (hv : a.version = false)
    (hh : a.help = false) {sx sy : F64} {numbers : List UInt64} (hsz : Tile.tileSizes a (Extent.ofPoints f.prs) = .ok (sx, sy))
    (hn : Tile.getTileIndexes f.prs (Extent.ofPoints f.prs) sx sy = .ok numbers)
    (hs : (f.compressed = false → ∀ q ∈ f.prs, q.extra.length ≤ 123)
      ∧ (f.compressed = true → FitsZlib p.zlib f.prs.length ∧ ∀ k ∈ numbers, NoHiddenNegZero (pointsNumbered f.prs numbers k)))
    (hpre : (if a.pre.isEmpty then Tile.stem i else a.pre) ≠ [])
    (hfree : ∀ k ∈ numbers, Tile.Free w.canCreate a.force w.fs (tileName { a with fn := i } f k)) :
    (Name.tile.run p argv w).res = .ok 0 ∧ (Name.tile.run p argv w).out = []
      ∧ (∀ k ∈ numbers, HasCloud p (Name.tile.run p argv w).fs (tileName { a with fn := i } f k) (tileOf f numbers k))
      ∧ ∀ m, (∀ k ∈ numbers, m ≠ tileName { a with fn := i } f k) → (Name.tile.run p argv w).fs m = w.fs m := by
  obtain ⟨h3, h4, h5, h6⟩ := tile_leaves p hz w argv i hops hi f hf a ha hv hh hsz hn hs hpre hfree
  refine ⟨h3, h4, fun k hk => ⟨_, { rest := [] }, (h5 k hk).2, rfl, ?_⟩, h6⟩
  have := (survives_roundtrip p.build p.zlib hz _ (h5 k hk).1).2 []
  rwa [List.append_nil] at this

/-- **C76**: splitting a file into tiles and merging these, with two command lines, gives all the points of the file, in another order and
with other point ids, its spatial reference, and it is compressed if the file is; also if the names of the tiles are taken and `--force` is
given. -/
theorem c76_tile_merge (p : Params) (hz : p.zlib.Correct) (w : World) (argv : List Str) (i : Str)
    (hops : Cmd.tile.operands argv = [i]) (hi : i ≠ []) (f : SpocFile) (hf : HasCloud p w.fs i f)
    (a : Tile.Args) (ha : Tile.getArgs (Cmd.tile.options argv) {} = .ok a) (hv : a.version = false)
    (hh : a.help = false) {sx sy : F64} {numbers : List UInt64} (hsz : Tile.tileSizes a (Extent.ofPoints f.prs) = .ok (sx, sy))
    (hn : Tile.getTileIndexes f.prs (Extent.ofPoints f.prs) sx sy = .ok numbers)
    (hs : (f.compressed = false → ∀ q ∈ f.prs, q.extra.length ≤ 123)
      ∧ (f.compressed = true → FitsZlib p.zlib f.prs.length ∧ ∀ k ∈ numbers, NoHiddenNegZero (pointsNumbered f.prs numbers k)))
    (hpre : (if a.pre.isEmpty then Tile.stem i else a.pre) ≠ [])
    (hfree : ∀ k ∈ numbers, Tile.Free w.canCreate a.force w.fs (tileName { a with fn := i } f k))
    (argv' : List Str) (quiet : Bool) (asked : Option Nat) (hid : ∀ n ∈ asked, n < 2 ^ 31)
    (hopt' : Cmd.merge.options argv' = mergeOptions quiet asked) (ks : List UInt64) (hnd : ks.Nodup) (hk : ∀ k, k ∈ ks ↔ k ∈ numbers)
    (h2 : 2 ≤ ks.length) (hops' : Cmd.merge.operands argv' = ks.map (tileName { a with fn := i } f)) :
    (Name.merge.run p argv' (after .tile p argv w)).res = .ok 0
      ∧ ∃ g s, Io.readFile p.build p.zlib { rest := (Name.merge.run p argv' (after .tile p argv w)).out } = .ok (g, s)
        ∧ g.wkt = f.wkt ∧ g.compressed = f.compressed ∧ (g.prs.map withoutId).Perm (f.prs.map withoutId) := by
  obtain ⟨h3, h4, h5, h6⟩ := c76_tile p hz w argv i hops hi f hf a ha hv hh hsz hn hs hpre hfree
  have hw : Writable f := by
    obtain ⟨x, s', -, -, h⟩ := hf
    exact readable_writable h
  have hl : numbers.length = f.prs.length := by
    unfold Tile.getTileIndexes at hn
    rw [Res.bind_eq_ok] at hn
    obtain ⟨st, _, hm⟩ := hn
    exact mapM_length hm
  have hperm := Tile.tiles_perm f.prs numbers hl ks hnd hk
  match ks, h2 with
  | k :: k' :: ks, _ =>
    have hall : allPoints (tileOf f numbers k :: (k' :: ks).map (tileOf f numbers)) = (k :: k' :: ks).flatMap (pointsNumbered f.prs numbers) := by
      rw [← List.map_cons (f := tileOf f numbers), allPoints, List.flatMap_map]
      rfl
    have hmem : ∀ q ∈ allPoints (tileOf f numbers k :: (k' :: ks).map (tileOf f numbers)), q ∈ f.prs := by
      intro q hq
      rw [hall] at hq
      exact hperm.subset hq
    have hwid := mergedPoints_withoutId (idOf asked) (tileOf f numbers k :: (k' :: ks).map (tileOf f numbers))
    have hlen : (mergedPoints (idOf asked) (tileOf f numbers k :: (k' :: ks).map (tileOf f numbers))).length = f.prs.length := by
      have := congrArg List.length hwid
      rw [List.length_map, List.length_map, hall] at this
      rw [this, hperm.length_eq]
    have hcmp : (tileOf f numbers k :: (k' :: ks).map (tileOf f numbers)).all (fun f => f.compressed) = f.compressed := by
      cases hc : f.compressed <;> simp [tileOf, hc]
    have hzero : f.compressed = true → NoHiddenNegZero (mergedPoints (idOf asked) (tileOf f numbers k :: (k' :: ks).map (tileOf f numbers))) := by
      intro hc axis hax honly q hq
      have hid : ∀ r : PointRecord, axis (withoutId r) = axis r := by
        intro r
        rcases hax with rfl | rfl | rfl <;> rfl
      have hf0 : ∀ r ∈ f.prs, axis r = F64.zero ∨ axis r = F64.negZero := by
        intro r hr
        have h1 : withoutId r ∈ (mergedPoints (idOf asked) (tileOf f numbers k :: (k' :: ks).map (tileOf f numbers))).map withoutId := by
          rw [hwid, hall]
          exact List.mem_map_of_mem (hperm.mem_iff.mpr hr)
        obtain ⟨r', h7, h8⟩ := List.mem_map.mp h1
        rw [← hid r, ← h8, hid r']
        exact honly r' h7
      have h1 : withoutId q ∈ ((k :: k' :: ks).flatMap (pointsNumbered f.prs numbers)).map withoutId := by
        rw [← hall, ← hwid]
        exact List.mem_map_of_mem hq
      obtain ⟨r, h7, h8⟩ := List.mem_map.mp h1
      obtain ⟨j, h9, h10⟩ := List.mem_flatMap.mp h7
      rw [← hid q, ← h8, hid r]
      exact (hs.2 hc).2 j ((hk j).mp h9) axis hax (fun r' hr' => hf0 r' ((Tile.pointsNumbered_sublist f.prs numbers j).subset hr')) r h10
    have hsv : Survives p.zlib (mergedCloud asked (tileOf f numbers k) ((k' :: ks).map (tileOf f numbers))) := by
      refine ⟨⟨rfl, rfl, hw.wkt, ?_, ?_, ?_⟩, fun h => ?_, fun h => ⟨?_, hzero (hcmp.symm.trans h)⟩⟩
      · cases hp : f.prs with
        | nil =>
          rw [hp] at hlen
          have : (mergedCloud asked (tileOf f numbers k) ((k' :: ks).map (tileOf f numbers))).prs = [] := List.eq_nil_of_length_eq_zero hlen
          rw [this]
          intro q hq
          cases hq
        | cons q0 l =>
          have hq0 : q0 ∈ f.prs := by rw [hp]; exact List.mem_cons_self
          have := mergedPoints_extra (idOf asked) _ (fun n => n = q0.extra.length) (fun q hq => hw.uniform q (hmem q hq) q0 hq0)
          exact fun q hq r hr => (this q hq).trans (this r hr).symm
      · exact mergedPoints_extra (idOf asked) _ (· ≤ 255) (fun q hq => hw.extra q (hmem q hq))
      · exact hlen ▸ hw.count
      · exact mergedPoints_extra (idOf asked) _ (· ≤ 123) (fun q hq => hs.1 (hcmp.symm.trans h) q (hmem q hq))
      · exact hlen ▸ (hs.2 (hcmp.symm.trans h)).1
    obtain ⟨h7, -, s, h8⟩ := c76_merge_partial p hz (after .tile p argv w) argv' quiet asked hid hopt' (tileOf f numbers k)
      ((k' :: ks).map (tileOf f numbers)) (by
        rw [hops', ← List.map_cons (f := tileOf f numbers), List.forall₂_map_left_iff, List.forall₂_map_right_iff, List.forall₂_same]
        exact fun k hm => h5 k ((hk k).mp hm)) (by simp) (fun q hq r hr => hw.uniform q (hmem q hq) r (hmem r hr)) hsv
    refine ⟨h7, _, s, h8, rfl, hcmp, ?_⟩
    show ((mergedPoints (idOf asked) _).map withoutId).Perm _
    rw [mergedPoints_withoutId, hall]
    exact hperm.map withoutId

/-- A disk on which every name is taken. -/
def fullDisk : World := { exampleDisk with
  fs := fun n => if n = ['z'] then exampleDisk.fs n else some { content := [1, 2, 3], readable := true, writable := true } }

theorem fullDisk_taken (n : Str) : ∃ x, fullDisk.fs n = some x ∧ x.readable = true ∧ x.writable = true := by
  unfold fullDisk
  by_cases h : n = ['z']
  · subst h; exact ⟨_, rfl, rfl, rfl⟩
  · simp only [if_neg h]; exact ⟨_, rfl, rfl, rfl⟩

theorem cloudZ_tiles : ∀ k ∈ [(0 : UInt64), 1, 3],
    NoHiddenNegZero (pointsNumbered ({ cloudA with compressed := true } : SpocFile).prs [0, 1, 3] k) := by
  intro k hk
  simp only [List.mem_cons, List.not_mem_nil, or_false] at hk
  rcases hk with rfl | rfl | rfl <;> rintro axis (rfl | rfl | rfl) <;> intro h <;> revert h <;> unfold OnlyZeros <;> decide +kernel

theorem cloudZ_on_fullDisk : HasCloud exampleParams fullDisk.fs ['z'] { cloudA with compressed := true } := by
  obtain ⟨x, s, h1, h2, h3⟩ := cloudZ_on_disk
  exact ⟨x, s, h1, h2, h3⟩

/-- The compressed file of the examples is split over files that exist. -/
example : (Name.tile.run exampleParams ["-f".toList, "-s10".toList, "-pb".toList, ['z']] fullDisk).res = .ok 0 :=
  (c76_tile exampleParams toyZlib_correct fullDisk ["-f".toList, "-s10".toList, "-pb".toList, ['z']] ['z'] (by decide +kernel)
    (by decide) { cloudA with compressed := true } cloudZ_on_fullDisk { force := true, tileSize := num 10, pre := ['b'] } (by decide +kernel)
    rfl rfl (sx := num 10) (sy := num 10) (numbers := [0, 1, 3]) (by decide +kernel) (by decide +kernel)
    ⟨by simp, fun _ => ⟨toyZlib_fits (by decide), cloudZ_tiles⟩⟩ (by decide) (fun k hk => .inr ⟨rfl, fullDisk_taken _⟩)).1

/-- ... and merged. -/
example : (Name.merge.run exampleParams ["b000".toList, "b001".toList, "b003".toList]
    (after .tile exampleParams ["-f".toList, "-s10".toList, "-pb".toList, ['z']] fullDisk)).res = .ok 0 :=
  (c76_tile_merge exampleParams toyZlib_correct fullDisk ["-f".toList, "-s10".toList, "-pb".toList, ['z']] ['z'] (by decide +kernel)
    (by decide) { cloudA with compressed := true } cloudZ_on_fullDisk { force := true, tileSize := num 10, pre := ['b'] } (by decide +kernel)
    rfl rfl (sx := num 10) (sy := num 10) (numbers := [0, 1, 3]) (by decide +kernel) (by decide +kernel)
    ⟨by simp, fun _ => ⟨toyZlib_fits (by decide), cloudZ_tiles⟩⟩ (by decide) (fun k hk => .inr ⟨rfl, fullDisk_taken _⟩)
    ["b000".toList, "b001".toList, "b003".toList] false none (by simp) (by decide +kernel) [0, 1, 3] (by decide)
    (fun _ => Iff.rfl) (by decide) (by decide +kernel)).1

end Props

end Spoc
