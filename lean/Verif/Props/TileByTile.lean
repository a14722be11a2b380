import Verif.Props.Pipeline
import Verif.Props.TileForce
import Verif.Props.FilterTransform
import Verif.Proofs.Firsts

/-!
# C119: processing a cloud tile by tile
-/

namespace Spoc.Props

open Getopt Cmd Main Spec Spec.Cmd Text
open Transform (applyOps parseCommand Op)
open Io (hdr)

/-- The command line `argv` asks tile to split the file `i`, which holds the uncompressed cloud `f`, in such a way that the points have the
tile numbers `numbers` and the tile `k` goes to the file `name k`; these files can be written. -/
structure Splits (p : Params) (w : World) (argv : List Str) (i : Str) (f : SpocFile) (numbers : List UInt64) (name : UInt64 → Str) : Prop where
  operands : Cmd.tile.operands argv = [i]
  named : i ≠ []
  cloud : HasCloud p w.fs i f
  plain : f.compressed = false
  options : ∃ (a : Tile.Args) (sx sy : F64), Tile.getArgs (Cmd.tile.options argv) {} = .ok a ∧ a.version = false ∧ a.help = false
    ∧ Tile.tileSizes a (Extent.ofPoints f.prs) = .ok (sx, sy)
    ∧ Tile.getTileIndexes f.prs (Extent.ofPoints f.prs) sx sy = .ok numbers
    ∧ (if a.pre.isEmpty then Tile.stem i else a.pre) ≠ []
    ∧ (∀ k, name k = tileName { a with fn := i } f k)
    ∧ ∀ k ∈ numbers, Tile.Free w.canCreate a.force w.fs (name k)

theorem splits_leaves {p : Params} (hz : p.zlib.Correct) {w : World} {argv : List Str} {i : Str} {f : SpocFile} {numbers : List UInt64}
    {name : UInt64 → Str} (h : Splits p w argv i f numbers name) :
    numbers.length = f.prs.length
      ∧ (∀ k ∈ numbers, name k ≠ [])
      ∧ (∀ k ∈ numbers, Survives p.zlib (tileOf f numbers k)
          ∧ (after .tile p argv w).fs (name k)
            = some { content := (Io.writeFile p.build p.zlib (tileOf f numbers k)).bytes, readable := true, writable := true })
      ∧ (∀ m, (∀ k ∈ numbers, m ≠ name k) → (after .tile p argv w).fs m = w.fs m) := by
  obtain ⟨a, sx, sy, h1, h2, h3, h4, h5, h6, h7, h8⟩ := h.options
  obtain ⟨x, s', -, -, hr⟩ := h.cloud
  have hs := readable_survives hr h.plain
  obtain ⟨-, -, e3, e4⟩ := tile_leaves p hz w argv i h.operands h.named f h.cloud a h1 h2 h3 h4 h5
    ⟨fun hc => hs.2.1 hc, fun hc => by rw [h.plain] at hc; simp at hc⟩ h6 (fun k hk => by rw [← h7 k]; exact h8 k hk)
  refine ⟨?_, fun k hk => ?_, fun k hk => ?_, fun m hm => ?_⟩
  · unfold Tile.getTileIndexes at h5
    rw [Res.bind_eq_ok] at h5
    obtain ⟨st, _, hm⟩ := h5
    exact mapM_length hm
  · rw [h7 k]
    intro e
    unfold tileName Tile.outputName at e
    exact h6 (List.append_eq_nil_iff.mp (List.append_eq_nil_iff.mp e).1).1
  · rw [h7 k]
    exact e3 k hk
  · exact e4 m fun k hk => by rw [← h7 k]; exact hm k hk

/-- The jobs, one per tile. -/
def tileJobs (f : SpocFile) (numbers : List UInt64) (name out : UInt64 → Str) (line : UInt64 → List Str) (made : UInt64 → SpocFile)
    (ks : List UInt64) : List Job := ks.map fun k => ⟨line k, name k, out k, tileOf f numbers k, made k⟩

/-- The names of the files for the processed tiles: different ones, none of them a tile, and they can be written. -/
structure Outputs (w : World) (numbers : List UInt64) (name out : UInt64 → Str) (ks : List UInt64) : Prop where
  nodup : ks.Nodup
  all : ∀ k, k ∈ ks ↔ k ∈ numbers
  two : 2 ≤ ks.length
  named : ∀ k ∈ ks, out k ≠ []
  different : ∀ k ∈ ks, ∀ k' ∈ ks, out k = out k' → k = k'
  noTile : ∀ k ∈ ks, ∀ k' ∈ ks, name k ≠ out k'
  free : ∀ k ∈ ks, CanReplace w (out k)

/-- The processed tiles are merged. -/
theorem tiles_merged (n : Name) (p : Params) (hz : p.zlib.Correct) (w : World) {argv : List Str} {i : Str} {f : SpocFile}
    {numbers : List UInt64} {name : UInt64 → Str} (h : Splits p w argv i f numbers name) {out : UInt64 → Str} {ks : List UInt64}
    (ho : Outputs w numbers name out ks) (line : UInt64 → List Str) (made : UInt64 → SpocFile)
    (hmake : ∀ k ∈ ks, ∀ w' : World, w'.fs (name k) = (after .tile p argv w).fs (name k) → CanReplace w' (out k) →
      Makes n p w' (line k) (out k) (made k))
    (hs : ∀ k ∈ ks, Survives p.zlib (made k) ∧ (made k).compressed = false ∧ (made k).wkt = f.wkt)
    (hu : Uniform (allPoints (ks.map made))) (hl : (allPoints (ks.map made)).length < 2 ^ 64)
    (merge : List Str) (quiet : Bool) (asked : Option Nat) (hid : ∀ n ∈ asked, n < 2 ^ 31)
    (hopt : Cmd.merge.options merge = mergeOptions quiet asked) (hops : Cmd.merge.operands merge = ks.map out) :
    (Name.merge.run p merge (afterAll n p (tileJobs f numbers name out line made ks) (after .tile p argv w))).res = .ok 0
      ∧ ∃ g s, Io.readFile p.build p.zlib
          { rest := (Name.merge.run p merge (afterAll n p (tileJobs f numbers name out line made ks) (after .tile p argv w))).out } = .ok (g, s)
        ∧ g.wkt = f.wkt ∧ g.compressed = false ∧ g.prs.map withoutId = (allPoints (ks.map made)).map withoutId := by
  obtain ⟨l1, l2, l3, l4⟩ := splits_leaves hz h
  obtain ⟨k, ks, rfl⟩ : ∃ k l, ks = k :: l := by
    cases ks with
    | nil => exact absurd ho.two (by simp)
    | cons k l => exact ⟨k, l, rfl⟩
  have hsv : Survives p.zlib (mergedCloud asked (made k) (ks.map made)) := by
    refine merged_survives_of asked (fun g hg => ?_) hu hl
    rw [← List.map_cons (f := made)] at hg
    obtain ⟨k', hk', rfl⟩ := List.mem_map.mp hg
    exact ⟨(hs k' hk').1, (hs k' hk').2.1⟩
  obtain ⟨r1, r2⟩ := survives_roundtrip p.build p.zlib hz _ hsv
  obtain ⟨m1, m2⟩ := merge_made n p (after .tile p argv w) (tileJobs f numbers name out line made (k :: ks))
    ⟨by
      rw [tileJobs, List.map_map]
      exact List.Nodup.map_on (fun a ha b hb e => ho.different a ha b hb e) ho.nodup,
     by
      intro j hj j' hj'
      obtain ⟨a, ha, rfl⟩ := List.mem_map.mp hj
      obtain ⟨b, hb, rfl⟩ := List.mem_map.mp hj'
      exact ho.noTile a ha b hb⟩
    (by
      intro j hj
      obtain ⟨a, ha, rfl⟩ := List.mem_map.mp hj
      have hf := ho.free a ha
      unfold CanReplace at hf ⊢
      rw [l4 (out a) fun b hb e => ho.noTile b ((ho.all b).mpr hb) a ha e.symm]
      exact hf)
    (by
      intro j hj w' e1 e2
      obtain ⟨a, ha, rfl⟩ := List.mem_map.mp hj
      exact hmake a ha w' e1 e2)
    quiet asked hid merge hopt (by rw [hops, tileJobs, List.map_map]; rfl) (made k) (ks.map made)
    (by rw [tileJobs, List.map_map]; rfl) (by rw [tileJobs, List.length_map]; exact ho.two) hu r1
  refine ⟨m1, mergedCloud asked (made k) (ks.map made), { rest := [] }, ?_, (hs k (by simp)).2.2, ?_,
    mergedPoints_withoutId (idOf asked) (made k :: ks.map made)⟩
  · rw [m2]
    have := r2 []
    rwa [List.append_nil] at this
  · show (made k :: ks.map made).all (fun f => f.compressed) = false
    simp [(hs k (by simp)).2.1]

theorem keeps_withoutId (r : FilterRequest) (q : PointRecord) : keeps r (withoutId q) = keeps r q := rfl

/-- One run per tile, one after the other. -/
def afterEach (n : Name) (p : Params) (line : UInt64 → List Str) (ks : List UInt64) (w : World) : World :=
  ks.foldl (fun w k => after n p (line k) w) w

theorem afterAll_tileJobs (n : Name) (p : Params) (f : SpocFile) (numbers : List UInt64) (name out : UInt64 → Str) (line : UInt64 → List Str)
    (made : UInt64 → SpocFile) (ks : List UInt64) (w : World) :
    afterAll n p (tileJobs f numbers name out line made ks) w = afterEach n p line ks w := by
  unfold afterAll tileJobs afterEach
  rw [List.foldl_map]

/-- Filtering tile by tile, when the steps of the filter leave the same points in the tiles as in the cloud. -/
theorem tiles_filtered (p : Params) (hz : p.zlib.Correct) (hsh : p.shuffle.Lawful) (w : World) (argv : List Str) (i : Str) (f : SpocFile)
    (numbers : List UInt64) (name : UInt64 → Str) (h : Splits p w argv i f numbers name) (out : UInt64 → Str) (ks : List UInt64)
    (ho : Outputs w numbers name out ks) (r : FilterRequest) (left : List PointRecord → List PointRecord)
    (hsub : ∀ ps, (left ps).Sublist ps) (hsteps : ∀ ps, FilterSteps p.build p.shuffle r ps (left ps))
    (hpf : (ks.flatMap fun k => left (pointsNumbered f.prs numbers k)).Perm (left f.prs)) (line : UInt64 → List Str)
    (hline : ∀ k ∈ ks, Asks (Cmd.filter.options (line k)) r ∧ Cmd.filter.operands (line k) = [name k, out k])
    (merge : List Str) (quiet : Bool) (asked : Option Nat) (hid : ∀ n ∈ asked, n < 2 ^ 31)
    (hopt : Cmd.merge.options merge = mergeOptions quiet asked) (hops : Cmd.merge.operands merge = ks.map out)
    (direct : List Str) (hd : Asks (Cmd.filter.options direct) r) (hdn : Cmd.filter.operands direct = [])
    (w' : World) (hw : ∃ x, w.fs i = some x ∧ w'.stdin = { rest := x.content }) :
    let w2 := afterEach .filter p line ks (after .tile p argv w)
    (Name.merge.run p merge w2).res = .ok 0 ∧ (Name.filter.run p direct w').res = .ok 0
      ∧ ∃ g g' s s', Io.readFile p.build p.zlib { rest := (Name.merge.run p merge w2).out } = .ok (g, s)
        ∧ Io.readFile p.build p.zlib { rest := (Name.filter.run p direct w').out } = .ok (g', s')
        ∧ g.wkt = g'.wkt ∧ g.compressed = g'.compressed ∧ (g.prs.map withoutId).Perm (g'.prs.map withoutId) := by
  intro w2
  obtain ⟨l1, l2, l3, l4⟩ := splits_leaves hz h
  obtain ⟨x, s0, hx, hxr, hrd⟩ := h.cloud
  have hf := readable_survives hrd h.plain
  have hread : Io.readFile p.build p.zlib w'.stdin = .ok (f, s0) := by
    obtain ⟨y, e1, e2⟩ := hw
    rw [hx] at e1
    obtain rfl := Option.some.inj e1
    rw [e2, hrd]
  -- the direct run
  obtain ⟨d1, d2⟩ := filter_run p hsh hd hdn hread h.plain _ (hsteps f.prs)
  have hdirect := (survives_roundtrip p.build p.zlib hz _
    (survives_subperm hf h.plain (hsub f.prs).subperm)).2 []
  rw [List.append_nil] at hdirect
  -- the tiles
  have hall : allPoints (ks.map fun k => ({ tileOf f numbers k with prs := left (pointsNumbered f.prs numbers k) } : SpocFile))
      = ks.flatMap fun k => left (pointsNumbered f.prs numbers k) := by
    unfold allPoints
    rw [List.flatMap_map]
  have hsurv : ∀ k ∈ ks, Survives p.zlib { tileOf f numbers k with prs := left (pointsNumbered f.prs numbers k) } := fun k hk =>
    survives_subperm (l3 k ((ho.all k).mp hk)).1 h.plain (hsub _).subperm
  obtain ⟨m1, g, s, m2, m3, m4, m5⟩ := tiles_merged .filter p hz w h ho line 
    (fun k => { tileOf f numbers k with prs := left (pointsNumbered f.prs numbers k) })
    (fun k hk w1 e1 e2 => by
      obtain ⟨q1, q2⟩ := hline k hk
      refine c76_filter_partial p hz hsh w1 (line k) (name k) (out k) r q1 q2 (l2 k ((ho.all k).mp hk)) (ho.named k hk) e2
        (tileOf f numbers k) ⟨_, { rest := [] }, e1.trans (l3 k ((ho.all k).mp hk)).2, rfl, ?_⟩ _ (hsteps _) (hsurv k hk)
      have := (survives_roundtrip p.build p.zlib hz _ (l3 k ((ho.all k).mp hk)).1).2 []
      rwa [List.append_nil] at this)
    (fun k hk => ⟨hsurv k hk, h.plain, rfl⟩)
    (by
      rw [hall]
      exact uniform_subperm hf.1.uniform (hpf.subperm.trans (hsub _).subperm))
    (by
      rw [hall, hpf.length_eq]
      exact lt_of_le_of_lt (hsub _).length_le hf.1.count)
    merge quiet asked hid hopt hops
  rw [afterAll_tileJobs] at m1 m2
  refine ⟨m1, d1, g, { f with prs := left f.prs }, s, { rest := [] }, m2, ?_, m3, by rw [m4]; exact h.plain.symm, ?_⟩
  · rw [d2, hdirect]
  · rw [m5, hall]
    exact hpf.map withoutId

/-- **C119**, filter.  Splitting a cloud into tiles, filtering each tile, and merging the results, gives the points that filtering the whole
cloud gives, in another order and with the point ids of merge, and the same spatial reference, when the filter judges each point by itself. -/
theorem c119_filter (p : Params) (hz : p.zlib.Correct) (hsh : p.shuffle.Lawful) (w : World) (argv : List Str) (i : Str) (f : SpocFile)
    (numbers : List UInt64) (name : UInt64 → Str) (h : Splits p w argv i f numbers name) (out : UInt64 → Str) (ks : List UInt64)
    (ho : Outputs w numbers name out ks) (r : FilterRequest) (hr : PointByPoint r) (line : UInt64 → List Str)
    (hline : ∀ k ∈ ks, Asks (Cmd.filter.options (line k)) r ∧ Cmd.filter.operands (line k) = [name k, out k])
    (merge : List Str) (quiet : Bool) (asked : Option Nat) (hid : ∀ n ∈ asked, n < 2 ^ 31)
    (hopt : Cmd.merge.options merge = mergeOptions quiet asked) (hops : Cmd.merge.operands merge = ks.map out)
    (direct : List Str) (hd : Asks (Cmd.filter.options direct) r) (hdn : Cmd.filter.operands direct = [])
    (w' : World) (hw : ∃ x, w.fs i = some x ∧ w'.stdin = { rest := x.content }) :
    let w2 := afterEach .filter p line ks (after .tile p argv w)
    (Name.merge.run p merge w2).res = .ok 0 ∧ (Name.filter.run p direct w').res = .ok 0
      ∧ ∃ g g' s s', Io.readFile p.build p.zlib { rest := (Name.merge.run p merge w2).out } = .ok (g, s)
        ∧ Io.readFile p.build p.zlib { rest := (Name.filter.run p direct w').out } = .ok (g', s')
        ∧ g.wkt = g'.wkt ∧ g.compressed = g'.compressed ∧ (g.prs.map withoutId).Perm (g'.prs.map withoutId) := by
  obtain ⟨l1, -, -, -⟩ := splits_leaves hz h
  refine tiles_filtered p hz hsh w argv i f numbers name h out ks ho r (fun ps => ps.filter (keeps r)) (fun _ => List.filter_sublist)
    (filterSteps_keeps hr) ?_ line hline merge quiet asked hid hopt hops direct hd hdn w' hw
  rw [← List.filter_flatMap]
  exact (Tile.tiles_perm f.prs numbers l1 ks ho.nodup ho.all).filter (keeps r)

/-- **C119**, removing duplicates.  Splitting a cloud into tiles, filtering each tile, and merging the results, gives the points that filtering the whole
cloud gives, also when the filter removes duplicate places, without a seed: points at the same place are in the same tile. -/
theorem c119_unique (p : Params) (hz : p.zlib.Correct) (hsh : p.shuffle.Lawful) (w : World) (argv : List Str) (i : Str) (f : SpocFile)
    (numbers : List UInt64) (name : UInt64 → Str) (h : Splits p w argv i f numbers name) (out : UInt64 → Str) (ks : List UInt64)
    (ho : Outputs w numbers name out ks) (r : FilterRequest) (hu : r.unique = true) (hn : r.resolution = none)
    (hs : r.seed = 0) (line : UInt64 → List Str)
    (hline : ∀ k ∈ ks, Asks (Cmd.filter.options (line k)) r ∧ Cmd.filter.operands (line k) = [name k, out k])
    (merge : List Str) (quiet : Bool) (asked : Option Nat) (hid : ∀ n ∈ asked, n < 2 ^ 31)
    (hopt : Cmd.merge.options merge = mergeOptions quiet asked) (hops : Cmd.merge.operands merge = ks.map out)
    (direct : List Str) (hd : Asks (Cmd.filter.options direct) r) (hdn : Cmd.filter.operands direct = [])
    (w' : World) (hw : ∃ x, w.fs i = some x ∧ w'.stdin = { rest := x.content }) :
    let w2 := afterEach .filter p line ks (after .tile p argv w)
    (Name.merge.run p merge w2).res = .ok 0 ∧ (Name.filter.run p direct w').res = .ok 0
      ∧ ∃ g g' s s', Io.readFile p.build p.zlib { rest := (Name.merge.run p merge w2).out } = .ok (g, s)
        ∧ Io.readFile p.build p.zlib { rest := (Name.filter.run p direct w').out } = .ok (g', s')
        ∧ g.wkt = g'.wkt ∧ g.compressed = g'.compressed ∧ (g.prs.map withoutId).Perm (g'.prs.map withoutId) := by
  obtain ⟨a, sx, sy, -, -, -, -, hi, -⟩ := h.options
  obtain ⟨number, rfl, hsame⟩ := tileNumber_same hi
  exact tiles_filtered p hz hsh w argv i f _ name h out ks ho r (uniqueKept r) (uniqueKept_sublist r)
    (filterSteps_uniqueKept p.build hsh hu hn hs)
    (uniqueKept_parts r f.prs number hsame ks ho.nodup fun q hq => (ho.all _).mpr (List.mem_map.mpr ⟨q, hq, rfl⟩))
    line hline merge quiet asked hid hopt hops direct hd hdn w' hw

/-- The result of the commands for a point. -/
def changedPoint (ops : List Op) (q : PointRecord) : PointRecord :=
  match applyOps 0 ops q with
  | .ok r => r
  | _ => q

theorem changed_points {ops : List Op} {ps : List PointRecord} :
    (∃ qs, List.Forall₂ (fun q r => applyOps 0 ops q = .ok r) ps qs) ↔
      ∀ q ∈ ps, applyOps 0 ops q = .ok (changedPoint ops q) := by
  constructor
  · rintro ⟨qs, h⟩ q hq
    induction h with
    | nil => simp at hq
    | cons e _ ih =>
      rcases List.mem_cons.mp hq with rfl | hq
      · unfold changedPoint; rw [e]
      · exact ih hq
  · intro h
    refine ⟨ps.map (changedPoint ops), ?_⟩
    rw [List.forall₂_map_right_iff, List.forall₂_same]
    exact h

theorem changed_eq {ops : List Op} {ps qs : List PointRecord} (h : List.Forall₂ (fun q r => applyOps 0 ops q = .ok r) ps qs) :
    qs = ps.map (changedPoint ops) := by
  induction h with
  | nil => rfl
  | cons e _ ih => rw [List.map_cons, ← ih, changedPoint, e]

/-- **C119**, transform.  The whole cloud can be transformed exactly if every tile can be; and then splitting the cloud into tiles,
transforming each tile, and merging the results, gives the points that transforming the whole cloud gives, in another order and with the point
ids of merge, and the same spatial reference. -/
theorem c119_transform (p : Params) (hz : p.zlib.Correct) (w : World) (argv : List Str) (i : Str) (f : SpocFile)
    (numbers : List UInt64) (name : UInt64 → Str) (h : Splits p w argv i f numbers name) (hfull : Props.Holds p w.fs i f)
    (out : UInt64 → Str) (ks : List UInt64)
    (ho : Outputs w numbers name out ks) (os : List (String × Str)) (hne : os ≠ []) (hos : ∀ o ∈ os, o.1 ∈ commandOptions)
    (line : UInt64 → List Str)
    (hline : ∀ k ∈ ks, Cmd.transform.options (line k) = os ∧ Cmd.transform.operands (line k) = [name k, out k])
    (merge : List Str) (quiet : Bool) (asked : Option Nat) (hid : ∀ n ∈ asked, n < 2 ^ 31)
    (hopt : Cmd.merge.options merge = mergeOptions quiet asked) (hops : Cmd.merge.operands merge = ks.map out)
    (direct : List Str) (hd : Cmd.transform.options direct = os) (hdn : Cmd.transform.operands direct = [])
    (w' : World) (hw : ∃ x, w.fs i = some x ∧ w'.stdin = { rest := x.content }) :
    let w1 := after .tile p argv w
    let w2 := afterEach .transform p line ks w1
    ((Name.transform.run p direct w').res = .ok 0 ↔ ∀ k ∈ ks, (Name.transform.run p (line k) w1).res = .ok 0)
      ∧ ((Name.transform.run p direct w').res = .ok 0 → (Name.merge.run p merge w2).res = .ok 0
        ∧ ∃ g g' s s', Io.readFile p.build p.zlib { rest := (Name.merge.run p merge w2).out } = .ok (g, s)
          ∧ Io.readFile p.build p.zlib { rest := (Name.transform.run p direct w').out } = .ok (g', s')
          ∧ g.wkt = g'.wkt ∧ g.compressed = g'.compressed ∧ (g.prs.map withoutId).Perm (g'.prs.map withoutId)) := by
  intro w1 w2
  obtain ⟨l1, l2, l3, l4⟩ := splits_leaves hz h
  obtain ⟨-, hf, x, tl, hx, -, hxc⟩ := hfull
  have hin : w'.stdin = { rest := (Io.writeFile p.build p.zlib f).bytes ++ tl } := by
    obtain ⟨y, e1, e2⟩ := hw
    rw [hx] at e1
    obtain rfl := Option.some.inj e1
    rw [e2, hxc]
  have hcs : ∀ c ∈ commandsOf os, c.name ∈ commandOptions := by
    intro c hc
    obtain ⟨o, h1, rfl⟩ := List.mem_map.mp hc
    exact hos o h1
  have hperm := Tile.tiles_perm f.prs numbers l1 ks ho.nodup ho.all
  -- the direct run
  have hrun : Name.transform.run p direct w' = outputStream w' [] (Transform.apply p.build p.env
      { rest := (Io.writeFile p.build p.zlib f).bytes ++ tl } (commandsOf os) 0) := by
    rw [transform_stdin p w' direct os hd hne hos hdn, hin]
  have hstd : ∀ o : Out Unit, outputStream w' [] o = ⟨w'.fs, o.bytes, zero o.res⟩ := fun o => by simp [outputStream]
  have hzero : ∀ r : Res Unit, zero r = .ok 0 ↔ r = .ok () := by intro r; cases r <;> simp [zero]
  have hdir : (Name.transform.run p direct w').res = .ok 0 ↔ ∃ ops, (commandsOf os).mapM (parseCommand p.build p.env 0 f.extraFields) = .ok ops
      ∧ ∀ q ∈ f.prs, applyOps 0 ops q = .ok (changedPoint ops q) := by
    rw [hrun, hstd]
    show zero _ = .ok 0 ↔ _
    rw [hzero]
    constructor
    · intro hr
      obtain ⟨ops, qs, e1, e2, -⟩ := (apply_written p.build p.zlib p.env f hf.1 h.plain tl (commandsOf os) 0 _).mp
        (show Transform.apply p.build p.env { rest := (Io.writeFile p.build p.zlib f).bytes ++ tl } (commandsOf os) 0 = ⟨_, .ok ()⟩ by
          rw [← hr])
      exact ⟨ops, e1, changed_points.mp ⟨qs, (applyAll_rel hcs e1 0 f.prs qs).mp e2⟩⟩
    · rintro ⟨ops, e1, e2⟩
      obtain ⟨qs, hq⟩ := changed_points.mpr e2
      rw [(apply_written p.build p.zlib p.env f hf.1 h.plain tl (commandsOf os) 0 _).mpr
        ⟨ops, qs, e1, (applyAll_rel hcs e1 0 f.prs qs).mpr hq, rfl⟩]
  -- a tile
  have htile : ∀ k ∈ ks, ∀ w1 : World, w1.fs (name k) = (after .tile p argv w).fs (name k) → CanReplace w1 (out k) →
      Props.Holds p w1.fs (name k) (tileOf f numbers k) := fun k hk w1 e1 _ =>
    ⟨h.plain, (l3 k ((ho.all k).mp hk)).1, _, [], e1.trans (l3 k ((ho.all k).mp hk)).2, rfl, by rw [List.append_nil]⟩
  have hfree : ∀ k ∈ ks, CanReplace w1 (out k) := by
    intro k hk
    have hf := ho.free k hk
    unfold CanReplace at hf ⊢
    rw [l4 (out k) fun b hb e => ho.noTile b ((ho.all b).mpr hb) k hk e.symm]
    exact hf
  have hrunTile : ∀ k ∈ ks, ((Name.transform.run p (line k) w1).res = .ok 0 ↔
      ∃ ops, (commandsOf os).mapM (parseCommand p.build p.env 0 f.extraFields) = .ok ops
        ∧ ∀ q ∈ pointsNumbered f.prs numbers k, applyOps 0 ops q = .ok (changedPoint ops q)) := by
    intro k hk
    rw [transform_succeeds p w1 (line k) os (hline k hk).1 hne hos (name k) (out k) (hline k hk).2 (l2 k ((ho.all k).mp hk))
      (ho.noTile k hk k hk) (tileOf f numbers k) (htile k hk w1 rfl (hfree k hk)) (hfree k hk),
      parse_extra p _ f.extraFields os]
    constructor
    · rintro ⟨ops, qs, e1, e2⟩
      exact ⟨ops, e1, changed_points.mp ⟨qs, (applyAll_rel hcs e1 0 _ qs).mp e2⟩⟩
    · rintro ⟨ops, e1, e2⟩
      obtain ⟨qs, hq⟩ := changed_points.mpr e2
      exact ⟨ops, qs, e1, (applyAll_rel hcs e1 0 _ qs).mpr hq⟩
  refine ⟨⟨fun hok k hk => ?_, fun hall => ?_⟩, fun hok => ?_⟩
  · obtain ⟨ops, e1, e2⟩ := hdir.mp hok
    exact (hrunTile k hk).mpr ⟨ops, e1, fun q hq => e2 q ((Tile.pointsNumbered_sublist f.prs numbers k).subset hq)⟩
  · obtain ⟨k0, hk0⟩ : ∃ k, k ∈ ks := by
      cases ks with
      | nil => exact absurd ho.two (by simp)
      | cons k l => exact ⟨k, by simp⟩
    obtain ⟨ops, e1, -⟩ := (hrunTile k0 hk0).mp (hall k0 hk0)
    refine hdir.mpr ⟨ops, e1, fun q hq => ?_⟩
    obtain ⟨k, hk, hqk⟩ := List.mem_flatMap.mp (hperm.symm.subset hq)
    obtain ⟨ops', e1', e2'⟩ := (hrunTile k hk).mp (hall k hk)
    rw [e1] at e1'
    obtain rfl := Res.ok.inj e1'
    exact e2' q hqk
  · obtain ⟨ops, e1, e2⟩ := hdir.mp hok
    have tileAll : ∀ k, applyAll ops 0 (pointsNumbered f.prs numbers k) = .ok ((pointsNumbered f.prs numbers k).map (changedPoint ops)) := by
      intro k
      rw [applyAll_rel hcs e1, List.forall₂_map_right_iff, List.forall₂_same]
      exact fun q hq => e2 q ((Tile.pointsNumbered_sublist f.prs numbers k).subset hq)
    have all : applyAll ops 0 f.prs = .ok (f.prs.map (changedPoint ops)) := by
      rw [applyAll_rel hcs e1, List.forall₂_map_right_iff, List.forall₂_same]
      exact e2
    have e1' : ∀ k, (commandsOf os).mapM (parseCommand p.build p.env 0 (tileOf f numbers k).extraFields) = .ok ops := fun k => by
      rw [parse_extra p _ f.extraFields os, e1]
    obtain ⟨s1, s2⟩ := changed (z := p.zlib) hf h.plain e1 all
    have c1 := fun k (hk : k ∈ ks) => changed (z := p.zlib) (l3 k ((ho.all k).mp hk)).1 h.plain (e1' k) (tileAll k)
    have hall : allPoints (ks.map fun k => ({ tileOf f numbers k with prs := (pointsNumbered f.prs numbers k).map (changedPoint ops) } : SpocFile))
        = (ks.flatMap (pointsNumbered f.prs numbers)).map (changedPoint ops) := by
      unfold allPoints
      rw [List.flatMap_map, List.map_flatMap]
    have hpm := hperm.map (changedPoint ops)
    obtain ⟨m1, g, s, m2, m3, m4, m5⟩ := tiles_merged .transform p hz w h ho line
      (fun k => { tileOf f numbers k with prs := (pointsNumbered f.prs numbers k).map (changedPoint ops) })
      (fun k hk w3 g1 g2 => by
        refine outputStream_cloud hz (ho.named k hk) g2 (c1 k hk).1 ?_
        rw [transform_run p w3 (line k) os (hline k hk).1 hne hos (name k) (out k) (hline k hk).2 (l2 k ((ho.all k).mp hk))
          (ho.noTile k hk k hk) _ (g1.trans (l3 k ((ho.all k).mp hk)).2) rfl]
        congr 1
        have := (apply_written p.build p.zlib p.env (tileOf f numbers k) (l3 k ((ho.all k).mp hk)).1.1 h.plain [] (commandsOf os) 0 _).mpr
          ⟨ops, _, e1' k, tileAll k, rfl⟩
        rw [List.append_nil] at this
        rw [this, (c1 k hk).2])
      (fun k hk => ⟨(c1 k hk).1, h.plain, rfl⟩)
      (by
        rw [hall]
        exact uniform_subperm s1.1.uniform hpm.subperm)
      (by
        rw [hall, hpm.length_eq]
        exact s1.1.count)
      merge quiet asked hid hopt hops
    rw [afterAll_tileJobs] at m1 m2
    refine ⟨m1, g, { f with prs := f.prs.map (changedPoint ops) }, s, { rest := [] }, m2, ?_, m3, by rw [m4]; exact h.plain.symm, ?_⟩
    · have hap := (apply_written p.build p.zlib p.env f hf.1 h.plain tl (commandsOf os) 0 _).mpr ⟨ops, _, e1, all, rfl⟩
      rw [hrun, hstd, hap]
      have := (survives_roundtrip p.build p.zlib hz _ s1).2 []
      rw [List.append_nil, s2] at this
      exact this
    · rw [m5, hall]
      exact hpm.map withoutId

/-! ## Limits -/

/-- The arguments of tile in the examples. -/
def exampleTileArgs : Tile.Args := { tileSize := num 10, pre := ['b'] }

/-- A tile of the examples. -/
def exampleTile (k : UInt64) : Str := tileName { exampleTileArgs with fn := ['a'] } cloudA k

/-- The processed tile. -/
def exampleOut (k : UInt64) : Str := 'o' :: exampleTile k

/-- Three points in a row; the last two are on different sides of a border between tiles. -/
def seamCloud : SpocFile := { SpocFile.empty with prs := [{ x := num 0 }, { x := num 8 }, { x := num 11, y := num 1 }] }

/-- A disk with that cloud in the file `a`, which is on the standard input too. -/
def seamDisk : World where
  fs := fun n =>
    if n = ['a'] then some { content := (Io.writeFile .release toyZlib seamCloud).bytes, readable := true, writable := true } else none
  canCreate _ := true
  stdin := { rest := (Io.writeFile .release toyZlib seamCloud).bytes }

/-- The numbers of points that come out when the cloud is filtered tile by tile and when it is filtered as a whole. -/
def seamPoints (option : Str) : Option (Nat × Nat) :=
  match Io.readFile .release toyZlib { rest := (Name.merge.run exampleParams [exampleOut 0, exampleOut 1]
      (afterEach .filter exampleParams (fun k => [option, exampleTile k, exampleOut k]) [0, 1]
        (after .tile exampleParams ["-s10".toList, "-pb".toList, ['a']] seamDisk))).out },
    Io.readFile .release toyZlib { rest := (Name.filter.run exampleParams [option] seamDisk).out } with
  | .ok (g, _), .ok (g', _) => some (g.prs.length, g'.prs.length)
  | _, _ => none

/-- **C119**, limit: a subsampled cloud depends on the tiles.  The cells are counted from the corner of the cloud that is given, so that two
points in one cell of the whole cloud can be in different tiles. -/
theorem c119_subsample : seamPoints "-s4".toList = some (3, 2) := by decide +kernel

/-! ## Examples -/

theorem example_splits : Splits exampleParams exampleDisk ["-s10".toList, "-pb".toList, ['a']] ['a'] cloudA [0, 1, 3] exampleTile where
  operands := by decide +kernel
  named := by decide
  cloud := cloudA_on_disk.1
  plain := rfl
  options := by
    refine ⟨exampleTileArgs, num 10, num 10, by decide +kernel, rfl, rfl, by decide +kernel, by decide +kernel, by decide,
      fun k => rfl, fun k hk => ?_⟩
    simp only [List.mem_cons, List.not_mem_nil, or_false] at hk
    rcases hk with rfl | rfl | rfl <;> exact .inl ⟨by decide +kernel, rfl⟩

theorem example_outputs : Outputs exampleDisk [0, 1, 3] exampleTile exampleOut [0, 1, 3] where
  nodup := by decide
  all := fun _ => Iff.rfl
  two := by decide
  named := by decide +kernel
  different := by decide +kernel
  noTile := by decide +kernel
  free := fun k hk => by
    have e : ∀ k ∈ [(0 : UInt64), 1, 3], exampleDisk.fs (exampleOut k) = none := by decide +kernel
    unfold CanReplace
    rw [e k hk]
    rfl

example : (Name.merge.run exampleParams [exampleOut 0, exampleOut 1, exampleOut 3]
    (afterEach .filter exampleParams (fun k => ["-cx > 13".toList, exampleTile k, exampleOut k]) [0, 1, 3]
      (after .tile exampleParams ["-s10".toList, "-pb".toList, ['a']] exampleDisk))).res = .ok 0 :=
  (c119_filter exampleParams toyZlib_correct (fun _ l => List.Perm.refl l) exampleDisk _ ['a'] cloudA [0, 1, 3] exampleTile example_splits
    exampleOut [0, 1, 3] example_outputs { coords := some (⟨0, false⟩, num 13) } ⟨rfl, rfl⟩
    (fun k => ["-cx > 13".toList, exampleTile k, exampleOut k])
    (fun k hk => by
      simp only [List.mem_cons, List.not_mem_nil, or_false] at hk
      rcases hk with rfl | rfl | rfl <;> exact ⟨example_asks (by decide +kernel), by decide +kernel⟩)
    _ false none (by simp) (by decide +kernel) (by decide +kernel) ["-cx > 13".toList] (example_asks (by decide +kernel)) (by decide +kernel)
    exampleInput ⟨_, rfl, rfl⟩).1

example : (Name.merge.run exampleParams [exampleOut 0, exampleOut 1, exampleOut 3]
    (afterEach .filter exampleParams (fun k => ["-u".toList, "-cx > 13".toList, exampleTile k, exampleOut k]) [0, 1, 3]
      (after .tile exampleParams ["-s10".toList, "-pb".toList, ['a']] exampleDisk))).res = .ok 0 := by
  have ask : Asks [("unique-xyz", []), ("remove-coords", "x > 13".toList)] { unique := true, coords := some (⟨0, false⟩, num 13) } :=
    ⟨by decide, by decide, by decide, by decide, by decide, by simp, rfl, .inr ⟨rfl, rfl⟩, by decide,
      ⟨"13".toList, 2, by decide, by decide, by decide +kernel⟩⟩
  exact (c119_unique exampleParams toyZlib_correct (fun _ l => List.Perm.refl l) exampleDisk _ ['a'] cloudA [0, 1, 3] exampleTile example_splits
    exampleOut [0, 1, 3] example_outputs { unique := true, coords := some (⟨0, false⟩, num 13) } rfl rfl rfl
    (fun k => ["-u".toList, "-cx > 13".toList, exampleTile k, exampleOut k])
    (fun k hk => by
      simp only [List.mem_cons, List.not_mem_nil, or_false] at hk
      rcases hk with rfl | rfl | rfl <;> exact ⟨pipeline_asks (by decide +kernel) ask, by decide +kernel⟩)
    _ false none (by simp) (by decide +kernel) (by decide +kernel) ["-u".toList, "-cx > 13".toList] (pipeline_asks (by decide +kernel) ask)
    (by decide +kernel) exampleInput ⟨_, rfl, rfl⟩).1

example : (Name.merge.run exampleParams [exampleOut 0, exampleOut 1, exampleOut 3]
    (afterEach .transform exampleParams (fun k => ["--set=c,7".toList, exampleTile k, exampleOut k]) [0, 1, 3]
      (after .tile exampleParams ["-s10".toList, "-pb".toList, ['a']] exampleDisk))).res = .ok 0 :=
  ((c119_transform exampleParams toyZlib_correct exampleDisk _ ['a'] cloudA [0, 1, 3] exampleTile example_splits
    ⟨rfl, cloudA_survives, _, [], rfl, rfl, by rw [List.append_nil]; rfl⟩
    exampleOut [0, 1, 3] example_outputs [("set", "c,7".toList)] (by simp) (by decide)
    (fun k => ["--set=c,7".toList, exampleTile k, exampleOut k])
    (fun k hk => by
      simp only [List.mem_cons, List.not_mem_nil, or_false] at hk
      rcases hk with rfl | rfl | rfl <;> exact ⟨by decide +kernel, by decide +kernel⟩)
    _ false none (by simp) (by decide +kernel) (by decide +kernel) ["--set=c,7".toList] (by decide +kernel) (by decide +kernel)
    exampleInput ⟨_, rfl, rfl⟩).2 (by decide +kernel)).1

end Spoc.Props
