import Verif.Props.Displaced
import Verif.Props.ExactSearch
import Verif.Props.CarriedClasses
import Verif.Props.Plain
import Verif.Props.Nothing

/-!
# C142: moving a cloud to the origin does not change its shape
-/

namespace Spoc.Props

open Getopt Cmd Main Spec Spec.Cmd Text AppUtils

/-- Every point of the second cloud is the corresponding point of the first one, moved by the same exact displacement; all other fields and the order
are those of the first one. -/
def MovedAsWhole (dx dy dz : ℝ) (zFlag : Bool) (ps qs : List PointRecord) : Prop :=
  List.Forall₂ (fun p q => Displaced dx dy dz (pt p) (pt q) ∧ SameExcept (shiftedFields zFlag) p q) ps qs

/-- `m` is the least of the coordinates `c`. -/
def Least (c : PointRecord → F64) (m : ℝ) (ps : List PointRecord) : Prop := (∃ p ∈ ps, (c p).val = m) ∧ ∀ p ∈ ps, m ≤ (c p).val

theorem sub_grid_val {k : ℤ} (hk0 : -1074 ≤ k) (hk : k ≤ 970) {x y : F64} (hx : OnGrid k 52 x) (hy : OnGrid k 52 y) :
    (F64.sub x y).isFinite = true ∧ (F64.sub x y).val = x.val + -y.val := by
  obtain ⟨m, h1, h2, h3⟩ := F64.sub_grid hk0 hk hx hy
  exact ⟨h1, by rw [F64.val_units hk0 h2, ← h3, sub_eq_add_neg]⟩

/-- **C142** (partial: coordinates on a grid; see `c142_ties` for other coordinates): subtract-min succeeds, and moves the cloud as a whole, by exactly
the least coordinates. -/
theorem c142_moved_partial {k : ℤ} (hk0 : -1074 ≤ k) (hk : k ≤ 970) (b : Build) (f : SpocFile) (hu : Uniform f.prs) (hne : f.prs ≠ [])
    (hg : CloudOnGrid k f.prs) (zFlag : Bool) :
    ∃ g mx my mz, Tool.subtractMin b f zFlag = .ok g ∧ SameApart f g ∧ Least (·.x) mx f.prs ∧ Least (·.y) my f.prs ∧ Least (·.z) mz f.prs
      ∧ MovedAsWhole (-mx) (-my) (if zFlag then -mz else 0) zFlag f.prs g.prs := by
  obtain ⟨⟨o1, o2, o3⟩, -⟩ := hg.extent hne
  obtain ⟨-, hle, ⟨p1, m1, e1⟩, ⟨p2, m2, e2⟩, p3, m3, e3⟩ := lowest hne hg.fin
  refine ⟨_, (Extent.ofPoints f.prs).minp.x.val, (Extent.ofPoints f.prs).minp.y.val, (Extent.ofPoints f.prs).minp.z.val,
    Twice.subtractMin_eq b f hu zFlag, ⟨rfl, rfl, rfl, rfl⟩, ⟨⟨p1, m1, by rw [e1]⟩, fun q hq => F64.val_le_iff.mpr (hle q hq).1⟩,
    ⟨⟨p2, m2, by rw [e2]⟩, fun q hq => F64.val_le_iff.mpr (hle q hq).2.1⟩, ⟨⟨p3, m3, by rw [e3]⟩, fun q hq => F64.val_le_iff.mpr (hle q hq).2.2⟩, ?_⟩
  refine Tool.forall₂_mapped (fun q hq => ⟨?_, Tool.sameExcept_shift zFlag q _ _ _⟩)
  obtain ⟨g1, g2, g3⟩ := hg q hq
  obtain ⟨f1, v1⟩ := sub_grid_val hk0 hk g1 o1
  obtain ⟨f2, v2⟩ := sub_grid_val hk0 hk g2 o2
  obtain ⟨f3, v3⟩ := sub_grid_val hk0 hk g3 o3
  cases zFlag
  · exact ⟨hg.fin q hq, ⟨f1, f2, (hg.fin q hq).2.2⟩, v1, v2, (add_zero _).symm⟩
  · exact ⟨hg.fin q hq, ⟨f1, f2, f3⟩, v1, v2, v3⟩

theorem MovedAsWhole.displaced {dx dy dz : ℝ} {z : Bool} {ps qs : List PointRecord} (h : MovedAsWhole dx dy dz z ps qs) :
    List.Forall₂ (fun p q => Displaced dx dy dz (pt p) (pt q)) ps qs := h.imp (fun _ _ h => h.1)

/-- Of a cloud that subtract-min has moved, the coordinates less the least ones are what they are for the cloud itself, bit by bit. -/
theorem moved_offsets {b : Build} {f g : SpocFile} (hu : Uniform f.prs) {zFlag : Bool} (hf : ∀ q ∈ f.prs, Spec.Fin (pt q))
    (h : Tool.subtractMin b f zFlag = .ok g) :
    g.prs = f.prs.map (Twice.movedBy (Extent.ofPoints f.prs).minp zFlag)
      ∧ ∀ p ∈ f.prs, F64.sub (F64.sub p.x (Extent.ofPoints f.prs).minp.x) (Extent.ofPoints g.prs).minp.x = F64.sub p.x (Extent.ofPoints f.prs).minp.x
        ∧ F64.sub (F64.sub p.y (Extent.ofPoints f.prs).minp.y) (Extent.ofPoints g.prs).minp.y = F64.sub p.y (Extent.ofPoints f.prs).minp.y
        ∧ F64.sub (if zFlag then F64.sub p.z (Extent.ofPoints f.prs).minp.z else p.z) (Extent.ofPoints g.prs).minp.z
            = F64.sub p.z (Extent.ofPoints f.prs).minp.z := by
  have hu' : Uniform g.prs := by
    rw [Twice.subtractMin_eq b f hu zFlag] at h
    rw [← Res.ok.inj h]
    intro p hp q hq
    obtain ⟨p', hp', rfl⟩ := List.mem_map.mp hp
    obtain ⟨q', hq', rfl⟩ := List.mem_map.mp hq
    exact hu p' hp' q' hq'
  have ht := Twice.subtractMin_twice b f g hu zFlag (fun q hq => ⟨(hf q hq).1, (hf q hq).2.1, fun _ => (hf q hq).2.2⟩) h
  rw [Twice.subtractMin_eq b g hu' zFlag] at ht
  rw [Twice.subtractMin_eq b f hu zFlag] at h
  have hg : g.prs = f.prs.map (Twice.movedBy (Extent.ofPoints f.prs).minp zFlag) := by rw [← Res.ok.inj h]
  have hg' : g.prs.map (Twice.movedBy (Extent.ofPoints g.prs).minp zFlag) = g.prs := congrArg SpocFile.prs (Res.ok.inj ht)
  refine ⟨hg, fun p hp => ?_⟩
  have hq : Twice.movedBy (Extent.ofPoints f.prs).minp zFlag p ∈ g.prs := by rw [hg]; exact List.mem_map_of_mem hp
  have e := List.map_inj_left.mp (hg'.trans (List.map_id _).symm) _ hq
  refine ⟨congrArg PointRecord.x e, congrArg PointRecord.y e, ?_⟩
  cases zFlag
  · rw [(Twice.ofPoints_least g.prs).2.2, (Twice.ofPoints_least f.prs).2.2, hg, List.map_map]
    rfl
  · exact congrArg PointRecord.z e

/-- **C142**, voxels: whatever the coordinates, as long as they are finite, every point of the moved cloud is in the same voxel as before, and subsampling keeps
the same points. -/
theorem c142_voxels (b : Build) (f g : SpocFile) (hu : Uniform f.prs) (hf : ∀ q ∈ f.prs, Spec.Fin (pt q)) (zFlag : Bool)
    (h : Tool.subtractMin b f zFlag = .ok g) :
    (∀ r, Voxel.getIndexes g.prs r = Voxel.getIndexes f.prs r)
      ∧ ∀ b' sh r seed, Subsampling.subsampleIndexes b' sh g.prs r seed = Subsampling.subsampleIndexes b' sh f.prs r seed := by
  obtain ⟨hg, hk⟩ := moved_offsets hu hf h
  have key : ∀ r, Voxel.getIndexes g.prs r = Voxel.getIndexes f.prs r := by
    intro r
    unfold Voxel.getIndexes Voxel.getIndexesIn
    generalize (Extent.ofPoints g.prs).minp = m' at *
    generalize (Extent.ofPoints f.prs).minp = m at *
    rw [hg, List.mapM_map]
    refine mapM_congr' (fun p hp => ?_)
    obtain ⟨k1, k2, k3⟩ := hk p hp
    unfold Voxel.getIndex Voxel.index1
    change (F64.toU64 (F64.div (F64.sub (F64.sub p.x m.x) m'.x) r) >>= fun i => F64.toU64 (F64.div (F64.sub (F64.sub p.y m.y) m'.y) r) >>= fun j =>
      F64.toU64 (F64.div (F64.sub (if zFlag then F64.sub p.z m.z else p.z) m'.z) r) >>= fun k => Res.ok (⟨i, j, k⟩ : VoxelIndex)) = _
    rw [k1, k2, k3]
    rfl
  refine ⟨key, fun b' sh r seed => ?_⟩
  unfold Subsampling.subsampleIndexes
  rw [key r, hg, List.length_map]

/-- **C142**, groups (partial: as before): every point of the moved cloud is in the same voxel and in the same tile as before, and subsampling, the
removal of points at the same place and the radius search do the same with both clouds. -/
theorem c142_groups_partial {k : ℤ} (hk0 : -1074 ≤ k) (hk : k ≤ 970) (b : Build) (f : SpocFile) (hu : Uniform f.prs) (hg : CloudOnGrid k f.prs)
    (zFlag : Bool) (g : SpocFile) (h : Tool.subtractMin b f zFlag = .ok g) :
    (∀ r, Voxel.getIndexes g.prs r = Voxel.getIndexes f.prs r)
      ∧ (∀ sh r seed, Subsampling.subsampleIndexes b sh g.prs r seed = Subsampling.subsampleIndexes b sh f.prs r seed)
      ∧ (∀ (sh : Subsampling.Shuffle), sh.Lawful → ∀ seed, Subsampling.uniqueXyzIndexes b sh g.prs seed = Subsampling.uniqueXyzIndexes b sh f.prs seed)
      ∧ (∀ rng pis nis radius m, RadiusSearch.search b rng g.prs pis nis radius m = RadiusSearch.search b rng f.prs pis nis radius m)
      ∧ ∀ a, Tile.tileSizes a (Extent.ofPoints g.prs) = Tile.tileSizes a (Extent.ofPoints f.prs)
        ∧ ∀ sx sy, Tile.getTileIndexes g.prs (Extent.ofPoints g.prs) sx sy = Tile.getTileIndexes f.prs (Extent.ofPoints f.prs) sx sy := by
  have key : ∃ dx dy dz, List.Forall₂ (fun p q => Displaced dx dy dz (pt p) (pt q)) f.prs g.prs := by
    by_cases hne : f.prs = []
    · rw [Twice.subtractMin_eq b f hu zFlag] at h
      rw [← Res.ok.inj h, hne]
      exact ⟨0, 0, 0, .nil⟩
    · obtain ⟨g', mx, my, mz, h1, -, -, -, -, h2⟩ := c142_moved_partial hk0 hk b f hu hne hg zFlag
      obtain rfl := Res.ok.inj (h.symm.trans h1)
      exact ⟨_, _, _, h2.displaced⟩
  obtain ⟨dx, dy, dz, hd⟩ := key
  exact ⟨fun r => c113_voxels hd r, fun sh r seed => c113_subsample b sh hd r seed, fun sh hsh seed => c113_unique b sh hsh hd seed,
    fun rng pis nis radius m => c113_search b rng hd pis nis radius m, fun a => c113_tiles hd a⟩

theorem forall₂_pick {β : Type} {R : β → β → Prop} {ps qs : List β} (h : List.Forall₂ R ps qs) {ks : List Nat} {ps' : List β}
    (hp : ks.mapM (fun i => Voxel.at' ps i) = .ok ps') : ∃ qs', ks.mapM (fun i => Voxel.at' qs i) = .ok qs' ∧ List.Forall₂ R ps' qs' := by
  induction ks generalizing ps' with
  | nil =>
    rw [List.mapM_nil] at hp ⊢
    obtain rfl := Res.ok.inj hp
    exact ⟨[], rfl, .nil⟩
  | cons i ks ih =>
    rw [List.mapM_cons] at hp
    obtain ⟨x, hx, hp⟩ := Res.bind_eq_ok.mp hp
    obtain ⟨xs, hxs, hp⟩ := Res.bind_eq_ok.mp hp
    obtain rfl := Res.ok.inj hp
    obtain ⟨ys, hys, hr⟩ := ih hxs
    have : ∃ y, Voxel.at' qs i = .ok y ∧ R x y := by
      unfold Voxel.at' at hx ⊢
      cases e : ps[i]? with
      | none => rw [e] at hx; simp at hx
      | some a =>
        rw [e] at hx
        obtain rfl := Res.ok.inj hx
        obtain ⟨hl, hr⟩ := List.forall₂_iff_get.mp h
        obtain ⟨hi, rfl⟩ := List.getElem?_eq_some_iff.mp e
        refine ⟨qs[i]'(hl ▸ hi), ?_, hr i hi (hl ▸ hi)⟩
        rw [List.getElem?_eq_getElem (hl ▸ hi)]
    obtain ⟨y, hy, hxy⟩ := this
    exact ⟨y :: ys, by rw [List.mapM_cons, hy, Res.ok_bind, hys, Res.ok_bind]; rfl, .cons hxy hr⟩

theorem MovedAsWhole.survives {z : Zlib} {dx dy dz : ℝ} {zFlag : Bool} {f g : SpocFile} (h : MovedAsWhole dx dy dz zFlag f.prs g.prs) (ha : SameApart f g)
    (hc : f.compressed = false) (hs : Survives z f) : Survives z g := by
  have hlen := h.length_eq
  obtain ⟨a1, a2, a3, a4⟩ := ha
  have key : ∀ q ∈ g.prs, ∃ q' ∈ f.prs, q.extra.length = q'.extra.length := by
    intro q hq
    obtain ⟨j, hj, rfl⟩ := List.getElem_of_mem hq
    have := (List.forall₂_iff_get.mp h).2 j (hlen ▸ hj) hj
    exact ⟨f.prs[j]'(hlen ▸ hj), List.getElem_mem _, this.2.1⟩
  refine ⟨⟨a1.trans hs.1.major, a2.trans hs.1.minor, a3 ▸ hs.1.wkt, ?_, ?_, hlen ▸ hs.1.count⟩, ?_, fun e => by rw [a4, hc] at e; simp at e⟩
  · intro q hq r hr
    obtain ⟨q', hq', e1⟩ := key q hq
    obtain ⟨r', hr', e2⟩ := key r hr
    rw [e1, e2]
    exact hs.1.uniform q' hq' r' hr'
  · intro q hq
    obtain ⟨q', hq', e1⟩ := key q hq
    rw [e1]
    exact hs.1.extra q' hq'
  · intro _ q hq
    obtain ⟨q', hq', e1⟩ := key q hq
    rw [e1]
    exact hs.2.1 hc q' hq'

/-- **C142**, tool (partial: as before, and uncompressed files): `tool --subtract-min-xy` or `--subtract-min-xyz` writes the moved cloud. -/
theorem c142_tool_partial {k : ℤ} (hk0 : -1074 ≤ k) (hk : k ≤ 970) (p : Params) (hz : p.zlib.Correct) (w : World)
    (argv : List Str) (i o : Str) (zFlag : Bool) (hopt : Cmd.tool.options argv = [(if zFlag then "subtract-min-xyz" else "subtract-min-xy", [])])
    (hops : Cmd.tool.operands argv = [i, o]) (hi : i ≠ []) (ho : o ≠ []) (hc : CanReplace w o) (f : SpocFile) (hf : HasCloud p w.fs i f)
    (hu : f.compressed = false) (hne : f.prs ≠ []) (hg : CloudOnGrid k f.prs) :
    ∃ g mx my mz, Makes .tool p w argv o g ∧ Tool.subtractMin p.build f zFlag = .ok g ∧ SameApart f g ∧ Least (·.x) mx f.prs ∧ Least (·.y) my f.prs ∧ Least (·.z) mz f.prs
      ∧ MovedAsWhole (-mx) (-my) (if zFlag then -mz else 0) zFlag f.prs g.prs := by
  obtain ⟨x, s, hx, hr, hfile⟩ := hf
  obtain ⟨g, mx, my, mz, h1, h2, l1, l2, l3, h3⟩ := c142_moved_partial hk0 hk p.build f (readable_writable hfile).uniform hne hg zFlag
  refine ⟨g, mx, my, mz, ?_, h1, h2, l1, l2, l3, h3⟩
  have hs : Survives p.zlib g := h3.survives h2 hu (readable_survives hfile hu)
  refine outputStream_cloud hz ho hc hs ?_
  have hin : inputStream w i = .ok { rest := x.content } := by simp [inputStream, hi, openRead, hx, hr]
  have ha : Tool.getArgs (Cmd.tool.options argv) {} = .ok { command := ⟨if zFlag then "subtract-min-xyz" else "subtract-min-xy", []⟩ } := by
    rw [hopt]
    cases zFlag <;> decide +kernel
  have hrun : Tool.run p.build p.zlib (toolFiles w.fs) { command := ⟨if zFlag then "subtract-min-xyz" else "subtract-min-xy", []⟩ } f = .ok g := by
    rw [← h1]
    unfold Tool.run
    cases zFlag <;> simp
  have hname : (if zFlag then "subtract-min-xyz" else "subtract-min-xy") ≠ "" ∧ (if zFlag then "subtract-min-xyz" else "subtract-min-xy") ≠ "get-field" := by
    cases zFlag <;> decide
  simp only [Name.run, Main.tool, toolArgs, withOperands, ha, hops, inOut, Res.ok_bind, Bool.false_eq_true, if_false, hname.1, hname.2,
    readThenWrite, hin, Apps.fileOf, hfile, hrun]

/-- **C142**, filter (partial: as before): if a file holds a cloud and another one the cloud moved by subtract-min, `filter --subsample` keeps the same
points of both, moved as a whole. -/
theorem c142_filter_partial {k : ℤ} (hk0 : -1074 ≤ k) (hk : k ≤ 970) (p : Params) (hz : p.zlib.Correct) (hsh : p.shuffle.Lawful) (w w' : World)
    (argv argv' : List Str) (i m o o' : Str) (r : F64) (seed : Nat) (hopt : Asks (Cmd.filter.options argv) { resolution := some r, seed := seed })
    (hopt' : Asks (Cmd.filter.options argv') { resolution := some r, seed := seed }) (hops : Cmd.filter.operands argv = [i, o])
    (hops' : Cmd.filter.operands argv' = [m, o']) (hi : i ≠ []) (hm : m ≠ []) (ho : o ≠ []) (ho' : o' ≠ []) (hc : CanReplace w o)
    (hc' : CanReplace w' o') (f g : SpocFile) (hf : HasCloud p w.fs i f) (hf' : HasCloud p w'.fs m g) (hu : f.compressed = false) (hne : f.prs ≠ [])
    (hg : CloudOnGrid k f.prs) (zFlag : Bool) (hs : Tool.subtractMin p.build f zFlag = .ok g) (vs : List VoxelIndex)
    (hv : Voxel.getIndexes f.prs r = .ok vs) :
    ∃ qs qs' dx dy dz, Makes .filter p w argv o { f with prs := qs } ∧ Makes .filter p w' argv' o' { g with prs := qs' }
      ∧ List.Subperm qs f.prs ∧ MovedAsWhole dx dy dz zFlag f.prs g.prs ∧ MovedAsWhole dx dy dz zFlag qs qs' := by
  obtain ⟨x, s', h1, h2, h3⟩ := id hf
  have hw := readable_writable h3
  obtain ⟨g', mx, my, mz, e1, e2, -, -, -, e3⟩ := c142_moved_partial hk0 hk p.build f hw.uniform hne hg zFlag
  obtain rfl := Res.ok.inj (hs.symm.trans e1)
  obtain ⟨ks, qs, k1, k2, k3, k4, k5, -⟩ := c23_one_per_voxel p.build p.shuffle hsh f.prs r seed vs hv
  obtain ⟨qs1, l1, l2, -⟩ := pick_only f hw.uniform ks k4 k5
  obtain rfl : qs1 = qs := by rw [forall₂_filterMap l1, forall₂_filterMap k3]
  have hpick : ks.mapM (fun i => Voxel.at' f.prs i) = .ok qs1 := by
    have := k2
    unfold Subsampling.subsamplePoints at this
    rwa [k1, Res.ok_bind] at this
  obtain ⟨qs', p1, p2⟩ := forall₂_pick e3 hpick
  have k2' : Subsampling.subsamplePoints p.build p.shuffle g.prs r seed = .ok qs' := by
    unfold Subsampling.subsamplePoints
    rw [c113_subsample p.build p.shuffle e3.displaced r seed, k1, Res.ok_bind, p1]
  have hsf := readable_survives h3 hu
  have s1 : Survives p.zlib { f with prs := qs1 } :=
    ⟨⟨hw.major, hw.minor, hw.wkt, uniform_subperm hw.uniform l2, fun q hq => hw.extra q (l2.subset hq),
      lt_of_le_of_lt l2.length_le hw.count⟩, fun _ q hq => hsf.2.1 hu q (l2.subset hq), fun e => by rw [hu] at e; simp at e⟩
  have s2 : Survives p.zlib { g with prs := qs' } := MovedAsWhole.survives (f := { f with prs := qs1 }) p2 e2 hu s1
  refine ⟨qs1, qs', _, _, _, ?_, ?_, l2, e3, p2⟩
  · exact c76_filter_partial p hz hsh w argv i o _ hopt hops hi ho hc f hf qs1 ⟨f.prs, f.prs, f.prs, qs1, rfl, by simp, rfl, k2, rfl⟩ s1
  · exact c76_filter_partial p hz hsh w' argv' m o' _ hopt' hops' hm ho' hc' g hf' qs' ⟨g.prs, g.prs, g.prs, qs', rfl, by simp, rfl, k2', rfl⟩ s2

/-- **C142, negation**: points at different places are at the same place afterwards: of 0 and 1/2 beside -2^60, `--unique-xyz` keeps one point less. -/
theorem c142_ties (b : Build) : ∃ f g : SpocFile, (∀ p ∈ f.prs, Spec.Fin (pt p)) ∧ Tool.subtractMin b f false = .ok g
    ∧ Subsampling.uniqueXyzIndexes b noShuffle f.prs 0 = .ok [0, 1, 2] ∧ Subsampling.uniqueXyzIndexes b noShuffle g.prs 0 = .ok [0, 1] := by
  refine ⟨_, _, ?_, c50_ties b, ?_, ?_⟩
  · unfold Spec.Fin; decide +kernel
  · cases b <;> decide +kernel
  · cases b <;> decide +kernel

/-! ## examples -/

/-- The points of the examples, away from the origin. -/
def awayA : SpocFile := { cloudA with prs := [{ x := num 20, y := num 30 }, { x := num 35, y := num 33 }, { x := num 32, y := num 47 }] }

/-- A disk with both. -/
def awayDisk : World where
  fs := fun n =>
    if n = ['e'] then some { content := (Io.writeFile .release toyZlib awayA).bytes, readable := true, writable := true }
    else exampleDisk.fs n
  canCreate _ := true
  stdin := { rest := [] }

theorem awayA_survives : Survives toyZlib awayA :=
  ⟨⟨rfl, rfl, by decide, by unfold Uniform; decide, by decide, by decide⟩, fun _ => by decide, fun h => by simp [awayA, cloudA, SpocFile.empty] at h⟩

theorem away_on_disk : Holds exampleParams awayDisk.fs ['a'] cloudA ∧ Holds exampleParams awayDisk.fs ['e'] awayA :=
  ⟨⟨rfl, cloudA_survives, _, [], rfl, rfl, (List.append_nil _).symm⟩, ⟨rfl, awayA_survives, _, [], rfl, rfl, (List.append_nil _).symm⟩⟩

theorem awayDiskA : HasCloud exampleParams awayDisk.fs ['a'] cloudA := holds_cloud toyZlib_correct away_on_disk.1
theorem awayDiskE : HasCloud exampleParams awayDisk.fs ['e'] awayA := holds_cloud toyZlib_correct away_on_disk.2

theorem awayA_onGrid : CloudOnGrid 0 awayA.prs := by
  have key : ∀ a b : F64, OnGrid 0 52 a → OnGrid 0 52 b → OnGrid 0 52 (pt ({ x := a, y := b } : PointRecord)).x
      ∧ OnGrid 0 52 (pt ({ x := a, y := b } : PointRecord)).y ∧ OnGrid 0 52 (pt ({ x := a, y := b } : PointRecord)).z :=
    fun a b h1 h2 => ⟨h1, h2, onGrid_zero⟩
  intro p hp
  simp only [awayA, List.mem_cons, List.not_mem_nil, or_false] at hp
  rcases hp with rfl | rfl | rfl
  · exact key (num 20) (num 30) (onGrid_num (by norm_num) (by norm_num)) (onGrid_num (by norm_num) (by norm_num))
  · exact key (num 35) (num 33) (onGrid_num (by norm_num) (by norm_num)) (onGrid_num (by norm_num) (by norm_num))
  · exact key (num 32) (num 47) (onGrid_num (by norm_num) (by norm_num)) (onGrid_num (by norm_num) (by norm_num))

theorem awayA_moved : Tool.subtractMin .release awayA true = .ok cloudA := by decide +kernel

/-- The hypotheses of `c142_moved_partial` and `c142_groups_partial` hold: the cloud is moved by (-20, -30, 0). -/
example : Voxel.getIndexes cloudA.prs (num 10) = Voxel.getIndexes awayA.prs (num 10) :=
  (c142_groups_partial (k := 0) (by norm_num) (by norm_num) .release awayA awayA_survives.1.uniform awayA_onGrid true cloudA awayA_moved).1 _

/-- The hypotheses of `c142_voxels` hold, also for the cloud of `c142_ties`. -/
example (r : F64) := (c142_voxels .debug _ _ (by unfold Uniform; decide +kernel) (by unfold Spec.Fin; decide +kernel) false (c50_ties .debug)).1 r

/-- The hypotheses of `c142_tool_partial` hold. -/
example : Makes .tool exampleParams awayDisk ["--subtract-min-xyz".toList, ['e'], ['o']] ['o'] cloudA := by
  obtain ⟨g, mx, my, mz, h1, h2, -⟩ := c142_tool_partial (k := 0) (by norm_num) (by norm_num) exampleParams toyZlib_correct awayDisk
    ["--subtract-min-xyz".toList, ['e'], ['o']] ['e'] ['o'] true (by decide +kernel) (by decide +kernel) (by decide) (by decide) rfl awayA awayDiskE rfl
    (by decide) awayA_onGrid
  obtain rfl := Res.ok.inj (awayA_moved.symm.trans h2)
  exact h1

/-- The hypotheses of `c142_filter_partial` hold. -/
example : ∃ qs qs', Makes .filter exampleParams awayDisk ["--subsample=10".toList, ['e'], ['o']] ['o'] { awayA with prs := qs }
    ∧ Makes .filter exampleParams awayDisk ["--subsample=10".toList, ['a'], ['u']] ['u'] { cloudA with prs := qs' }
    ∧ qs.length = qs'.length := by
  have e : Cmd.filter.options ["--subsample=10".toList, ['e'], ['o']] = [("subsample", ['1', '0'])] := by decide +kernel
  have e' : Cmd.filter.options ["--subsample=10".toList, ['a'], ['u']] = [("subsample", ['1', '0'])] := by decide +kernel
  have ask : Asks [("subsample", ['1', '0'])] { resolution := some (num 10), seed := 0 } :=
    ⟨by decide, by decide, by decide, by decide, by decide, by simp,
      by show some (num 10) = if F64.gt (atof ['1', '0']) F64.zero then some (atof ['1', '0']) else none; decide +kernel,
      .inr ⟨rfl, rfl⟩, by decide, .inl rfl⟩
  obtain ⟨vs, hvs⟩ := ok_of_isOk (show (Voxel.getIndexes awayA.prs (num 10)).isOk = true by decide +kernel)
  obtain ⟨qs, qs', dx, dy, dz, h1, h2, -, -, h3⟩ := c142_filter_partial (k := 0) (by norm_num) (by norm_num) exampleParams toyZlib_correct
    (fun _ l => List.Perm.refl l) awayDisk awayDisk _ _ ['e'] ['a'] ['o'] ['u'] (num 10) 0 (by rw [e]; exact ask) (by rw [e']; exact ask)
    (by decide +kernel) (by decide +kernel) (by decide) (by decide) (by decide) (by decide) rfl rfl awayA cloudA awayDiskE awayDiskA rfl (by decide) awayA_onGrid
    true awayA_moved vs hvs
  exact ⟨qs, qs', h1, h2, h3.length_eq⟩

end Spoc.Props
