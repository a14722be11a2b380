import Verif.Proofs.InfoOrder
import Verif.Props.TileForce

/-!
# C99: what info reports does not depend on the order of the points

"The points in another order" is a permutation; "up to the point ids" is equality of the records with the field `p` set to zero
(`withoutId`).
-/

namespace Spoc.Props

open Text Spec Info Main

/-- In each coordinate there is no NaN, and there are not zeros of both signs. -/
def PlainCoordinates (ps : List PointRecord) : Prop :=
  ∀ axis : PointRecord → F64, axis = PointRecord.x ∨ axis = PointRecord.y ∨ axis = PointRecord.z →
    (∀ q ∈ ps, (axis q).isNaN = false) ∧ ¬ ((∃ q ∈ ps, axis q = F64.zero) ∧ (∃ q ∈ ps, axis q = F64.negZero))

/-! ## The parts of the report -/

theorem toU64_total (x : F64) : (∃ n, F64.toU64 x = .ok n) ∨ F64.toU64 x = .ub "double out of range of uint64_t" := by
  unfold F64.toU64
  split
  · split
    · exact Or.inl ⟨_, rfl⟩
    · exact Or.inr rfl
  · exact Or.inr rfl

theorem getIndex_total (p m : Pt F64) (r : F64) :
    (∃ v, Voxel.getIndex p m r = .ok v) ∨ Voxel.getIndex p m r = .ub "double out of range of uint64_t" := by
  unfold Voxel.getIndex Voxel.index1
  rcases toU64_total (F64.div (F64.sub p.x m.x) r) with ⟨i, h1⟩ | h1
  · rcases toU64_total (F64.div (F64.sub p.y m.y) r) with ⟨j, h2⟩ | h2
    · rcases toU64_total (F64.div (F64.sub p.z m.z) r) with ⟨k, h3⟩ | h3
      · exact Or.inl ⟨_, by rw [h1, h2, h3]; rfl⟩
      · exact Or.inr (by rw [h1, h2, h3]; rfl)
    · exact Or.inr (by rw [h1, h2]; rfl)
  · exact Or.inr (by rw [h1]; rfl)

theorem mapM_total {α β : Type} {f : α → Res β} {e : String} (h : ∀ a, (∃ b, f a = .ok b) ∨ f a = .ub e) (l : List α) :
    (∃ bs, l.mapM f = .ok bs) ∨ l.mapM f = .ub e := by
  induction l with
  | nil => exact Or.inl ⟨[], rfl⟩
  | cons a l ih =>
    rw [List.mapM_cons]
    rcases h a with ⟨b, h1⟩ | h1
    · rw [h1, Res.ok_bind]
      rcases ih with ⟨bs, h2⟩ | h2
      · exact Or.inl ⟨b :: bs, by rw [h2]; rfl⟩
      · exact Or.inr (by rw [h2]; rfl)
    · exact Or.inr (by rw [h1]; rfl)

theorem distinct_axis {ps : List PointRecord} (h : PlainCoordinates ps) (axis : PointRecord → F64)
    (ha : axis = PointRecord.x ∨ axis = PointRecord.y ∨ axis = PointRecord.z) : Distinct (ps.map axis) := by
  obtain ⟨h1, h2⟩ := h axis ha
  refine ⟨?_, fun e => h2 ⟨?_, ?_⟩⟩
  · intro x hx
    obtain ⟨q, hq, rfl⟩ := List.mem_map.mp hx
    exact h1 q hq
  · exact List.mem_map.mp e.1
  · exact List.mem_map.mp e.2

theorem ofPoints_order {ps qs : List PointRecord} (hx : (ps.map (·.x)).Perm (qs.map (·.x))) (hy : (ps.map (·.y)).Perm (qs.map (·.y)))
    (hz : (ps.map (·.z)).Perm (qs.map (·.z))) (hp : PlainCoordinates ps) : Extent.ofPoints ps = Extent.ofPoints qs := by
  have dx := distinct_axis hp (·.x) (Or.inl rfl)
  have dy := distinct_axis hp (·.y) (Or.inr (Or.inl rfl))
  have dz := distinct_axis hp (·.z) (Or.inr (Or.inr rfl))
  rw [Extent.ofPoints_eq, Extent.ofPoints_eq]
  change (⟨⟨F64.foldMin F64.maxVal (ps.map (·.x)), F64.foldMin F64.maxVal (ps.map (·.y)), F64.foldMin F64.maxVal (ps.map (·.z))⟩,
    ⟨F64.foldMax F64.lowest (ps.map (·.x)), F64.foldMax F64.lowest (ps.map (·.y)), F64.foldMax F64.lowest (ps.map (·.z))⟩⟩ : Extent)
    = ⟨⟨F64.foldMin F64.maxVal (qs.map (·.x)), F64.foldMin F64.maxVal (qs.map (·.y)), F64.foldMin F64.maxVal (qs.map (·.z))⟩,
      ⟨F64.foldMax F64.lowest (qs.map (·.x)), F64.foldMax F64.lowest (qs.map (·.y)), F64.foldMax F64.lowest (qs.map (·.z))⟩⟩
  rw [foldMin_order hx dx, foldMin_order hy dy, foldMin_order hz dz, foldMax_order hx dx, foldMax_order hy dy, foldMax_order hz dz]

/-- Columns of permuted clouds. -/
theorem column_perm {β : Type} (g : PointRecord → β) (hg : ∀ q, g (withoutId q) = g q) {ps qs : List PointRecord}
    (h : (ps.map withoutId).Perm (qs.map withoutId)) : (ps.map g).Perm (qs.map g) := by
  have := h.map g
  rw [List.map_map, List.map_map] at this
  have e : g ∘ withoutId = g := funext hg
  rwa [e] at this

theorem metricValues_order {ps qs : List PointRecord} (h : (ps.map withoutId).Perm (qs.map withoutId)) (hp : PlainCoordinates ps) :
    metricValues ps = metricValues qs := by
  unfold metricValues
  rw [ofPoints_order (column_perm _ (fun _ => rfl) h) (column_perm _ (fun _ => rfl) h) (column_perm _ (fun _ => rfl) h) hp]
  have hl : ps.length = qs.length := by
    have := h.length_eq
    rwa [List.length_map, List.length_map] at this
  rw [hl]
  generalize Extent.ofPoints qs = e
  have hm : ∀ l : List PointRecord, Voxel.getIndexesIn l e F64.one
      = (l.map withoutId).mapM (fun p => Voxel.getIndex (pt p) e.minp F64.one) := by
    intro l
    unfold Voxel.getIndexesIn
    induction l with
    | nil => rfl
    | cons a l ih => rw [List.mapM_cons, List.map_cons, List.mapM_cons, ih]; rfl
  dsimp only
  rw [hm, hm]
  rcases mapM_total (f := fun p : PointRecord => Voxel.getIndex (pt p) e.minp F64.one) (fun _ => getIndex_total _ _ _) (ps.map withoutId)
    with ⟨vs, h1⟩ | h1
  · obtain ⟨ws, h2, h3⟩ := mapM_order h vs h1
    rw [h1, h2]
    simp only [Res.ok_bind]
    have h4 : (vs.map (fun i : VoxelIndex => (⟨i.i, i.j, 0⟩ : VoxelIndex))).toFinset
        = (ws.map (fun i : VoxelIndex => (⟨i.i, i.j, 0⟩ : VoxelIndex))).toFinset := List.toFinset_eq_of_perm _ _ (h3.map _)
    rw [getSet_spec, getSet_spec, getSet_spec, getSet_spec, List.toFinset_eq_of_perm _ _ h3, h4]
  · rcases mapM_total (f := fun p : PointRecord => Voxel.getIndex (pt p) e.minp F64.one) (fun _ => getIndex_total _ _ _) (qs.map withoutId)
      with ⟨vs, h2⟩ | h2
    · obtain ⟨ws, h3, _⟩ := mapM_order h.symm vs h2
      rw [h1] at h3
      cases h3
    · rw [h1, h2]

theorem extraFields_order {ps qs : List PointRecord} (h : (ps.map withoutId).Perm (qs.map withoutId)) (hu : Uniform ps) :
    Diff.extraFieldsSize ps = Diff.extraFieldsSize qs := by
  have hl : ps.length = qs.length := by
    have := h.length_eq
    rwa [List.length_map, List.length_map] at this
  cases ps with
  | nil => rw [List.eq_nil_of_length_eq_zero hl.symm]
  | cons p r =>
    cases qs with
    | nil => simp at hl
    | cons q s =>
      show p.extra.length = q.extra.length
      have hm : withoutId q ∈ (p :: r).map withoutId := h.mem_iff.mpr (by simp)
      obtain ⟨q', h1, h2⟩ := List.mem_map.mp hm
      have : (withoutId q').extra = (withoutId q).extra := congrArg PointRecord.extra h2
      change q'.extra = q.extra at this
      rw [← this]
      exact hu p (by simp) q' h1

theorem getHeader_order {f g : SpocFile} (hv : f.major = g.major ∧ f.minor = g.minor) (hw : f.wkt = g.wkt)
    (hc : f.compressed = g.compressed) (h : (f.prs.map withoutId).Perm (g.prs.map withoutId)) (hu : Uniform f.prs) :
    f.getHeader = g.getHeader := by
  have hl : f.prs.length = g.prs.length := by
    have := h.length_eq
    rwa [List.length_map, List.length_map] at this
  have he : f.extraFields = g.extraFields := extraFields_order h hu
  unfold SpocFile.getHeader
  rw [hv.1, hv.2, hw, hc, he, hl]

theorem u_inj32 (xs : List UInt32) : ∀ a ∈ xs, ∀ b ∈ xs, (a.toNat : ℝ) = b.toNat → a = b :=
  fun _ _ _ _ e => UInt32.toNat_inj.mp (by exact_mod_cast e)

theorem u_inj16 (xs : List UInt16) : ∀ a ∈ xs, ∀ b ∈ xs, (a.toNat : ℝ) = b.toNat → a = b :=
  fun _ _ _ _ e => UInt16.toNat_inj.mp (by exact_mod_cast e)

theorem u_inj64 (xs : List UInt64) : ∀ a ∈ xs, ∀ b ∈ xs, (a.toNat : ℝ) = b.toNat → a = b :=
  fun _ _ _ _ e => UInt64.toNat_inj.mp (by exact_mod_cast e)

theorem mapM_congr' {α β : Type} {f g : α → Res β} {l : List α} (h : ∀ a ∈ l, f a = g a) : l.mapM f = l.mapM g := by
  induction l with
  | nil => rfl
  | cons a l ih => rw [List.mapM_cons, List.mapM_cons, h a (by simp), ih (fun b hb => h b (by simp [hb]))]

theorem uniform_perm {ps qs : List PointRecord} (h : ps.Perm qs) (hu : Uniform ps) : Uniform qs :=
  fun p hp q hq => hu p (h.mem_iff.mpr hp) q (h.mem_iff.mpr hq)

theorem summariesText_order (b : Build) {sort : List F64 → List F64} (hs : SortsF64 sort) {ps qs : List PointRecord} (h : ps.Perm qs)
    (hu : Uniform ps) (hp : PlainCoordinates ps) (c q : Bool) : summariesText b sort ps c q = summariesText b sort qs c q := by
  have dx := distinct_axis hp (·.x) (Or.inl rfl)
  have dy := distinct_axis hp (·.y) (Or.inr (Or.inl rfl))
  have dz := distinct_axis hp (·.z) (Or.inr (Or.inr rfl))
  have he := extraFields_order (h.map withoutId) hu
  have hm : ∀ k ∈ List.range (Diff.extraFieldsSize qs), (do
      let e ← Diff.getExtra b k ps
      summaryString kindU64 ("extra_".toList ++ showNat k ++ ['\t']) e c q) = (do
      let e ← Diff.getExtra b k qs
      summaryString kindU64 ("extra_".toList ++ showNat k ++ ['\t']) e c q) := by
    intro k hk
    have hk := List.mem_range.mp hk
    rw [getExtra_ok b hu (he ▸ hk), getExtra_ok b (uniform_perm h hu) hk, Res.ok_bind, Res.ok_bind]
    exact summaryString_order lawful_u64 _ (h.map _) (fun _ _ => trivial) (u_inj64 _) c q
  unfold summariesText Diff.column
  rw [he, mapM_congr' hm,
    summaryString_order (lawful_f64 hs) _ (h.map (·.x)) dx.1 (distinct_val dx) c q,
    summaryString_order (lawful_f64 hs) _ (h.map (·.y)) dy.1 (distinct_val dy) c q,
    summaryString_order (lawful_f64 hs) _ (h.map (·.z)) dz.1 (distinct_val dz) c q,
    summaryString_order lawful_u32 _ (h.map (·.c)) (fun _ _ => trivial) (u_inj32 _) c q,
    summaryString_order lawful_u32 _ (h.map (·.p)) (fun _ _ => trivial) (u_inj32 _) c q,
    summaryString_order lawful_u16 _ (h.map (·.i)) (fun _ _ => trivial) (u_inj16 _) c q,
    summaryString_order lawful_u16 _ (h.map (·.r)) (fun _ _ => trivial) (u_inj16 _) c q,
    summaryString_order lawful_u16 _ (h.map (·.g)) (fun _ _ => trivial) (u_inj16 _) c q,
    summaryString_order lawful_u16 _ (h.map (·.b)) (fun _ _ => trivial) (u_inj16 _) c q]

theorem summariesObject_order (b : Build) {sort : List F64 → List F64} (hs : SortsF64 sort) {ps qs : List PointRecord} (h : ps.Perm qs)
    (hu : Uniform ps) (hp : PlainCoordinates ps) (q : Bool) : summariesObject b sort ps q = summariesObject b sort qs q := by
  have dx := distinct_axis hp (·.x) (Or.inl rfl)
  have dy := distinct_axis hp (·.y) (Or.inr (Or.inl rfl))
  have dz := distinct_axis hp (·.z) (Or.inr (Or.inr rfl))
  have he := extraFields_order (h.map withoutId) hu
  have hm : ∀ k ∈ List.range (Diff.extraFieldsSize qs), (do
      let e ← Diff.getExtra b k ps
      summaryObject kindU64 e q) = (do
      let e ← Diff.getExtra b k qs
      summaryObject kindU64 e q) := by
    intro k hk
    have hk := List.mem_range.mp hk
    rw [getExtra_ok b hu (he ▸ hk), getExtra_ok b (uniform_perm h hu) hk, Res.ok_bind, Res.ok_bind]
    exact summaryObject_order lawful_u64 (h.map _) (fun _ _ => trivial) (u_inj64 _) q
  unfold summariesObject Diff.column
  rw [he, mapM_congr' hm,
    summaryObject_order (lawful_f64 hs) (h.map (·.x)) dx.1 (distinct_val dx) q,
    summaryObject_order (lawful_f64 hs) (h.map (·.y)) dy.1 (distinct_val dy) q,
    summaryObject_order (lawful_f64 hs) (h.map (·.z)) dz.1 (distinct_val dz) q,
    summaryObject_order lawful_u32 (h.map (·.c)) (fun _ _ => trivial) (u_inj32 _) q,
    summaryObject_order lawful_u32 (h.map (·.p)) (fun _ _ => trivial) (u_inj32 _) q,
    summaryObject_order lawful_u16 (h.map (·.i)) (fun _ _ => trivial) (u_inj16 _) q,
    summaryObject_order lawful_u16 (h.map (·.r)) (fun _ _ => trivial) (u_inj16 _) q,
    summaryObject_order lawful_u16 (h.map (·.g)) (fun _ _ => trivial) (u_inj16 _) q,
    summaryObject_order lawful_u16 (h.map (·.b)) (fun _ _ => trivial) (u_inj16 _) q]

theorem classCountMap_of_perm {ps qs : List PointRecord} (h : (ps.map withoutId).Perm (qs.map withoutId)) :
    classCountMap (Diff.column (·.c) ps) = classCountMap (Diff.column (·.c) qs) :=
  classCountMap_order (column_perm (·.c) (fun _ => rfl) h)

/-! ## The report -/

/-- **C99** (partial: see `c99_zero_signs`).  What info prints, whatever is switched on, does not depend on the order of the points,
as long as no coordinate is NaN and no coordinate has zeros of both signs. -/
theorem c99_order_partial (b : Build) (sort : List F64 → List F64) (hs : SortsF64 sort) (a : Info.Args) (f : SpocFile)
    (qs : List PointRecord) (h : qs.Perm f.prs) (hu : Uniform f.prs) (hp : PlainCoordinates f.prs) :
    Info.process b sort a { f with prs := qs } = Info.process b sort a f := by
  symm
  have h' := h.symm.map withoutId
  have e1 : f.getHeader = ({ f with prs := qs } : SpocFile).getHeader := getHeader_order ⟨rfl, rfl⟩ rfl rfl h' hu
  unfold Info.process document
  unfold classesObject classesText metricsObject metricsText
  rw [e1, summariesText_order b hs h.symm hu hp, summariesObject_order b hs h.symm hu hp, classCountMap_of_perm h',
    metricValues_order h' hp]

/-- **C99** without the summaries of the fields (`--summary-info` switches them off): the rest does not depend on the point ids either. -/
theorem c99_without_summary_partial (b : Build) (sort : List F64 → List F64) (a : Info.Args) (ha : a.summaryInfo = false) (f g : SpocFile)
    (hv : g.major = f.major ∧ g.minor = f.minor) (hw : g.wkt = f.wkt) (hc : g.compressed = f.compressed)
    (h : (g.prs.map withoutId).Perm (f.prs.map withoutId)) (hu : Uniform f.prs) (hp : PlainCoordinates f.prs) :
    Info.process b sort a g = Info.process b sort a f := by
  symm
  have h' := h.symm
  have e1 : f.getHeader = g.getHeader := getHeader_order ⟨hv.1.symm, hv.2.symm⟩ hw.symm hc.symm h' hu
  unfold Info.process document
  unfold classesObject classesText metricsObject metricsText section' sectionText
  rw [ha, e1, classCountMap_of_perm h', metricValues_order h' hp]
  rfl

/-- **C99**: the assumption about zeros is needed.  With a zero of each sign the order of the points decides which sign the minimum is
printed with. -/
theorem c99_zero_signs : ∃ (a : Info.Args) (f : SpocFile) (qs : List PointRecord), qs.Perm f.prs ∧ Uniform f.prs
    ∧ (∀ q ∈ f.prs, Spec.Fin (pt q)) ∧ ∀ (b : Build) (sort : List F64 → List F64),
      Info.process b sort a f ≠ Info.process b sort a { f with prs := qs } := by
  refine ⟨{ headerInfo := false, classInfo := false, metricInfo := false },
    { SpocFile.empty with prs := [{ x := F64.zero }, { x := F64.negZero }] }, [{ x := F64.negZero }, { x := F64.zero }],
    List.Perm.swap _ _ _, by unfold Uniform; decide +kernel, by unfold Spec.Fin; decide +kernel, ?_⟩
  intro b sort
  have key : ∀ (l : Str) (xs : List F64) (c : Bool), summaryString (kindF64 sort) l xs c false = summaryString (kindF64 id) l xs c false := by
    intro l xs c
    cases xs <;> rfl
  unfold Info.process summariesText
  simp only [key, Bool.false_eq_true, if_false]
  cases b <;> decide +kernel

/-! ## Splitting and merging a file (`/repo/tests/integration/test_merge.sh`) -/

/-- The file system in which a file contains the given bytes. -/
def putFile (fs : Tile.FS) (n : Str) (bs : Bytes) : Tile.FS :=
  fun m => if m = n then some { content := bs, readable := true, writable := true } else fs m

/-- **C99**: what `/repo/tests/integration/test_merge.sh` checks for one file.  Split a file into tiles, merge these into the file `m`, and
print the report without the summaries of the fields (`info -s`) for the file and for `m`: the texts are equal. -/
theorem c99_tile_merge_partial (p : Params) (hz : p.zlib.Correct) (w : World) (argv : List Str) (i : Str)
    (hops : Cmd.tile.operands argv = [i]) (hi : i ≠ []) (f : SpocFile) (hf : HasCloud p w.fs i f)
    (hpc : PlainCoordinates f.prs)
    (a : Tile.Args) (ha : Tile.getArgs (Cmd.tile.options argv) {} = .ok a) (hv : a.version = false)
    (hh : a.help = false) {sx sy : F64} {numbers : List UInt64} (hsz : Tile.tileSizes a (Extent.ofPoints f.prs) = .ok (sx, sy))
    (hn : Tile.getTileIndexes f.prs (Extent.ofPoints f.prs) sx sy = .ok numbers)
    (hs : (f.compressed = false → ∀ q ∈ f.prs, q.extra.length ≤ 123)
      ∧ (f.compressed = true → FitsZlib p.zlib f.prs.length ∧ ∀ k ∈ numbers, NoHiddenNegZero (pointsNumbered f.prs numbers k)))
    (hpre : (if a.pre.isEmpty then Tile.stem i else a.pre) ≠ [])
    (hfree : ∀ k ∈ numbers, Tile.Free w.canCreate a.force w.fs (tileName { a with fn := i } f k))
    (argv' : List Str) (quiet : Bool) (asked : Option Nat) (hid : ∀ n ∈ asked, n < 2 ^ 31)
    (hopt' : Cmd.merge.options argv' = mergeOptions quiet asked) (ks : List UInt64) (hnd : ks.Nodup) (hk : ∀ k, k ∈ ks ↔ k ∈ numbers)
    (h2 : 2 ≤ ks.length) (hops' : Cmd.merge.operands argv' = ks.map (tileName { a with fn := i } f))
    (line line' : List Str) (m : Str) (d : Info.Args)
    (hl : Cmd.info.operands line = [i]) (hl' : Cmd.info.operands line' = [m])
    (ho : Info.getArgs ((Cmd.info.options line).map (·.1)) {} = .ok d) (ho' : Info.getArgs ((Cmd.info.options line').map (·.1)) {} = .ok d)
    (hdv : d.version = false) (hdh : d.help = false) (hds : d.summaryInfo = false) (t : Str)
    (ht : Info.process p.build p.sort d f = .ok t) :
    (Name.info.run p line w).out = Main.bytes t ∧ (Name.info.run p line w).res = .ok 0
      ∧ ∀ w' : World, w'.fs = putFile (after .tile p argv w).fs m (Name.merge.run p argv' (after .tile p argv w)).out →
        (Name.info.run p line' w').out = Main.bytes t ∧ (Name.info.run p line' w').res = .ok 0 := by
  obtain ⟨-, g, s, h3, h4, h5, h6⟩ := c76_tile_merge p hz w argv i hops hi f hf a ha hv hh hsz hn hs hpre hfree argv' quiet
    asked hid hopt' ks hnd hk h2 hops'
  have hg := readable_writable h3
  have hw : Writable f := by
    obtain ⟨x, s', -, -, h⟩ := hf
    exact readable_writable h
  have hr : Info.process p.build p.sort d g = .ok t := by
    rw [← ht]
    exact c99_without_summary_partial p.build p.sort d hds f g ⟨hg.major.trans hw.major.symm, hg.minor.trans hw.minor.symm⟩ h4
      h5 h6 hw.uniform hpc
  have e1 := c76_info p w line d ho hdv hdh (by rw [hl]; simp) [(f, t)] (by rw [hl]; exact .cons ⟨hf, ht⟩ .nil)
  refine ⟨by rw [e1]; simp, by rw [e1], ?_⟩
  intro w' hw
  have e2 := c76_info p w' line' d ho' hdv hdh (by rw [hl']; simp) [(g, t)] (by
    rw [hl']
    refine .cons ⟨⟨{ content := _, readable := true, writable := true }, s, ?_, rfl, h3⟩, hr⟩ .nil
    rw [hw]
    simp [putFile])
  exact ⟨by rw [e2]; simp, by rw [e2]⟩

/-! ## Examples -/

theorem cloudA_plain : PlainCoordinates cloudA.prs := by
  intro axis h
  rcases h with rfl | rfl | rfl <;> decide +kernel

example : ∀ (b : Build) (sort : List F64 → List F64), SortsF64 sort → ∀ a : Info.Args,
    Info.process b sort a { cloudA with prs := cloudA.prs.reverse } = Info.process b sort a cloudA :=
  fun b sort hs a => c99_order_partial b sort hs a cloudA _ (List.reverse_perm _) (by unfold Uniform; decide +kernel) cloudA_plain

example : ∀ w' : World, w'.fs = putFile (after .tile exampleParams ["-f".toList, "-s10".toList, "-pb".toList, ['z']] fullDisk).fs ['m']
      (Name.merge.run exampleParams ["b000".toList, "b001".toList, "b003".toList]
        (after .tile exampleParams ["-f".toList, "-s10".toList, "-pb".toList, ['z']] fullDisk)).out →
    (Name.info.run exampleParams ["-s".toList, "-m".toList, ['m']] w').res = .ok 0 :=
  fun w' hw => ((c99_tile_merge_partial exampleParams toyZlib_correct fullDisk ["-f".toList, "-s10".toList, "-pb".toList, ['z']] ['z']
    (by decide +kernel) (by decide) { cloudA with compressed := true } cloudZ_on_fullDisk cloudA_plain
    { force := true, tileSize := num 10, pre := ['b'] } (by decide +kernel)
    rfl rfl (sx := num 10) (sy := num 10) (numbers := [0, 1, 3]) (by decide +kernel) (by decide +kernel)
    ⟨by simp, fun _ => ⟨toyZlib_fits (by decide), cloudZ_tiles⟩⟩ (by decide) (fun k hk => .inr ⟨rfl, fullDisk_taken _⟩)
    ["b000".toList, "b001".toList, "b003".toList] false none (by simp) (by decide +kernel) [0, 1, 3] (by decide)
    (fun _ => Iff.rfl) (by decide) (by decide +kernel) ["-s".toList, "-m".toList, ['z']] ["-s".toList, "-m".toList, ['m']] ['m']
    { summaryInfo := false, metricInfo := false } (by decide +kernel) (by decide +kernel) (by decide +kernel) (by decide +kernel) rfl rfl rfl
    ("major_version\t0\nminor_version\t1\nogc_wkt\t''\ntotal_points\t3\ncompressed\ttrue\ncls_000\t3\tunclassified\n".toList)
    (by decide +kernel)).2.2 w' hw).2

end Spoc.Props
