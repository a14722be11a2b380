import Verif.Props.EndToEnd
import Verif.Props.FilterTransform
import Verif.Props.MergeStages
import Verif.Props.TileForce
import Verif.Props.Plain

/-!
# C136: a cloud without points
-/

namespace Spoc.Props

open Spec Main Cmd Text

/-- Nothing stands in the way of storing a cloud without points. -/
theorem nothing_survives {z : Zlib} {f : SpocFile} (hw : Writable f) (h0 : f.prs = []) (hz : f.compressed = true → FitsZlib z 0) : Survives z f :=
  ⟨hw, fun _ q hq => by rw [h0] at hq; simp at hq, fun hc => ⟨by rw [h0]; exact hz hc, fun axis _ _ q hq => by rw [h0] at hq; simp at hq⟩⟩

/-! ## filter -/

theorem order_nothing {sh : Subsampling.Shuffle} (hsh : sh.Lawful) (seed : Nat) : Subsampling.order sh seed 0 = [] := by
  unfold Subsampling.order
  split
  · exact (hsh seed _).eq_nil
  · rfl

theorem filterSteps_nothing (b : Build) {sh : Subsampling.Shuffle} (hsh : sh.Lawful) (r : FilterRequest) : FilterSteps b sh r [] [] := by
  refine ⟨[], [], [], [], by simp, by simp, ?_, ?_, ?_⟩
  · split
    · unfold uniqueXyzPoints Subsampling.uniqueXyzIndexes
      rw [List.length_nil, order_nothing hsh]
      rfl
    · rfl
  · split
    · rfl
    · unfold Subsampling.subsamplePoints Subsampling.subsampleIndexes
      rw [List.length_nil, order_nothing hsh]
      rfl
  · split
    · rfl
    · rfl

/-- **C136**, filter: whatever is asked for, nothing is left of nothing, and the spatial reference and the compression stay. -/
theorem c136_filter (p : Params) (hz : p.zlib.Correct) (hsh : p.shuffle.Lawful) (w : World) (argv : List Str) (i o : Str)
    (r : FilterRequest) (hopt : Asks (Cmd.filter.options argv) r) (hops : Cmd.filter.operands argv = [i, o]) (hi : i ≠ []) (ho : o ≠ [])
    (hc : CanReplace w o) (f : SpocFile) (hf : HasCloud p w.fs i f) (h0 : f.prs = []) (hfit : f.compressed = true → FitsZlib p.zlib 0) :
    Makes .filter p w argv o f := by
  have hs : Survives p.zlib f := by
    obtain ⟨x, s, -, -, h⟩ := hf
    exact nothing_survives (readable_writable h) h0 hfit
  have e : { f with prs := [] } = f := by rw [← h0]
  have := c76_filter_partial p hz hsh w argv i o r hopt hops hi ho hc f hf [] (by rw [h0]; exact filterSteps_nothing _ hsh r) (by rw [e]; exact hs)
  rwa [e] at this

/-! ## tool -/

/-- **C136**, tool: a command that succeeds on a cloud without points leaves it as it is; upsampling from such a cloud leaves the cloud with the high
resolution as it is. -/
theorem c136_tool (b : Build) (zl : Zlib) (files : Tool.Files) (a : Tool.Args) (f g : SpocFile) (h0 : f.prs = []) (h : Tool.run b zl files a f = .ok g) :
    if a.command.name = "upsample-classifications" then ∃ s s', files.spoc a.command.params = some s ∧ Io.readFile b zl s = .ok (g, s')
    else g = f := by
  have e : { f with prs := [] } = f := by rw [← h0]
  have hset : ∀ c : Bool, ∀ ps : List PointRecord, ps = [] → (require b c >>= fun _ => f.cloneEmpty.setPointRecords ps) = .ok g → g = f := by
    intro c ps hps hg
    obtain ⟨-, -, hg⟩ := Res.bind_eq_ok.mp hg
    subst hps
    unfold SpocFile.setPointRecords at hg
    split at hg
    · simp at hg
    · simp only [Res.ok.injEq] at hg
      rw [← hg, SpocFile.cloneEmpty]
      exact e
  have hcopy : ∀ g' : SpocFile, f.copy = .ok g' → g' = f := by
    intro g' hg
    rw [Tool.copy_ok (by intro p hp; rw [h0] at hp; simp at hp)] at hg
    exact (Res.ok.inj hg).symm
  unfold Tool.run at h
  split at h
  · next hn =>
    rw [if_neg (by rw [hn]; decide)]
    exact hset _ _ (by rw [h0]; rfl) h
  split at h
  · next hn =>
    rw [if_neg (by rw [hn]; decide)]
    exact hset _ _ (by rw [h0]; rfl) h
  split at h
  · next hn =>
    rw [if_neg (by rw [hn]; decide)]
    split at h
    · simp at h
    · split at h
      · simp at h
      · split at h
        · simp at h
        · unfold Tool.resizeExtra at h
          obtain ⟨-, -, h⟩ := Res.bind_eq_ok.mp h
          obtain ⟨-, -, h⟩ := Res.bind_eq_ok.mp h
          obtain ⟨g', hg', h⟩ := Res.bind_eq_ok.mp h
          rw [hcopy g' hg'] at h
          rw [← Res.ok.inj h]
          unfold SpocFile.resizeExtraFields
          rw [h0]
          exact e
  split at h
  · next hn =>
    rw [if_neg (by rw [hn]; decide)]
    split at h
    · simp at h
    · split at h
      · simp at h
      · obtain ⟨⟨name, rest⟩, -, h⟩ := Res.bind_eq_ok.mp h
        dsimp only at h
        unfold Tool.setField at h
        obtain ⟨-, -, h⟩ := Res.bind_eq_ok.mp h
        obtain ⟨-, -, h⟩ := Res.bind_eq_ok.mp h
        obtain ⟨-, -, h⟩ := Res.bind_eq_ok.mp h
        dsimp only at h
        have hadd : Tool.addExtra f name = [] := by
          unfold Tool.addExtra
          dsimp only
          rw [h0]
          split <;> rfl
        rw [hadd] at h
        have hg : f.cloneEmpty.setPointRecords [] = .ok g := by
          by_cases hff : Tool.isFloatField name = true
          · rw [if_pos hff] at h
            obtain ⟨vs, -, h⟩ := Res.bind_eq_ok.mp h
            exact h
          · rw [if_neg hff] at h
            obtain ⟨vs, -, h⟩ := Res.bind_eq_ok.mp h
            exact h
        exact hset true [] rfl (by rw [require_true]; exact hg)
  split at h
  · next hn =>
    rw [if_neg (by rw [hn]; decide)]
    exact hset _ _ (by rw [h0]; rfl) h
  split at h
  · next hn =>
    rw [if_neg (by rw [hn]; decide)]
    exact hset _ _ (by rw [h0]; rfl) h
  split at h
  · next hn =>
    rw [if_pos hn]
    split at h
    · simp at h
    · split at h
      · simp at h
      · next s hs =>
        obtain ⟨g', hg', h1⟩ := Res.bind_eq_ok.mp h
        obtain ⟨⟨k, m⟩, hk, h2⟩ := Res.bind_eq_ok.mp h1
        obtain ⟨⟨g2, s'⟩, hr, hg'⟩ := Res.bind_eq_ok.mp hg'
        have e2 : g2 = g' := Res.ok.inj hg'
        subst e2
        refine ⟨s, s', hs, ?_⟩
        have e3 : k = g := Res.ok.inj h2
        subst e3
        unfold Tool.upsample at hk
        obtain ⟨-, -, hk⟩ := Res.bind_eq_ok.mp hk
        obtain ⟨-, -, hk⟩ := Res.bind_eq_ok.mp hk
        obtain ⟨-, -, hk⟩ := Res.bind_eq_ok.mp hk
        obtain ⟨c, hc, hk⟩ := Res.bind_eq_ok.mp hk
        rw [Tool.copy_ok (readable_writable hr).uniform] at hc
        have e4 : g2 = c := Res.ok.inj hc
        subst e4
        obtain ⟨vh, -, hk⟩ := Res.bind_eq_ok.mp hk
        obtain ⟨vl, hvl, hk⟩ := Res.bind_eq_ok.mp hk
        rw [h0] at hvl
        have e5 : vl = [] := (Res.ok.inj hvl).symm
        subst e5
        have e6 := Res.ok.inj hk
        simp only [Prod.mk.injEq] at e6
        rw [← e6.1]
        exact hr
  · simp at h

/-- **C136**, tool: moving a cloud without points and giving it another number of extra fields succeeds, `get-field` prints nothing. -/
theorem c136_tool_succeeds (b : Build) (zl : Zlib) (files : Tool.Files) (a : Tool.Args) (f : SpocFile) (h0 : f.prs = []) (n : Nat) (hn : n ≤ 255)
    (hc : a.command.name ∈ ["recenter-xy", "recenter-xyz", "subtract-min-xy", "subtract-min-xyz"]
      ∨ a.command = ⟨"resize-extra", showNat n⟩) : Tool.run b zl files a f = .ok f := by
  have hu : Uniform f.prs := by intro p hp; rw [h0] at hp; simp at hp
  have hv := Tool.uniform_valid hu
  have e : { f with prs := [] } = f := by rw [← h0]
  have hset : f.cloneEmpty.setPointRecords [] = .ok f := by
    rw [Tool.setRecords_ok rfl, e]
  rcases hc with hc | hc
  · simp only [List.mem_cons, List.not_mem_nil, or_false] at hc
    rcases hc with hc | hc | hc | hc <;> unfold Tool.run <;> rw [hc] <;> simp (decide := true) only [if_true, if_false]
    · unfold Tool.recenter; rw [hv, h0]; simp [hset]
    · unfold Tool.recenter; rw [hv, h0]; simp [hset]
    · unfold Tool.subtractMin; rw [hv, h0]; simp [hset]
    · unfold Tool.subtractMin; rw [hv, h0]; simp [hset]
  · unfold Tool.run
    rw [hc]
    simp (decide := true) only [if_true, if_false]
    rw [Tool.stoi_show (by omega)]
    simp only
    rw [if_neg (by omega), if_neg (by omega)]
    unfold Tool.resizeExtra
    rw [hv, require_true, Res.ok_bind, show decide ((0 : Int) ≤ (n : Int)) = true by simp, require_true, Res.ok_bind, Tool.copy_ok hu, Res.ok_bind]
    unfold SpocFile.resizeExtraFields
    rw [h0]
    show Res.ok { f with prs := [] } = _
    rw [e]

/-- **C136**, tool: the application writes the same cloud. -/
theorem c136_tool_makes (p : Params) (hz : p.zlib.Correct) (w : World) (argv : List Str) (i o : Str) (hops : Cmd.tool.operands argv = [i, o]) (hi : i ≠ [])
    (ho : o ≠ []) (hc : CanReplace w o) (f : SpocFile) (hf : HasCloud p w.fs i f) (h0 : f.prs = []) (hfit : f.compressed = true → FitsZlib p.zlib 0)
    (a : Tool.Args) (ha : Tool.getArgs (Cmd.tool.options argv) {} = .ok a) (hv : a.version = false) (hh : a.help = false) (n : Nat) (hn : n ≤ 255)
    (hcm : a.command.name ∈ ["recenter-xy", "recenter-xyz", "subtract-min-xy", "subtract-min-xyz"] ∨ a.command = ⟨"resize-extra", showNat n⟩) :
    Makes .tool p w argv o f := by
  obtain ⟨x, s, hx, hr, hfile⟩ := hf
  have hs : Survives p.zlib f := nothing_survives (readable_writable hfile) h0 hfit
  have hrun := c136_tool_succeeds p.build p.zlib (toolFiles w.fs) a f h0 n hn hcm
  have hname : a.command.name ≠ "" ∧ a.command.name ≠ "get-field" := by
    rcases hcm with h | h
    · simp only [List.mem_cons, List.not_mem_nil, or_false] at h
      rcases h with h | h | h | h <;> rw [h] <;> decide
    · rw [h]
      exact ⟨by simp, by simp⟩
  refine outputStream_cloud hz ho hc hs ?_
  have hin : inputStream w i = .ok { rest := x.content } := by simp [inputStream, hi, openRead, hx, hr]
  simp only [Name.run, Main.tool, toolArgs, withOperands, ha, hops, inOut, Res.ok_bind, hv, hh, Bool.false_eq_true, if_false, hname.1, hname.2,
    readThenWrite, hin, Apps.fileOf, hfile, hrun]

/-! ## transform -/

/-- **C136**, transform: whatever the commands are, if they are accepted, the cloud stays as it is. -/
theorem c136_transform (p : Params) (hz : p.zlib.Correct) (w : World) (argv : List Str) (os : List (String × Str))
    (hopt : Cmd.transform.options argv = os) (hne : os ≠ []) (hos : ∀ o ∈ os, o.1 ∈ commandOptions) (i o : Str)
    (hops : Cmd.transform.operands argv = [i, o]) (hi : i ≠ []) (ho : o ≠ []) (hio : i ≠ o) (hc : CanReplace w o) (f : SpocFile) (hf : Holds p w.fs i f)
    (h0 : f.prs = []) (hok : (Name.transform.run p argv w).res = .ok 0) : Makes .transform p w argv o f := by
  obtain ⟨ops, qs, -, h, hm⟩ := transform_makes p hz w argv os hopt hne hos i o hops hi ho hio f hf hok
  rw [h0] at h
  have e : qs = [] := (Res.ok.inj h).symm
  have := hm w rfl hc
  rwa [e, ← h0] at this

/-! ## merge -/

theorem mergedPoints_const (n : UInt32) (fs : List SpocFile) :
    mergedPoints (fun _ => n) fs = (allPoints fs).map (fun q => { q with p := n }) := by
  unfold mergedPoints allPoints
  induction fs with
  | nil => rfl
  | cons f fs ih => rw [List.mapIdx_cons, List.flatten_cons, ih, List.flatMap_cons, List.map_append]

theorem allPoints_nothing (fs : List SpocFile) : allPoints (fs.filter (fun g => decide (g.prs ≠ []))) = allPoints fs := by
  unfold allPoints
  induction fs with
  | nil => rfl
  | cons f fs ih =>
    by_cases h : f.prs = []
    · rw [List.filter_cons_of_neg (by simpa using h), ih, List.flatMap_cons, h, List.nil_append]
    · rw [List.filter_cons_of_pos (by simpa using h), List.flatMap_cons, List.flatMap_cons, ih]

/-- **C136**, merge: files without points that are not the first can be left out without any effect, if the point id is given. -/
theorem c136_merge (p : Params) (hz : p.zlib.Correct) (w : World) (argv argv' : List Str) (quiet quiet' : Bool) (n : Nat) (hn : n < 2 ^ 31)
    (hopt : Cmd.merge.options argv = mergeOptions quiet (some n)) (hopt' : Cmd.merge.options argv' = mergeOptions quiet' (some n))
    (f : SpocFile) (fs gs : List SpocFile)
    (hf : List.Forall₂ (fun n f => HasCloud p w.fs n f) (Cmd.merge.operands argv) (f :: fs))
    (hg : List.Forall₂ (fun n f => HasCloud p w.fs n f) (Cmd.merge.operands argv') (f :: gs))
    (hgs : gs = fs.filter (fun g => decide (g.prs ≠ []))) (h2 : gs ≠ [])
    (hc : f.compressed = false ∨ (∃ g ∈ gs, g.compressed = false) ∨ ∀ g ∈ fs, g.prs = [] → g.compressed = true)
    (hu : Uniform (allPoints (f :: gs))) (hs : Survives p.zlib (mergedCloud (some n) f gs)) :
    (Name.merge.run p argv w).res = .ok 0 ∧ (Name.merge.run p argv' w).res = .ok 0
      ∧ (Name.merge.run p argv w).out = (Name.merge.run p argv' w).out := by
  have hall : allPoints (f :: fs) = allPoints (f :: gs) := by
    have := allPoints_nothing fs
    rw [← hgs] at this
    simp only [allPoints, List.flatMap_cons] at this ⊢
    rw [this]
  have hcomp : (f :: fs).all (fun f => f.compressed) = (f :: gs).all (fun f => f.compressed) := by
    rw [Bool.eq_iff_iff, List.all_eq_true, List.all_eq_true]
    constructor
    · intro h x hx
      rcases List.mem_cons.mp hx with rfl | hx
      · exact h _ (by simp)
      · rw [hgs] at hx
        exact h x (by simp [(List.mem_filter.mp hx).1])
    · intro h x hx
      rcases List.mem_cons.mp hx with rfl | hx
      · exact h _ (by simp)
      · by_cases hp : x.prs = []
        · rcases hc with hc | ⟨g, hg, hc⟩ | hc
          · have := h f (by simp); rw [hc] at this; simp at this
          · have := h g (by simp [hg]); rw [hc] at this; simp at this
          · exact hc x hx hp
        · exact h x (by rw [hgs]; simp [hx, hp])
  have hm : mergedCloud (some n) f fs = mergedCloud (some n) f gs := by
    unfold mergedCloud
    rw [hcomp]
    congr 1
    show mergedPoints (fun _ => UInt32.ofNat n) _ = mergedPoints (fun _ => UInt32.ofNat n) _
    rw [mergedPoints_const, mergedPoints_const, hall]
  have hne : fs ≠ [] := by
    rintro rfl
    exact h2 (by rw [hgs]; rfl)
  have hw := (survives_roundtrip p.build p.zlib hz _ hs).1
  have a1 := merge_bytes p w argv quiet (some n) (by simpa using hn) hopt f fs hf hne (by rw [hall]; exact hu) (by rw [hm]; exact hw)
  have a2 := merge_bytes p w argv' quiet' (some n) (by simpa using hn) hopt' f gs hg h2 hu hw
  exact ⟨a1.1, a2.1, by rw [a1.2, a2.2, hm]⟩

/-! ## tile -/

/-- **C136**, tile: if the size in x is above zero, the conversion of minus infinity to an integer is undefined, for every such size. -/
theorem c136_tile_undefined (sx sy : F64) (h : F64.gt sx F64.zero = true) :
    Tile.getTileIndexes [] (Extent.ofPoints ([] : List PointRecord)) sx sy = .ub "double out of range of uint64_t" := by
  have e : F64.sub (Extent.ofPoints ([] : List PointRecord)).maxp.x (Extent.ofPoints ([] : List PointRecord)).minp.x = F64.inf true := by decide +kernel
  unfold Tile.getTileIndexes Tile.getStride
  rw [if_pos h, e]
  have hn : sx.isNaN = false := by
    unfold F64.gt F64.lt at h
    simp only [Bool.and_eq_true, Bool.not_eq_true'] at h
    exact h.1.2
  have hneg : sx.neg = false := by
    unfold F64.gt F64.lt at h
    simp only [Bool.and_eq_true, decide_eq_true_eq] at h
    have h0 : F64.zero.fv = 0 := by decide +kernel
    have := h.2
    rw [h0] at this
    unfold F64.fv at this
    cases hx : sx.neg with
    | false => rfl
    | true =>
      rw [hx] at this
      simp at this
      omega
  have ed : F64.div (F64.inf true) sx = F64.nan ∨ F64.div (F64.inf true) sx = F64.inf true := by
    unfold F64.div
    rw [hn, hneg, show (F64.inf true).isNaN = false by decide, show (F64.inf true).isInf = true by decide, show (F64.inf true).neg = true by decide]
    cases sx.isInf
    · exact .inr rfl
    · exact .inl rfl
  have eu : ∀ x : F64, x = F64.nan ∨ x = F64.inf true → F64.toU64 (F64.add x F64.one) = .ub "double out of range of uint64_t" := by
    rintro x (rfl | rfl) <;> decide +kernel
  rw [eu _ ed]
  rfl

/-- **C136**, tile: if only the number of tiles is given, nothing is written and the run succeeds. -/
theorem c136_tile (p : Params) (hz : p.zlib.Correct) (w : World) (argv : List Str) (i : Str) (hops : Cmd.tile.operands argv = [i]) (hi : i ≠ [])
    (f : SpocFile) (hf : HasCloud p w.fs i f) (h0 : f.prs = []) (hfit : f.compressed = true → FitsZlib p.zlib 0) (a : Tile.Args)
    (ha : Tile.getArgs (Cmd.tile.options argv) {} = .ok a) (hv : a.version = false) (hh : a.help = false)
    (h1 : F64.gt a.tileSize F64.zero = false) (h2 : F64.gt a.tileSizeX F64.zero = false) (h3 : F64.gt a.tileSizeY F64.zero = false)
    (hpre : (if a.pre.isEmpty then Tile.stem i else a.pre) ≠ []) :
    (Name.tile.run p argv w).res = .ok 0 ∧ (Name.tile.run p argv w).out = [] ∧ (Name.tile.run p argv w).fs = w.fs := by
  have hd : ∀ n : Nat, F64.gt (Tile.getTileSize (Extent.ofPoints ([] : List PointRecord)) n) F64.zero = false := by
    intro n
    have ex : F64.add (F64.sub (Extent.ofPoints ([] : List PointRecord)).maxp.x (Extent.ofPoints ([] : List PointRecord)).minp.x) Tile.epsilon
        = F64.inf true := by decide +kernel
    have ey : F64.add (F64.sub (Extent.ofPoints ([] : List PointRecord)).maxp.y (Extent.ofPoints ([] : List PointRecord)).minp.y) Tile.epsilon
        = F64.inf true := by decide +kernel
    have eg : F64.gt (F64.inf true) (F64.inf true) = false := by decide +kernel
    have hneg : (F64.ofNat n).neg = false := by
      unfold F64.ofNat F64.ofInt F64.rnd
      split
      · exact F64.neg_mk' _ (by norm_num)
      · rw [F64.neg_mk' _ (F64.roundMag_lt63 _ _)]
        rw [decide_eq_false_iff_not]
        have : (0 : Int) ≤ (n : Int) * (F64.one1074 : Int) := mul_nonneg (Int.natCast_nonneg _) (Int.natCast_nonneg _)
        omega
    unfold Tile.getTileSize
    simp only [ex, ey, eg, Bool.false_eq_true, if_false]
    have ed : F64.div (F64.inf true) (F64.ofNat n) = F64.nan ∨ F64.div (F64.inf true) (F64.ofNat n) = F64.inf true := by
      unfold F64.div
      rw [hneg, show (F64.inf true).isNaN = false by decide, show (F64.inf true).isInf = true by decide, show (F64.inf true).neg = true by decide]
      cases (F64.ofNat n).isNaN
      · cases (F64.ofNat n).isInf
        · exact .inr rfl
        · exact .inl rfl
      · exact .inl rfl
    rcases ed with ed | ed <;> rw [ed] <;> decide +kernel
  have hsz : Tile.tileSizes a (Extent.ofPoints f.prs)
      = .ok (Tile.getTileSize (Extent.ofPoints f.prs) a.tiles.toNat, Tile.getTileSize (Extent.ofPoints f.prs) a.tiles.toNat) := by
    unfold Tile.tileSizes
    simp only [h1, h2, h3, Bool.false_and, Bool.or_self, Bool.false_eq_true, if_false]
  have hn : Tile.getTileIndexes f.prs (Extent.ofPoints f.prs) (Tile.getTileSize (Extent.ofPoints f.prs) a.tiles.toNat)
      (Tile.getTileSize (Extent.ofPoints f.prs) a.tiles.toNat) = .ok [] := by
    rw [h0]
    have e1 : F64.toU64 F64.one = .ok 1 := by decide +kernel
    unfold Tile.getTileIndexes Tile.getStride
    rw [hd, if_neg (by simp), e1]
    rfl
  obtain ⟨r1, r2, -, r4⟩ := c76_tile p hz w argv i hops hi f hf a ha hv hh hsz hn
    ⟨fun _ q hq => by rw [h0] at hq; simp at hq, fun hc => ⟨by rw [h0]; exact hfit hc, by simp⟩⟩ hpre (by simp)
  exact ⟨r1, r2, funext fun m => r4 m (by simp)⟩

/-! ## info -/

/-- **C136**, info: the report on a cloud without points is made without any failure, whatever is asked for. -/
theorem c136_info (b : Build) (sort : List F64 → List F64) (a : Info.Args) (f : SpocFile) (hw : Writable f) (h0 : f.prs = []) :
    ∃ t, Info.process b sort a f = .ok t := by
  have hh := Io.getHeader_eq hw.wkt
  obtain ⟨u, hu⟩ : ∃ u, Info.summariesText b sort [] a.compact a.quartiles = .ok u := ⟨_, rfl⟩
  obtain ⟨v, hv⟩ : ∃ v, Info.summariesObject b sort [] a.quartiles = .ok v := ⟨_, rfl⟩
  obtain ⟨m, hm⟩ : ∃ m, Info.metricValues [] = .ok m := ⟨_, rfl⟩
  have hmt : ∃ t, Info.metricsText [] = .ok t := by
    have : (Info.metricsText []).isOk = true := by decide +kernel
    cases e : Info.metricsText [] with
    | ok t => exact ⟨t, rfl⟩
    | _ => rw [e] at this; simp [Res.isOk] at this
  obtain ⟨k, hk⟩ := hmt
  have hmo : ∃ t, Info.metricsObject [] = .ok t := by
    unfold Info.metricsObject
    rw [hm]
    exact ⟨_, rfl⟩
  obtain ⟨l, hl⟩ := hmo
  unfold Info.process Info.document
  rw [h0, hh, hu, hv, hk, hl]
  cases a.json <;> cases a.headerInfo <;> cases a.summaryInfo <;> cases a.classInfo <;> cases a.metricInfo <;> exact ⟨_, rfl⟩

/-- **C136**, the full statement is false: two of the densities that info shows for a cloud without points are not numbers, -/
theorem c136_density : Info.metricsText [] = .ok ("extent_point_density\t0.000000000000000\tpts/unit^2\n".toList
    ++ "grid_point_density\tnan\tpts/unit^2\n".toList ++ "voxel_point_density\tnan\tpts/unit^3\n".toList) := by
  decide +kernel

/-- and transferring classes to a cloud without points is undefined behaviour. -/
theorem c136_upsample : Tool.run .release toyZlib { text := fun _ => none, spoc := fun _ => some { rest := (Io.writeFile .release toyZlib SpocFile.empty).bytes } }
    { command := ⟨"upsample-classifications", ['h']⟩, resolution := F64.one } cloudA = .ub "double out of range of uint64_t" := by
  decide +kernel

/-! ## Examples -/

/-- A disk with a cloud without points, not compressed and compressed, and another cloud. -/
def nothingDisk : World where
  fs := fun n =>
    if n = ['n'] then some { content := (Io.writeFile .release toyZlib SpocFile.empty).bytes, readable := true, writable := true }
    else if n = ['m'] then some { content := (Io.writeFile .release toyZlib { SpocFile.empty with compressed := true }).bytes, readable := true, writable := true }
    else exampleDisk.fs n
  canCreate _ := true
  stdin := { rest := [] }

theorem nothing_on_disk : HasCloud exampleParams nothingDisk.fs ['n'] SpocFile.empty
    ∧ HasCloud exampleParams nothingDisk.fs ['m'] { SpocFile.empty with compressed := true } := by
  have h : ∀ c, Survives toyZlib { SpocFile.empty with compressed := c } := fun c =>
    nothing_survives ⟨rfl, rfl, by cases c <;> decide, by cases c <;> unfold Uniform <;> decide, by cases c <;> decide, by cases c <;> decide⟩ rfl
      fun _ => toyZlib_fits (by norm_num)
  exact ⟨⟨_, _, rfl, rfl, reads (h false)⟩, ⟨_, _, rfl, rfl, reads (h true)⟩⟩

example : Makes .filter exampleParams nothingDisk ["-k2".toList, "-u".toList, ['m'], ['o']] ['o'] { SpocFile.empty with compressed := true } :=
  c136_filter exampleParams toyZlib_correct (fun _ l => List.Perm.refl l) nothingDisk _ ['m'] ['o'] { keep := [2], unique := true }
    (by
      rw [show Cmd.filter.options ["-k2".toList, "-u".toList, ['m'], ['o']] = [("keep-class", ['2']), ("unique-xyz", [])] by decide +kernel]
      exact ⟨by decide, by decide, by decide, by decide, by decide, by simp, rfl, .inr ⟨rfl, rfl⟩, by decide, .inl rfl⟩) (by decide +kernel) (by decide) (by decide) rfl _ nothing_on_disk.2 rfl
    fun _ => toyZlib_fits (by norm_num)

example : Makes .tool exampleParams nothingDisk ["--recenter-xy".toList, ['n'], ['o']] ['o'] SpocFile.empty :=
  c136_tool_makes exampleParams toyZlib_correct nothingDisk _ ['n'] ['o'] (by decide +kernel) (by decide) (by decide) rfl _ nothing_on_disk.1 rfl
    (fun h => by simp [SpocFile.empty] at h) { command := ⟨"recenter-xy", []⟩ } (by decide +kernel) rfl rfl 0 (by decide) (.inl (by decide))

example : Makes .tool exampleParams nothingDisk ["--resize-extra=12".toList, ['n'], ['o']] ['o'] SpocFile.empty :=
  c136_tool_makes exampleParams toyZlib_correct nothingDisk _ ['n'] ['o'] (by decide +kernel) (by decide) (by decide) rfl _ nothing_on_disk.1 rfl
    (fun h => by simp [SpocFile.empty] at h) { command := ⟨"resize-extra", "12".toList⟩ } (by decide +kernel) rfl rfl 12 (by decide) (.inr (by decide))

example : Makes .transform exampleParams nothingDisk ["--add-x=1".toList, "--set=c,2".toList, ['n'], ['o']] ['o'] SpocFile.empty :=
  c136_transform exampleParams toyZlib_correct nothingDisk _ _ rfl (by decide +kernel) (by decide +kernel) ['n'] ['o'] (by decide +kernel) (by decide)
    (by decide) (by decide) rfl _ ⟨rfl, nothing_survives ⟨rfl, rfl, by decide, by unfold Uniform; decide, by decide, by decide⟩ rfl (fun h => by simp [SpocFile.empty] at h),
      _, [], rfl, rfl, by rw [List.append_nil]; rfl⟩ rfl (by decide +kernel)

example : (Name.merge.run exampleParams ["-p7".toList, ['a'], ['n'], ['d'], ['m']] nothingDisk).out
    = (Name.merge.run exampleParams ["-p7".toList, ['a'], ['d']] nothingDisk).out :=
  (c136_merge exampleParams toyZlib_correct nothingDisk _ _ false false 7 (by decide) (by decide +kernel) (by decide +kernel) cloudA
    [SpocFile.empty, cloudA, { SpocFile.empty with compressed := true }] [cloudA]
    (by
      rw [show Cmd.merge.operands ["-p7".toList, ['a'], ['n'], ['d'], ['m']] = [['a'], ['n'], ['d'], ['m']] by decide +kernel]
      exact .cons cloudA_on_disk.1 (.cons nothing_on_disk.1 (.cons cloudA_on_disk.2 (.cons nothing_on_disk.2 .nil))))
    (by
      rw [show Cmd.merge.operands ["-p7".toList, ['a'], ['d']] = [['a'], ['d']] by decide +kernel]
      exact .cons cloudA_on_disk.1 (.cons cloudA_on_disk.2 .nil))
    (by decide +kernel) (by simp) (.inl rfl) (by unfold Uniform; decide +kernel)
    (merged_survives_of _ (fun g hg => by rw [show g = cloudA by simpa using hg]; exact ⟨cloudA_survives, rfl⟩) (by unfold Uniform; decide +kernel) (by decide +kernel))).2.2

example : (Name.tile.run exampleParams ["-t9".toList, ['n']] nothingDisk).fs = nothingDisk.fs :=
  (c136_tile exampleParams toyZlib_correct nothingDisk _ ['n'] (by decide +kernel) (by decide) _ nothing_on_disk.1 rfl (fun h => by simp [SpocFile.empty] at h)
    { tiles := 9 } (by decide +kernel) rfl rfl (by decide +kernel) (by decide +kernel) (by decide +kernel) (by decide +kernel)).2.2

example : Writable SpocFile.empty ∧ SpocFile.empty.prs = [] := ⟨⟨rfl, rfl, by decide, by unfold Uniform; decide, by decide, by decide⟩, rfl⟩

example : F64.gt (num 10) F64.zero = true := by decide +kernel

end Spoc.Props
