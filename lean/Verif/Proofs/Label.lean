import Verif.Model.Tool
import Verif.Model.Filter
import Verif.Model.Tile
import Verif.Model.Merge
import Verif.Model.Diff
import Verif.Model.Info

/-!
# What the code does with the spatial reference: nothing but carry it along
-/

namespace Spoc.Label

/-- The cloud with another spatial reference. -/
def label (c : Bytes) (f : SpocFile) : SpocFile := { f with wkt := c }

@[simp] theorem label_prs (c : Bytes) (f : SpocFile) : (label c f).prs = f.prs := rfl
@[simp] theorem label_wkt (c : Bytes) (f : SpocFile) : (label c f).wkt = c := rfl
@[simp] theorem label_compressed (c : Bytes) (f : SpocFile) : (label c f).compressed = f.compressed := rfl

variable {c : Bytes}

theorem bind_label {α : Type} (r : Res α) (k k' : α → Res SpocFile) (h : ∀ a, k' a = label c <$> k a) :
    (r >>= k') = label c <$> (r >>= k) := by
  cases r with
  | ok a => exact h a
  | _ => rfl

theorem bind_file {r r' : Res SpocFile} {k k' : SpocFile → Res SpocFile} (hr : r' = label c <$> r) (h : ∀ f, k' (label c f) = label c <$> k f) :
    (r' >>= k') = label c <$> (r >>= k) := by
  subst hr
  cases r with
  | ok a => exact h a
  | _ => rfl

theorem foldlM_label {α : Type} (step step' : SpocFile → α → Res SpocFile) (h : ∀ f a, step' (label c f) a = label c <$> step f a) (as : List α)
    (f : SpocFile) : as.foldlM step' (label c f) = label c <$> as.foldlM step f := by
  induction as generalizing f with
  | nil => rfl
  | cons a as ih =>
    rw [List.foldlM_cons, List.foldlM_cons]
    exact bind_file (h f a) ih

theorem copy_label (f : SpocFile) : (label c f).copy = label c <$> f.copy := by
  unfold SpocFile.copy SpocFile.new
  rw [apply_ite (label c <$> ·)]
  rfl

theorem pushBack_label (f : SpocFile) (q : PointRecord) : (label c f).pushBack q = label c <$> f.pushBack q := by
  simp only [SpocFile.pushBack, label_prs]
  split
  · rfl
  · split <;> rfl

theorem setPointRecords_label (f : SpocFile) (ps : List PointRecord) : (label c f).setPointRecords ps = label c <$> f.setPointRecords ps := by
  simp only [SpocFile.setPointRecords]
  split <;> rfl

theorem setPointRecord_label (b : Build) (f : SpocFile) (i : Nat) (q : PointRecord) :
    (label c f).setPointRecord b i q = label c <$> f.setPointRecord b i q := by
  refine bind_label _ _ _ fun _ => ?_
  show (if _ then _ else if _ then _ else _) = label c <$> (if _ then _ else if _ then _ else _)
  rw [apply_ite (label c <$> ·), apply_ite (label c <$> ·)]
  rfl

/-! ## filter -/

theorem stage_label (on : Bool) (step : SpocFile → Res SpocFile) (h : ∀ f, step (label c f) = label c <$> step f) (f : SpocFile) :
    Filter.stage on step (label c f) = label c <$> Filter.stage on step f := by
  unfold Filter.stage
  cases on
  · rfl
  · exact bind_file (h f) copy_label

theorem select_label (keep : PointRecord → Bool) (f : SpocFile) : Filter.select (label c f) keep = label c <$> Filter.select f keep := by
  refine foldlM_label _ _ (fun g p => ?_) f.prs f.cloneEmpty
  split
  · exact pushBack_label g p
  · rfl

theorem process_label (b : Build) (sh : Subsampling.Shuffle) (a : Filter.Args) (f : SpocFile) :
    Filter.process b sh a (label c f) = label c <$> Filter.process b sh a f := by
  refine bind_file (stage_label _ _ (fun f => select_label _ f) f) fun f => ?_
  refine bind_file (stage_label _ _ (fun f => select_label _ f) f) fun f => ?_
  refine bind_file (stage_label _ _ (fun f => ?_) f) fun f => ?_
  · refine bind_label _ _ _ fun is => foldlM_label _ _ (fun g i => ?_) is f.cloneEmpty
    exact bind_label _ _ _ fun p => pushBack_label g p
  refine bind_file (stage_label _ _ (fun f => ?_) f) fun f => ?_
  · exact bind_label _ _ _ fun ps => setPointRecords_label f.cloneEmpty ps
  refine stage_label _ _ (fun f => ?_) f
  unfold Filter.removeCoords
  split
  · refine bind_label _ _ _ fun v => bind_label _ _ _ fun cmp => ?_
    split
    · rfl
    · exact select_label _ f
  · rfl

/-! ## tool -/

theorem setField_label (b : Build) (f : SpocFile) (t : Text.TextIn) (name : Str) :
    Tool.setField b (label c f) t name = label c <$> Tool.setField b f t name :=
  bind_label _ _ _ fun _ => bind_label _ _ _ fun _ => bind_label _ _ _ fun _ => by
    dsimp only
    split
    · exact bind_label _ _ _ fun _ => bind_label _ _ _ fun ps => setPointRecords_label f.cloneEmpty ps
    · exact bind_label _ _ _ fun _ => bind_label _ _ _ fun ps => setPointRecords_label f.cloneEmpty ps

theorem recenter_label (b : Build) (f : SpocFile) (z : Bool) : Tool.recenter b (label c f) z = label c <$> Tool.recenter b f z :=
  bind_label _ _ _ fun _ => setPointRecords_label f.cloneEmpty _

theorem subtractMin_label (b : Build) (f : SpocFile) (z : Bool) : Tool.subtractMin b (label c f) z = label c <$> Tool.subtractMin b f z :=
  bind_label _ _ _ fun _ => setPointRecords_label f.cloneEmpty _

theorem resizeExtra_label (b : Build) (f : SpocFile) (n : Int) : Tool.resizeExtra b (label c f) n = label c <$> Tool.resizeExtra b f n :=
  bind_label _ _ _ fun _ => bind_label _ _ _ fun _ => bind_file (copy_label f) fun _ => rfl

/-- The classes that upsampling takes from the first file do not depend on its label. -/
theorem upsampleLoop_low (b : Build) (l : SpocFile) (m : Voxel.Map) (vs : List VoxelIndex) (i : Nat) (h : SpocFile) (k : Nat) :
    Tool.upsampleLoop b (label c l) m vs i h k = Tool.upsampleLoop b l m vs i h k := by
  induction vs generalizing i h k with
  | nil => rfl
  | cons v vs ih =>
    simp only [Tool.upsampleLoop, ih]
    rfl

theorem upsample_low (b : Build) (l f : SpocFile) (r : F64) : Tool.upsample b (label c l) f r = Tool.upsample b l f r := by
  simp only [Tool.upsample, upsampleLoop_low, label_prs]
  rfl

/-- The command is upsample-classifications, whose output comes from the other file. -/
def outLabel (c : Bytes) (name : String) (g : SpocFile) : SpocFile := if name = "upsample-classifications" then g else label c g

theorem run_label (b : Build) (zl : Zlib) (files : Tool.Files) (a : Tool.Args) (f : SpocFile) :
    Tool.run b zl files a (label c f) = outLabel c a.command.name <$> Tool.run b zl files a f := by
  by_cases hu : a.command.name = "upsample-classifications"
  · have : outLabel c a.command.name = id := by
      funext g
      simp [outLabel, hu]
    rw [this, id_map]
    unfold Tool.run
    simp only [hu, String.reduceEq, if_false, if_true, upsample_low]
  · have : outLabel c a.command.name = label c := by
      funext g
      simp [outLabel, hu]
    rw [this]
    unfold Tool.run
    split
    · exact recenter_label b f false
    split
    · exact recenter_label b f true
    split
    · split
      · rfl
      · split
        · rfl
        split
        · rfl
        exact resizeExtra_label b f _
    split
    · split
      · rfl
      split
      · rfl
      · exact bind_label _ _ _ fun _ => setField_label b f _ _
    split
    · exact subtractMin_label b f false
    split
    · exact subtractMin_label b f true
    rfl

theorem getField_label (b : Build) (f : SpocFile) (name : Str) : Tool.getField b (label c f) name = Tool.getField b f name := rfl

/-! ## tile -/

theorem tileFile_label (b : Build) (f : SpocFile) (m : Tile.TileMap) (k : UInt64) :
    Tile.tileFile b (label c f) m k = label c <$> Tile.tileFile b f m k :=
  bind_label _ _ _ fun v => bind_label _ _ _ fun _ => foldlM_label _ _ (fun g _ => bind_label _ _ _ fun p => pushBack_label g p) v
    ((SpocFile.empty.setWkt f.wkt).setCompressed f.compressed)

/-! ## diff and info -/

theorem diff_label (b : Build) (f g : SpocFile) (c d : Bytes) (h dt : Bool) (fields : Str) (r : Bool) (hh : fields ≠ [] ∨ dt = true) :
    Diff.diff b (label c f) (label d g) h dt fields r = Diff.diff b f g h dt fields r := by
  have : (!(!fields.isEmpty) && !dt) = false := by
    rcases hh with hh | rfl
    · simp [hh]
    · simp
  unfold Diff.diff
  simp only [this, Bool.false_eq_true, if_false, label_prs]

theorem info_label (b : Build) (sort : List F64 → List F64) (a : Info.Args) (f : SpocFile) (hh : a.headerInfo = false) :
    Info.process b sort a (label c f) = Info.process b sort a f := by
  unfold Info.process Info.document
  simp only [hh, Info.section', Info.sectionText, Bool.false_eq_true, if_false, label_prs]

/-! ## merge -/

theorem appendLoop_label (id : UInt32) (ps : List PointRecord) (f : SpocFile) :
    Merge.appendLoop id ps (label c f) = (label c (Merge.appendLoop id ps f).1, (Merge.appendLoop id ps f).2) := by
  induction ps generalizing f with
  | nil => rfl
  | cons p ps ih =>
    unfold Merge.appendLoop
    rw [pushBack_label]
    cases f.pushBack { p with p := id } with
    | ok g => exact ih g
    | _ => rfl

theorem appendLoop_keeps (id : UInt32) (ps : List PointRecord) (f : SpocFile) : (Merge.appendLoop id ps f).1.wkt = f.wkt :=
  congrArg (fun x => x.1.wkt) (appendLoop_label (c := f.wkt) id ps f)

/-- With texts that fit into a header, the two clouds can be compared. -/
theorem srsDiffer_ok (f g : SpocFile) (quiet : Bool) (hf : f.wkt.length ≤ 0xFFFF) (hg : g.wkt.length ≤ 0xFFFF) :
    Merge.srsDiffer f g quiet = .ok (!quiet && decide (f.wkt ≠ g.wkt)) := by
  have key : ∀ f : SpocFile, f.wkt.length ≤ 0xFFFF → ∃ h, f.getHeader = .ok h ∧ h.wkt = f.wkt := by
    intro f hf
    unfold SpocFile.getHeader Header.new
    exact ⟨_, if_neg (by omega), rfl⟩
  obtain ⟨h1, e1, w1⟩ := key f hf
  obtain ⟨h2, e2, w2⟩ := key g hg
  unfold Merge.srsDiffer
  rw [e1, e2, ← w1, ← w2]
  cases quiet <;> rfl

/-- What the two runs of merge have in common, when the texts of the merged clouds are `t` and `t'`. -/
def Close (t t' : Bytes) (st st' : Merge.State) : Prop := st'.g = label t' st.g ∧ st.g.wkt = t ∧ st'.areaSum = st.areaSum

theorem mergeOne_label (a : Merge.Args) (i : Nat) {t t' u u' : Bytes} {st st' : Merge.State} (h : Close t t' st st') (f : SpocFile)
    (hu : u = if i = 0 then f.wkt else t) (hu' : u' = if i = 0 then c else t') (h1 : u.length ≤ 0xFFFF) (h2 : u'.length ≤ 0xFFFF)
    (h3 : f.wkt.length ≤ 0xFFFF) (h4 : c.length ≤ 0xFFFF) :
    Close u u' (Merge.mergeOne a i st f).1 (Merge.mergeOne a i st' (label c f)).1
      ∧ (Merge.mergeOne a i st' (label c f)).2 = (Merge.mergeOne a i st f).2 := by
  obtain ⟨k1, k2, k3⟩ := h
  have key : (if i = 0 then (if (label c f).compressed = false then st'.g.setCompressed false else st'.g).setWkt c
        else if (label c f).compressed = false then st'.g.setCompressed false else st'.g)
      = label u' (if i = 0 then (if f.compressed = false then st.g.setCompressed false else st.g).setWkt f.wkt
        else if f.compressed = false then st.g.setCompressed false else st.g) := by
    rw [k1, hu', label_compressed]
    split <;> split <;> rfl
  have kw : (if i = 0 then (if f.compressed = false then st.g.setCompressed false else st.g).setWkt f.wkt
        else if f.compressed = false then st.g.setCompressed false else st.g).wkt = u := by
    rw [hu]
    split
    · rfl
    · split <;> exact k2
  unfold Merge.mergeOne
  simp only [label_prs, label_wkt] at key ⊢
  rw [key]
  generalize (if i = 0 then (if f.compressed = false then st.g.setCompressed false else st.g).setWkt f.wkt
    else if f.compressed = false then st.g.setCompressed false else st.g) = g at kw ⊢
  subst kw
  unfold Merge.append
  rw [srsDiffer_ok f g _ h3 h1, srsDiffer_ok (label c f) (label u' g) _ h4 h2]
  simp only [label_prs, appendLoop_label, k3]
  exact ⟨⟨rfl, appendLoop_keeps _ _ _, rfl⟩, trivial⟩

theorem mergeLoop_label (b : Build) (zl : Zlib) (a : Merge.Args) (ss ss' : List (Option IStream)) (i : Nat) (hi : i ≠ 0) {t t' : Bytes}
    {st st' : Merge.State} (h : Close t t' st st') (ht : t.length ≤ 0xFFFF) (ht' : t'.length ≤ 0xFFFF)
    (hs : List.Forall₂ (fun s s' => ∃ x x' f c r r', s = some x ∧ s' = some x' ∧ Io.readFile b zl x = .ok (f, r)
      ∧ Io.readFile b zl x' = .ok (label c f, r') ∧ f.wkt.length ≤ 0xFFFF ∧ c.length ≤ 0xFFFF) ss ss') :
    Close t t' (Merge.mergeLoop b zl a i ss st).1 (Merge.mergeLoop b zl a i ss' st').1
      ∧ (Merge.mergeLoop b zl a i ss' st').2 = (Merge.mergeLoop b zl a i ss st).2 := by
  induction hs generalizing i st st' with
  | nil => exact ⟨h, rfl⟩
  | cons hd _ ih =>
    obtain ⟨x, x', f, c, r, r', rfl, rfl, e1, e2, l1, l2⟩ := hd
    unfold Merge.mergeLoop
    simp only [Apps.fileOf, e1, e2, Res.ok_bind]
    obtain ⟨k1, k2⟩ := mergeOne_label (c := c) a i h f (if_neg hi).symm (if_neg hi).symm ht ht' l1 l2
    rcases hm : Merge.mergeOne a i st f with ⟨v, q⟩
    rcases hm' : Merge.mergeOne a i st' (label c f) with ⟨v', q'⟩
    rw [hm, hm'] at k1 k2
    obtain rfl : q' = q := k2
    cases q' with
    | ok _ => exact ih (i + 1) (by omega) k1
    | _ => exact ⟨k1, rfl⟩

end Spoc.Label
