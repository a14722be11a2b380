import Verif.Proofs.AppSafe3
import Verif.Proofs.ExtentArea
import Verif.Proofs.Main
import Verif.Proofs.SetCopy
import Verif.Props.Filter
import Verif.Props.Upsample

/-!
# What filter, tool, transform and tile can end in, with the options that may be undefined
-/

namespace Spoc

namespace AppSafe

open Io Spec

/-! ## filter -/

theorem quotient_lt {mn mx mn' mx' r : F64} (h1 : mn.isFinite = true) (h2 : mx.isFinite = true) (h3 : mn'.isFinite = true)
    (h4 : mx'.isFinite = true) (hr : r.isFinite = true) (hp : 0 < r.fv) (hmx : mx'.fv ≤ mx.fv) (hmn : mn.fv ≤ mn'.fv)
    (h : F64.lt (F64.div (F64.sub mx mn) r) limit64 = true) : F64.lt (F64.div (F64.sub mx' mn') r) limit64 = true := by
  have n1 := F64.sub_not_nan h4 h3
  have n2 := F64.sub_not_nan h2 h1
  have h5 := F64.div_mono n1 n2 hr hp (sub_mono h4 h3 h2 h1 hmx hmn)
  have h6 := F64.div_not_nan n1 hr hp
  rw [F64.lt_iff] at h ⊢
  exact ⟨h6, h.2.1, by omega⟩

/-- fewer points need no larger grid -/
theorem gridFits_subset {ps qs : List PointRecord} (hf : Props.AllFinite ps) (hsub : ∀ q ∈ qs, q ∈ ps) (hne : qs ≠ []) {r : F64}
    (hr : r.isFinite = true) (hp : 0 < r.fv) (h : GridFits (Extent.ofPoints ps) r) : GridFits (Extent.ofPoints qs) r := by
  have hfp : ∀ p ∈ ps, Spec.Fin (pt p) := hf
  have hfq : ∀ q ∈ qs, Spec.Fin (pt q) := fun q hq => hf q (hsub q hq)
  have hne' : ps ≠ [] := fun e => by
    obtain ⟨q, hq⟩ := List.exists_mem_of_ne_nil qs hne
    have := hsub q hq
    rw [e] at this
    simp at this
  obtain ⟨a1, a2⟩ := Props.extent_finite ps hne' hfp
  obtain ⟨b1, b2⟩ := Props.extent_finite qs hne hfq
  obtain ⟨hin, -⟩ := Props.c15_extent_tight_partial ps hne' hfp
  obtain ⟨-, ⟨p1, m1, e1⟩, ⟨p2, m2, e2⟩, ⟨p3, m3, e3⟩, ⟨p4, m4, e4⟩, ⟨p5, m5, e5⟩, ⟨p6, m6, e6⟩⟩ := Props.c15_extent_tight_partial qs hne hfq
  refine ⟨quotient_lt a1.1 a2.1 b1.1 b2.1 hr hp ?_ ?_ h.1, quotient_lt a1.2.1 a2.2.1 b1.2.1 b2.2.1 hr hp ?_ ?_ h.2.1,
    quotient_lt a1.2.2 a2.2.2 b1.2.2 b2.2.2 hr hp ?_ ?_ h.2.2⟩
  · rw [← e2]; exact (hin p2 (hsub p2 m2)).2.1
  · rw [← e1]; exact (hin p1 (hsub p1 m1)).1
  · rw [← e4]; exact (hin p4 (hsub p4 m4)).2.2.2.1
  · rw [← e3]; exact (hin p3 (hsub p3 m3)).2.2.1
  · rw [← e6]; exact (hin p6 (hsub p6 m6)).2.2.2.2.2
  · rw [← e5]; exact (hin p5 (hsub p5 m5)).2.2.2.2.1

/-- the voxels of any part of the cloud are defined -/
theorem indexes_subset {ps qs : List PointRecord} (hf : Props.AllFinite ps) (hsub : ∀ q ∈ qs, q ∈ ps) {r : F64} (hr : r.isFinite = true)
    (hp : 0 < r.fv) (h : GridFits (Extent.ofPoints ps) r) : ∃ vs, Voxel.getIndexes qs r = .ok vs := by
  by_cases hne : qs = []
  · subst hne
    exact ⟨[], rfl⟩
  · obtain ⟨vs, h, -⟩ := Props.c22_voxel_indexes qs r (fun q hq => hf q (hsub q hq)) hr hp (gridFits_subset hf hsub hne hr hp h)
    exact ⟨vs, h⟩

/-- the voxel size and the points fit together -/
def SubsampleFits (r : F64) (ps : List PointRecord) : Prop :=
  F64.gt r F64.zero = true → r.isFinite = true ∧ Props.AllFinite ps ∧ GridFits (Extent.ofPoints ps) r

theorem gt_zero_fv {r : F64} (h : F64.gt r F64.zero = true) : 0 < r.fv := by
  unfold F64.gt at h
  rw [F64.lt_iff, F64.zero_fv] at h
  exact h.2.2

theorem subsampleFile_within {H : Prop} (b : Build) {sh : Subsampling.Shuffle} (hsh : sh.Lawful) {f : SpocFile} {r : F64} {seed : Nat}
    (h : ∃ vs, Voxel.getIndexes f.prs r = .ok vs) : (Filter.subsampleFile b sh f r seed).Within H := by
  obtain ⟨vs, hv⟩ := h
  obtain ⟨ks, qs, -, e, -⟩ := Props.c23_one_per_voxel b sh hsh f.prs r seed vs hv
  unfold Filter.subsampleFile
  rw [e]
  exact setRecords_within _ _

theorem process_fits {H : Prop} (b : Build) {sh : Subsampling.Shuffle} (hsh : sh.Lawful) (a : Filter.Args) (f : SpocFile)
    (hv : f.isValid = true) (ha : SubsampleFits a.subsample f.prs) : (Filter.process b sh a f).Within H := by
  have hu := uniform_of_valid hv
  unfold Filter.process
  refine (stage_within fun _ => select_within _ _).bind fun f1 h1 => ?_
  have p1 := Props.stage_only (fun g hg => (Props.select_only hu hg).imp id (·.subperm)) h1
  have u1 := Props.uniform_subperm hu p1.2
  refine (stage_within fun _ => select_within _ _).bind fun f2 h2 => ?_
  have p2 := Props.stage_only (fun g hg => (Props.select_only u1 hg).imp id (·.subperm)) h2
  have u2 := Props.uniform_subperm u1 p2.2
  refine (stage_within fun _ => unique_within b hsh _ _).bind fun f3 h3 => ?_
  have p3 := Props.stage_only (fun g hg => by
    obtain ⟨g', e, hg'⟩ := Props.uniqueXyz_spec b sh hsh f2 u2 (UInt64.ofInt a.seed).toNat
    rw [e] at hg
    rw [← Res.ok.inj hg]
    exact hg') h3
  have hsub : ∀ q ∈ f3.prs, q ∈ f.prs := fun q hq => p1.2.subset (p2.2.subset (p3.2.subset hq))
  refine (stage_within fun hg => ?_).bind fun f4 _ => stage_within fun _ => removeCoords_within _ _ _
  obtain ⟨h4, h5, h6⟩ := ha hg
  exact subsampleFile_within b hsh (indexes_subset h5 hsub h4 (gt_zero_fv hg) h6)

/-- the voxel size is that of an option, or the default -/
theorem subsample_option {l : List (String × Str)} {a0 a : Filter.Args} (h : Filter.getArgs l a0 = .ok a) :
    a.subsample = a0.subsample ∨ ∃ t, ("subsample", t) ∈ l ∧ a.subsample = Text.atof t := by
  induction l generalizing a0 with
  | nil =>
    unfold Filter.getArgs at h
    cases h
    exact .inl rfl
  | cons o l ih =>
    obtain ⟨name, arg⟩ := o
    unfold Filter.getArgs at h
    obtain ⟨a1, h2, h⟩ := Res.bind_eq_ok.mp h
    have e : a1.subsample = a0.subsample ∨ (name = "subsample" ∧ a1.subsample = Text.atof arg) := by
      unfold Filter.dispatch at h2
      repeat' split at h2
      all_goals first
        | (cases h2; exact .inl rfl)
        | (cases h2; exact .inr ⟨‹_›, rfl⟩)
        | exact absurd h2 (by simp)
    have e' : a1.subsample = a0.subsample ∨ ∃ t, ("subsample", t) ∈ (name, arg) :: l ∧ a1.subsample = Text.atof t := by
      rcases e with e | ⟨rfl, e⟩
      · exact .inl e
      · exact .inr ⟨arg, List.mem_cons_self, e⟩
    split at h
    · cases h
      exact e'
    · rcases ih h with e2 | ⟨t, ht, e2⟩
      · rw [e2]
        exact e'
      · exact .inr ⟨t, List.mem_cons_of_mem _ ht, e2⟩

theorem filter_fits (b : Build) (z : Zlib) {sh : Subsampling.Shuffle} (hsh : sh.Lawful) (argv : List Str) (w : Main.World)
    (h : ∀ t, ("subsample", t) ∈ Cmd.filter.options argv → ∀ s, Input w s → ∀ f, Apps.fileOf (readFile b z s) = .ok f →
      SubsampleFits (Text.atof t) f.prs) : (Main.filter b z sh argv w).res.Within (SomeEndless w) := by
  have h0 : (Main.filterArgs argv).Within (SomeEndless w) := withOperands_within (filterArgs_within _ _) (inOut_within _)
  unfold Main.filter
  split
  · rename_i a i o ha
    split
    · exact .of_ok
    split
    · exact .of_ok
    have hz : F64.gt a.subsample F64.zero = false ∨ ∃ t, ("subsample", t) ∈ Cmd.filter.options argv ∧ a.subsample = Text.atof t := by
      unfold Main.filterArgs Main.withOperands at ha
      obtain ⟨a', h1, ha⟩ := Res.bind_eq_ok.mp ha
      have e : a' = a := by
        split at ha
        · cases ha
          rfl
        · obtain ⟨x, -, ha⟩ := Res.bind_eq_ok.mp ha
          cases ha
          rfl
      rw [← e]
      refine (subsample_option h1).imp (fun e => ?_) id
      rw [e]
      decide +kernel
    refine readThenWrite_within w _ _ _ _ (fun s hs => ?_) ?_
    · refine ((read_within b z s).mono fun h => ⟨s, hs, h⟩).bind fun f hf => process_fits b hsh a f (read_valid hf) ?_
      rcases hz with hz | ⟨t, ht, e⟩
      · intro hg
        rw [hz] at hg
        exact absurd hg (by simp)
      · rw [e]
        exact h t ht s hs f hf
    · intro s f _ hf
      obtain ⟨g, hg, hf⟩ := Res.bind_eq_ok.mp hf
      exact write_within b z (process_valid (read_valid hg) hf)
  · rename_i hn
    exact h0.failWith fun ⟨a, i, o⟩ => hn a i o

/-! ## transform -/

theorem truncated_exists {x : ℝ} (h1 : -1 < x) {L : Nat} (h2 : x < L) (hL : 0 < L) : ∃ k, Truncated x k ∧ k < L := by
  by_cases h0 : 0 ≤ x
  · refine ⟨⌊x⌋₊, ⟨?_, ?_⟩, (Nat.floor_lt h0).mpr h2⟩
    · rw [abs_of_nonneg h0]
      exact Nat.floor_le h0
    · rw [abs_lt]
      have := Nat.floor_le h0
      have := Nat.lt_floor_add_one x
      constructor <;> linarith
  · have h0 := not_le.mp h0
    refine ⟨0, ⟨?_, ?_⟩, hL⟩
    · rw [Nat.cast_zero]
      exact abs_nonneg _
    · rw [Nat.cast_zero, sub_zero, abs_lt]
      exact ⟨h1, by linarith⟩

theorem setOp_within {H : Prop} (name : Str) (v : F64) (ef : Nat)
    (h : ∀ L, limitOf (Transform.label name) = some L → v.isFinite = true ∧ -1 < v.val ∧ v.val < L) : OpWithin H (Transform.setOp name v ef) := by
  have k32 : (v.isFinite = true ∧ -1 < v.val ∧ v.val < ((2 ^ 32 : Nat) : ℝ)) → ∃ n, F64.toU32 v = .ok n := fun ⟨a, c, d⟩ => by
    obtain ⟨k, k1, k2⟩ := truncated_exists c d (by norm_num)
    exact ⟨_, (Transform.conv32 (F64.not_nan_of_finite a)).1 k k1 k2⟩
  have k16 : (v.isFinite = true ∧ -1 < v.val ∧ v.val < ((2 ^ 16 : Nat) : ℝ)) → ∃ n, F64.toU16 v = .ok n := fun ⟨a, c, d⟩ => by
    obtain ⟨k, k1, k2⟩ := truncated_exists c d (by norm_num)
    exact ⟨_, (Transform.conv16 (F64.not_nan_of_finite a)).1 k k1 k2⟩
  have k64 : (v.isFinite = true ∧ -1 < v.val ∧ v.val < ((2 ^ 64 : Nat) : ℝ)) → ∃ n, F64.toU64 v = .ok n := fun ⟨a, c, d⟩ => by
    obtain ⟨k, k1, k2⟩ := truncated_exists c d (by norm_num)
    exact ⟨_, (Transform.conv64 (F64.not_nan_of_finite a)).1 k k1 k2⟩
  intro n p
  unfold Transform.setOp
  split
  all_goals first
    | exact .of_ok
    | (rename_i e; rw [e] at h; obtain ⟨n, hn⟩ := k32 (h (2 ^ 32) (by decide)); rw [hn]; exact .of_ok)
    | (rename_i e; rw [e] at h; obtain ⟨n, hn⟩ := k16 (h (2 ^ 16) (by decide)); rw [hn]; exact .of_ok)
    | (rename_i e; rw [e] at h; obtain ⟨n, hn⟩ := k64 (h (2 ^ 64) (by decide)); rw [hn]; exact ite_within .of_throw .of_ok)

/-- a number that is set is within the range of the field -/
def SetFits (env : Transform.Env) (t : Str) : Prop :=
  ∀ name r v r', AppUtils.consumeFieldName .release t = .ok (name, r) → AppUtils.consumeDouble env.stod r = .ok (v, r') →
    ∀ L, limitOf (Transform.label name) = some L → v.isFinite = true ∧ -1 < v.val ∧ v.val < L

theorem parse_fits {H : Prop} (env : Transform.Env) (seed ef : Nat) (c : Transform.Command) (h1 : c.name ≠ "quantize-xyz")
    (h2 : c.name = "set" → SetFits env c.params) :
    (Transform.parseCommand .release env seed ef c).Within H
      ∧ ∀ op, Transform.parseCommand .release env seed ef c = .ok op → OpWithin H op := by
  by_cases hs : c.name = "set"
  · have e : Transform.parseCommand .release env seed ef c = (do
        let (l, s) ← AppUtils.consumeFieldName .release c.params
        let (v, _) ← AppUtils.consumeDouble env.stod s
        .ok (Transform.setOp l v ef)) := by
      unfold Transform.parseCommand
      simp [hs]
    rw [e]
    refine ⟨(name_within (.inl rfl)).bind fun a _ => (consumeDouble_within _ _).bind fun _ _ => .of_ok, fun op h => ?_⟩
    obtain ⟨⟨name, r⟩, e1, h⟩ := Res.bind_eq_ok.mp h
    obtain ⟨⟨v, r'⟩, e2, h⟩ := Res.bind_eq_ok.mp h
    cases h
    exact setOp_within name v ef (h2 hs name r v r' e1 e2)
  · exact parse_within env seed ef c h1 hs

theorem apply_fits {H : Prop} (env : Transform.Env) (s : IStream) (cs : List Transform.Command) (seed : Nat)
    (hc : ∀ c ∈ cs, c.name ≠ "quantize-xyz" ∧ (c.name = "set" → SetFits env c.params)) : (Transform.apply .release env s cs seed).res.Within H := by
  unfold Transform.apply
  refine Out.Within_bind .of_ok fun _ _ => ?_
  refine Out.Within_bind ?_ fun hs _ => ?_
  · show (Transform.readHeaderUncompressed .release s).Within H
    unfold Transform.readHeaderUncompressed
    exact Res.Within.require.bind fun _ _ => (header_within s).bind fun _ _ => ite_within .of_throw (Res.Within.require.bind fun _ _ => .of_ok)
  · obtain ⟨h, s1⟩ := hs
    refine Out.Within_bind .of_ok fun _ _ => ?_
    refine Out.Within_bind (Res.Within.of_tame (header_tame h)) fun _ _ => ?_
    refine Out.Within_bind (Res.Within.mapM fun c hm => (parse_fits env seed _ c (hc c hm).1 (hc c hm).2).1) fun ops hops => ?_
    refine pointLoop_within ops (fun op ho => ?_) _ _ _ _
    obtain ⟨c, hm, e⟩ := mapM_mem hops ho
    exact (parse_fits env seed _ c (hc c hm).1 (hc c hm).2).2 op e

theorem transform_fits {H : Prop} (env : Transform.Env) (argv : List Str) (w : Main.World)
    (hc : ∀ o ∈ Cmd.transform.options argv, o.1 ≠ "quantize-xyz" ∧ (o.1 = "set" → SetFits env o.2)) :
    (Main.transform .release env argv w).res.Within H := by
  have h0 : (Main.transformArgs argv).Within H := withOperands_within (transformArgs_within _ _) (inOut_within _)
  unfold Main.transform
  split
  · rename_i a i o ha
    have ha : Transform.getArgs (Cmd.transform.options argv) {} = .ok a := by
      unfold Main.transformArgs Main.withOperands at ha
      obtain ⟨a', h1, h⟩ := Res.bind_eq_ok.mp ha
      split at h
      · cases h
        exact h1
      · obtain ⟨x, -, h⟩ := Res.bind_eq_ok.mp h
        cases h
        exact h1
    split
    · exact .of_ok
    split
    · exact .of_ok
    split
    · exact .of_throw
    split
    · refine outputStream_within w o _ (apply_fits env _ _ _ fun c hm => ?_)
      rcases transform_commands ha c hm with h | h
      · simp at h
      · exact hc _ h
    · rename_i hn
      exact (inputStream_within w i).failWith hn
  · rename_i hn
    exact h0.failWith fun ⟨a, i, o⟩ => hn a i o

/-! ## tool -/

/-- what the command line of tool may ask for, given what the inputs are -/
structure ToolFits (b : Build) (a : Tool.Args) (f : SpocFile) (input : SpocFile → Prop) : Prop where
  upsample : a.command.name = "upsample-classifications" → F64.le a.resolution F64.zero = false → ∀ g, input g →
    (∃ vh, Voxel.getIndexes g.prs a.resolution = .ok vh) ∧ ∃ vl, Voxel.getIndexesIn f.prs (Extent.ofPoints g.prs) a.resolution = .ok vl
  get : a.command.name = "get-field" → (b = .release ∨ a.command.params ≠ [])
    ∧ ∀ name r, AppUtils.consumeFieldName b a.command.params = .ok (name, r) → name.head? = some 'e' →
      ∀ q ∈ f.prs, AppUtils.getExtraIndex name < q.extra.length
  set : a.command.name = "set-field" → b = .release ∨ a.command.params ≠ []

theorem index_eq {name : Str} (h : AppUtils.checkFieldName name = true) (he : AppUtils.isExtraField name = true) (f : SpocFile) :
    (Tool.extraIndex f name : Int) = AppUtils.getExtraIndex name := by
  unfold Tool.extraIndex
  rw [if_pos he]
  have h0 : 0 ≤ AppUtils.getExtraIndex name := by
    unfold AppUtils.checkFieldName at h
    unfold AppUtils.isExtraField at he
    rw [decide_eq_true_eq] at he
    split at h
    · rename_i hm
      exfalso
      simp only [AppUtils.fieldStrings, List.mem_cons, List.not_mem_nil, or_false] at hm
      rcases hm with rfl | rfl | rfl | rfl | rfl | rfl | rfl | rfl | rfl <;> simp at he
    · repeat' split at h
      all_goals first
        | assumption
        | exact absurd h (by simp)
  have h1 : AppUtils.getExtraIndex name < 2 ^ 31 := by
    unfold AppUtils.getExtraIndex
    split
    · omega
    · split
      · rename_i n k hk
        unfold Text.stoi at hk
        split at hk
        · exact absurd hk (by simp)
        · split at hk
          · rename_i hb
            cases hk
            exact hb.2
          · exact absurd hk (by simp)
      · omega
  unfold Tool.sizeT
  omega

theorem getField_fits {H : Prop} (b : Build) (f : SpocFile) {name : Str} (hc : AppUtils.checkFieldName name = true)
    (hn : name.head? = some 'e' → ∀ q ∈ f.prs, AppUtils.getExtraIndex name < q.extra.length) : (Tool.getField b f name).Within H := by
  unfold Tool.getField
  refine Res.Within.require.bind fun _ _ => Res.Within.bind ?_ fun _ _ => .of_ok
  refine Res.Within.mapM fun p hp => ?_
  unfold Tool.showField
  split
  all_goals try exact .of_ok
  rename_i he
  have hx : AppUtils.isExtraField name = true := by
    unfold AppUtils.isExtraField
    rw [decide_eq_true_eq]
    exact he
  have hlt : Tool.extraIndex f name < p.extra.length := by
    have h1 := hn he p hp
    rw [← index_eq hc hx f] at h1
    exact_mod_cast h1
  rw [hx, decide_eq_true hlt, List.getElem?_eq_getElem hlt]
  simp only [cassert_true, Res.ok_bind]
  exact .of_ok

theorem upsample_within {H : Prop} (b : Build) {l f : SpocFile} (hf : f.isValid = true) {r : F64}
    (h1 : ∃ vh, Voxel.getIndexes f.prs r = .ok vh) (h2 : ∃ vl, Voxel.getIndexesIn l.prs (Extent.ofPoints f.prs) r = .ok vl) :
    (Tool.upsample b l f r).Within H := by
  obtain ⟨vh, h1⟩ := h1
  obtain ⟨vl, h2⟩ := h2
  have hu := uniform_of_valid hf
  obtain ⟨qs, m, h3, -⟩ := Tool.upsampleLoop_ok b l vh vl 0 f 0 hu (mapM_length h1) (by rw [mapM_length h2]; omega)
  unfold Tool.upsample
  refine Res.Within.require.bind fun _ _ => Res.Within.require.bind fun _ _ => Res.Within.require.bind fun _ _ => ?_
  rw [Tool.copy_ok hu]
  simp only [Res.ok_bind, h1, h2, h3]
  exact .of_ok

theorem run_fits {H : Prop} (b : Build) (z : Zlib) (fs : Tile.FS) (w : Main.World) (hw : w.fs = fs) (a : Tool.Args) {f : SpocFile}
    (hf : f.isValid = true) (hH : SomeEndless w → H)
    (ha : ToolFits b a f fun g => ∃ s, Input w s ∧ Apps.fileOf (readFile b z s) = .ok g) :
    (Tool.run b z (Main.toolFiles fs) a f).Within H := by
  by_cases hc : a.command.name = "upsample-classifications"
  · unfold Tool.run
    simp only [hc, String.reduceEq, if_false, if_true]
    split
    · exact .of_throw
    rename_i hr
    split
    · exact .of_throw
    · rename_i s hs
      have hi : Input w s := by
        subst hw
        exact openRead_input hs
      refine ((read_within b z s).mono fun h => hH ⟨s, hi, h⟩).bind fun g hg => ?_
      obtain ⟨h1, h2⟩ := ha.upsample hc (Bool.eq_false_of_not_eq_true hr) g ⟨s, hi, hg⟩
      exact (upsample_within b (read_valid hg) h1 h2).bind fun _ _ => .of_ok
  · unfold Tool.run
    refine ite_within (recenter_within _ _ _) (ite_within (recenter_within _ _ _) (ite_within ?_ (dite_within ?_ fun _ =>
      ite_within (subtractMin_within _ _ _) (ite_within (subtractMin_within _ _ _) (dite_within (fun h => absurd h hc) fun _ => .of_throw)))))
    · split
      · exact .of_throw
      · exact ite_within .of_throw (ite_within .of_throw (resize_within _ _ _))
    · intro hc
      refine ite_within .of_throw ?_
      split
      · exact .of_throw
      · refine (name_within (ha.set hc)).bind fun nr hnr => ?_
        obtain ⟨name, r⟩ := nr
        exact setField_within b hf _ (name_spec hnr).2

theorem tool_fits (b : Build) (z : Zlib) (argv : List Str) (w : Main.World)
    (hp : ∀ a i o, Main.toolArgs argv = .ok (a, i, o) → ∀ s, Input w s → ∀ f, Apps.fileOf (readFile b z s) = .ok f →
      ToolFits b a f fun g => ∃ s, Input w s ∧ Apps.fileOf (readFile b z s) = .ok g) :
    (Main.tool b z argv w).res.Within (SomeEndless w) := by
  have h0 : (Main.toolArgs argv).Within (SomeEndless w) := withOperands_within (toolArgs_within _ _) (inOut_within _)
  unfold Main.tool
  split
  · rename_i a i o ha
    have ha := hp a i o ha
    split
    · exact .of_ok
    split
    · exact .of_ok
    split
    · exact .of_throw
    split
    · rename_i hg
      have h1 : (do
          let s ← Main.inputStream w i
          let f ← Apps.fileOf (Io.readFile b z s)
          let (name, _) ← AppUtils.consumeFieldName b a.command.params
          Tool.getField b f name).Within (SomeEndless w) := by
        refine (inputStream_within w i).bind fun s hs => ?_
        have hi := inputStream_input hs
        refine ((read_within b z s).mono fun h => ⟨s, hi, h⟩).bind fun f hf => ?_
        have hx := (ha s hi f hf).get hg
        refine (name_within hx.1).bind fun nr hnr => ?_
        obtain ⟨name, r⟩ := nr
        exact getField_fits b f (name_spec hnr).2 (hx.2 name r hnr)
      split
      · exact .of_ok
      · rename_i hn
        exact h1.failWith hn
    · refine readThenWrite_within w _ _ _ _ (fun s hs => ?_) ?_
      · exact ((read_within b z s).mono fun h => ⟨s, hs, h⟩).bind fun f hf =>
          run_fits b z w.fs w rfl a (read_valid hf) id (ha s hs f hf)
      · intro s f _ hf
        obtain ⟨g, hg, hf⟩ := Res.bind_eq_ok.mp hf
        exact write_within b z (by
          obtain ⟨s', hg⟩ := fileOf_eq_ok hg
          exact (Main.run_ready (Main.readFile_ready hg) hf).1)
  · rename_i hn
    exact h0.failWith fun ⟨a, i, o⟩ => hn a i o

/-! ## tile -/

/-- the numbers of the tiles are defined -/
def TilesDefined (a : Tile.Args) (ps : List PointRecord) : Prop :=
  ∀ sx sy, Tile.tileSizes a (Extent.ofPoints ps) = .ok (sx, sy) → ∃ idx, Tile.getTileIndexes ps (Extent.ofPoints ps) sx sy = .ok idx

theorem tileAll_defined {H : Prop} (z : Zlib) (cc : Str → Bool) {a : Tile.Args} {f : SpocFile} (hv : f.isValid = true)
    (h : TilesDefined a f.prs) (fs : Tile.FS) : (Tile.tileAll .release z cc a f fs).2.Within H := by
  have hu := uniform_of_valid hv
  unfold Tile.tileAll
  rcases tileSizes_within (H := False) a (Extent.ofPoints f.prs) with ⟨⟨sx, sy⟩, e⟩ | ⟨t, e⟩ | ⟨-, k⟩
  · obtain ⟨idx, hi⟩ := h sx sy e
    have hl : idx.length = f.prs.length := by
      unfold Tile.getTileIndexes at hi
      obtain ⟨_, -, hi⟩ := Res.bind_eq_ok.mp hi
      exact mapM_length hi
    simp only [e, Res.ok_bind, hi, cassert]
    exact writeTiles_within .release z cc _ _ hu idx hl _ (fun k hk => (Tile.sortedKeys_spec idx).2 k |>.mp hk) fs
  · simp only [e, Res.throw_bind]
    exact .of_throw
  · exact k.elim

theorem tile_defined (z : Zlib) (argv : List Str) (w : Main.World)
    (h : ∀ a, Tile.getArgs (Cmd.tile.options argv) {} = .ok a → ∀ s, Input w s → ∀ f, Apps.fileOf (readFile .release z s) = .ok f →
      TilesDefined a f.prs) : (Main.tile .release z argv w).res.Within (SomeEndless w) := by
  have h0 : (Main.withOperands (Tile.getArgs (Cmd.tile.options argv) {}) (·.help) [] (Cmd.one (Cmd.tile.operands argv))).Within
      (SomeEndless w) := withOperands_within (tileArgs_within _ _) (one_within _)
  unfold Main.tile
  split
  · rename_i a fn _
    split
    · exact .of_ok
    · refine Res.Within.zero ?_
      unfold Tile.main
      rcases tileArgs_within (H := False) (Cmd.tile.options argv) {} with ⟨a, e⟩ | ⟨t, e⟩ | ⟨-, k⟩
      · rw [e]
        dsimp only
        split
        · exact .of_ok
        split
        · exact .of_throw
        · have hin : ∀ s, (if fn.isEmpty = true then Res.ok w.stdin
              else match w.fs fn with
                | some f => if f.readable = true then .ok { rest := f.content } else .throw "Could not open file for reading"
                | none => .throw "Could not open file for reading") = .ok s → Input w s := by
            intro s hs
            split at hs
            · cases hs
              exact .inl rfl
            · split at hs
              · rename_i f hf
                split at hs
                · cases hs
                  exact .inr ⟨_, f, hf, rfl⟩
                · exact absurd hs (by simp)
              · exact absurd hs (by simp)
          have hr : (do Apps.fileOf (Io.readFile .release z (← (if fn.isEmpty = true then Res.ok w.stdin
              else match w.fs fn with
                | some f => if f.readable = true then .ok { rest := f.content } else .throw "Could not open file for reading"
                | none => .throw "Could not open file for reading" : Res IStream)))).Within (SomeEndless w) := by
            refine Res.Within.bind ?_ fun s hs => (read_within _ z s).mono fun he => ⟨s, hin s hs, he⟩
            split
            · exact .of_ok
            · split
              · split
                · exact .of_ok
                · exact .of_throw
              · exact .of_throw
          split
          · rename_i f hf
            obtain ⟨s, hs, hf⟩ := Res.bind_eq_ok.mp hf
            have hh := h a e s (hin s hs) f hf
            exact tileAll_defined (a := { a with fn := fn }) z _ (read_valid hf) hh _
          · rename_i hn
            exact hr.tileFailWith hn
      · rw [e]
        exact .of_throw
      · exact k.elim
  · rename_i hn
    exact h0.failWith fun ⟨a, i⟩ => hn a i

end AppSafe

end Spoc
