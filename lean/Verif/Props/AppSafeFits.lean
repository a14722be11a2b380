import Verif.Proofs.AppSafe4
import Verif.Props.AppSafe

/-!
# C85, continued: the options that may be undefined, when they are not
-/

namespace Spoc.Props

open Main Io Spec AppSafe Text

/-- **C85** for filter, every command line: if for each voxel size that is asked for the inputs have finite coordinates and the grid has
fewer than 2^64 voxels in each direction, filter returns or throws an exception.  (`c85_subsample` shows that this is needed, `c22_oversized`
that it is sharp.) -/
theorem c85_filter_fits_partial (p : Params) (hsh : p.shuffle.Lawful) (argv : List Str) (w : World)
    (h : ∀ t, ("subsample", t) ∈ Cmd.filter.options argv → F64.gt (atof t) F64.zero = true → (atof t).isFinite = true
      ∧ ∀ s, Input w s → ∀ f s', Io.readFile p.build p.zlib s = .ok (f, s') →
        AllFinite f.prs ∧ GridFits (Extent.ofPoints f.prs) (atof t)) :
    (Name.filter.run p argv w).res.Returns ∨ ((Name.filter.run p argv w).res = .hang ∧ SomeEndless w) := by
  refine resWithin_iff.mp (filter_fits p.build p.zlib hsh argv w fun t ht s hs f hf hg => ?_)
  obtain ⟨h1, h2⟩ := h t ht hg
  obtain ⟨s', hf⟩ := fileOf_eq_ok hf
  exact ⟨h1, h2 s hs f s' hf⟩

/-- **C85** for transform, release build, every command line without `quantize-xyz`: if the numbers that are set are within the range of the
integer fields (coordinates may be set to anything), it returns or throws an exception.  (`c85_set_negative` shows that this is needed.) -/
theorem c85_transform_fits_partial (p : Params) (hb : p.build = .release) (argv : List Str) (w : World)
    (hq : ∀ o ∈ Cmd.transform.options argv, o.1 ≠ "quantize-xyz")
    (hs : ∀ t, ("set", t) ∈ Cmd.transform.options argv → ∀ name r v r', AppUtils.consumeFieldName .release t = .ok (name, r) →
      AppUtils.consumeDouble p.env.stod r = .ok (v, r') → ∀ L, limitOf (name.headD ' ') = some L → v.isFinite = true ∧ -1 < v.val ∧ v.val < L) :
    (Name.transform.run p argv w).res.Returns := by
  refine resWithin_returns (H := False) ?_ id
  show (Main.transform p.build p.env argv w).res.Within False
  rw [hb]
  refine transform_fits p.env argv w fun o ho => ⟨hq o ho, fun e name r v r' h1 h2 => ?_⟩
  have hm : ("set", o.2) ∈ Cmd.transform.options argv := by
    rw [← e]
    exact ho
  have key := hs o.2 hm name r v r' h1 h2
  intro L hL
  refine key L ?_
  cases name with
  | nil => exact absurd (show (none : Option Nat) = some L from hL) (by simp)
  | cons c l => exact hL

/-- **C85** for tool, every command line: if an extra field that is asked for exists in the input, and the voxels are defined that
`upsample-classifications` needs, tool returns or throws an exception (in the debug build only if the arguments are not empty).
(`c85_get_field_extra`, `c85_upsample`, `c85_upsample_outside` and `c85_empty_argument` show that this is needed.) -/
theorem c85_tool_fits_partial (p : Params) (argv : List Str) (w : World)
    (he : ∀ o ∈ Cmd.tool.options argv, o.1 = "get-field" ∨ o.1 = "set-field" → p.build = .release ∨ o.2 ≠ [])
    (hg : ∀ t, ("get-field", t) ∈ Cmd.tool.options argv → ∀ name r, AppUtils.consumeFieldName p.build t = .ok (name, r) →
      name.head? = some 'e' → ∀ s, Input w s → ∀ f s', Io.readFile p.build p.zlib s = .ok (f, s') →
        ∀ q ∈ f.prs, AppUtils.getExtraIndex name < q.extra.length)
    (hu : ∀ t, ("upsample-classifications", t) ∈ Cmd.tool.options argv → ∀ a, Tool.getArgs (Cmd.tool.options argv) {} = .ok a →
      F64.le a.resolution F64.zero = false → ∀ s, Input w s → ∀ l s', Io.readFile p.build p.zlib s = .ok (l, s') →
      ∀ u, Input w u → ∀ f u', Io.readFile p.build p.zlib u = .ok (f, u') →
        (∃ vh, Voxel.getIndexes f.prs a.resolution = .ok vh) ∧ ∃ vl, Voxel.getIndexesIn l.prs (Extent.ofPoints f.prs) a.resolution = .ok vl) :
    (Name.tool.run p argv w).res.Returns ∨ ((Name.tool.run p argv w).res = .hang ∧ SomeEndless w) := by
  refine resWithin_iff.mp (tool_fits p.build p.zlib argv w fun a i o ha s hs f hf => ?_)
  have ha := toolArgs_args ha
  obtain ⟨s', hf⟩ := fileOf_eq_ok hf
  have key : ∀ n, n ≠ "" → a.command.name = n → (n, a.command.params) ∈ Cmd.tool.options argv := by
    intro n hn e
    rcases tool_command ha with h | h
    · rw [h] at e
      exact absurd e.symm hn
    · rw [← e]
      exact h
  refine ⟨fun e hr g hg' => ?_, fun e => ⟨?_, fun name r h1 h2 => ?_⟩, fun e => ?_⟩
  · obtain ⟨u, h1, h2⟩ := hg'
    obtain ⟨u', h2⟩ := fileOf_eq_ok h2
    exact hu _ (key _ (by decide) e) a ha hr s hs f s' hf u h1 g u' h2
  · exact he _ (key _ (by decide) e) (.inl rfl)
  · exact hg _ (key _ (by decide) e) name r h1 h2 s hs f s' hf
  · exact he _ (key _ (by decide) e) (.inr rfl)

/-- **C85** for tile, release build, every command line: if the numbers of the tiles of the inputs are defined, tile returns or throws an
exception; C44 says when they are.  (`c85_tile_small` and `c85_tile_empty` show that this is needed.) -/
theorem c85_tile_fits_partial (p : Params) (hb : p.build = .release) (argv : List Str) (w : World)
    (h : ∀ a, Tile.getArgs (Cmd.tile.options argv) {} = .ok a → ∀ s, Input w s → ∀ f s', Io.readFile .release p.zlib s = .ok (f, s') →
      ∀ sx sy, Tile.tileSizes a (Extent.ofPoints f.prs) = .ok (sx, sy) →
        ∃ idx, Tile.getTileIndexes f.prs (Extent.ofPoints f.prs) sx sy = .ok idx) :
    (Name.tile.run p argv w).res.Returns ∨ ((Name.tile.run p argv w).res = .hang ∧ SomeEndless w) := by
  rw [← resWithin_iff]
  show (Main.tile p.build p.zlib argv w).res.Within _
  rw [hb]
  refine tile_defined p.zlib argv w fun a ha s hi f hf => ?_
  obtain ⟨s', hf⟩ := fileOf_eq_ok hf
  exact h a ha s hi f s' hf

/-! ## Examples -/

/-- whether it is a value -/
def isValue {α : Type} : Res α → Bool
  | .ok _ => true
  | _ => false

theorem isValue_ok {α : Type} : {r : Res α} → isValue r = true → ∃ a, r = .ok a
  | .ok a, _ => ⟨a, rfl⟩

/-- Subsampling with voxels of size 2 is safe for this cloud. -/
example : (Name.filter.run exampleParams ["--subsample=2".toList] (pipe cloudA)).res.Returns
    ∨ ((Name.filter.run exampleParams ["--subsample=2".toList] (pipe cloudA)).res = .hang ∧ SomeEndless (pipe cloudA)) := by
  refine c85_filter_fits_partial exampleParams (fun _ l => List.Perm.refl l) _ _ fun t ht _ => ?_
  have e : Cmd.filter.options ["--subsample=2".toList] = [("subsample", ['2'])] := by decide +kernel
  rw [e] at ht
  simp only [List.mem_singleton, Prod.mk.injEq, true_and] at ht
  subst ht
  refine ⟨by decide +kernel, fun s hs f s' h => ?_⟩
  rw [pipe_cloudA s hs f s' h]
  exact ⟨by unfold AllFinite; decide +kernel, by decide +kernel⟩

/-- Setting a class to 7, and a coordinate to a huge number. -/
example (w : World) : (Name.transform.run { exampleParams with env := { exampleEnv with stod := Text.stod } }
    ["--set=c,7".toList, "--set=x,1e300".toList] w).res.Returns := by
  have e : Cmd.transform.options ["--set=c,7".toList, "--set=x,1e300".toList] = [("set", "c,7".toList), ("set", "x,1e300".toList)] := by
    decide +kernel
  refine c85_transform_fits_partial _ rfl _ w (by decide +kernel) fun t ht name r v r' h1 h2 L hL => ?_
  rw [e] at ht
  simp only [List.mem_cons, Prod.mk.injEq, true_and, List.not_mem_nil, or_false] at ht
  rcases ht with rfl | rfl
  · have e1 : AppUtils.consumeFieldName .release "c,7".toList = .ok (['c'], "7".toList) := by decide +kernel
    rw [e1] at h1
    cases h1
    have e2 : AppUtils.consumeDouble Text.stod "7".toList = .ok (num 7, []) := by decide +kernel
    have h2 := e2.symm.trans h2
    obtain ⟨rfl, -⟩ : num 7 = v ∧ [] = r' := by simpa using h2
    have hL : 2 ^ 32 = L := by simpa [limitOf] using hL
    subst hL
    refine ⟨by decide +kernel, ?_, ?_⟩ <;> rw [num, F64.ofInt_val (by decide)] <;> norm_num
  · have e1 : AppUtils.consumeFieldName .release "x,1e300".toList = .ok (['x'], "1e300".toList) := by decide +kernel
    rw [e1] at h1
    cases h1
    exact absurd (show (none : Option Nat) = some L from hL) (by simp)

/-- Upsampling the classes of a cloud to itself, with voxels of size 1. -/
example : (Name.tool.run exampleParams ["--resolution=1".toList, "--upsample-classifications=a".toList] (pipe cloudA)).res.Returns
    ∨ ((Name.tool.run exampleParams ["--resolution=1".toList, "--upsample-classifications=a".toList] (pipe cloudA)).res = .hang ∧ SomeEndless (pipe cloudA)) := by
  have e : Cmd.tool.options ["--resolution=1".toList, "--upsample-classifications=a".toList] 
      = [("resolution", ['1']), ("upsample-classifications", ['a'])] := by
    decide +kernel
  refine c85_tool_fits_partial exampleParams _ _ (by decide +kernel) ?_ ?_
  · rw [e]
    simp
  · intro t _ a ha _ s hs l s' hl u hu f u' hf
    rw [pipe_cloudA s hs l s' hl, pipe_cloudA u hu f u' hf]
    rw [e] at ha
    have ha' : a.resolution = num 1 := by
      have : (match Tool.getArgs [("resolution", ['1']), ("upsample-classifications", ['a'])] {} with
          | .ok a => a.resolution | _ => F64.zero) = num 1 := by
        decide +kernel
      rw [ha] at this
      exact this
    rw [ha']
    exact ⟨isValue_ok (by decide +kernel), isValue_ok (by decide +kernel)⟩

/-- Tiles of size 10. -/
example : (Name.tile.run exampleParams ["--tile-size=10".toList] (pipe cloudA)).res.Returns
    ∨ ((Name.tile.run exampleParams ["--tile-size=10".toList] (pipe cloudA)).res = .hang ∧ SomeEndless (pipe cloudA)) := by
  refine c85_tile_fits_partial exampleParams rfl _ _ fun a ha s hs f s' hf sx sy ht => ?_
  rw [pipe_cloudA s hs f s' hf] at ht ⊢
  have e : (match Tile.getArgs (Cmd.tile.options ["--tile-size=10".toList]) {} with
      | .ok a => match Tile.tileSizes a (Extent.ofPoints cloudA.prs) with
        | .ok (sx, sy) => match Tile.getTileIndexes cloudA.prs (Extent.ofPoints cloudA.prs) sx sy with
          | .ok _ => true
          | _ => false
        | _ => false
      | _ => false) = true := by decide +kernel
  rw [ha] at e
  simp only [ht] at e
  split at e
  · exact ⟨_, by assumption⟩
  · exact absurd e (by simp)

end Spoc.Props
