import Verif.Proofs.Named
import Verif.Proofs.Written

/-!
# The messages depend on the named files only
-/

namespace Spoc.Messages

open Text Main Spec.Named

theorem bind_congr {α β : Type} {x : Log α} {f g : α → Log β} (h : ∀ a, x.res = .ok a → f a = g a) : x >>= f = x >>= g := by
  show Log.bind x f = Log.bind x g
  unfold Log.bind
  cases hx : x.res with
  | ok a => dsimp only; rw [h a hx]
  | _ => rfl

theorem command_congr {α : Type} (n : Name) (b : Build) (st : Style) (hu : st.usage ≠ []) (asked : α → Bool) (r : Res α) {f g : α → Log Int}
    (h : ∀ a, r = .ok a → f a = g a) : commandLine b st n.table asked r >>= f = commandLine b st n.table asked r >>= g :=
  bind_congr fun a ha => h a (by rwa [res_commandLine n b st hu] at ha)

section

variable {S : Str → Prop} {w w' : World} {argv : List Str}

theorem inputStream_alike (h : Alike S w w') (v : Bool) {fn : Str} (hs : fn = [] ∨ S fn) : inputStream v w fn = inputStream v w' fn := by
  unfold inputStream
  rw [Main.inputStream_alike h hs]

theorem outputStream_alike (h : Alike S w w') (v : Bool) {fn : Str} (hs : fn = [] ∨ S fn) (o : Out Unit) :
    outputStream v w fn o = outputStream v w' fn o := by
  unfold outputStream
  rw [(Main.outputStream_alike h hs o).2.1]

theorem readThenWrite_alike (h : Alike S w w') (v : Bool) {i o : Str} (hi : i = [] ∨ S i) (ho : o = [] ∨ S o) {read read' : IStream → Log SpocFile}
    (hr : read = read') (write : SpocFile → Out Unit) : readThenWrite v w i o read write = readThenWrite v w' i o read' write := by
  unfold readThenWrite
  rw [inputStream_alike h v hi, hr]
  simp only [outputStream_alike h v ho]

theorem compress_alike (b : Build) (st : Style) (hu : st.usage ≠ []) (zl : Zlib) (h : Alike (Concerned .compress argv) w w') :
    compress b st zl argv w = compress b st zl argv w' := by
  refine command_congr .compress b st hu _ _ ?_
  rintro ⟨a, i, o⟩ hr
  obtain ⟨h1, h2⟩ := inOut_given hr
  dsimp only
  rw [readThenWrite_alike h _ (operand_input h1) (operand_output h2) rfl]

theorem decompress_alike (b : Build) (st : Style) (hu : st.usage ≠ []) (zl : Zlib) (h : Alike (Concerned .decompress argv) w w') :
    decompress b st zl argv w = decompress b st zl argv w' := by
  refine command_congr .decompress b st hu _ _ ?_
  rintro ⟨a, i, o⟩ hr
  obtain ⟨h1, h2⟩ := inOut_given hr
  dsimp only
  rw [readThenWrite_alike h _ (operand_input h1) (operand_output h2) rfl]

theorem filter_alike (b : Build) (st : Style) (hu : st.usage ≠ []) (zl : Zlib) (sh : Subsampling.Shuffle) (h : Alike (Concerned .filter argv) w w') :
    filter b st zl sh argv w = filter b st zl sh argv w' := by
  refine command_congr .filter b st hu _ _ ?_
  rintro ⟨a, i, o⟩ hr
  obtain ⟨h1, h2⟩ := inOut_given hr
  dsimp only
  rw [readThenWrite_alike h _ (operand_input h1) (operand_output h2) rfl]

theorem toolRun_alike (b : Build) (zl : Zlib) {files files' : Tool.Files} (a : Tool.Args) (f : SpocFile)
    (h1 : a.fieldFn ≠ [] → files.text a.fieldFn = files'.text a.fieldFn)
    (h2 : a.command.name = "upsample-classifications" → files.spoc a.command.params = files'.spoc a.command.params) :
    toolRun b zl files a f = toolRun b zl files' a f := by
  unfold toolRun
  rw [toolRun_congr b zl a f h1 h2]
  split_ifs with c1 c2
  · rfl
  · rw [h2 c2.1]
  · rfl

theorem tool_alike (b : Build) (st : Style) (hu : st.usage ≠ []) (zl : Zlib) (h : Alike (Concerned .tool argv) w w') :
    tool b st zl argv w = tool b st zl argv w' := by
  refine command_congr .tool b st hu _ _ ?_
  rintro ⟨a, i, o⟩ hr
  obtain ⟨h1, h2⟩ := inOut_given hr
  obtain ⟨h3, h4⟩ := tool_named _ _ _ (withOperands_cases hr).1
  have key : ∀ f, toolRun b zl (toolFiles w.fs) a f = toolRun b zl (toolFiles w'.fs) a f := by
    intro f
    refine toolRun_alike b zl a f (fun he => ?_) (fun he => ?_)
    · have := openRead_alike h (fn := a.fieldFn) (.inl (.inr ⟨rfl, .inl (h3.resolve_left he)⟩))
      simp only [toolFiles, this]
    · have hm : ("upsample-classifications", a.command.params) ∈ Cmd.tool.options argv := by
        rcases h4 with h4 | h4
        · rw [h4] at he; exact absurd he (by decide)
        · rwa [he] at h4
      exact openRead_alike h (.inl (.inr ⟨rfl, .inr hm⟩))
  dsimp only
  simp only [key]
  rw [readThenWrite_alike h _ (operand_input h1) (operand_output h2) rfl, inputStream_alike h _ (operand_input h1)]

theorem transform_alike (b : Build) (st : Style) (hu : st.usage ≠ []) (env : Transform.Env) (h : Alike (Concerned .transform argv) w w') :
    transform b st env argv w = transform b st env argv w' := by
  refine command_congr .transform b st hu _ _ ?_
  rintro ⟨a, i, o⟩ hr
  obtain ⟨h1, h2⟩ := inOut_given hr
  dsimp only
  rw [inputStream_alike h _ (operand_input h1)]
  simp only [outputStream_alike h _ (operand_output h2)]

theorem showSrsLoop_alike (h : Alike S w w') (v : Bool) (fns : List Str) (hs : ∀ fn ∈ fns, S fn) :
    showSrsLoop v w.fs fns = showSrsLoop v w'.fs fns := by
  induction fns with
  | nil => rfl
  | cons fn fns ih => rw [showSrsLoop, showSrsLoop, openRead_alike h (hs fn (by simp)), ih fun x hx => hs x (by simp [hx])]

theorem srs_alike (b : Build) (st : Style) (hu : st.usage ≠ []) (zl : Zlib) (h : Alike (Concerned .srs argv) w w') :
    srs b st zl argv w = srs b st zl argv w' := by
  refine command_congr .srs b st hu _ _ fun a hr => ?_
  have ho : ∀ fn ∈ Cmd.srs.operands argv, Concerned .srs argv fn := fun fn hf => .inl (.inl hf)
  generalize Cmd.srs.operands argv = l at ho
  split_ifs
  · rfl
  · refine bind_congr fun _ _ => ?_
    split
    · rw [h.1]
    · rw [h.1]
    · next i o _ _ _ =>
      rw [openRead_alike h (ho i (by simp))]
      have hso := ho o (by simp)
      have e : Tile.openWrite w.canCreate w.fs o = Tile.openWrite w'.canCreate w'.fs o := by
        unfold Tile.openWrite
        rw [(h.2 o hso).1, (h.2 o hso).2]
      rw [e]
    · rfl
    · rw [showSrsLoop_alike h _ _ ho]

theorem mergeLoop_alike (h : Alike S w w') (b : Build) (zl : Zlib) (a : Merge.Args) (fns : List Str) (hs : ∀ fn ∈ fns, S fn) :
    ∀ i st, mergeLoop b zl a w.fs i fns st = mergeLoop b zl a w'.fs i fns st := by
  induction fns with
  | nil => intro i st; rfl
  | cons fn fns ih =>
    intro i st
    rw [mergeLoop, mergeLoop, openRead_alike h (hs fn (by simp))]
    simp only [ih fun x hx => hs x (by simp [hx])]

theorem merge_alike (b : Build) (st : Style) (hu : st.usage ≠ []) (zl : Zlib) (h : Alike (Concerned .merge argv) w w') :
    merge b st zl argv w = merge b st zl argv w' := by
  refine command_congr .merge b st hu _ _ fun a hr => ?_
  rw [mergeLoop_alike h b zl a (Cmd.merge.operands argv) fun fn hf => .inl (.inl hf)]

theorem infoLoop_alike (h : Alike S w w') (b : Build) (zl : Zlib) (sort : List F64 → List F64) (a : Info.Args) (fns : List Str)
    (hs : ∀ fn ∈ fns, S fn) : infoLoop b zl sort a w.fs fns = infoLoop b zl sort a w'.fs fns := by
  induction fns with
  | nil => rfl
  | cons fn fns ih => rw [infoLoop, infoLoop, openRead_alike h (hs fn (by simp)), ih fun x hx => hs x (by simp [hx])]

theorem info_alike (b : Build) (st : Style) (hu : st.usage ≠ []) (zl : Zlib) (sort : List F64 → List F64) (h : Alike (Concerned .info argv) w w') :
    info b st zl sort argv w = info b st zl sort argv w' := by
  refine command_congr .info b st hu _ _ fun a hr => ?_
  rw [infoLoop_alike h b zl sort a (Cmd.info.operands argv) (fun fn hf => .inl (.inl hf)), h.1]

theorem diff_alike (b : Build) (st : Style) (hu : st.usage ≠ []) (zl : Zlib) (h : Alike (Concerned .diff argv) w w') :
    diff b st zl argv w = diff b st zl argv w' := by
  refine command_congr .diff b st hu _ _ ?_
  rintro ⟨a, i, j⟩ hr
  dsimp only
  split_ifs with h1
  · rfl
  · rfl
  · have h3 := withOperands_given hr (by simp at h1; exact h1.2)
    have h4 : Cmd.diff.operands argv = [i, j] := by
      generalize Cmd.diff.operands argv = l at h3
      unfold Cmd.two at h3
      split at h3 <;> simp at h3
      obtain ⟨rfl, rfl⟩ := h3
      rfl
    have ho : ∀ fn ∈ [i, j], Concerned .diff argv fn := fun fn hf => .inl (.inl (by rw [show Name.diff.table = Cmd.diff from rfl, h4]; exact hf))
    rw [openRead_alike h (ho i (by simp)), openRead_alike h (ho j (by simp))]

theorem writeTiles_alike (b : Build) (zl : Zlib) {cc cc' : Str → Bool} (a : Tile.Args) (name : UInt64 → Str) (f : SpocFile)
    (m : Tile.TileMap) (hn : ∀ k, S (name k)) (hc : ∀ n, S n → cc n = cc' n) (ks : List UInt64) : ∀ fs fs' : Tile.FS, (∀ n, S n → fs n = fs' n) →
      writeTiles b zl cc a name f m ks fs = writeTiles b zl cc' a name f m ks fs' := by
  induction ks with
  | nil => intro fs fs' h; rfl
  | cons k ks ih =>
    intro fs fs' h
    rw [writeTiles, writeTiles]
    refine bind_congr fun t _ => bind_congr fun _ _ => ?_
    have e1 : fs.present (name k) = fs'.present (name k) := by unfold Tile.FS.present; rw [h _ (hn k)]
    have e2 : Tile.openWrite cc fs (name k) = Tile.openWrite cc' fs' (name k) := by unfold Tile.openWrite; rw [h _ (hn k), hc _ (hn k)]
    have e : (Tile.writeTile b zl cc a.force fs (name k) t).2 = (Tile.writeTile b zl cc' a.force fs' (name k) t).2
        ∧ ∀ n, S n → (Tile.writeTile b zl cc a.force fs (name k) t).1 n = (Tile.writeTile b zl cc' a.force fs' (name k) t).1 n := by
      unfold Tile.writeTile
      rw [e1, e2]
      split_ifs
      · exact ⟨rfl, h⟩
      · cases Tile.openWrite cc' fs' (name k) with
        | none => exact ⟨rfl, h⟩
        | some x =>
          refine ⟨rfl, fun n hs => ?_⟩
          simp only [Tile.FS.set]
          rw [h n hs]
    dsimp only
    rw [e1, e.1, ih _ _ e.2]

theorem tile_alike (b : Build) (st : Style) (hu : st.usage ≠ []) (zl : Zlib) (h : Alike (Concerned .tile argv) w w') :
    tile b st zl argv w = tile b st zl argv w' := by
  refine command_congr .tile b st hu _ _ ?_
  rintro ⟨a, i⟩ hr
  have hg := (withOperands_cases hr).1
  have hi : i = [] ∨ i ∈ Cmd.tile.operands argv := one_given hr
  dsimp only
  split
  · rfl
  refine bind_congr fun _ _ => ?_
  split
  · rfl
  · next h3 =>
    rw [inputStream_alike h _ (operand_input hi)]
    refine bind_congr fun s _ => bind_congr fun f _ => bind_congr fun _ _ => bind_congr fun z _ => bind_congr fun _ _ =>
      bind_congr fun m _ => bind_congr fun _ _ => bind_congr fun _ _ => ?_
    rw [writeTiles_alike (S := Concerned .tile argv) b zl (cc := w.canCreate) (cc' := w'.canCreate) _ _ f _
      (fun k => .inr (outputName_tileOf hg hi h3 _ _ k)) (fun n hs => (h.2 n hs).2) _ w.fs w'.fs (fun n hs => (h.2 n hs).1)]

end

theorem messages_alike (n : Name) (p : Params) (st : Style) (hu : st.usage ≠ []) (argv : List Str) (w w' : World)
    (h : Alike (Concerned n argv) w w') : messages n p st argv w = messages n p st argv w' := by
  cases n
  case compress => exact compress_alike _ _ hu _ h
  case decompress => exact decompress_alike _ _ hu _ h
  case diff => exact diff_alike _ _ hu _ h
  case filter => exact filter_alike _ _ hu _ _ h
  case info => exact info_alike _ _ hu _ _ h
  case merge => exact merge_alike _ _ hu _ h
  case srs => exact srs_alike _ _ hu _ h
  case tile => exact tile_alike _ _ hu _ h
  case tool => exact tool_alike _ _ hu _ h
  case transform => exact transform_alike _ _ hu _ h

end Spoc.Messages
