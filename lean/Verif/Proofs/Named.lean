import Verif.Spec.Named
import Verif.Proofs.Text

/-!
# Only named files are read and written
-/

namespace Spoc.Main

open Text Spec.Named

/-! ## Reading -/

section Reads

variable {S : Str → Prop} {w w' : World}

theorem openRead_alike (h : Alike S w w') {fn : Str} (hs : S fn) : openRead w.fs fn = openRead w'.fs fn := by
  unfold openRead
  rw [(h.2 fn hs).1]

theorem inputStream_alike (h : Alike S w w') {fn : Str} (hs : fn = [] ∨ S fn) : inputStream w fn = inputStream w' fn := by
  unfold inputStream
  rcases hs with rfl | hs
  · simp [h.1]
  · rw [openRead_alike h hs, h.1]

theorem same_nothing (h : Alike S w w') (o : Bytes) (r : Res Int) : SameOn S ⟨w.fs, o, r⟩ ⟨w'.fs, o, r⟩ :=
  ⟨rfl, rfl, fun fn hs => (h.2 fn hs).1⟩

theorem outputStream_alike (h : Alike S w w') {fn : Str} (hs : fn = [] ∨ S fn) (o : Out Unit) :
    SameOn S (outputStream w fn o) (outputStream w' fn o) := by
  unfold outputStream
  by_cases he : fn.isEmpty = true
  · rw [if_pos he, if_pos he]; exact same_nothing h _ _
  · rw [if_neg he, if_neg he]
    have hs : S fn := hs.resolve_left (by simpa using he)
    have e : Tile.openWrite w.canCreate w.fs fn = Tile.openWrite w'.canCreate w'.fs fn := by
      unfold Tile.openWrite
      rw [(h.2 fn hs).1, (h.2 fn hs).2]
    rw [e]
    cases Tile.openWrite w'.canCreate w'.fs fn with
    | none => exact same_nothing h _ _
    | some f =>
      refine ⟨rfl, rfl, fun n hn => ?_⟩
      simp only [Tile.FS.set]
      rw [(h.2 n hn).1]

theorem readThenWrite_alike (h : Alike S w w') {i o : Str} (hi : i = [] ∨ S i) (ho : o = [] ∨ S o) {read read' : IStream → Res SpocFile}
    (hr : read = read') (write : SpocFile → Out Unit) : SameOn S (readThenWrite w i o read write) (readThenWrite w' i o read' write) := by
  unfold readThenWrite
  rw [inputStream_alike h hi, hr]
  cases inputStream w' i >>= read' with
  | ok f => exact outputStream_alike h ho _
  | _ => exact same_nothing h _ _

theorem inOut_cases {l : List Str} {i o : Str} (h : Cmd.inOut l = .ok (i, o)) : (i = [] ∨ i ∈ l) ∧ (o = [] ∨ l = [i, o]) := by
  unfold Cmd.inOut at h
  split at h <;> simp at h <;> obtain ⟨rfl, rfl⟩ := h <;> simp

theorem withOperands_cases {α β : Type} {r : Res α} {help : α → Bool} {d : β} {os : Res β} {a : α} {x : β}
    (h : withOperands r help d os = .ok (a, x)) : r = .ok a ∧ (x = d ∨ os = .ok x) := by
  unfold withOperands at h
  obtain ⟨a', h1, h⟩ := Res.bind_eq_ok.mp h
  split at h
  · simp at h; obtain ⟨rfl, rfl⟩ := h; exact ⟨h1, .inl rfl⟩
  · obtain ⟨o, h2, h⟩ := Res.bind_eq_ok.mp h
    simp at h; obtain ⟨rfl, rfl⟩ := h; exact ⟨h1, .inr h2⟩

theorem withOperands_given {α β : Type} {r : Res α} {help : α → Bool} {d : β} {os : Res β} {a : α} {x : β}
    (h : withOperands r help d os = .ok (a, x)) (hh : help a = false) : os = .ok x := by
  unfold withOperands at h
  obtain ⟨a', h1, h⟩ := Res.bind_eq_ok.mp h
  split at h
  · next hc => simp at h; obtain ⟨rfl, rfl⟩ := h; rw [hh] at hc; cases hc
  · obtain ⟨o, h2, h⟩ := Res.bind_eq_ok.mp h
    simp at h; obtain ⟨rfl, rfl⟩ := h; exact h2

theorem inOut_given {α : Type} {r : Res α} {help : α → Bool} {l : List Str} {a : α} {i o : Str}
    (h : withOperands r help ([], []) (Cmd.inOut l) = .ok (a, i, o)) : (i = [] ∨ i ∈ l) ∧ (o = [] ∨ l = [i, o]) := by
  rcases (withOperands_cases h).2 with h | h
  · simp at h; simp [h]
  · exact inOut_cases h

theorem one_given {α : Type} {r : Res α} {help : α → Bool} {l : List Str} {a : α} {i : Str}
    (h : withOperands r help [] (Cmd.one l) = .ok (a, i)) : i = [] ∨ i ∈ l := by
  rcases (withOperands_cases h).2 with h | h
  · exact .inl h
  · unfold Cmd.one at h
    split at h <;> simp at h <;> subst h <;> simp

end Reads

/-- The arguments of the tool that name files. -/
theorem tool_named (os : List (String × Str)) : ∀ (a a' : Tool.Args), Tool.getArgs os a = .ok a' →
    (a'.fieldFn = a.fieldFn ∨ ("field-filename", a'.fieldFn) ∈ os) ∧ (a'.command = a.command ∨ (a'.command.name, a'.command.params) ∈ os) := by
  induction os with
  | nil => intro a a' h; simp [Tool.getArgs] at h; subst h; simp
  | cons x os ih =>
    intro a a' h
    obtain ⟨name, arg⟩ := x
    rw [Tool.getArgs] at h
    have step : ∀ c : Tool.Args, Tool.getArgs os c = .ok a' → (c.fieldFn = a.fieldFn ∨ ("field-filename", c.fieldFn) ∈ (name, arg) :: os) →
        (c.command = a.command ∨ (c.command.name, c.command.params) ∈ (name, arg) :: os) →
        (a'.fieldFn = a.fieldFn ∨ ("field-filename", a'.fieldFn) ∈ (name, arg) :: os)
          ∧ (a'.command = a.command ∨ (a'.command.name, a'.command.params) ∈ (name, arg) :: os) := by
      intro c hc h1 h2
      obtain ⟨h3, h4⟩ := ih c a' hc
      constructor
      · rcases h3 with h3 | h3
        · rw [h3]; exact h1
        · exact .inr (List.mem_cons_of_mem _ h3)
      · rcases h4 with h4 | h4
        · rw [h4]; exact h2
        · exact .inr (List.mem_cons_of_mem _ h4)
    split_ifs at h with c1 c2 c3 c4 c5 c6
    · simp at h; subst h; simp
    · exact step _ h (.inl rfl) (.inl rfl)
    · exact step _ h (.inl rfl) (.inl rfl)
    · obtain ⟨c, hc, h⟩ := Res.bind_eq_ok.mp h
      unfold Tool.setCommand at hc
      split_ifs at hc
      cases hc
      exact step _ h (.inl rfl) (.inr (by simp))
    · exact step _ h (.inr (by simp [c5])) (.inl rfl)
    · exact step _ h (.inl rfl) (.inl rfl)

theorem toolRun_congr (b : Build) (zl : Zlib) {files files' : Tool.Files} (a : Tool.Args) (f : SpocFile)
    (h1 : a.fieldFn ≠ [] → files.text a.fieldFn = files'.text a.fieldFn)
    (h2 : a.command.name = "upsample-classifications" → files.spoc a.command.params = files'.spoc a.command.params) :
    Tool.run b zl files a f = Tool.run b zl files' a f := by
  unfold Tool.run
  repeat' refine ite_congr rfl (fun _ => ?_) (fun _ => ?_)
  all_goals first
    | rfl
    | (next h => rw [h1 (by simpa using h)])
    | (next h _ => rw [h2 h])

/-! ## Each application depends on the files concerned only -/

section Alike

variable {w w' : World} {argv : List Str}

theorem operand_input {n : Name} {i : Str} (h : i = [] ∨ i ∈ n.table.operands argv) : i = [] ∨ Concerned n argv i :=
  h.imp_right fun h => .inl (.inl h)

theorem operand_output {n : Name} {i o : Str} (h : o = [] ∨ n.table.operands argv = [i, o]) : o = [] ∨ Concerned n argv o :=
  h.imp_right fun h => .inl (.inl (by rw [h]; simp))

theorem compress_alike (b : Build) (zl : Zlib) (h : Alike (Concerned .compress argv) w w') :
    SameOn (Concerned .compress argv) (compress b zl argv w) (compress b zl argv w') := by
  unfold compress
  rcases hr : basicArgs Cmd.compress argv with ⟨a, i, o⟩ | _ | _ | _ | _ <;> try exact same_nothing h _ _
  obtain ⟨h1, h2⟩ := inOut_given hr
  dsimp only
  split_ifs
  · exact same_nothing h _ _
  · exact same_nothing h _ _
  · exact readThenWrite_alike h (operand_input h1) (operand_output h2) rfl _

theorem decompress_alike (b : Build) (zl : Zlib) (h : Alike (Concerned .decompress argv) w w') :
    SameOn (Concerned .decompress argv) (decompress b zl argv w) (decompress b zl argv w') := by
  unfold decompress
  rcases hr : basicArgs Cmd.decompress argv with ⟨a, i, o⟩ | _ | _ | _ | _ <;> try exact same_nothing h _ _
  obtain ⟨h1, h2⟩ := inOut_given hr
  dsimp only
  split_ifs
  · exact same_nothing h _ _
  · exact same_nothing h _ _
  · exact readThenWrite_alike h (operand_input h1) (operand_output h2) rfl _

theorem filter_alike (b : Build) (zl : Zlib) (sh : Subsampling.Shuffle) (h : Alike (Concerned .filter argv) w w') :
    SameOn (Concerned .filter argv) (filter b zl sh argv w) (filter b zl sh argv w') := by
  unfold filter
  rcases hr : filterArgs argv with ⟨a, i, o⟩ | _ | _ | _ | _ <;> try exact same_nothing h _ _
  obtain ⟨h1, h2⟩ := inOut_given hr
  dsimp only
  split_ifs
  · exact same_nothing h _ _
  · exact same_nothing h _ _
  · exact readThenWrite_alike h (operand_input h1) (operand_output h2) rfl _

theorem tool_alike (b : Build) (zl : Zlib) (h : Alike (Concerned .tool argv) w w') :
    SameOn (Concerned .tool argv) (tool b zl argv w) (tool b zl argv w') := by
  unfold tool
  rcases hr : toolArgs argv with ⟨a, i, o⟩ | _ | _ | _ | _ <;> try exact same_nothing h _ _
  obtain ⟨h1, h2⟩ := inOut_given hr
  obtain ⟨h3, h4⟩ := tool_named _ _ _ (withOperands_cases hr).1
  dsimp only
  split_ifs
  · exact same_nothing h _ _
  · exact same_nothing h _ _
  · exact same_nothing h _ _
  · rw [inputStream_alike h (operand_input h1)]
    split
    · exact same_nothing h _ _
    · exact same_nothing h _ _
  · refine readThenWrite_alike h (operand_input h1) (operand_output h2) ?_ _
    funext s
    congr 1
    funext f
    refine toolRun_congr b zl a f (fun he => ?_) (fun he => ?_)
    · have := openRead_alike h (fn := a.fieldFn) (.inl (.inr ⟨rfl, .inl (h3.resolve_left he)⟩))
      simp only [toolFiles, this]
    · have hm : ("upsample-classifications", a.command.params) ∈ Cmd.tool.options argv := by
        rcases h4 with h4 | h4
        · rw [h4] at he; exact absurd he (by decide)
        · rwa [he] at h4
      exact openRead_alike h (.inl (.inr ⟨rfl, .inr hm⟩))

theorem transform_alike (b : Build) (env : Transform.Env) (h : Alike (Concerned .transform argv) w w') :
    SameOn (Concerned .transform argv) (transform b env argv w) (transform b env argv w') := by
  unfold transform
  rcases hr : transformArgs argv with ⟨a, i, o⟩ | _ | _ | _ | _ <;> try exact same_nothing h _ _
  obtain ⟨h1, h2⟩ := inOut_given hr
  dsimp only
  split_ifs
  · exact same_nothing h _ _
  · exact same_nothing h _ _
  · exact same_nothing h _ _
  all_goals
    rw [inputStream_alike h (operand_input h1)]
    cases inputStream w' i <;> first | exact outputStream_alike h (operand_output h2) _ | exact same_nothing h _ _

theorem showSrsLoop_alike {S : Str → Prop} (h : Alike S w w') (fns : List Str) (hs : ∀ fn ∈ fns, S fn) :
    showSrsLoop w.fs fns = showSrsLoop w'.fs fns := by
  induction fns with
  | nil => rfl
  | cons fn fns ih =>
    rw [showSrsLoop, showSrsLoop, openRead_alike h (hs fn (by simp)), ih fun x hx => hs x (by simp [hx])]

theorem srs_alike (b : Build) (zl : Zlib) (h : Alike (Concerned .srs argv) w w') :
    SameOn (Concerned .srs argv) (srs b zl argv w) (srs b zl argv w') := by
  unfold srs
  cases Cmd.srsArgs (Cmd.srs.options argv) {} with
  | ok a =>
    dsimp only
    split_ifs
    · exact same_nothing h _ _
    · exact same_nothing h _ _
    · have ho : ∀ fn ∈ Cmd.srs.operands argv, Concerned .srs argv fn := fun fn hf => .inl (.inl hf)
      generalize Cmd.srs.operands argv = l at ho
      split
      · rw [h.1]; exact outputStream_alike h (.inl rfl) _
      · rw [h.1]; exact outputStream_alike h (.inl rfl) _
      · next i o t _ =>
        rw [openRead_alike h (ho i (by simp))]
        have hso := ho o (by simp)
        have e : Tile.openWrite w.canCreate w.fs o = Tile.openWrite w'.canCreate w'.fs o := by
          unfold Tile.openWrite
          rw [(h.2 o hso).1, (h.2 o hso).2]
        rw [e]
        split
        · split
          · refine ⟨rfl, rfl, fun n hn => ?_⟩
            simp only [Tile.FS.set]
            rw [(h.2 n hn).1]
          · exact same_nothing h _ _
        · exact same_nothing h _ _
      · exact same_nothing h _ _
      · rw [showSrsLoop_alike h _ ho]; exact outputStream_alike h (.inl rfl) _
  | _ => exact same_nothing h _ _

theorem map_openRead_alike {S : Str → Prop} (h : Alike S w w') (fns : List Str) (hs : ∀ fn ∈ fns, S fn) :
    fns.map (openRead w.fs) = fns.map (openRead w'.fs) :=
  List.map_congr_left fun fn hf => openRead_alike h (hs fn hf)

theorem merge_alike (b : Build) (zl : Zlib) (h : Alike (Concerned .merge argv) w w') :
    SameOn (Concerned .merge argv) (merge b zl argv w) (merge b zl argv w') := by
  unfold merge
  rw [map_openRead_alike h (Cmd.merge.operands argv) fun fn hf => .inl (.inl hf)]
  exact outputStream_alike h (.inl rfl) _

theorem diff_alike (b : Build) (zl : Zlib) (h : Alike (Concerned .diff argv) w w') :
    SameOn (Concerned .diff argv) (diff b zl argv w) (diff b zl argv w') := by
  unfold diff
  rcases hr : withOperands (Diff.getArgs (Cmd.diff.options argv) {}) (·.help) ([], []) (Cmd.two (Cmd.diff.operands argv)) with
    ⟨a, i, j⟩ | _ | _ | _ | _ <;> try exact same_nothing h _ _
  dsimp only
  split_ifs with h1 h2
  · exact same_nothing h _ _
  · exact same_nothing h _ _
  · have h3 := withOperands_given hr (by simpa using h2)
    have h4 : Cmd.diff.operands argv = [i, j] := by
      generalize Cmd.diff.operands argv = l at h3
      unfold Cmd.two at h3
      split at h3 <;> simp at h3
      obtain ⟨rfl, rfl⟩ := h3
      rfl
    have ho : ∀ fn ∈ [i, j], Concerned .diff argv fn := fun fn hf => .inl (.inl (by rw [show Name.diff.table = Cmd.diff from rfl, h4]; exact hf))
    rw [openRead_alike h (ho i (by simp)), openRead_alike h (ho j (by simp))]
    exact same_nothing h _ _

theorem info_alike (b : Build) (zl : Zlib) (sort : List F64 → List F64) (h : Alike (Concerned .info argv) w w') :
    SameOn (Concerned .info argv) (info b zl sort argv w) (info b zl sort argv w') := by
  unfold info
  rw [map_openRead_alike h (Cmd.info.operands argv) (fun fn hf => .inl (.inl hf)), h.1]
  exact same_nothing h _ _

/-! ## The names of tiles -/

theorem tile_named (os : List (String × Str)) : ∀ (a a' : Tile.Args), Tile.getArgs os a = .ok a' → a'.pre = a.pre ∨ ("prefix", a'.pre) ∈ os := by
  induction os with
  | nil => intro a a' h; simp [Tile.getArgs] at h; subst h; simp
  | cons x os ih =>
    intro a a' h
    obtain ⟨name, arg⟩ := x
    rw [Tile.getArgs] at h
    have step : ∀ c : Tile.Args, Tile.getArgs os c = .ok a' → (c.pre = a.pre ∨ ("prefix", c.pre) ∈ (name, arg) :: os) →
        a'.pre = a.pre ∨ ("prefix", a'.pre) ∈ (name, arg) :: os := by
      intro c hc h1
      rcases ih c a' hc with h3 | h3
      · rw [h3]; exact h1
      · exact .inr (List.mem_cons_of_mem _ h3)
    split_ifs at h with c1 c2 c3 c4 c5 c6 c7 c8 c9 c10
    · simp at h; subst h; simp
    iterate 8 exact step _ h (.inl rfl)
    · exact step _ h (.inr (by simp [c10]))

theorem fileName_suffix (fn : Str) : Tile.fileName fn <:+ fn := by
  unfold Tile.fileName
  have := List.takeWhile_prefix (l := fn.reverse) (fun c => decide (c ≠ '/'))
  have h := List.reverse_suffix.mpr this
  rwa [List.reverse_reverse] at h

theorem fileName_slash (fn : Str) : '/' ∉ Tile.fileName fn := by
  unfold Tile.fileName
  intro h
  have := List.all_eq_true.mp (List.all_takeWhile (p := fun c => decide (c ≠ '/'))) _ (List.mem_reverse.mp h)
  simp at this

theorem takeWhile_suffix (p : Char → Bool) (l : Str) (h : ∃ c ∈ l, p c = false) : ∃ c t, p c = false ∧ l = l.takeWhile p ++ c :: t := by
  induction l with
  | nil => simp at h
  | cons a l ih =>
    by_cases ha : p a = true
    · obtain ⟨c, t, h1, h2⟩ := ih (by
        obtain ⟨c, hc, hp⟩ := h
        rcases List.mem_cons.mp hc with rfl | hc
        · rw [ha] at hp; cases hp
        · exact ⟨c, hc, hp⟩)
      refine ⟨c, t, h1, ?_⟩
      rw [List.takeWhile_cons_of_pos ha, List.cons_append, ← h2]
    · exact ⟨a, l, by simpa using ha, by rw [List.takeWhile_cons_of_neg ha]; rfl⟩

theorem extension_suffix (fn : Str) : Tile.extension fn <:+ fn := by
  unfold Tile.extension
  dsimp only
  split_ifs with h1 h2
  · exact List.nil_suffix
  · exact List.nil_suffix
  · refine List.IsSuffix.trans ?_ (fileName_suffix fn)
    have hm : '.' ∈ Tile.fileName fn := by
      by_contra hc
      exact h1 (.inr (.inr hc))
    generalize Tile.fileName fn = n at hm
    obtain ⟨c, t, hc, ht⟩ := takeWhile_suffix (fun c => decide (c ≠ '.')) n.reverse ⟨'.', List.mem_reverse.mpr hm, by simp⟩
    have hc : c = '.' := by simpa using hc
    subst hc
    refine ⟨t.reverse, ?_⟩
    have := congrArg List.reverse ht
    rw [List.reverse_reverse, List.reverse_append, List.reverse_cons] at this
    conv_rhs => rw [this]
    simp

theorem stem_infix (fn : Str) : Tile.stem fn <:+: fn ∧ '/' ∉ Tile.stem fn := by
  unfold Tile.stem
  exact ⟨(List.take_prefix _ _).isInfix.trans (fileName_suffix fn).isInfix, fun h => fileName_slash fn (List.mem_of_mem_take h)⟩

theorem padded_digits (d : Int) (k : UInt64) : Tile.padded d k ≠ [] ∧ ∀ c ∈ Tile.padded d k, '0' ≤ c ∧ c ≤ '9' := by
  unfold Tile.padded
  constructor
  · simp [showNat_ne]
  · intro c hc
    rcases List.mem_append.mp hc with hc | hc
    · rw [List.eq_of_mem_replicate hc]; decide
    · have := showNat_digits _ c hc
      have h1 : 48 ≤ c.toNat ∧ c.toNat ≤ 57 := by simpa [isDigit] using this
      exact h1

theorem outputName_tileOf {a : Tile.Args} (ha : Tile.getArgs (Cmd.tile.options argv) {} = .ok a) {fn : Str}
    (hfn : fn = [] ∨ fn ∈ Cmd.tile.operands argv) (hp : ¬(fn.isEmpty && a.pre.isEmpty) = true) (c : Bool) (d : Int) (k : UInt64) :
    TileOf argv (Tile.outputName fn (if a.pre.isEmpty then Tile.stem fn else a.pre) c d k) := by
  refine ⟨_, _, _, rfl, (padded_digits d k).1, (padded_digits d k).2, ?_, ?_⟩
  · split_ifs with h1
    · have : fn ∈ Cmd.tile.operands argv := hfn.resolve_left (by rintro rfl; exact hp (by simpa using h1))
      exact .inr ⟨fn, this, stem_infix fn⟩
    · refine .inl ((tile_named _ _ _ ha).resolve_left fun h => h1 ?_)
      rw [h]
      rfl
  · split_ifs with h1 h2
    · exact .inr (.inl rfl)
    · exact .inl rfl
    · exact .inr (.inr ⟨fn, hfn.resolve_left (by simpa using h1), extension_suffix fn⟩)

theorem writeTiles_alike {S : Str → Prop} (b : Build) (zl : Zlib) {cc cc' : Str → Bool} (force : Bool) (name : UInt64 → Str) (f : SpocFile)
    (m : Tile.TileMap) (hn : ∀ k, S (name k)) (hc : ∀ n, S n → cc n = cc' n) (ks : List UInt64) : ∀ fs fs' : Tile.FS, (∀ n, S n → fs n = fs' n) →
      (Tile.writeTiles b zl cc force name f m ks fs).2 = (Tile.writeTiles b zl cc' force name f m ks fs').2
        ∧ ∀ n, S n → (Tile.writeTiles b zl cc force name f m ks fs).1 n = (Tile.writeTiles b zl cc' force name f m ks fs').1 n := by
  induction ks with
  | nil => intro fs fs' h; exact ⟨rfl, h⟩
  | cons k ks ih =>
    intro fs fs' h
    rw [Tile.writeTiles, Tile.writeTiles]
    cases Tile.tileFile b f m k with
    | ok t =>
      dsimp only
      have e : (Tile.writeTile b zl cc force fs (name k) t).2 = (Tile.writeTile b zl cc' force fs' (name k) t).2
          ∧ ∀ n, S n → (Tile.writeTile b zl cc force fs (name k) t).1 n = (Tile.writeTile b zl cc' force fs' (name k) t).1 n := by
        have e1 : fs.present (name k) = fs'.present (name k) := by unfold Tile.FS.present; rw [h _ (hn k)]
        have e2 : Tile.openWrite cc fs (name k) = Tile.openWrite cc' fs' (name k) := by unfold Tile.openWrite; rw [h _ (hn k), hc _ (hn k)]
        unfold Tile.writeTile
        rw [e1, e2]
        split_ifs
        · exact ⟨rfl, h⟩
        · cases Tile.openWrite cc' fs' (name k) with
          | none => exact ⟨rfl, h⟩
          | some x =>
            refine ⟨rfl, fun n hs => ?_⟩
            simp only [Tile.FS.set]
            rw [h n hs]
      rcases h1 : Tile.writeTile b zl cc force fs (name k) t with ⟨g, r⟩
      rcases h2 : Tile.writeTile b zl cc' force fs' (name k) t with ⟨g', r'⟩
      rw [h1, h2] at e
      obtain ⟨rfl, e2⟩ := e
      dsimp only at e2 ⊢
      cases r with
      | ok u => exact ih g g' e2
      | _ => exact ⟨rfl, e2⟩
    | _ => exact ⟨rfl, h⟩

theorem tile_alike (b : Build) (zl : Zlib) (h : Alike (Concerned .tile argv) w w') :
    SameOn (Concerned .tile argv) (tile b zl argv w) (tile b zl argv w') := by
  unfold tile
  rcases hr : withOperands (Tile.getArgs (Cmd.tile.options argv) {}) (·.help) [] (Cmd.one (Cmd.tile.operands argv)) with
    ⟨a, i⟩ | _ | _ | _ | _ <;> try exact same_nothing h _ _
  have hg := (withOperands_cases hr).1
  have hi : i = [] ∨ i ∈ Cmd.tile.operands argv := one_given hr
  dsimp only
  split_ifs with h1
  · exact same_nothing h _ _
  unfold Tile.main
  rw [hg]
  dsimp only
  split_ifs with h2 h3 h4
  · exact same_nothing h _ _
  · exact same_nothing h _ _
  all_goals
    try rw [h.1]
    try rw [(h.2 i (.inl (.inl (hi.resolve_left (by simpa using h4))))).1]
    split
    · next f _ =>
      unfold Tile.tileAll
      dsimp only
      split
      · split
        · have := writeTiles_alike (S := Concerned .tile argv) b zl (cc := w.canCreate) (cc' := w'.canCreate) a.force
            (Tile.outputName i (if a.pre.isEmpty then Tile.stem i else a.pre) f.compressed (Tile.width { a with fn := i })) f
            (by assumption) (fun k => .inr (outputName_tileOf hg hi h3 _ _ k)) (fun n hs => (h.2 n hs).2)
          obtain ⟨e1, e2⟩ := this (Tile.sortedKeys _) w.fs w'.fs (fun n hs => (h.2 n hs).1)
          exact ⟨rfl, congrArg zero e1, e2⟩
        · exact same_nothing h _ _
      · exact same_nothing h _ _
    · exact same_nothing h _ _

end Alike

/-! ## Writing -/

section Writes

variable {w : World} {argv : List Str}

theorem replaced_set {cc : Str → Bool} {fs : Tile.FS} {o : Str} {g : Tile.File} (h : Tile.openWrite cc fs o = some g) (l : Bytes) :
    Replaced cc fs (fs.set o { g with content := l }) o := by
  refine ⟨{ g with content := l }, by simp [Tile.FS.set], ?_⟩
  unfold Tile.openWrite at h
  cases hf : fs o with
  | none =>
    rw [hf] at h
    dsimp only at h ⊢
    split_ifs at h with hc
    cases h
    exact ⟨hc, rfl, rfl⟩
  | some y =>
    rw [hf] at h
    dsimp only at h ⊢
    split_ifs at h with hc
    cases h
    exact ⟨hc, hc, rfl⟩

theorem outputStream_writes (o fn : Str) (out : Out Unit) (h : (outputStream w o out).fs fn ≠ w.fs fn) :
    fn = o ∧ o ≠ [] ∧ Replaced w.canCreate w.fs (outputStream w o out).fs fn := by
  unfold outputStream at h ⊢
  split_ifs at h ⊢ with h1
  · exact absurd rfl h
  · cases h2 : Tile.openWrite w.canCreate w.fs o with
    | none => rw [h2] at h; exact absurd rfl h
    | some g =>
      rw [h2] at h
      have hn : fn = o := by
        by_contra hn
        exact h (by simp [Tile.FS.set, hn])
      subst hn
      exact ⟨rfl, by simpa using h1, replaced_set h2 _⟩

theorem readThenWrite_writes (i o fn : Str) (read : IStream → Res SpocFile) (write : SpocFile → Out Unit)
    (h : (readThenWrite w i o read write).fs fn ≠ w.fs fn) :
    fn = o ∧ o ≠ [] ∧ Replaced w.canCreate w.fs (readThenWrite w i o read write).fs fn := by
  unfold readThenWrite at h ⊢
  cases h1 : inputStream w i >>= read with
  | ok f => rw [h1] at h; exact outputStream_writes o fn _ h
  | _ => rw [h1] at h; exact absurd rfl h

/-- A file that is changed may be written. -/
def Writes (n : Name) (argv : List Str) (w : World) (r : Result) : Prop :=
  ∀ fn, r.fs fn ≠ w.fs fn → MayWrite n argv fn ∧ Replaced w.canCreate w.fs r.fs fn

theorem writes_nothing (n : Name) (o : Bytes) (r : Res Int) : Writes n argv w ⟨w.fs, o, r⟩ := fun _ h => absurd rfl h

theorem compress_writes (b : Build) (zl : Zlib) : Writes .compress argv w (compress b zl argv w) := by
  unfold compress
  rcases hr : basicArgs Cmd.compress argv with ⟨a, i, o⟩ | _ | _ | _ | _ <;> try exact writes_nothing _ _ _
  obtain ⟨h1, h2⟩ := inOut_given hr
  dsimp only
  split_ifs
  · exact writes_nothing _ _ _
  · exact writes_nothing _ _ _
  · intro fn h
    obtain ⟨rfl, h3, h4⟩ := readThenWrite_writes _ _ _ _ _ h
    exact ⟨⟨i, h2.resolve_left h3⟩, h4⟩

theorem decompress_writes (b : Build) (zl : Zlib) : Writes .decompress argv w (decompress b zl argv w) := by
  unfold decompress
  rcases hr : basicArgs Cmd.decompress argv with ⟨a, i, o⟩ | _ | _ | _ | _ <;> try exact writes_nothing _ _ _
  obtain ⟨h1, h2⟩ := inOut_given hr
  dsimp only
  split_ifs
  · exact writes_nothing _ _ _
  · exact writes_nothing _ _ _
  · intro fn h
    obtain ⟨rfl, h3, h4⟩ := readThenWrite_writes _ _ _ _ _ h
    exact ⟨⟨i, h2.resolve_left h3⟩, h4⟩

theorem filter_writes (b : Build) (zl : Zlib) (sh : Subsampling.Shuffle) : Writes .filter argv w (filter b zl sh argv w) := by
  unfold filter
  rcases hr : filterArgs argv with ⟨a, i, o⟩ | _ | _ | _ | _ <;> try exact writes_nothing _ _ _
  obtain ⟨h1, h2⟩ := inOut_given hr
  dsimp only
  split_ifs
  · exact writes_nothing _ _ _
  · exact writes_nothing _ _ _
  · intro fn h
    obtain ⟨rfl, h3, h4⟩ := readThenWrite_writes _ _ _ _ _ h
    exact ⟨⟨i, h2.resolve_left h3⟩, h4⟩

theorem tool_writes (b : Build) (zl : Zlib) : Writes .tool argv w (tool b zl argv w) := by
  unfold tool
  rcases hr : toolArgs argv with ⟨a, i, o⟩ | _ | _ | _ | _ <;> try exact writes_nothing _ _ _
  obtain ⟨h1, h2⟩ := inOut_given hr
  dsimp only
  split_ifs
  · exact writes_nothing _ _ _
  · exact writes_nothing _ _ _
  · exact writes_nothing _ _ _
  · split <;> exact writes_nothing _ _ _
  · intro fn h
    obtain ⟨rfl, h3, h4⟩ := readThenWrite_writes _ _ _ _ _ h
    exact ⟨⟨i, h2.resolve_left h3⟩, h4⟩

theorem transform_writes (b : Build) (env : Transform.Env) : Writes .transform argv w (transform b env argv w) := by
  unfold transform
  rcases hr : transformArgs argv with ⟨a, i, o⟩ | _ | _ | _ | _ <;> try exact writes_nothing _ _ _
  obtain ⟨h1, h2⟩ := inOut_given hr
  dsimp only
  split_ifs
  · exact writes_nothing _ _ _
  · exact writes_nothing _ _ _
  · exact writes_nothing _ _ _
  all_goals
    cases inputStream w i <;> try exact writes_nothing _ _ _
    intro fn h
    obtain ⟨rfl, h3, h4⟩ := outputStream_writes _ _ _ h
    exact ⟨⟨i, h2.resolve_left h3⟩, h4⟩

theorem stdout_writes (n : Name) (out : Out Unit) : Writes n argv w (outputStream w [] out) := fun _ h => absurd rfl h

theorem srs_writes (b : Build) (zl : Zlib) : Writes .srs argv w (srs b zl argv w) := by
  unfold srs
  cases Cmd.srsArgs (Cmd.srs.options argv) {} with
  | ok a =>
    dsimp only
    split_ifs
    · exact writes_nothing _ _ _
    · exact writes_nothing _ _ _
    · have ho : ∀ i o, Cmd.srs.operands argv = [i, o] → MayWrite .srs argv o := fun i o hf => ⟨i, hf⟩
      generalize Cmd.srs.operands argv = l at ho
      split
      · exact stdout_writes _ _
      · exact stdout_writes _ _
      · next i o t _ =>
        split
        · split
          · next g hg =>
            intro fn h
            have hn : fn = o := by
              by_contra hn
              exact h (by simp [Tile.FS.set, hn])
            subst hn
            exact ⟨ho _ _ rfl, replaced_set hg _⟩
          · exact writes_nothing _ _ _
        · exact writes_nothing _ _ _
      · exact writes_nothing _ _ _
      · exact stdout_writes _ _
  | _ => exact writes_nothing _ _ _

theorem replaced_trans {cc : Str → Bool} {fs fs' fs'' : Tile.FS} {fn : Str} (h1 : fs' fn = fs fn ∨ Replaced cc fs fs' fn)
    (h2 : fs'' fn = fs' fn ∨ Replaced cc fs' fs'' fn) : fs'' fn = fs fn ∨ Replaced cc fs fs'' fn := by
  rcases h2 with h2 | ⟨x, h2, h3⟩
  · rcases h1 with h1 | ⟨y, h1, h4⟩
    · exact .inl (h2.trans h1)
    · exact .inr ⟨y, by rw [h2, h1], h4⟩
  · rcases h1 with h1 | ⟨y, h1, h4⟩
    · rw [h1] at h3; exact .inr ⟨x, h2, h3⟩
    · rw [h1] at h3
      refine .inr ⟨x, h2, ?_⟩
      obtain ⟨h5, h6, h7⟩ := h3
      cases hf : fs fn with
      | none => rw [hf] at h4; exact ⟨h4.1, h6, h7.trans h4.2.2⟩
      | some z => rw [hf] at h4; exact ⟨h4.1, h6, h7.trans h4.2.2⟩

theorem writeTiles_writes (b : Build) (zl : Zlib) (cc : Str → Bool) (force : Bool) (name : UInt64 → Str) (f : SpocFile)
    (m : Tile.TileMap) (fn : Str) (ks : List UInt64) : ∀ fs : Tile.FS,
      ((Tile.writeTiles b zl cc force name f m ks fs).1 fn ≠ fs fn → ∃ k, fn = name k)
        ∧ ((Tile.writeTiles b zl cc force name f m ks fs).1 fn = fs fn ∨ Replaced cc fs (Tile.writeTiles b zl cc force name f m ks fs).1 fn) := by
  induction ks with
  | nil => intro fs; exact ⟨fun h => absurd rfl h, .inl rfl⟩
  | cons k ks ih =>
    intro fs
    rw [Tile.writeTiles]
    cases Tile.tileFile b f m k with
    | ok t =>
      dsimp only
      have e : ((Tile.writeTile b zl cc force fs (name k) t).1 fn ≠ fs fn → fn = name k)
          ∧ ((Tile.writeTile b zl cc force fs (name k) t).1 fn = fs fn ∨ Replaced cc fs (Tile.writeTile b zl cc force fs (name k) t).1 fn) := by
        unfold Tile.writeTile
        split_ifs
        · exact ⟨fun h => absurd rfl h, .inl rfl⟩
        · cases hg : Tile.openWrite cc fs (name k) with
          | none => exact ⟨fun h => absurd rfl h, .inl rfl⟩
          | some x =>
            by_cases hn : fn = name k
            · subst hn; exact ⟨fun _ => rfl, .inr (replaced_set hg _)⟩
            · have : (fs.set (name k) { x with content := (Io.writeFile b zl t).bytes }) fn = fs fn := by simp [Tile.FS.set, hn]
              exact ⟨fun h => absurd this h, .inl this⟩
      rcases h1 : Tile.writeTile b zl cc force fs (name k) t with ⟨g, r⟩
      rw [h1] at e
      obtain ⟨e1, e2⟩ := e
      dsimp only at e1 e2 ⊢
      cases r with
      | ok u =>
        dsimp only
        obtain ⟨h2, h3⟩ := ih g
        refine ⟨fun h => ?_, replaced_trans e2 h3⟩
        by_cases hc : g fn = fs fn
        · exact h2 (by rw [hc]; exact h)
        · exact ⟨k, e1 hc⟩
      | _ => exact ⟨fun h => ⟨k, e1 h⟩, e2⟩
    | _ => exact ⟨fun h => absurd rfl h, .inl rfl⟩

theorem tile_writes (b : Build) (zl : Zlib) : Writes .tile argv w (tile b zl argv w) := by
  unfold tile
  rcases hr : withOperands (Tile.getArgs (Cmd.tile.options argv) {}) (·.help) [] (Cmd.one (Cmd.tile.operands argv)) with
    ⟨a, i⟩ | _ | _ | _ | _ <;> try exact writes_nothing _ _ _
  have hg := (withOperands_cases hr).1
  have hi : i = [] ∨ i ∈ Cmd.tile.operands argv := one_given hr
  dsimp only
  split_ifs with h1
  · exact writes_nothing _ _ _
  unfold Tile.main
  rw [hg]
  dsimp only
  split_ifs with h2 h3 h4
  · exact writes_nothing _ _ _
  · exact writes_nothing _ _ _
  all_goals
    split
    · next f _ =>
      unfold Tile.tileAll
      dsimp only
      split
      · split
        · intro fn hne
          obtain ⟨e1, e2⟩ := writeTiles_writes b zl w.canCreate a.force
            (Tile.outputName i (if a.pre.isEmpty then Tile.stem i else a.pre) f.compressed (Tile.width { a with fn := i })) f
            (by assumption) fn (Tile.sortedKeys (by assumption)) w.fs
          obtain ⟨k, rfl⟩ := e1 hne
          exact ⟨outputName_tileOf hg hi h3 _ _ k, e2.resolve_left hne⟩
        · exact writes_nothing _ _ _
      · exact writes_nothing _ _ _
    · exact writes_nothing _ _ _

end Writes

end Spoc.Main
