import Verif.Model.Tool
import Verif.Model.Filter
import Verif.Model.Tile
import Verif.Model.Diff
import Verif.Model.Info

/-!
# What the code does with the compression flag: nothing but carry it along
-/

namespace Spoc.Flag

/-- The cloud with another compression flag. -/
def flag (c : Bool) (f : SpocFile) : SpocFile := { f with compressed := c }

@[simp] theorem flag_prs (c : Bool) (f : SpocFile) : (flag c f).prs = f.prs := rfl
@[simp] theorem flag_wkt (c : Bool) (f : SpocFile) : (flag c f).wkt = f.wkt := rfl
@[simp] theorem flag_compressed (c : Bool) (f : SpocFile) : (flag c f).compressed = c := rfl

variable {c : Bool}

theorem bind_flag {α : Type} (r : Res α) (k k' : α → Res SpocFile) (h : ∀ a, k' a = flag c <$> k a) :
    (r >>= k') = flag c <$> (r >>= k) := by
  cases r with
  | ok a => exact h a
  | _ => rfl

theorem bind_file {r r' : Res SpocFile} {k k' : SpocFile → Res SpocFile} (hr : r' = flag c <$> r) (h : ∀ f, k' (flag c f) = flag c <$> k f) :
    (r' >>= k') = flag c <$> (r >>= k) := by
  subst hr
  cases r with
  | ok a => exact h a
  | _ => rfl

theorem foldlM_flag {α : Type} (step step' : SpocFile → α → Res SpocFile) (h : ∀ f a, step' (flag c f) a = flag c <$> step f a) (as : List α)
    (f : SpocFile) : as.foldlM step' (flag c f) = flag c <$> as.foldlM step f := by
  induction as generalizing f with
  | nil => rfl
  | cons a as ih =>
    rw [List.foldlM_cons, List.foldlM_cons]
    exact bind_file (h f a) ih

theorem copy_flag (f : SpocFile) : (flag c f).copy = flag c <$> f.copy := by
  unfold SpocFile.copy SpocFile.new
  rw [apply_ite (flag c <$> ·)]
  rfl

theorem pushBack_flag (f : SpocFile) (q : PointRecord) : (flag c f).pushBack q = flag c <$> f.pushBack q := by
  simp only [SpocFile.pushBack, flag_prs]
  split
  · rfl
  · split <;> rfl

theorem setPointRecords_flag (f : SpocFile) (ps : List PointRecord) : (flag c f).setPointRecords ps = flag c <$> f.setPointRecords ps := by
  simp only [SpocFile.setPointRecords]
  split <;> rfl

theorem setPointRecord_flag (b : Build) (f : SpocFile) (i : Nat) (q : PointRecord) :
    (flag c f).setPointRecord b i q = flag c <$> f.setPointRecord b i q := by
  refine bind_flag _ _ _ fun _ => ?_
  show (if _ then _ else if _ then _ else _) = flag c <$> (if _ then _ else if _ then _ else _)
  rw [apply_ite (flag c <$> ·), apply_ite (flag c <$> ·)]
  rfl

/-! ## filter -/

theorem stage_flag (on : Bool) (step : SpocFile → Res SpocFile) (h : ∀ f, step (flag c f) = flag c <$> step f) (f : SpocFile) :
    Filter.stage on step (flag c f) = flag c <$> Filter.stage on step f := by
  unfold Filter.stage
  cases on
  · rfl
  · exact bind_file (h f) copy_flag

theorem select_flag (keep : PointRecord → Bool) (f : SpocFile) : Filter.select (flag c f) keep = flag c <$> Filter.select f keep := by
  refine foldlM_flag _ _ (fun g p => ?_) f.prs f.cloneEmpty
  split
  · exact pushBack_flag g p
  · rfl

theorem process_flag (b : Build) (sh : Subsampling.Shuffle) (a : Filter.Args) (f : SpocFile) :
    Filter.process b sh a (flag c f) = flag c <$> Filter.process b sh a f := by
  refine bind_file (stage_flag _ _ (fun f => select_flag _ f) f) fun f => ?_
  refine bind_file (stage_flag _ _ (fun f => select_flag _ f) f) fun f => ?_
  refine bind_file (stage_flag _ _ (fun f => ?_) f) fun f => ?_
  · refine bind_flag _ _ _ fun is => foldlM_flag _ _ (fun g i => ?_) is f.cloneEmpty
    exact bind_flag _ _ _ fun p => pushBack_flag g p
  refine bind_file (stage_flag _ _ (fun f => ?_) f) fun f => ?_
  · exact bind_flag _ _ _ fun ps => setPointRecords_flag f.cloneEmpty ps
  refine stage_flag _ _ (fun f => ?_) f
  unfold Filter.removeCoords
  split
  · refine bind_flag _ _ _ fun v => bind_flag _ _ _ fun cmp => ?_
    split
    · rfl
    · exact select_flag _ f
  · rfl

/-! ## tool -/

theorem setField_flag (b : Build) (f : SpocFile) (t : Text.TextIn) (name : Str) :
    Tool.setField b (flag c f) t name = flag c <$> Tool.setField b f t name :=
  bind_flag _ _ _ fun _ => bind_flag _ _ _ fun _ => bind_flag _ _ _ fun _ => by
    dsimp only
    split
    · exact bind_flag _ _ _ fun _ => bind_flag _ _ _ fun ps => setPointRecords_flag f.cloneEmpty ps
    · exact bind_flag _ _ _ fun _ => bind_flag _ _ _ fun ps => setPointRecords_flag f.cloneEmpty ps

theorem recenter_flag (b : Build) (f : SpocFile) (z : Bool) : Tool.recenter b (flag c f) z = flag c <$> Tool.recenter b f z :=
  bind_flag _ _ _ fun _ => setPointRecords_flag f.cloneEmpty _

theorem subtractMin_flag (b : Build) (f : SpocFile) (z : Bool) : Tool.subtractMin b (flag c f) z = flag c <$> Tool.subtractMin b f z :=
  bind_flag _ _ _ fun _ => setPointRecords_flag f.cloneEmpty _

theorem resizeExtra_flag (b : Build) (f : SpocFile) (n : Int) : Tool.resizeExtra b (flag c f) n = flag c <$> Tool.resizeExtra b f n :=
  bind_flag _ _ _ fun _ => bind_flag _ _ _ fun _ => bind_file (copy_flag f) fun _ => rfl

/-- The classes that upsampling takes from the first file do not depend on its flag. -/
theorem upsampleLoop_low (b : Build) (l : SpocFile) (m : Voxel.Map) (vs : List VoxelIndex) (i : Nat) (h : SpocFile) (k : Nat) :
    Tool.upsampleLoop b (flag c l) m vs i h k = Tool.upsampleLoop b l m vs i h k := by
  induction vs generalizing i h k with
  | nil => rfl
  | cons v vs ih =>
    simp only [Tool.upsampleLoop, ih]
    rfl

theorem upsample_low (b : Build) (l f : SpocFile) (r : F64) : Tool.upsample b (flag c l) f r = Tool.upsample b l f r := by
  simp only [Tool.upsample, upsampleLoop_low, flag_prs]
  rfl

/-- The command is upsample-classifications, whose output comes from the other file. -/
def outFlag (c : Bool) (name : String) (g : SpocFile) : SpocFile := if name = "upsample-classifications" then g else flag c g

theorem run_flag (b : Build) (zl : Zlib) (files : Tool.Files) (a : Tool.Args) (f : SpocFile) :
    Tool.run b zl files a (flag c f) = outFlag c a.command.name <$> Tool.run b zl files a f := by
  by_cases hu : a.command.name = "upsample-classifications"
  · have : outFlag c a.command.name = id := by
      funext g
      simp [outFlag, hu]
    rw [this, id_map]
    unfold Tool.run
    simp only [hu, String.reduceEq, if_false, if_true, upsample_low]
  · have : outFlag c a.command.name = flag c := by
      funext g
      simp [outFlag, hu]
    rw [this]
    unfold Tool.run
    split
    · exact recenter_flag b f false
    split
    · exact recenter_flag b f true
    split
    · split
      · rfl
      · split
        · rfl
        split
        · rfl
        exact resizeExtra_flag b f _
    split
    · split
      · rfl
      split
      · rfl
      · exact bind_flag _ _ _ fun _ => setField_flag b f _ _
    split
    · exact subtractMin_flag b f false
    split
    · exact subtractMin_flag b f true
    rfl

theorem getField_flag (b : Build) (f : SpocFile) (name : Str) : Tool.getField b (flag c f) name = Tool.getField b f name := rfl

/-! ## tile -/

theorem tileFile_flag (b : Build) (f : SpocFile) (m : Tile.TileMap) (k : UInt64) :
    Tile.tileFile b (flag c f) m k = flag c <$> Tile.tileFile b f m k :=
  bind_flag _ _ _ fun v => bind_flag _ _ _ fun _ => foldlM_flag _ _ (fun g _ => bind_flag _ _ _ fun p => pushBack_flag g p) v
    ((SpocFile.empty.setWkt f.wkt).setCompressed f.compressed)

/-! ## merge -/

/-- What the two runs of merge have in common. -/
def Close (st st' : Merge.State) : Prop := (∃ c, st'.g = flag c st.g) ∧ st'.areaSum = st.areaSum ∧ st'.log = st.log

theorem appendLoop_flag (id : UInt32) (ps : List PointRecord) (f : SpocFile) :
    Merge.appendLoop id ps (flag c f) = (flag c (Merge.appendLoop id ps f).1, (Merge.appendLoop id ps f).2) := by
  induction ps generalizing f with
  | nil => rfl
  | cons p ps ih =>
    unfold Merge.appendLoop
    rw [pushBack_flag]
    cases f.pushBack { p with p := id } with
    | ok g => exact ih g
    | _ => rfl

theorem getHeader_flag (f : SpocFile) : (fun h : Header => h.wkt) <$> (flag c f).getHeader = (fun h : Header => h.wkt) <$> f.getHeader := by
  unfold SpocFile.getHeader Header.new
  rw [apply_ite ((fun h : Header => h.wkt) <$> ·), apply_ite ((fun h : Header => h.wkt) <$> ·)]
  rfl

theorem srsDiffer_flag (f g : SpocFile) (d : Bool) (quiet : Bool) : Merge.srsDiffer (flag c f) (flag d g) quiet = Merge.srsDiffer f g quiet := by
  have key : ∀ f g : SpocFile, Merge.srsDiffer f g quiet = if quiet then .ok false else
      ((fun h : Header => h.wkt) <$> f.getHeader) >>= fun a => ((fun h : Header => h.wkt) <$> g.getHeader) >>= fun b => .ok (decide (a ≠ b)) := by
    intro f g
    unfold Merge.srsDiffer
    split
    · rfl
    · cases f.getHeader with
      | ok h => cases g.getHeader <;> rfl
      | _ => rfl
  rw [key, key, getHeader_flag, getHeader_flag]

theorem append_flag (f g : SpocFile) (d : Bool) (id : UInt32) (quiet : Bool) :
    Merge.append (flag c f) (flag d g) id quiet
      = (flag d (Merge.append f g id quiet).1, (Merge.append f g id quiet).2.1, (Merge.append f g id quiet).2.2) := by
  unfold Merge.append
  rw [srsDiffer_flag]
  cases Merge.srsDiffer f g quiet with
  | ok w =>
    simp only [flag_prs, appendLoop_flag]
  | _ => rfl

theorem mergeOne_flag (a : Merge.Args) (i : Nat) (st st' : Merge.State) (f : SpocFile) (h : Close st st') :
    Close (Merge.mergeOne a i st f).1 (Merge.mergeOne a i st' (flag c f)).1
      ∧ (Merge.mergeOne a i st' (flag c f)).2 = (Merge.mergeOne a i st f).2 := by
  obtain ⟨⟨d, h1⟩, h2, h3⟩ := h
  have key : ∃ d', (if i = 0 then (if (flag c f).compressed = false then st'.g.setCompressed false else st'.g).setWkt f.wkt
        else if (flag c f).compressed = false then st'.g.setCompressed false else st'.g)
      = flag d' (if i = 0 then (if f.compressed = false then st.g.setCompressed false else st.g).setWkt f.wkt
        else if f.compressed = false then st.g.setCompressed false else st.g) := by
    rw [h1]
    refine ⟨if c = false then false else d, ?_⟩
    simp only [flag_compressed]
    cases c <;> cases f.compressed <;> (split <;> rfl)
  obtain ⟨d', key⟩ := key
  unfold Merge.mergeOne
  simp only [flag_prs, flag_wkt] at key ⊢
  rw [key]
  simp only [append_flag, h2, h3]
  exact ⟨⟨⟨d', rfl⟩, rfl, rfl⟩, trivial⟩

theorem mergeLoop_flag (b : Build) (zl : Zlib) (a : Merge.Args) (ss ss' : List (Option IStream)) (i : Nat) (st st' : Merge.State)
    (h : Close st st')
    (hs : List.Forall₂ (fun s s' => ∃ x x' f c r r', s = some x ∧ s' = some x' ∧ Io.readFile b zl x = .ok (f, r)
      ∧ Io.readFile b zl x' = .ok (flag c f, r')) ss ss') :
    Close (Merge.mergeLoop b zl a i ss st).1 (Merge.mergeLoop b zl a i ss' st').1
      ∧ (Merge.mergeLoop b zl a i ss' st').2 = (Merge.mergeLoop b zl a i ss st).2 := by
  induction hs generalizing i st st' with
  | nil => exact ⟨h, rfl⟩
  | cons hd _ ih =>
    obtain ⟨x, x', f, c, r, r', rfl, rfl, e1, e2⟩ := hd
    unfold Merge.mergeLoop
    simp only [Apps.fileOf, e1, e2, Res.ok_bind]
    obtain ⟨k1, k2⟩ := mergeOne_flag (c := c) a i st st' f h
    rcases hm : Merge.mergeOne a i st f with ⟨t, q⟩
    rcases hm' : Merge.mergeOne a i st' (flag c f) with ⟨t', q'⟩
    rw [hm, hm'] at k1 k2
    obtain rfl : q' = q := k2
    cases q' with
    | ok _ => exact ih (i + 1) t t' k1
    | _ => exact ⟨k1, rfl⟩

/-! ## diff and info -/

theorem diff_flag (b : Build) (f g : SpocFile) (c d : Bool) (h dt : Bool) (fields : Str) (r : Bool) (hh : fields ≠ [] ∨ dt = true) :
    Diff.diff b (flag c f) (flag d g) h dt fields r = Diff.diff b f g h dt fields r := by
  have : (!(!fields.isEmpty) && !dt) = false := by
    rcases hh with hh | rfl
    · simp [hh]
    · simp
  unfold Diff.diff
  simp only [this, Bool.false_eq_true, if_false, flag_prs]

theorem info_flag (b : Build) (sort : List F64 → List F64) (a : Info.Args) (f : SpocFile) (hh : a.headerInfo = false) :
    Info.process b sort a (flag c f) = Info.process b sort a f := by
  unfold Info.process Info.document
  simp only [hh, Info.section', Info.sectionText, Bool.false_eq_true, if_false, flag_prs]

/-- The value for the key `k` stands somewhere in the middle, and what is before and after does not depend on it. -/
theorem mapSet_middle {β : Type} (m : List (Str × β)) (k : Str) : ∃ A B, ∀ v, Text.mapSet m k v = A ++ (k, v) :: B := by
  induction m with
  | nil => exact ⟨[], [], fun _ => rfl⟩
  | cons e r ih =>
    obtain ⟨k', v'⟩ := e
    unfold Text.mapSet
    by_cases h1 : Text.strLt k k' = true
    · exact ⟨[], (k', v') :: r, fun v => by rw [if_pos h1]; rfl⟩
    · by_cases h2 : k = k'
      · exact ⟨[], r, fun v => by rw [if_neg h1, if_pos h2]; rfl⟩
      · obtain ⟨A, B, h⟩ := ih
        exact ⟨(k', v') :: A, B, fun v => by rw [if_neg h1, if_neg h2, h]; rfl⟩

theorem mapSet_keep {β : Type} (A B : List (Str × β)) (k k' : Str) (v' : β) (hk : k' ≠ k) :
    ∃ A' B', ∀ v, Text.mapSet (A ++ (k, v) :: B) k' v' = A' ++ (k, v) :: B' := by
  induction A with
  | nil =>
    by_cases h1 : Text.strLt k' k = true
    · exact ⟨[(k', v')], B, fun v => by simp [Text.mapSet, h1]⟩
    · exact ⟨[], Text.mapSet B k' v', fun v => by simp [Text.mapSet, h1, hk]⟩
  | cons e A ih =>
    obtain ⟨k1, v1⟩ := e
    simp only [List.cons_append]
    by_cases h1 : Text.strLt k' k1 = true
    · exact ⟨(k', v') :: (k1, v1) :: A, B, fun v => by simp [Text.mapSet, h1]⟩
    · by_cases h2 : k' = k1
      · exact ⟨(k', v') :: A, B, fun v => by rw [Text.mapSet, if_neg h1, if_pos h2]; rfl⟩
      · obtain ⟨A', B', h⟩ := ih
        exact ⟨(k1, v1) :: A', B', fun v => by simp [Text.mapSet, h1, h2, h]⟩

theorem mapOf_middle {β : Type} (l r : List (Str × β)) (k : Str) (hr : ∀ e ∈ r, e.1 ≠ k) :
    ∃ A B, ∀ v, Text.mapOf (l ++ (k, v) :: r) = A ++ (k, v) :: B := by
  unfold Text.mapOf
  simp only [List.foldl_append, List.foldl_cons]
  obtain ⟨A, B, h⟩ := mapSet_middle (l.foldl (fun m e => Text.mapSet m e.1 e.2) []) k
  simp only [h]
  clear h
  induction r generalizing A B with
  | nil => exact ⟨A, B, fun _ => rfl⟩
  | cons e r ih =>
    obtain ⟨A', B', h⟩ := mapSet_keep A B k e.1 e.2 (hr e (by simp))
    simp only [List.foldl_cons, h]
    exact ih (fun e he => hr e (by simp [he])) A' B'

theorem compactObject_middle (A B : List (Str × Json)) (k : Str) :
    ∃ pre post : Str, ∀ v, Json.compactObject (A ++ (k, v) :: B) = pre ++ (Json.compact v ++ post) := by
  induction A with
  | nil =>
    cases B with
    | nil => exact ⟨'\'' :: (k ++ ['\'', ' ', ':', ' ']), [], fun v => by simp [Json.compactObject]⟩
    | cons w r => exact ⟨'\'' :: (k ++ ['\'', ' ', ':', ' ']), [',', ' '] ++ Json.compactObject (w :: r), fun v => by simp [Json.compactObject]⟩
  | cons e A ih =>
    obtain ⟨pre, post, h⟩ := ih
    obtain ⟨k1, v1⟩ := e
    refine ⟨'\'' :: (k1 ++ (['\'', ' ', ':', ' '] ++ (Json.compact v1 ++ ([',', ' '] ++ pre)))), post, fun v => ?_⟩
    have : Json.compactObject ((k1, v1) :: (A ++ (k, v) :: B))
        = '\'' :: (k1 ++ (['\'', ' ', ':', ' '] ++ (Json.compact v1 ++ ([',', ' '] ++ Json.compactObject (A ++ (k, v) :: B))))) := by
      cases A <;> rfl
    rw [List.cons_append, this, h]
    simp

theorem prettyObject_middle (n : Nat) (A B : List (Str × Json)) (k : Str) :
    ∃ pre post : Str, ∀ v, Json.prettyObject n (A ++ (k, v) :: B) = pre ++ (Json.pretty (n + 1) v ++ post) := by
  induction A with
  | nil =>
    cases B with
    | nil => exact ⟨Json.indents (n + 1) ++ ('\'' :: (k ++ ['\'', ' ', ':', ' '])), ['\n'], fun v => by simp [Json.prettyObject]⟩
    | cons w r =>
      exact ⟨Json.indents (n + 1) ++ ('\'' :: (k ++ ['\'', ' ', ':', ' '])), [',', '\n'] ++ Json.prettyObject n (w :: r),
        fun v => by simp [Json.prettyObject]⟩
  | cons e A ih =>
    obtain ⟨pre, post, h⟩ := ih
    obtain ⟨k1, v1⟩ := e
    refine ⟨Json.indents (n + 1) ++ ('\'' :: (k1 ++ (['\'', ' ', ':', ' '] ++ (Json.pretty (n + 1) v1 ++ ([',', '\n'] ++ pre))))), post,
      fun v => ?_⟩
    have : Json.prettyObject n ((k1, v1) :: (A ++ (k, v) :: B)) = Json.indents (n + 1) ++ ('\'' :: (k1 ++ (['\'', ' ', ':', ' ']
        ++ (Json.pretty (n + 1) v1 ++ ([',', '\n'] ++ Json.prettyObject n (A ++ (k, v) :: B)))))) := by
      cases A <;> rfl
    rw [List.cons_append, this, h]
    simp

/-- What is printed for the flag. -/
def word (json c : Bool) : Str := if json then (if c then ['1'] else ['0']) else if c then "true".toList else "false".toList

theorem getHeader_form (f : SpocFile) : (∃ e, ∀ c, (flag c f).getHeader = .throw e)
    ∨ ∃ h : Header, ∀ c, (flag c f).getHeader = .ok { h with compressed := if c then 1 else 0 } := by
  unfold SpocFile.getHeader Header.new
  by_cases h : f.wkt.length > 0xFFFF
  · exact .inl ⟨_, fun c => if_pos h⟩
  · exact .inr ⟨⟨Header.sig, f.major, f.minor, f.wkt, UInt8.ofNat f.extraFields, UInt64.ofNat f.prs.length, 0⟩, fun c => if_neg h⟩

theorem headerText_middle (h : Header) :
    ∃ pre post : Str, ∀ c, Info.headerText { h with compressed := if c then 1 else 0 } = pre ++ (word false c ++ post) := by
  refine ⟨"major_version\t".toList ++ Text.showNat h.major.toNat ++ "\nminor_version\t".toList ++ Text.showNat h.minor.toNat
    ++ "\nogc_wkt\t'".toList ++ Info.chars h.wkt ++ "'\ntotal_points\t".toList ++ Text.showNat h.totalPoints.toNat
    ++ "\ncompressed\t".toList, ['\n'], fun c => ?_⟩
  unfold Info.headerText word
  cases c <;> simp only [List.append_assoc] <;> rfl

/-- The entry of the flag in the object for the header. -/
theorem headerObject_middle (h : Header) :
    ∃ A B, ∀ c : Bool, Info.headerObject { h with compressed := if c then 1 else 0 }
      = .obj (A ++ (Key.compressed, .u8 (if c then 1 else 0)) :: B) := by
  obtain ⟨A, B, k⟩ := mapOf_middle [(Key.majorVersion, Json.u8 h.major), (Key.minorVersion, .u8 h.minor), (Key.wkt, .str (Info.chars h.wkt)),
    (Key.totalPoints, .u64 h.totalPoints)] [] Key.compressed (by simp)
  exact ⟨A, B, fun c => congrArg Json.obj (k _)⟩

theorem section_keys {on : Bool} {name : Str} {j : Res Json} {l : List (Str × Json)} (h : Info.section' on name j = .ok l) :
    ∀ e ∈ l, e.1 = name := by
  unfold Info.section' at h
  split at h
  · obtain ⟨v, -, h⟩ := Res.bind_eq_ok.mp h
    obtain rfl := Res.ok.inj h
    simp
  · obtain rfl := Res.ok.inj h
    simp

theorem bind_or {α : Type} (r : Res α) (P : α → Prop) (h : ∀ a, r = .ok a → P a) :
    (∃ a, r = .ok a ∧ P a) ∨ ∀ {β : Type} (k k' : α → Res β), (r >>= k) = (r >>= k') ∧ ∀ t, (r >>= k') ≠ .ok t := by
  cases r with
  | ok a => exact .inl ⟨a, rfl, h a rfl⟩
  | _ => exact .inr fun k k' => ⟨rfl, fun t h => by cases h⟩

/-- With the header, the text depends on the flag in one word. -/
theorem info_word (b : Build) (sort : List F64 → List F64) (a : Info.Args) (f : SpocFile) (hh : a.headerInfo = true) :
    (∃ pre post : Str, ∀ c, Info.process b sort a (flag c f) = .ok (pre ++ (word a.json c ++ post)))
      ∨ ∀ c, Info.process b sort a (flag c f) = Info.process b sort a f ∧ ∀ t, Info.process b sort a f ≠ .ok t := by
  have hself : flag f.compressed f = f := rfl
  suffices hs : (∃ pre post : Str, ∀ c, Info.process b sort a (flag c f) = .ok (pre ++ (word a.json c ++ post)))
      ∨ ∀ c d, Info.process b sort a (flag c f) = Info.process b sort a (flag d f) ∧ ∀ t, Info.process b sort a (flag d f) ≠ .ok t by
    rcases hs with hs | hs
    · exact .inl hs
    · exact .inr fun c => hself ▸ hs c f.compressed
  unfold Info.process
  cases hj : a.json with
  | true =>
    simp only [if_true, Info.document, hh, flag_prs]
    rcases getHeader_form f with ⟨e, he⟩ | ⟨h, he⟩
    · right
      intro c d
      simp only [he, Info.section', if_true]
      exact ⟨trivial, fun t h => by cases h⟩
    · simp only [he, Info.section'.eq_def true, if_true, Res.ok_bind, bind_assoc]
      rcases bind_or (Info.section' a.summaryInfo Key.summary (Info.summariesObject b sort f.prs a.quartiles)) _ (fun _ e => section_keys e)
        with ⟨S, hS, kS⟩ | hf
      swap
      · exact .inr fun c d => hf _ _
      rcases bind_or (Info.section' a.classInfo Key.classifications (.ok (Info.classesObject f.prs))) _ (fun _ e => section_keys e)
        with ⟨C, hC, kC⟩ | hf
      swap
      · exact .inr fun c d => by rw [hS]; exact hf _ _
      rcases bind_or (Info.section' a.metricInfo Key.metrics (Info.metricsObject f.prs)) _ (fun _ e => section_keys e) with ⟨M, hM, kM⟩ | hf
      swap
      · exact .inr fun c d => by rw [hS, hC]; exact hf _ _
      left
      simp only [hS, hC, hM, Res.ok_bind]
      obtain ⟨A, B, hAB⟩ := headerObject_middle h
      obtain ⟨A', B', hAB'⟩ := mapOf_middle [] (S ++ C ++ M) Key.header (by
        intro e he
        simp only [List.mem_append] at he
        rcases he with (he | he) | he
        · rw [kS e he]; decide
        · rw [kC e he]; decide
        · rw [kM e he]; decide)
      have key : ∀ c : Bool, Text.mapOf ([(Key.header, Info.headerObject { h with compressed := if c then 1 else 0 })] ++ S ++ C ++ M)
          = A' ++ (Key.header, .obj (A ++ (Key.compressed, .u8 (if c then 1 else 0)) :: B)) :: B' := by
        intro c
        rw [← hAB, ← hAB']
        simp only [List.append_assoc, List.nil_append, List.cons_append]
      simp only [key]
      have hw : ∀ c : Bool, word true c = Json.scalar (.u8 (if c then 1 else 0)) := by decide
      cases a.compact with
      | true =>
        obtain ⟨p1, q1, h1⟩ := compactObject_middle A' B' Key.header
        obtain ⟨p2, q2, h2⟩ := compactObject_middle A B Key.compressed
        refine ⟨['{', ' '] ++ (p1 ++ (['{', ' '] ++ p2)), q2 ++ ([' ', '}'] ++ (q1 ++ [' ', '}'])), fun c => ?_⟩
        simp only [if_true, Json.compact, h1, h2, hw, List.append_assoc]
      | false =>
        obtain ⟨p1, q1, h1⟩ := prettyObject_middle 0 A' B' Key.header
        obtain ⟨p2, q2, h2⟩ := prettyObject_middle (0 + 1) A B Key.compressed
        refine ⟨['{', '\n'] ++ (p1 ++ (['{', '\n'] ++ p2)), q2 ++ (Json.indents (0 + 1) ++ ['}'] ++ (q1 ++ (Json.indents 0 ++ ['}']))),
          fun c => ?_⟩
        simp only [Bool.false_eq_true, if_false, Json.pretty, h1, h2, hw, List.append_assoc]
  | false =>
    simp only [Bool.false_eq_true, if_false, hh, flag_prs]
    rcases getHeader_form f with ⟨e, he⟩ | ⟨h, he⟩
    · right
      intro c d
      simp only [he, Info.sectionText, if_true]
      exact ⟨trivial, fun t h => by cases h⟩
    · simp only [he, Info.sectionText.eq_def true, if_true, Res.ok_bind]
      obtain ⟨pre, post, hp⟩ := headerText_middle h
      rcases bind_or (Info.sectionText a.summaryInfo (Info.summariesText b sort f.prs a.compact a.quartiles)) _ (fun _ _ => trivial)
        with ⟨S, hS, -⟩ | hf
      swap
      · exact .inr fun c d => hf _ _
      rcases bind_or (Info.sectionText a.classInfo (Info.classesText f.prs)) _ (fun _ _ => trivial) with ⟨C, hC, -⟩ | hf
      swap
      · exact .inr fun c d => by rw [hS]; exact hf _ _
      rcases bind_or (Info.sectionText a.metricInfo (Info.metricsText f.prs)) _ (fun _ _ => trivial) with ⟨M, hM, -⟩ | hf
      swap
      · exact .inr fun c d => by rw [hS, hC]; exact hf _ _
      left
      refine ⟨pre, post ++ (S ++ (C ++ M)), fun c => ?_⟩
      simp only [hS, hC, hM, Res.ok_bind, hp, List.append_assoc]

end Spoc.Flag
