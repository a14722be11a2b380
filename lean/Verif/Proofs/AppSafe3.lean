import Verif.Proofs.AppSafe2
import Verif.Props.Info
import Verif.Props.Json

/-!
# What info and tile can end in
-/

namespace Spoc

namespace AppSafe

open Io Spec

/-! ## info -/

theorem quartiles_within {α : Type} {H : Prop} {k : Info.Kind α} {v : α → ℝ} {good : α → Prop} (hk : Info.Lawful k v good) (xs : List α)
    (hne : xs ≠ []) (hx : ∀ x ∈ xs, good x) (hlen : xs.length < 2 ^ 62) : (Info.quartiles k xs).Within H := by
  obtain ⟨q, hq, -⟩ := Info.quartiles_spec hk xs hne hx hlen
  exact .inl ⟨q, hq⟩

theorem object_within {α : Type} {H : Prop} {k : Info.Kind α} {v : α → ℝ} {good : α → Prop} (xs : List α) (quart : Bool)
    (h : quart = true → Info.Lawful k v good ∧ (∀ x ∈ xs, good x) ∧ xs.length < 2 ^ 62) : (Info.summaryObject k xs quart).Within H := by
  unfold Info.summaryObject
  split
  · exact .of_ok
  split
  · rename_i hq
    obtain ⟨h1, h2, h3⟩ := h hq
    exact (quartiles_within h1 _ (by simp) h2 h3).bind fun _ _ => .of_ok
  · exact .of_ok

theorem string_within {α : Type} {H : Prop} {k : Info.Kind α} {v : α → ℝ} {good : α → Prop} (label : Str) (xs : List α) (compact quart : Bool)
    (h : quart = true → Info.Lawful k v good ∧ (∀ x ∈ xs, good x) ∧ xs.length < 2 ^ 62) :
    (Info.summaryString k label xs compact quart).Within H := by
  unfold Info.summaryString
  split
  · exact .of_ok
  dsimp only
  split
  · rename_i hq
    obtain ⟨h1, h2, h3⟩ := h hq
    exact (quartiles_within h1 _ (by simp) h2 h3).bind fun _ _ => .of_ok
  · exact .of_ok

/-- what the switches of info ask of the points -/
def InfoFits (sort : List F64 → List F64) (quart metrics : Bool) (ps : List PointRecord) : Prop :=
  (quart = true → Info.SortsF64 sort ∧ Props.NoNaN ps ∧ ps.length < 2 ^ 62)
    ∧ (metrics = true → ps = [] ∨ (Props.AllFinite ps ∧ GridFits (Extent.ofPoints ps) F64.one))

theorem sizes_ok {ps : List PointRecord} (hu : Uniform ps) {k : Nat} (hk : k ∈ List.range (Diff.extraFieldsSize ps)) :
    ∃ e, ∀ b, Diff.getExtra b k ps = .ok e ∧ e.length = ps.length :=
  ⟨Props.extraColumn k ps, fun b => ⟨Props.getExtra_ok b hu (List.mem_range.mp hk), by simp [Props.extraColumn]⟩⟩

theorem summariesObject_within {H : Prop} (b : Build) {sort : List F64 → List F64} {ps : List PointRecord} {quart : Bool} (hu : Uniform ps)
    (h : quart = true → Info.SortsF64 sort ∧ Props.NoNaN ps ∧ ps.length < 2 ^ 62) : (Info.summariesObject b sort ps quart).Within H := by
  have hf : ∀ g : PointRecord → F64, (Props.NoNaN ps → ∀ p ∈ ps, (g p).isNaN = false) →
      (Info.summaryObject (Info.kindF64 sort) (Diff.column g ps) quart).Within H := fun g hg =>
    object_within _ _ fun hq => ⟨Info.lawful_f64 (h hq).1,
      fun x hx => by obtain ⟨p, hp, rfl⟩ := List.mem_map.mp hx; exact hg (h hq).2.1 p hp, by simpa [Diff.column] using (h hq).2.2⟩
  have h32 : ∀ g : PointRecord → UInt32, (Info.summaryObject Info.kindU32 (Diff.column g ps) quart).Within H := fun g =>
    object_within _ _ fun hq => ⟨Info.lawful_u32, fun _ _ => trivial, by simpa [Diff.column] using (h hq).2.2⟩
  have h16 : ∀ g : PointRecord → UInt16, (Info.summaryObject Info.kindU16 (Diff.column g ps) quart).Within H := fun g =>
    object_within _ _ fun hq => ⟨Info.lawful_u16, fun _ _ => trivial, by simpa [Diff.column] using (h hq).2.2⟩
  unfold Info.summariesObject
  refine (hf _ fun hn p hp => (hn p hp).1).bind fun _ _ => (hf _ fun hn p hp => (hn p hp).2.1).bind fun _ _ =>
    (hf _ fun hn p hp => (hn p hp).2.2).bind fun _ _ => (h32 _).bind fun _ _ => (h32 _).bind fun _ _ => (h16 _).bind fun _ _ =>
    (h16 _).bind fun _ _ => (h16 _).bind fun _ _ => (h16 _).bind fun _ _ => (Res.Within.mapM fun k hk => ?_).bind fun _ _ => .of_ok
  obtain ⟨e, he⟩ := sizes_ok hu hk
  rw [(he b).1]
  exact object_within _ _ fun hq => ⟨Info.lawful_u64, fun _ _ => trivial, (he b).2 ▸ (h hq).2.2⟩

theorem summariesText_within {H : Prop} (b : Build) {sort : List F64 → List F64} {ps : List PointRecord} {compact quart : Bool} (hu : Uniform ps)
    (h : quart = true → Info.SortsF64 sort ∧ Props.NoNaN ps ∧ ps.length < 2 ^ 62) :
    (Info.summariesText b sort ps compact quart).Within H := by
  have hf : ∀ (l : Str) (g : PointRecord → F64), (Props.NoNaN ps → ∀ p ∈ ps, (g p).isNaN = false) →
      (Info.summaryString (Info.kindF64 sort) l (Diff.column g ps) compact quart).Within H := fun l g hg =>
    string_within _ _ _ _ fun hq => ⟨Info.lawful_f64 (h hq).1,
      fun x hx => by obtain ⟨p, hp, rfl⟩ := List.mem_map.mp hx; exact hg (h hq).2.1 p hp, by simpa [Diff.column] using (h hq).2.2⟩
  have h32 : ∀ (l : Str) (g : PointRecord → UInt32), (Info.summaryString Info.kindU32 l (Diff.column g ps) compact quart).Within H := fun l g =>
    string_within _ _ _ _ fun hq => ⟨Info.lawful_u32, fun _ _ => trivial, by simpa [Diff.column] using (h hq).2.2⟩
  have h16 : ∀ (l : Str) (g : PointRecord → UInt16), (Info.summaryString Info.kindU16 l (Diff.column g ps) compact quart).Within H := fun l g =>
    string_within _ _ _ _ fun hq => ⟨Info.lawful_u16, fun _ _ => trivial, by simpa [Diff.column] using (h hq).2.2⟩
  unfold Info.summariesText
  refine (hf _ _ fun hn p hp => (hn p hp).1).bind fun _ _ => (hf _ _ fun hn p hp => (hn p hp).2.1).bind fun _ _ =>
    (hf _ _ fun hn p hp => (hn p hp).2.2).bind fun _ _ => (h32 _ _).bind fun _ _ => (h32 _ _).bind fun _ _ => (h16 _ _).bind fun _ _ =>
    (h16 _ _).bind fun _ _ => (h16 _ _).bind fun _ _ => (h16 _ _).bind fun _ _ => (Res.Within.mapM fun k hk => ?_).bind fun _ _ => .of_ok
  obtain ⟨e, he⟩ := sizes_ok hu hk
  rw [(he b).1]
  exact string_within _ _ _ _ fun hq => ⟨Info.lawful_u64, fun _ _ => trivial, (he b).2 ▸ (h hq).2.2⟩

theorem metricValues_within {H : Prop} {ps : List PointRecord} (h : ps = [] ∨ (Props.AllFinite ps ∧ GridFits (Extent.ofPoints ps) F64.one)) :
    (Info.metricValues ps).Within H := by
  unfold Info.metricValues
  refine Res.Within.bind ?_ fun _ _ => .of_ok
  rcases h with rfl | ⟨h1, h2⟩
  · exact .of_ok
  · obtain ⟨vs, hvs, -⟩ := Props.c22_voxel_indexes ps F64.one h1 (by decide) (by decide +kernel) h2
    exact .inl ⟨vs, hvs⟩

theorem getHeader_within {H : Prop} (f : SpocFile) : (f.getHeader).Within H := .of_tame (getHeader_tame f)

theorem uniform_of_valid {f : SpocFile} (h : f.isValid = true) : Uniform f.prs := fun p hp q hq => by
  rw [(isValid_iff f).mp h p hp, (isValid_iff f).mp h q hq]

theorem valid_of_uniform {f : SpocFile} (h : Uniform f.prs) : f.isValid = true := by
  rw [isValid_iff]
  intro q hq
  rw [extraFields_eq]
  cases hp : f.prs with
  | nil => rw [hp] at hq; simp at hq
  | cons p r => exact h q hq p (by rw [hp]; simp)

theorem infoProcess_within {H : Prop} (b : Build) {sort : List F64 → List F64} {a : Info.Args} {f : SpocFile} (hv : f.isValid = true)
    (h : InfoFits sort a.quartiles a.metricInfo f.prs) : (Info.process b sort a f).Within H := by
  have hu := uniform_of_valid hv
  unfold Info.process
  split
  · refine Res.Within.bind ?_ fun _ _ => .of_ok
    unfold Info.document
    refine Res.Within.bind ?_ fun _ _ => Res.Within.bind ?_ fun _ _ => Res.Within.bind ?_ fun _ _ => Res.Within.bind ?_ fun _ _ => .of_ok
    · unfold Info.section'
      exact ite_within (((getHeader_within f).bind fun _ _ => .of_ok).bind fun _ _ => .of_ok) .of_ok
    · unfold Info.section'
      exact ite_within ((summariesObject_within b hu h.1).bind fun _ _ => .of_ok) .of_ok
    · unfold Info.section'
      exact ite_within .of_ok .of_ok
    · unfold Info.section'
      split
      · rename_i hm
        exact ((metricValues_within (h.2 hm)).bind fun _ _ => .of_ok).bind fun _ _ => .of_ok
      · exact .of_ok
  · refine Res.Within.bind ?_ fun _ _ => Res.Within.bind ?_ fun _ _ => Res.Within.bind ?_ fun _ _ => Res.Within.bind ?_ fun _ _ => .of_ok
    · unfold Info.sectionText
      exact ite_within ((getHeader_within f).bind fun _ _ => .of_ok) .of_ok
    · unfold Info.sectionText
      exact ite_within (summariesText_within b hu h.1) .of_ok
    · unfold Info.sectionText
      refine ite_within ?_ .of_ok
      unfold Info.classesText
      refine (Res.Within.mapM fun e _ => ?_).bind fun _ _ => .of_ok
      refine Res.Within.bind ?_ fun _ _ => .of_ok
      unfold Info.className
      repeat' split
      all_goals first | exact .of_ok | exact .of_throw
    · unfold Info.sectionText
      split
      · rename_i hm
        unfold Info.metricsText
        refine (metricValues_within (h.2 hm)).bind fun _ _ => (Res.Within.mapM fun e _ => ?_).bind fun _ _ => .of_ok
        split
        · exact .of_throw
        · exact .of_ok
      · exact .of_ok

theorem processAll_within {H : Prop} (b : Build) (z : Zlib) {sort : List F64 → List F64} {a : Info.Args} (ss : List (Option IStream))
    (hH : ∀ s, some s ∈ ss → Endless s → H)
    (h : ∀ s, some s ∈ ss → ∀ f, Apps.fileOf (readFile b z s) = .ok f → InfoFits sort a.quartiles a.metricInfo f.prs) :
    (Info.processAll b z sort a ss).2.Within H := by
  induction ss with
  | nil => exact .of_ok
  | cons s ss ih =>
    cases s with
    | none => exact .of_throw
    | some s =>
      unfold Info.processAll
      have hw : (Apps.fileOf (readFile b z s) >>= Info.process b sort a).Within H :=
        ((read_within b z s).mono (hH s (by simp))).bind fun f hf => infoProcess_within b (read_valid hf) (h s (by simp) f hf)
      rcases hw with ⟨t, e⟩ | ⟨t, e⟩ | ⟨e, k⟩
      · rw [e]
        exact ih (fun s hs => hH s (by simp [hs])) fun s hs => h s (by simp [hs])
      · rw [e]
        exact .of_throw
      · rw [e]
        exact .of_hang k

theorem info_within (b : Build) (z : Zlib) (sort : List F64 → List F64) (argv : List Str) (w : Main.World)
    (h : ∀ a, Info.getArgs ((Cmd.info.options argv).map (·.1)) {} = .ok a → ∀ s, Input w s → ∀ f, Apps.fileOf (readFile b z s) = .ok f →
      InfoFits sort a.quartiles a.metricInfo f.prs) : (Main.info b z sort argv w).res.Within (SomeEndless w) := by
  unfold Main.info
  refine Res.Within.zero ?_
  unfold Info.main
  rcases infoArgs_within (H := False) ((Cmd.info.options argv).map (·.1)) {} with ⟨a, e⟩ | ⟨t, e⟩ | ⟨-, k⟩
  · rw [e]
    dsimp only
    split
    · exact .of_ok
    split
    · exact .of_ok
    split
    · refine processAll_within b z _ (fun s hs he => ?_) fun s hs => h a e s ?_
      all_goals
        have hs : s = w.stdin := by simpa using hs
      · exact ⟨s, .inl hs, he⟩
      · exact .inl hs
    · have key : ∀ s, some s ∈ (Cmd.info.operands argv).map (Main.openRead w.fs) → Input w s := by
        intro s hs
        obtain ⟨n, -, hn⟩ := List.mem_map.mp hs
        exact openRead_input hn
      exact processAll_within b z _ (fun s hs he => ⟨s, key s hs, he⟩) fun s hs => h a e s (key s hs)
  · rw [e]
    exact .of_throw
  · exact k.elim

/-! ## tile -/

/-- the tile sizes that the points fit -/
def TileFits (a : Tile.Args) (ps : List PointRecord) : Prop :=
  ∀ sx sy, Tile.tileSizes a (Extent.ofPoints ps) = .ok (sx, sy) →
    (ps = [] ∧ F64.gt sx F64.zero = false) ∨ (ps ≠ [] ∧ Props.AllFinite ps ∧ sx.isFinite = true ∧ sy.isFinite = true
    ∧ FewCells sx (Extent.ofPoints ps).minp.x (Extent.ofPoints ps).maxp.x
    ∧ FewCells sy (Extent.ofPoints ps).minp.y (Extent.ofPoints ps).maxp.y)

theorem tileSizes_within {H : Prop} (a : Tile.Args) (e : Extent) : (Tile.tileSizes a e).Within H := by
  unfold Tile.tileSizes
  dsimp only
  repeat' split
  all_goals first | exact .of_ok | exact .of_throw

theorem writeTile_within {H : Prop} (b : Build) (z : Zlib) (cc : Str → Bool) (force : Bool) (fs : Tile.FS) (n : Str) {t : SpocFile}
    (h : t.isValid = true) : (Tile.writeTile b z cc force fs n t).2.Within H := by
  unfold Tile.writeTile
  split
  · exact .of_throw
  split
  · exact .of_throw
  · exact write_within b z h

theorem writeTiles_within {H : Prop} (b : Build) (z : Zlib) (cc : Str → Bool) (force : Bool) (name : UInt64 → Str) {f : SpocFile}
    (hu : Uniform f.prs) (idx : List UInt64) (hl : idx.length = f.prs.length) (ks : List UInt64) (hk : ∀ k ∈ ks, k ∈ idx) (fs : Tile.FS) :
    (Tile.writeTiles b z cc force name f (Tile.getTileMap idx) ks fs).2.Within H := by
  induction ks generalizing fs with
  | nil => exact .of_ok
  | cons k ks ih =>
    unfold Tile.writeTiles
    rw [(Tile.tileFile_eq b f hu idx hl k (hk k (by simp))).1]
    dsimp only
    have hv : SpocFile.isValid { SpocFile.empty with wkt := f.wkt, compressed := f.compressed, prs := pointsNumbered f.prs idx k } = true :=
      valid_of_uniform fun p hp q hq => hu p ((Tile.pointsNumbered_sublist f.prs idx k).subset hp) q
        ((Tile.pointsNumbered_sublist f.prs idx k).subset hq)
    have hw := writeTile_within (H := H) b z cc force fs (name k) hv
    split
    · exact ih (fun k' hk' => hk k' (by simp [hk'])) _
    · rename_i r hr e
      rw [e] at hw
      exact hw

theorem tileAll_within {H : Prop} (z : Zlib) (cc : Str → Bool) {a : Tile.Args} {f : SpocFile} (hv : f.isValid = true) (h : TileFits a f.prs)
    (fs : Tile.FS) : (Tile.tileAll .release z cc a f fs).2.Within H := by
  have hu := uniform_of_valid hv
  unfold Tile.tileAll
  rcases tileSizes_within (H := False) a (Extent.ofPoints f.prs) with ⟨⟨sx, sy⟩, e⟩ | ⟨t, e⟩ | ⟨-, k⟩
  · obtain ⟨idx, hi, hl⟩ : ∃ idx, Tile.getTileIndexes f.prs (Extent.ofPoints f.prs) sx sy = .ok idx ∧ idx.length = f.prs.length := by
      rcases h sx sy e with ⟨h0, h1⟩ | ⟨h0, hf, h1, h2, h3, h4⟩
      · refine ⟨[], ?_, by rw [h0]; rfl⟩
        rw [h0]
        unfold Tile.getTileIndexes Tile.getStride
        rw [h1]
        have : F64.toU64 F64.one = .ok 1 := by decide +kernel
        simp only [Bool.false_eq_true, if_false, this]
        rfl
      · obtain ⟨idx, hi, hl, -⟩ := Props.c44_same_tile f.prs h0 hf sx sy h1 h2 h3 h4
        exact ⟨idx, hi, hl⟩
    simp only [e, Res.ok_bind, hi, cassert]
    exact writeTiles_within .release z cc _ _ hu idx hl _ (fun k hk => (Tile.sortedKeys_spec idx).2 k |>.mp hk) fs
  · simp only [e, Res.throw_bind]
    exact .of_throw
  · exact k.elim

theorem tile_within (z : Zlib) (argv : List Str) (w : Main.World)
    (h : ∀ a, Tile.getArgs (Cmd.tile.options argv) {} = .ok a → ∀ s, Input w s → ∀ f, Apps.fileOf (readFile .release z s) = .ok f →
      TileFits a f.prs) : (Main.tile .release z argv w).res.Within (SomeEndless w) := by
  have h0 : (Main.withOperands (Tile.getArgs (Cmd.tile.options argv) {}) (·.help) [] (Cmd.one (Cmd.tile.operands argv))).Within
      (SomeEndless w) := withOperands_within (tileArgs_within _ _) (one_within _)
  unfold Main.tile
  split
  · rename_i a fn _
    split
    · exact .of_ok
    · refine Res.Within.zero ?_
      unfold Tile.main
      rcases tileArgs_within (H := False) (Cmd.tile.options argv) {} with ⟨a, e⟩ | ⟨t, e⟩ | ⟨-, k⟩
      · rw [e]
        dsimp only
        split
        · exact .of_ok
        split
        · exact .of_throw
        · have hin : ∀ s, (if fn.isEmpty = true then Res.ok w.stdin
              else match w.fs fn with
                | some f => if f.readable = true then .ok { rest := f.content } else .throw "Could not open file for reading"
                | none => .throw "Could not open file for reading") = .ok s → Input w s := by
            intro s hs
            split at hs
            · cases hs
              exact .inl rfl
            · split at hs
              · rename_i f hf
                split at hs
                · cases hs
                  exact .inr ⟨_, f, hf, rfl⟩
                · exact absurd hs (by simp)
              · exact absurd hs (by simp)
          have hr : (do Apps.fileOf (Io.readFile .release z (← (if fn.isEmpty = true then Res.ok w.stdin
              else match w.fs fn with
                | some f => if f.readable = true then .ok { rest := f.content } else .throw "Could not open file for reading"
                | none => .throw "Could not open file for reading" : Res IStream)))).Within (SomeEndless w) := by
            refine Res.Within.bind ?_ fun s hs => (read_within _ z s).mono fun he => ⟨s, hin s hs, he⟩
            split
            · exact .of_ok
            · split
              · split
                · exact .of_ok
                · exact .of_throw
              · exact .of_throw
          split
          · rename_i f hf
            obtain ⟨s, hs, hf⟩ := Res.bind_eq_ok.mp hf
            have hh := h a e s (hin s hs) f hf
            exact tileAll_within (a := { a with fn := fn }) z _ (read_valid hf) hh _
          · rename_i hn
            exact hr.tileFailWith hn
      · rw [e]
        exact .of_throw
      · exact k.elim
  · rename_i hn
    exact h0.failWith fun ⟨a, i⟩ => hn a i

end AppSafe

end Spoc
