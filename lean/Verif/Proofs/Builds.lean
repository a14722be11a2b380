import Verif.Model.Main
import Verif.Model.Examples
import Verif.Model.FileOps
import Verif.Model.RadiusSearch
import Verif.Model.Utils

/-!
# Debug build and release build

Either a check fails in the debug build, or both builds do the same.
-/

namespace Spoc

/-- A check has failed: `assert`, or, if `c` is set, one of the macros of `contracts.h`. -/
def Res.Stopped {α : Type} (c : Bool) (x : Res α) : Prop := x = .abort ∨ (c = true ∧ x = .throw "Contract failed")

/-- The first stops at a check, or both are the same. -/
def Res.Agree {α : Type} (c : Bool) (d r : Res α) : Prop := d.Stopped c ∨ d = r

def Out.Agree {α : Type} (c : Bool) (d r : Out α) : Prop := d.res.Stopped c ∨ d = r

def pairAgree {σ α : Type} (c : Bool) (d r : σ × Res α) : Prop := d.2.Stopped c ∨ d = r

namespace Res

variable {c : Bool} {α β γ : Type}

theorem Agree.refl (x : Res α) : x.Agree c x := .inr rfl

theorem Agree.abort (y : Res α) : Res.abort.Agree c y := .inl (.inl rfl)

theorem Agree.bind {x y : Res α} {f g : α → Res β} (h : x.Agree c y) (h' : ∀ a, (f a).Agree c (g a)) : (x >>= f).Agree c (y >>= g) := by
  rcases h with (rfl | ⟨hc, rfl⟩) | rfl
  · exact .inl (.inl rfl)
  · exact .inl (.inr ⟨hc, rfl⟩)
  · cases x with
    | ok a => exact h' a
    | _ => exact .inr rfl

theorem Agree.cassert (a : Bool) : (cassert .debug a).Agree c (cassert .release a) := by
  cases a
  · exact .inl (.inl rfl)
  · exact .inr rfl

theorem Agree.require (a : Bool) : (require .debug a).Agree true (require .release a) := by
  cases a
  · exact .inl (.inr ⟨rfl, rfl⟩)
  · exact .inr rfl

theorem Agree.mapM {l : List α} {f g : α → Res β} (h : ∀ a, (f a).Agree c (g a)) : (l.mapM f).Agree c (l.mapM g) := by
  induction l with
  | nil => simp only [List.mapM_nil]; exact .refl _
  | cons a l ih =>
    rw [List.mapM_cons, List.mapM_cons]
    exact .bind (h a) fun _ => .bind ih fun _ => .refl _

theorem Agree.foldlM {l : List α} {f g : β → α → Res β} {b : β} (h : ∀ b a, (f b a).Agree c (g b a)) :
    (l.foldlM f b).Agree c (l.foldlM g b) := by
  induction l generalizing b with
  | nil => simp only [List.foldlM_nil]; exact .refl _
  | cons a l ih =>
    rw [List.foldlM_cons, List.foldlM_cons]
    exact .bind (h b a) fun _ => ih

theorem Agree.ite {q : Prop} [Decidable q] {x y x' y' : Res α} (h : x.Agree c x') (h' : y.Agree c y') :
    (if q then x else y).Agree c (if q then x' else y') := by
  split
  · exact h
  · exact h'

end Res

namespace Out

variable {c : Bool} {α β : Type}

theorem Agree.refl (x : Out α) : x.Agree c x := .inr rfl

theorem Agree.lift {x y : Res α} (h : x.Agree c y) : (Out.lift x).Agree c (Out.lift y) := by
  rcases h with h | rfl
  · exact .inl h
  · exact .inr rfl

theorem Agree.bind {x y : Out α} {f g : α → Out β} (h : x.Agree c y) (h' : ∀ a, (f a).Agree c (g a)) : (x >>= f).Agree c (y >>= g) := by
  rcases h with h | rfl
  · left
    show (Out.bind x f).res.Stopped c
    unfold Out.bind
    rcases h with h | ⟨hc, h⟩ <;> rw [h]
    · exact .inl rfl
    · exact .inr ⟨hc, rfl⟩
  · show (Out.bind x f).Agree c (Out.bind x g)
    unfold Out.bind
    cases x.res with
    | ok a =>
      rcases h' a with h | h
      · exact .inl h
      · exact .inr (by dsimp only; rw [h])
    | _ => exact .inr rfl

theorem Agree.ite {q : Prop} [Decidable q] {x y x' y' : Out α} (h : x.Agree c x') (h' : y.Agree c y') :
    (if q then x else y).Agree c (if q then x' else y') := by
  split
  · exact h
  · exact h'

end Out

open Lean.Parser.Tactic in
/-- Compare the two builds along the structure of a program. -/
syntax "builds" : tactic

macro_rules
  | `(tactic| builds) => `(tactic|
    repeat' (first
      | with_reducible exact Res.Agree.refl _
      | with_reducible exact Out.Agree.refl _
      | assumption
      | with_reducible exact Res.Agree.abort _
      | with_reducible exact Res.Agree.cassert _
      | with_reducible exact Res.Agree.require _
      | with_reducible apply Res.Agree.bind
      | with_reducible apply Out.Agree.bind
      | with_reducible apply Out.Agree.lift
      | with_reducible apply Res.Agree.mapM
      | with_reducible apply Res.Agree.foldlM
      | with_reducible apply Res.Agree.ite
      | with_reducible apply Out.Agree.ite
      | intro _
      | split))

variable {c : Bool}

/-! ## The library -/

theorem copyRecords_agree (ef i : Nat) (buf : Bytes) (k j : Nat) (p : List PointRecord) :
    (Io.copyRecords .debug ef i buf k j p).Agree c (Io.copyRecords .release ef i buf k j p) := by
  induction k generalizing j p with
  | zero => exact .refl _
  | succ k ih =>
    unfold Io.copyRecords
    builds
    all_goals exact ih _ _

theorem readLoop_agree (ef total fuel i : Nat) (buf : Bytes) (p : List PointRecord) (s : IStream) :
    (Io.readLoop .debug ef total fuel i buf p s).Agree c (Io.readLoop .release ef total fuel i buf p s) := by
  induction fuel generalizing i buf p s with
  | zero => exact .refl _
  | succ k ih =>
    unfold Io.readLoop
    builds
    all_goals first
      | exact copyRecords_agree ..
      | exact ih ..

theorem readFileUncompressed_agree (s : IStream) : (Io.readFileUncompressed .debug s).Agree c (Io.readFileUncompressed .release s) := by
  unfold Io.readFileUncompressed
  builds
  all_goals exact readLoop_agree ..

theorem readFile_agree (zl : Zlib) (s : IStream) : (Io.readFile .debug zl s).Agree c (Io.readFile .release zl s) := by
  unfold Io.readFile
  builds
  all_goals exact readLoop_agree ..

theorem fileOf_agree {x y : Res (SpocFile × IStream)} (h : x.Agree c y) : (Apps.fileOf x).Agree c (Apps.fileOf y) := by
  unfold Apps.fileOf
  builds

theorem writeFileUncompressed_agree (f : SpocFile) : (Io.writeFileUncompressed .debug f).Agree true (Io.writeFileUncompressed .release f) := by
  unfold Io.writeFileUncompressed
  builds

theorem writeFileCompressed_agree (zl : Zlib) (f : SpocFile) :
    (Io.writeFileCompressed .debug zl f).Agree true (Io.writeFileCompressed .release zl f) := by
  unfold Io.writeFileCompressed
  builds

theorem writeFile_agree (zl : Zlib) (f : SpocFile) : (Io.writeFile .debug zl f).Agree true (Io.writeFile .release zl f) := by
  unfold Io.writeFile
  builds
  all_goals first
    | exact writeFileCompressed_agree ..
    | exact writeFileUncompressed_agree ..

theorem getPointRecord_agree (f : SpocFile) (i : Nat) : (f.getPointRecord .debug i).Agree c (f.getPointRecord .release i) := by
  unfold SpocFile.getPointRecord
  builds

theorem setPointRecord_agree (f : SpocFile) (i : Nat) (q : PointRecord) :
    (f.setPointRecord .debug i q).Agree true (f.setPointRecord .release i q) := by
  unfold SpocFile.setPointRecord
  builds

theorem rescale_agree (ps : List (Pt F64)) (e : Extent) : (Extent.rescale .debug ps e).Agree c (Extent.rescale .release ps e) := by
  unfold Extent.rescale
  builds

theorem restore_agree (ps : List (Pt UInt64)) (e : Extent) : (Extent.restore .debug ps e).Agree c (Extent.restore .release ps e) := by
  unfold Extent.restore
  builds

theorem decodePoints_agree (bs : Bytes) : (Pt.decodePoints .debug bs).Agree c (Pt.decodePoints .release bs) := by
  unfold Pt.decodePoints
  builds

section

variable {α : Type} [HasXYZ α]

theorem quantize_agree (ps : List α) (x : F64) : (Utils.quantize .debug ps x).Agree true (Utils.quantize .release ps x) := by
  unfold Utils.quantize
  builds

theorem subsampleIndexes_agree (sh : Subsampling.Shuffle) (ps : List α) (res : F64) (seed : Nat) :
    (Subsampling.subsampleIndexes .debug sh ps res seed).Agree c (Subsampling.subsampleIndexes .release sh ps res seed) := by
  unfold Subsampling.subsampleIndexes Subsampling.stepVoxel
  builds

theorem uniqueXyzIndexes_agree (sh : Subsampling.Shuffle) (ps : List α) (seed : Nat) :
    (Subsampling.uniqueXyzIndexes .debug sh ps seed).Agree c (Subsampling.uniqueXyzIndexes .release sh ps seed) := by
  unfold Subsampling.uniqueXyzIndexes Subsampling.stepXyz
  builds

theorem subsamplePoints_agree (sh : Subsampling.Shuffle) (ps : List α) (res : F64) (seed : Nat) :
    (Subsampling.subsamplePoints .debug sh ps res seed).Agree c (Subsampling.subsamplePoints .release sh ps res seed) := by
  unfold Subsampling.subsamplePoints
  builds
  all_goals exact subsampleIndexes_agree ..

theorem choose_agree (n : Nat) (rest : List Nat) (i j k : Nat) :
    (RadiusSearch.choose .debug n rest i j k).Agree c (RadiusSearch.choose .release n rest i j k) := by
  induction rest generalizing i j k with
  | nil =>
    unfold RadiusSearch.choose
    split
    · exact .inl (.inl rfl)
    · exact .refl _
  | cons d rest ih =>
    unfold RadiusSearch.choose
    dsimp only
    split
    · exact ih ..
    · exact .refl _

theorem draw_agree (rng : Nat → Nat → Nat) (s : RadiusSearch.Selector) : (s.draw .debug rng).Agree c (s.draw .release rng) := by
  unfold RadiusSearch.Selector.draw
  builds
  all_goals exact choose_agree ..

theorem neighborsLoop_agree (rng : Nat → Nat → Nat) (i : Nat) (points : List α) (pis nis : List Nat) (radius : F64) (m fuel : Nat)
    (s : RadiusSearch.Selector) (l : List Nat) :
    (RadiusSearch.neighborsLoop .debug rng i points pis nis radius m fuel s l).Agree c
      (RadiusSearch.neighborsLoop .release rng i points pis nis radius m fuel s l) := by
  induction fuel generalizing s l with
  | zero => unfold RadiusSearch.neighborsLoop; builds
  | succ k ih =>
    unfold RadiusSearch.neighborsLoop
    builds
    all_goals first
      | exact draw_agree ..
      | exact ih ..

theorem search_agree (rng : Nat → Nat → Nat) (points : List α) (pis nis : List Nat) (radius : F64) (m : Nat) :
    (RadiusSearch.search .debug rng points pis nis radius m).Agree c (RadiusSearch.search .release rng points pis nis radius m) := by
  unfold RadiusSearch.search RadiusSearch.getNeighbors
  builds
  all_goals exact neighborsLoop_agree ..

end

/-! ## The applications -/

theorem consumeFieldName_agree (s : Str) : (AppUtils.consumeFieldName .debug s).Agree c (AppUtils.consumeFieldName .release s) := by
  unfold AppUtils.consumeFieldName
  builds

theorem getExtra_agree (k : Nat) (ps : List PointRecord) : (Diff.getExtra .debug k ps).Agree c (Diff.getExtra .release k ps) := by
  unfold Diff.getExtra
  builds

theorem eqExtras_agree (ps qs : List PointRecord) (n : Nat) : (Diff.eqExtras .debug ps qs n).Agree c (Diff.eqExtras .release ps qs n) := by
  unfold Diff.eqExtras
  builds
  all_goals exact getExtra_agree ..

theorem eqData_agree (ps qs : List PointRecord) : (Diff.eqData .debug ps qs).Agree c (Diff.eqData .release ps qs) := by
  unfold Diff.eqData
  builds
  all_goals exact eqExtras_agree ..

theorem eqField_agree (ps qs : List PointRecord) (n : Char) : (Diff.eqField .debug ps qs n).Agree c (Diff.eqField .release ps qs n) := by
  unfold Diff.eqField
  builds
  all_goals exact getExtra_agree ..

theorem eqFields_agree (ps qs : List PointRecord) (cs : Str) : (Diff.eqFields .debug ps qs cs).Agree c (Diff.eqFields .release ps qs cs) := by
  induction cs with
  | nil => exact .refl _
  | cons c cs ih =>
    unfold Diff.eqFields
    builds
    all_goals exact eqField_agree ..

theorem diff_agree (f g : SpocFile) (h d : Bool) (fields : Str) (r : Bool) :
    (Diff.diff .debug f g h d fields r).Agree c (Diff.diff .release f g h d fields r) := by
  unfold Diff.diff
  builds
  all_goals first
    | exact eqData_agree ..
    | exact eqFields_agree ..

theorem diffMain_agree (zl : Zlib) (o : List (String × Str)) (s t : Option IStream) :
    (Diff.main .debug zl o s t).Agree c (Diff.main .release zl o s t) := by
  unfold Diff.main
  builds
  all_goals first
    | exact fileOf_agree (readFile_agree ..)
    | exact diff_agree ..

theorem stage_agree {on : Bool} {d r : SpocFile → Res SpocFile} (h : ∀ f, (d f).Agree c (r f)) (f : SpocFile) :
    (Filter.stage on d f).Agree c (Filter.stage on r f) := by
  unfold Filter.stage
  builds
  all_goals exact h f

theorem filterProcess_agree (sh : Subsampling.Shuffle) (a : Filter.Args) (f : SpocFile) :
    (Filter.process .debug sh a f).Agree c (Filter.process .release sh a f) := by
  have h1 : ∀ seed f, (Filter.uniqueXyz .debug sh f seed).Agree c (Filter.uniqueXyz .release sh f seed) := by
    intro seed f
    unfold Filter.uniqueXyz
    builds
    all_goals exact uniqueXyzIndexes_agree ..
  have h2 : ∀ seed x f, (Filter.subsampleFile .debug sh f x seed).Agree c (Filter.subsampleFile .release sh f x seed) := by
    intro seed x f
    unfold Filter.subsampleFile
    builds
    all_goals exact subsamplePoints_agree ..
  unfold Filter.process
  builds
  all_goals first
    | exact stage_agree (h1 _) _
    | exact stage_agree (h2 _ _) _

theorem summariesObject_agree (sort : List F64 → List F64) (ps : List PointRecord) (q : Bool) :
    (Info.summariesObject .debug sort ps q).Agree c (Info.summariesObject .release sort ps q) := by
  unfold Info.summariesObject
  builds
  all_goals exact getExtra_agree ..

theorem summariesText_agree (sort : List F64 → List F64) (ps : List PointRecord) (m q : Bool) :
    (Info.summariesText .debug sort ps m q).Agree c (Info.summariesText .release sort ps m q) := by
  unfold Info.summariesText
  builds
  all_goals exact getExtra_agree ..

theorem infoProcess_agree (sort : List F64 → List F64) (a : Info.Args) (f : SpocFile) :
    (Info.process .debug sort a f).Agree c (Info.process .release sort a f) := by
  unfold Info.process Info.document Info.section' Info.sectionText
  builds
  all_goals first
    | exact summariesObject_agree ..
    | exact summariesText_agree ..

/-- Take a pair apart. -/
theorem pairAgree.refl {σ α : Type} (x : σ × Res α) : pairAgree c x x := .inr rfl

theorem processAll_agree (zl : Zlib) (sort : List F64 → List F64) (a : Info.Args) (fs : List (Option IStream)) :
    pairAgree c (Info.processAll .debug zl sort a fs) (Info.processAll .release zl sort a fs) := by
  induction fs with
  | nil => exact .refl _
  | cons x fs ih =>
    cases x with
    | none => exact .refl _
    | some s =>
      unfold Info.processAll
      have h : (Apps.fileOf (Io.readFile .debug zl s) >>= Info.process .debug sort a).Agree c
          (Apps.fileOf (Io.readFile .release zl s) >>= Info.process .release sort a) :=
        .bind (fileOf_agree (readFile_agree ..)) fun f => infoProcess_agree ..
      rcases h with (h | ⟨hc, h⟩) | h
      · rw [h]; exact .inl (.inl rfl)
      · rw [h]; exact .inl (.inr ⟨hc, rfl⟩)
      · rw [h]
        split
        · rcases ih with ih | ih
          · exact .inl ih
          · rw [ih]; exact .refl _
        all_goals exact .refl _

theorem infoMain_agree (zl : Zlib) (sort : List F64 → List F64) (o : List String) (fs : List (Option IStream)) (s : IStream) :
    pairAgree c (Info.main .debug zl sort o fs s) (Info.main .release zl sort o fs s) := by
  unfold Info.main
  repeat' split
  all_goals first
    | exact processAll_agree ..
    | exact .refl _

theorem mergeLoop_agree (zl : Zlib) (a : Merge.Args) (i : Nat) (fs : List (Option IStream)) (st : Merge.State) :
    pairAgree c (Merge.mergeLoop .debug zl a i fs st) (Merge.mergeLoop .release zl a i fs st) := by
  induction fs generalizing i st with
  | nil => exact .refl _
  | cons x fs ih =>
    cases x with
    | none => exact .refl _
    | some s =>
      unfold Merge.mergeLoop
      rcases fileOf_agree (readFile_agree zl s) with (h | ⟨hc, h⟩) | h
      · rw [h]; exact .inl (.inl rfl)
      · rw [h]; exact .inl (.inr ⟨hc, rfl⟩)
      · rw [h]
        split
        · split
          · exact ih ..
          · exact .refl _
        · exact .refl _

theorem mergeMain_agree (zl : Zlib) (o : List (String × Str)) (fs : List (Option IStream)) :
    (Merge.main .debug zl o fs).2.res.Stopped true ∨ Merge.main .debug zl o fs = Merge.main .release zl o fs := by
  unfold Merge.main
  split
  · split
    · exact .inr rfl
    · split
      · exact .inr rfl
      · split
        · exact .inr rfl
        · rename_i a _ _ _ _
          rcases mergeLoop_agree zl a 0 fs { g := SpocFile.empty.setCompressed true, areaSum := F64.zero, log := [] } with h | h
          · generalize Merge.mergeLoop .debug zl a 0 fs _ = x at h
            obtain ⟨st, r⟩ := x
            rcases h with h | ⟨hc, h⟩ <;> dsimp only at h <;> subst h
            · exact .inl (.inl rfl)
            · exact .inl (.inr ⟨hc, rfl⟩)
          · rw [h]
            split
            · rename_i st _
              rcases writeFile_agree zl st.g with h | h
              · exact .inl h
              · exact .inr (by rw [h])
            · exact .inr rfl
  · exact .inr rfl

theorem tileFile_agree (f : SpocFile) (m : Tile.TileMap) (k : UInt64) : (Tile.tileFile .debug f m k).Agree c (Tile.tileFile .release f m k) := by
  unfold Tile.tileFile
  builds
  all_goals exact getPointRecord_agree ..

theorem tileFailWith_stopped {α β : Type} {x : Res α} (h : x.Stopped c) : (Tile.failWith x : Res β).Stopped c := by
  rcases h with rfl | ⟨hc, rfl⟩
  · exact .inl rfl
  · exact .inr ⟨hc, rfl⟩

theorem writeTile_agree (zl : Zlib) (c : Str → Bool) (force : Bool) (fs : Tile.FS) (name : Str) (t : SpocFile) :
    pairAgree true (Tile.writeTile .debug zl c force fs name t) (Tile.writeTile .release zl c force fs name t) := by
  unfold Tile.writeTile
  split
  · exact .refl _
  · split
    · exact .refl _
    · rcases writeFile_agree zl t with h | h
      · exact .inl h
      · rw [h]; exact .refl _

theorem writeTiles_agree (zl : Zlib) (c : Str → Bool) (force : Bool) (name : UInt64 → Str) (f : SpocFile) (m : Tile.TileMap)
    (ks : List UInt64) (fs : Tile.FS) :
    pairAgree true (Tile.writeTiles .debug zl c force name f m ks fs) (Tile.writeTiles .release zl c force name f m ks fs) := by
  induction ks generalizing fs with
  | nil => exact .refl _
  | cons k ks ih =>
    unfold Tile.writeTiles
    rcases tileFile_agree f m k with (h | ⟨hc, h⟩) | h
    · rw [h]; exact .inl (.inl rfl)
    · rw [h]; exact .inl (.inr ⟨hc, rfl⟩)
    · rw [h]
      cases Tile.tileFile .release f m k with
      | ok t =>
        dsimp only
        rcases writeTile_agree zl c force fs (name k) t with h | h
        · generalize Tile.writeTile .debug zl c force fs (name k) t = x at h
          obtain ⟨st, r⟩ := x
          rcases h with h | ⟨hc, h⟩ <;> dsimp only at h <;> subst h
          · exact .inl (.inl rfl)
          · exact .inl (.inr ⟨hc, rfl⟩)
        · rw [h]
          split
          · exact ih ..
          · exact .refl _
      | _ => exact .refl _

theorem tileAll_agree (zl : Zlib) (c : Str → Bool) (a : Tile.Args) (f : SpocFile) (fs : Tile.FS) :
    pairAgree true (Tile.tileAll .debug zl c a f fs) (Tile.tileAll .release zl c a f fs) := by
  unfold Tile.tileAll
  dsimp only
  split
  · generalize (!(if a.pre.isEmpty = true then Tile.stem a.fn else a.pre).isEmpty) = q
    cases q
    · exact .inl (.inl rfl)
    · simp only [cassert_true]
      exact writeTiles_agree ..
  · exact .refl _

theorem tileMain_agree (zl : Zlib) (c : Str → Bool) (o : List (String × Str)) (fn : Str) (s : IStream) (fs : Tile.FS) :
    pairAgree true (Tile.main .debug zl c o fn s fs) (Tile.main .release zl c o fn s fs) := by
  unfold Tile.main
  split
  · dsimp only
    split
    · exact .refl _
    · split
      · exact .refl _
      · generalize hin : (if fn.isEmpty = true then Res.ok s else _) = input
        have h : (input >>= fun s => Apps.fileOf (Io.readFile .debug zl s)).Agree true
            (input >>= fun s => Apps.fileOf (Io.readFile .release zl s)) :=
          .bind (.refl _) fun s => fileOf_agree (readFile_agree ..)
        rcases h with (h | ⟨hc, h⟩) | h
        · rw [h]; exact .inl (.inl rfl)
        · rw [h]; exact .inl (.inr ⟨hc, rfl⟩)
        · rw [h]
          split
          · exact tileAll_agree ..
          · exact .refl _
  · exact .refl _

theorem showField_agree (name : Str) (j : Nat) (p : PointRecord) : (Tool.showField .debug name j p).Agree c (Tool.showField .release name j p) := by
  unfold Tool.showField
  builds

theorem getField_agree (f : SpocFile) (name : Str) : (Tool.getField .debug f name).Agree true (Tool.getField .release f name) := by
  unfold Tool.getField
  builds
  all_goals exact showField_agree ..

theorem setInt_agree (name : Str) (j : Nat) (v : UInt64) (p : PointRecord) :
    (Tool.setInt .debug name j v p).Agree c (Tool.setInt .release name j v p) := by
  unfold Tool.setInt
  builds

theorem setField_agree (f : SpocFile) (t : Text.TextIn) (name : Str) : (Tool.setField .debug f t name).Agree true (Tool.setField .release f t name) := by
  unfold Tool.setField
  builds
  all_goals exact setInt_agree ..

theorem assignClass_agree (c : UInt32) (js : List Nat) (h : SpocFile) : (Tool.assignClass .debug c js h).Agree true (Tool.assignClass .release c js h) := by
  induction js generalizing h with
  | nil => exact .refl _
  | cons j js ih =>
    unfold Tool.assignClass
    builds
    all_goals first
      | exact getPointRecord_agree ..
      | exact setPointRecord_agree ..

theorem upsampleLoop_agree (l : SpocFile) (m : Voxel.Map) (vs : List VoxelIndex) (i : Nat) (h : SpocFile) (k : Nat) :
    (Tool.upsampleLoop .debug l m vs i h k).Agree true (Tool.upsampleLoop .release l m vs i h k) := by
  induction vs generalizing i h k with
  | nil => exact .refl _
  | cons v vs ih =>
    unfold Tool.upsampleLoop
    builds
    all_goals first
      | exact ih ..
      | exact getPointRecord_agree ..
      | exact assignClass_agree ..

theorem upsample_agree (l f : SpocFile) (x : F64) : (Tool.upsample .debug l f x).Agree true (Tool.upsample .release l f x) := by
  unfold Tool.upsample
  builds
  all_goals exact upsampleLoop_agree ..

theorem toolRun_agree (zl : Zlib) (files : Tool.Files) (a : Tool.Args) (f : SpocFile) :
    (Tool.run .debug zl files a f).Agree true (Tool.run .release zl files a f) := by
  unfold Tool.run Tool.recenter Tool.resizeExtra Tool.subtractMin
  builds
  all_goals first
    | exact consumeFieldName_agree ..
    | exact setField_agree ..
    | exact fileOf_agree (readFile_agree ..)
    | exact upsample_agree ..

theorem parseCommand_agree (env : Transform.Env) (seed ef : Nat) (k : Transform.Command) :
    (Transform.parseCommand .debug env seed ef k).Agree c (Transform.parseCommand .release env seed ef k) := by
  unfold Transform.parseCommand
  dsimp only
  builds
  all_goals exact consumeFieldName_agree ..

theorem apply_agree (env : Transform.Env) (s : IStream) (cs : List Transform.Command) (seed : Nat) :
    (Transform.apply .debug env s cs seed).Agree true (Transform.apply .release env s cs seed) := by
  unfold Transform.apply Transform.readHeaderUncompressed
  builds
  all_goals exact parseCommand_agree ..

end Spoc
