import Verif.Proofs.BuildsMain
import Verif.Proofs.AppSafe3

/-!
# Where the debug build and the release build are the same
-/

namespace Spoc

open AppSafe

theorem mapM_same {α β : Type} {l : List α} {f g : α → Res β} (h : ∀ a ∈ l, f a = g a) : l.mapM f = l.mapM g := by
  induction l with
  | nil => simp only [List.mapM_nil]
  | cons a l ih =>
    rw [List.mapM_cons, List.mapM_cons, h a (by simp), ih fun a ha => h a (by simp [ha])]

theorem foldlM_same {α β : Type} {l : List α} {f g : β → α → Res β} {b : β} (h : ∀ b, ∀ a ∈ l, f b a = g b a) :
    l.foldlM f b = l.foldlM g b := by
  induction l generalizing b with
  | nil => simp only [List.foldlM_nil]
  | cons a l ih =>
    rw [List.foldlM_cons, List.foldlM_cons, h b a (by simp)]
    congr 1
    funext x
    exact ih fun b a ha => h b a (by simp [ha])

theorem bind_same {α β : Type} {x : Res α} {f g : α → Res β} (h : ∀ a, x = .ok a → f a = g a) : x >>= f = x >>= g := by
  cases x with
  | ok a => exact h a rfl
  | _ => rfl

theorem cassert_same {a : Bool} (h : a = true) : cassert .debug a = cassert .release a := by
  subst h; rfl

/-- No check fails: the two builds are the same. -/
theorem same_of_within {α : Type} {H : Prop} {d r : Res α} (h : d.Agree false r) (hw : d.Within H) : d = r := by
  rcases h with (h | ⟨h, -⟩) | h
  · rcases hw with ⟨a, e⟩ | ⟨a, e⟩ | ⟨e, -⟩ <;> rw [h] at e <;> exact absurd e (by simp)
  · exact absurd h (by decide)
  · exact h

theorem result_same {H : Prop} {d r : Main.Result} (h : Result.Agree false d r) (hw : d.res.Within H) : d = r := by
  rcases h with (h | ⟨h, -⟩) | h
  · rcases hw with ⟨a, e⟩ | ⟨a, e⟩ | ⟨e, -⟩ <;> rw [h] at e <;> exact absurd e (by simp)
  · exact absurd h (by decide)
  · exact h

theorem read_same (z : Zlib) (s : IStream) : Apps.fileOf (Io.readFile .debug z s) = Apps.fileOf (Io.readFile .release z s) :=
  same_of_within (fileOf_agree (readFile_agree z s)) (read_within .debug z s)

/-! ## filter -/

section

variable {α : Type} [HasXYZ α]

theorem order_lt {sh : Subsampling.Shuffle} (hsh : sh.Lawful) {seed n j : Nat} (h : j ∈ Subsampling.order sh seed n) : j < n :=
  List.mem_range.mp ((Subsampling.order_perm hsh seed n).subset h)

theorem subsampleIndexes_same {sh : Subsampling.Shuffle} (hsh : sh.Lawful) (ps : List α) (res : F64) (seed : Nat) :
    Subsampling.subsampleIndexes .debug sh ps res seed = Subsampling.subsampleIndexes .release sh ps res seed := by
  unfold Subsampling.subsampleIndexes
  cases hv : Voxel.getIndexes ps res with
  | ok v =>
    have hl : v.length = ps.length := mapM_length hv
    rw [Res.ok_bind, Res.ok_bind]
    congr 1
    refine foldlM_same fun a j hj => ?_
    have hj := order_lt hsh hj
    unfold Subsampling.stepVoxel
    rw [cassert_same (a := decide (j < ps.length)) (by simpa using hj), cassert_same (a := decide (j < v.length)) (by rw [hl]; simpa using hj)]
  | _ => rfl

theorem subsamplePoints_same {sh : Subsampling.Shuffle} (hsh : sh.Lawful) (ps : List α) (res : F64) (seed : Nat) :
    Subsampling.subsamplePoints .debug sh ps res seed = Subsampling.subsamplePoints .release sh ps res seed := by
  unfold Subsampling.subsamplePoints
  rw [subsampleIndexes_same hsh]

theorem uniqueXyzIndexes_same {sh : Subsampling.Shuffle} (hsh : sh.Lawful) (ps : List α) (seed : Nat) :
    Subsampling.uniqueXyzIndexes .debug sh ps seed = Subsampling.uniqueXyzIndexes .release sh ps seed := by
  unfold Subsampling.uniqueXyzIndexes
  congr 1
  refine foldlM_same fun a j hj => ?_
  have hj := order_lt hsh hj
  unfold Subsampling.stepXyz
  rw [cassert_same (a := decide (j < ps.length)) (by simpa using hj)]

end

theorem filterProcess_same {sh : Subsampling.Shuffle} (hsh : sh.Lawful) (a : Filter.Args) (f : SpocFile) :
    Filter.process .debug sh a f = Filter.process .release sh a f := by
  have h1 : ∀ seed f, Filter.uniqueXyz .debug sh f seed = Filter.uniqueXyz .release sh f seed := fun seed f => by
    unfold Filter.uniqueXyz
    rw [uniqueXyzIndexes_same hsh]
  have h2 : ∀ seed x f, Filter.subsampleFile .debug sh f x seed = Filter.subsampleFile .release sh f x seed := fun seed x f => by
    unfold Filter.subsampleFile
    rw [subsamplePoints_same hsh]
  unfold Filter.process
  simp only [h1, h2]

theorem filter_same (z : Zlib) {sh : Subsampling.Shuffle} (hsh : sh.Lawful) (argv : List Str) (w : Main.World) :
    Main.filter .debug z sh argv w = Main.filter .release z sh argv w := by
  unfold Main.filter
  rcases Main.filterArgs argv with ⟨a, i, o⟩ | _ | _ | _ | _
  rotate_left
  iterate 4 rfl
  dsimp only
  split
  · rfl
  split
  · rfl
  unfold Main.readThenWrite
  have e : (fun s => (do
        let f ← Apps.fileOf (Io.readFile .debug z s)
        Filter.process .debug sh a f)) = (fun s => (do
        let f ← Apps.fileOf (Io.readFile .release z s)
        Filter.process .release sh a f)) := by
    funext s
    rw [read_same]
    congr 1
    funext f
    exact filterProcess_same hsh a f
  rw [e]
  split
  · rename_i f hf
    obtain ⟨s, -, hf⟩ := Res.bind_eq_ok.mp hf
    obtain ⟨f0, h0, h⟩ := Res.bind_eq_ok.mp hf
    rw [write_same z (process_valid (read_valid h0) h)]
  · rfl

/-! ## info -/

theorem infoProcess_same (sort : List F64 → List F64) (a : Info.Args) {f : SpocFile} (hv : f.isValid = true) :
    Info.process .debug sort a f = Info.process .release sort a f := by
  have hu := uniform_of_valid hv
  have h1 : ∀ q, Info.summariesObject .debug sort f.prs q = Info.summariesObject .release sort f.prs q := fun q => by
    unfold Info.summariesObject
    rw [mapM_same (l := List.range (Diff.extraFieldsSize f.prs)) (f := fun k => (do
      let e ← Diff.getExtra .debug k f.prs
      Info.summaryObject Info.kindU64 e q)) (g := fun k => (do
      let e ← Diff.getExtra .release k f.prs
      Info.summaryObject Info.kindU64 e q)) fun k hk => ?_]
    obtain ⟨e, he⟩ := sizes_ok hu hk
    rw [(he .debug).1, (he .release).1]
  have h2 : ∀ m q, Info.summariesText .debug sort f.prs m q = Info.summariesText .release sort f.prs m q := fun m q => by
    unfold Info.summariesText
    rw [mapM_same (l := List.range (Diff.extraFieldsSize f.prs)) (f := fun k => (do
      let e ← Diff.getExtra .debug k f.prs
      Info.summaryString Info.kindU64 ("extra_".toList ++ Text.showNat k ++ ['\t']) e m q)) (g := fun k => (do
      let e ← Diff.getExtra .release k f.prs
      Info.summaryString Info.kindU64 ("extra_".toList ++ Text.showNat k ++ ['\t']) e m q)) fun k hk => ?_]
    obtain ⟨e, he⟩ := sizes_ok hu hk
    rw [(he .debug).1, (he .release).1]
  unfold Info.process Info.document
  rw [h1, h2]

theorem processAll_same (z : Zlib) (sort : List F64 → List F64) (a : Info.Args) (fs : List (Option IStream)) :
    Info.processAll .debug z sort a fs = Info.processAll .release z sort a fs := by
  induction fs with
  | nil => rfl
  | cons x fs ih =>
    cases x with
    | none => rfl
    | some s =>
      have e : (Apps.fileOf (Io.readFile .debug z s) >>= Info.process .debug sort a)
          = (Apps.fileOf (Io.readFile .release z s) >>= Info.process .release sort a) := by
        rw [read_same]
        exact bind_same fun f h => infoProcess_same sort a (read_valid h)
      unfold Info.processAll
      rw [e, ih]

theorem info_same (z : Zlib) (sort : List F64 → List F64) (argv : List Str) (w : Main.World) :
    Main.info .debug z sort argv w = Main.info .release z sort argv w := by
  unfold Main.info Info.main
  simp only [processAll_same]

/-! ## tile -/

theorem writeTiles_same (z : Zlib) (cc : Str → Bool) (force : Bool) (name : UInt64 → Str) {f : SpocFile} (hu : Spec.Uniform f.prs)
    (idx : List UInt64) (hl : idx.length = f.prs.length) (ks : List UInt64) (hk : ∀ k ∈ ks, k ∈ idx) (fs : Tile.FS) :
    Tile.writeTiles .debug z cc force name f (Tile.getTileMap idx) ks fs = Tile.writeTiles .release z cc force name f (Tile.getTileMap idx) ks fs := by
  induction ks generalizing fs with
  | nil => rfl
  | cons k ks ih =>
    unfold Tile.writeTiles
    rw [(Tile.tileFile_eq .debug f hu idx hl k (hk k (by simp))).1, (Tile.tileFile_eq .release f hu idx hl k (hk k (by simp))).1]
    dsimp only
    have hv : SpocFile.isValid { SpocFile.empty with wkt := f.wkt, compressed := f.compressed, prs := Spec.pointsNumbered f.prs idx k } = true :=
      valid_of_uniform fun p hp q hq => hu p ((Tile.pointsNumbered_sublist f.prs idx k).subset hp) q
        ((Tile.pointsNumbered_sublist f.prs idx k).subset hq)
    generalize ({ SpocFile.empty with wkt := f.wkt, compressed := f.compressed, prs := Spec.pointsNumbered f.prs idx k } : SpocFile) = t at hv ⊢
    have e : Tile.writeTile .debug z cc force fs (name k) t = Tile.writeTile .release z cc force fs (name k) t := by
      unfold Tile.writeTile
      rw [write_same z hv]
    rw [e]
    rcases Tile.writeTile .release z cc force fs (name k) t with ⟨fs', r⟩
    cases r with
    | ok u => exact ih (fun k' hk' => hk k' (by simp [hk'])) _
    | _ => rfl

theorem tileAll_same (z : Zlib) (cc : Str → Bool) {a : Tile.Args} (ha : (if a.pre.isEmpty then Tile.stem a.fn else a.pre) ≠ []) {f : SpocFile}
    (hv : f.isValid = true) (fs : Tile.FS) : Tile.tileAll .debug z cc a f fs = Tile.tileAll .release z cc a f fs := by
  have hu := uniform_of_valid hv
  unfold Tile.tileAll
  dsimp only
  rw [cassert_same (by simpa using ha)]
  cases hr : (do
    let (sx, sy) ← Tile.tileSizes a (Extent.ofPoints f.prs)
    let indexes ← Tile.getTileIndexes f.prs (Extent.ofPoints f.prs) sx sy
    Res.ok (Tile.getTileMap indexes)) with
  | ok m =>
    obtain ⟨⟨sx, sy⟩, -, hr⟩ := Res.bind_eq_ok.mp hr
    obtain ⟨idx, hi, hr⟩ := Res.bind_eq_ok.mp hr
    cases hr
    unfold Tile.getTileIndexes at hi
    obtain ⟨st, -, hi⟩ := Res.bind_eq_ok.mp hi
    have hl : idx.length = f.prs.length := mapM_length hi
    dsimp only
    rw [writeTiles_same z cc _ _ hu idx hl _ (fun k hk => (Tile.sortedKeys_spec idx).2 k |>.mp hk) fs]
  | _ => rfl

theorem takeWhile_dot {n : Str} (h : '.' ∈ n) :
    ∃ r, n = r ++ '.' :: (n.reverse.takeWhile (fun c => c ≠ '.')).reverse := by
  have hm : '.' ∈ n.reverse := by simpa using h
  have e := List.takeWhile_append_dropWhile (p := fun c => decide (c ≠ '.')) (l := n.reverse)
  have hd : ∃ r, n.reverse.dropWhile (fun c => decide (c ≠ '.')) = '.' :: r := by
    generalize n.reverse = l at hm
    clear e h
    induction l with
    | nil => exact absurd hm (by simp)
    | cons c l ih =>
      rw [List.dropWhile_cons]
      by_cases hc : c = '.'
      · subst hc
        exact ⟨l, by simp⟩
      · rw [if_pos (by simpa using hc)]
        refine ih ?_
        rcases List.mem_cons.mp hm with hm | hm
        · exact absurd hm.symm hc
        · exact hm
  obtain ⟨r, hr⟩ := hd
  rw [hr] at e
  refine ⟨r.reverse, ?_⟩
  have := congrArg List.reverse e
  rw [List.reverse_reverse, List.reverse_append, List.reverse_cons] at this
  rw [List.append_assoc] at this
  exact this.symm

theorem stem_ne {n : Str} (h : n ≠ []) (hs : n.getLast? ≠ some '/') : Tile.stem n ≠ [] := by
  have hf : Tile.fileName n ≠ [] := by
    unfold Tile.fileName
    intro e
    rw [List.reverse_eq_nil_iff] at e
    cases hr : n.reverse with
    | nil => exact h (by simpa using hr)
    | cons c l =>
      rw [hr, List.takeWhile_cons] at e
      have hc : c = '/' := by
        by_contra hc
        rw [if_pos (by simpa using hc)] at e
        exact absurd e (by simp)
      apply hs
      rw [List.getLast?_eq_head?_reverse, hr, hc]
      rfl
  have hlt : (Tile.extension n).length < (Tile.fileName n).length := by
    have hpos : 0 < (Tile.fileName n).length := List.length_pos_of_ne_nil hf
    unfold Tile.extension
    dsimp only
    split
    · exact hpos
    · rename_i hn
      have hdot : '.' ∈ Tile.fileName n := by
        by_contra hc
        exact hn (.inr (.inr hc))
      split
      · exact hpos
      · rename_i he
        obtain ⟨r, hr⟩ := takeWhile_dot hdot
        have hl := congrArg List.length hr
        rw [List.length_append] at hl
        have hr0 : r ≠ [] := fun h0 => he (by rw [h0] at hr; exact hr.symm)
        have := List.length_pos_of_ne_nil hr0
        omega
  unfold Tile.stem
  intro e
  have := congrArg List.length e
  rw [List.length_take, List.length_nil] at this
  omega

theorem tile_same (z : Zlib) (argv : List Str) (w : Main.World) (h : ∀ n ∈ Cmd.tile.operands argv, n.getLast? ≠ some '/') :
    Main.tile .debug z argv w = Main.tile .release z argv w := by
  unfold Main.tile
  cases hw : Main.withOperands (Tile.getArgs (Cmd.tile.options argv) {}) (·.help) [] (Cmd.one (Cmd.tile.operands argv)) with
  | ok x =>
    obtain ⟨a, fn⟩ := x
    have hfn : fn ≠ [] → fn.getLast? ≠ some '/' := fun h0 => by
      unfold Main.withOperands at hw
      obtain ⟨a', ha, hw⟩ := Res.bind_eq_ok.mp hw
      split at hw
      · cases hw
        exact absurd rfl h0
      · obtain ⟨o, ho, hw⟩ := Res.bind_eq_ok.mp hw
        cases hw
        unfold Cmd.one at ho
        split at ho
        · cases ho
          exact absurd rfl h0
        · cases ho
          rename_i e
          exact h _ (by rw [e]; simp)
        · exact absurd ho (by simp)
    dsimp only
    have e : Tile.main .debug z w.canCreate (Cmd.tile.options argv) fn w.stdin w.fs
        = Tile.main .release z w.canCreate (Cmd.tile.options argv) fn w.stdin w.fs := by
      unfold Tile.main
      split
      · rename_i a ha
        dsimp only
        split
        · rfl
        split
        · rfl
        · rename_i hpre
          generalize (if fn.isEmpty = true then Res.ok w.stdin
            else match w.fs fn with
              | some f => if f.readable = true then .ok { rest := f.content } else .throw "Could not open file for reading"
              | none => .throw "Could not open file for reading") = inp
          have e : (inp >>= fun s => Apps.fileOf (Io.readFile .debug z s)) = (inp >>= fun s => Apps.fileOf (Io.readFile .release z s)) :=
            bind_same fun s _ => read_same z s
          rw [e]
          split
          · rename_i f hf
            obtain ⟨s, -, hf⟩ := Res.bind_eq_ok.mp hf
            refine tileAll_same z w.canCreate ?_ (read_valid hf) w.fs
            dsimp only
            split
            · rename_i hp
              have h0 : fn ≠ [] := fun h0 => hpre (by rw [h0, hp]; rfl)
              exact stem_ne h0 (hfn h0)
            · rename_i hp
              simpa using hp
          · rfl
      · rfl
    rw [e]
  | throw _ => exact rfl
  | ub _ => exact rfl
  | abort => exact rfl
  | hang => exact rfl

end Spoc
