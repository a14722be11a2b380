import Verif.Spec.AppSafe
import Verif.Proofs.IoGeneral
import Verif.Proofs.ResList
import Verif.Proofs.WriteSafe

/-!
# What the applications can end in
-/

namespace Spoc

/-- a value, an exception, or, if `H`, no end -/
def Res.Within {α : Type} (H : Prop) (r : Res α) : Prop := (∃ a, r = .ok a) ∨ (∃ e, r = .throw e) ∨ (r = .hang ∧ H)

namespace Res.Within

variable {α β : Type} {H : Prop}

theorem of_ok {a : α} : (Res.ok a).Within H := .inl ⟨a, rfl⟩
theorem of_throw {e : String} : (Res.throw e : Res α).Within H := .inr (.inl ⟨e, rfl⟩)
theorem of_hang (h : H) : (Res.hang : Res α).Within H := .inr (.inr ⟨rfl, h⟩)

theorem of_tame {r : Res α} (h : r.Tame) : r.Within H := by
  rcases h with h | h
  · exact .inl h
  · exact .inr (.inl h)

theorem mono {K : Prop} {r : Res α} (h : r.Within H) (hk : H → K) : r.Within K := by
  rcases h with h | h | ⟨h, k⟩
  · exact .inl h
  · exact .inr (.inl h)
  · exact .inr (.inr ⟨h, hk k⟩)

theorem bind {x : Res α} {f : α → Res β} (hx : x.Within H) (hf : ∀ a, x = .ok a → (f a).Within H) : (x >>= f).Within H := by
  rcases hx with ⟨a, rfl⟩ | ⟨e, rfl⟩ | ⟨rfl, h⟩
  · exact hf a rfl
  · exact .of_throw
  · exact .of_hang h

theorem mapM {f : α → Res β} {l : List α} (hf : ∀ a ∈ l, (f a).Within H) : (l.mapM f).Within H := by
  induction l with
  | nil => exact .of_ok
  | cons a l ih =>
    rw [List.mapM_cons]
    exact (hf a (by simp)).bind fun _ _ => (ih fun c hc => hf c (by simp [hc])).bind fun _ _ => .of_ok

theorem foldlM {f : β → α → Res β} {l : List α} {b : β} (P : β → Prop) (hb : P b)
    (hf : ∀ b, P b → ∀ a ∈ l, (f b a).Within H ∧ ∀ c, f b a = .ok c → P c) : (l.foldlM f b).Within H := by
  induction l generalizing b with
  | nil => exact .of_ok
  | cons a l ih =>
    rw [List.foldlM_cons]
    exact (hf b hb a (by simp)).1.bind fun c hc =>
      ih ((hf b hb a (by simp)).2 c hc) fun b hb a ha => hf b hb a (by simp [ha])

theorem require {b : Build} {c : Bool} : (Spoc.require b c).Within H := of_tame (Io.require_tame b c)

theorem cassert_release {c : Bool} : (Spoc.cassert .release c).Within H := of_ok

theorem zero {r : Res Unit} (h : r.Within H) : (Main.zero r).Within H := h.bind fun _ _ => .of_ok

/-- giving up with the outcome of `r`, which is not a normal one -/
theorem failWith {r : Res α} (h : r.Within H) (hr : ∀ a, r ≠ .ok a) : (Main.failWith r : Res β).Within H := by
  rcases h with ⟨a, rfl⟩ | ⟨e, rfl⟩ | ⟨rfl, h⟩
  · exact absurd rfl (hr a)
  · exact .of_throw
  · exact .of_hang h

theorem mergeFailWith {r : Res α} (h : r.Within H) (hr : ∀ a, r ≠ .ok a) : (Merge.failWith r : Res β).Within H := by
  rcases h with ⟨a, rfl⟩ | ⟨e, rfl⟩ | ⟨rfl, h⟩
  · exact absurd rfl (hr a)
  · exact .of_throw
  · exact .of_hang h

theorem tileFailWith {r : Res α} (h : r.Within H) (hr : ∀ a, r ≠ .ok a) : (Tile.failWith r : Res β).Within H := by
  rcases h with ⟨a, rfl⟩ | ⟨e, rfl⟩ | ⟨rfl, h⟩
  · exact absurd rfl (hr a)
  · exact .of_throw
  · exact .of_hang h

end Res.Within

theorem Out.Within_bind {α β : Type} {H : Prop} {x : Out α} {f : α → Out β} (hx : x.res.Within H) (hf : ∀ a, x.res = .ok a → (f a).res.Within H) :
    (x >>= f).res.Within H := by
  obtain ⟨bs, r⟩ := x
  rcases hx with ⟨a, h⟩ | ⟨e, h⟩ | ⟨h, k⟩
  · dsimp only at h
    subst h
    exact hf a rfl
  · dsimp only at h
    subst h
    exact .of_throw
  · dsimp only at h
    subst h
    exact .of_hang k

namespace AppSafe

open Io

theorem header_within {H : Prop} (s : IStream) : (Header.read s).Within H := by
  rcases Header.read_general s with ⟨h, s', h1, -⟩ | ⟨e, he⟩
  · exact .inl ⟨_, h1⟩
  · exact .inr (.inl ⟨e, he⟩)

theorem points_within (b : Build) (s : IStream) (total ef : Nat) :
    (readUncompressedPoints b s total ef).Within (124 ≤ ef ∧ 0 < total) ∧
    ∀ p s', readUncompressedPoints b s total ef = .ok (p, s') → ∀ q ∈ p, q.extra.length = ef := by
  by_cases hef : ef ≤ 123
  · obtain ⟨p, s', h1, -, h3⟩ := readUncompressedPoints_general b s total ef (recordsPerBuffer_pos hef)
    rw [h1]
    refine ⟨.of_ok, ?_⟩
    rintro p' s'' h
    cases h
    exact h3
  · rcases Nat.eq_zero_or_pos total with h0 | hpos
    · subst h0
      rw [readUncompressedPoints_zero]
      refine ⟨.of_ok, ?_⟩
      rintro p' s'' h
      cases h
      simp
    · rw [readUncompressedPoints, readLoop_stuck b _ _ (recordsPerBuffer_zero (by omega)) _ _ _ _ _ (by simpa using hpos) hpos]
      exact ⟨.of_hang ⟨by omega, hpos⟩, by simp⟩

theorem columns_within {H : Prop} (z : Zlib) (s : IStream) (n ef : Nat) :
    (readCompressedPoints z s n ef).Within H ∧
    ∀ p s', readCompressedPoints z s n ef = .ok (p, s') → ∀ q ∈ p, q.extra.length = ef := by
  rcases readCompressedPoints_general z s n ef with ⟨p, s', h1, -, h3⟩ | ⟨e, he⟩
  · rw [h1]
    refine ⟨.of_ok, ?_⟩
    rintro p' s'' h
    cases h
    exact h3
  · rw [he]
    exact ⟨.of_throw, by simp⟩

theorem new_within {H : Prop} (w : Bytes) (c : Bool) (p : List PointRecord) : (SpocFile.new' w c p).Within H := by
  unfold SpocFile.new' SpocFile.new
  split
  · exact .of_throw
  · exact .of_ok

theorem new_valid {w : Bytes} {c : Bool} {p : List PointRecord} {f : SpocFile} (h : SpocFile.new' w c p = .ok f) : f.isValid = true := by
  unfold SpocFile.new' SpocFile.new at h
  split at h
  · exact absurd h (by simp)
  · rename_i h1
    cases h
    simpa [SpocFile.isValid] using h1

theorem fileOf_eq_ok {r : Res (SpocFile × IStream)} {f : SpocFile} (h : Apps.fileOf r = .ok f) : ∃ s, r = .ok (f, s) := by
  unfold Apps.fileOf at h
  obtain ⟨⟨g, s⟩, h1, h2⟩ := Res.bind_eq_ok.mp h
  cases h2
  exact ⟨s, h1⟩

theorem readUncompressed_within (b : Build) (s : IStream) : (Apps.fileOf (readFileUncompressed b s)).Within (Endless s) := by
  refine Res.Within.bind ?_ fun _ _ => .of_ok
  unfold readFileUncompressed
  refine (header_within s).bind ?_
  rintro ⟨h, s1⟩ h1
  dsimp only
  split
  · exact .of_throw
  · rename_i hc
    refine ((points_within b s1 _ _).1.mono fun hk => ⟨h, s1, h1, by simpa using hc, hk.1, hk.2⟩).bind ?_
    rintro ⟨p, s2⟩ -
    exact (new_within _ _ _).bind fun _ _ => .of_ok

theorem readUncompressed_valid {b : Build} {s : IStream} {f : SpocFile} (h : Apps.fileOf (readFileUncompressed b s) = .ok f) :
    f.isValid = true := by
  obtain ⟨s', h⟩ := fileOf_eq_ok h
  unfold readFileUncompressed at h
  obtain ⟨⟨h1, s1⟩, -, h⟩ := Res.bind_eq_ok.mp h
  dsimp only at h
  split at h
  · exact absurd h (by simp)
  · obtain ⟨⟨p, s2⟩, -, h⟩ := Res.bind_eq_ok.mp h
    obtain ⟨g, hg, h⟩ := Res.bind_eq_ok.mp h
    cases h
    exact new_valid hg

theorem readCompressed_within {H : Prop} (z : Zlib) (s : IStream) : (Apps.fileOf (readFileCompressed z s)).Within H := by
  refine Res.Within.bind ?_ fun _ _ => .of_ok
  unfold readFileCompressed
  refine (header_within s).bind ?_
  rintro ⟨h, s1⟩ h1
  dsimp only
  split
  · exact .of_throw
  · refine (columns_within z s1 _ _).1.bind ?_
    rintro ⟨p, s2⟩ -
    exact (new_within _ _ _).bind fun _ _ => .of_ok

theorem readCompressed_valid {z : Zlib} {s : IStream} {f : SpocFile} (h : Apps.fileOf (readFileCompressed z s) = .ok f) :
    f.isValid = true := by
  obtain ⟨s', h⟩ := fileOf_eq_ok h
  unfold readFileCompressed at h
  obtain ⟨⟨h1, s1⟩, -, h⟩ := Res.bind_eq_ok.mp h
  dsimp only at h
  split at h
  · exact absurd h (by simp)
  · obtain ⟨⟨p, s2⟩, -, h⟩ := Res.bind_eq_ok.mp h
    obtain ⟨g, hg, h⟩ := Res.bind_eq_ok.mp h
    cases h
    exact new_valid hg

theorem read_within (b : Build) (z : Zlib) (s : IStream) : (Apps.fileOf (readFile b z s)).Within (Endless s) := by
  refine Res.Within.bind ?_ fun _ _ => .of_ok
  unfold readFile
  refine (header_within s).bind ?_
  rintro ⟨h, s1⟩ h1
  dsimp only
  split
  · refine (columns_within z s1 _ _).1.bind ?_
    rintro ⟨p, s2⟩ -
    exact (new_within _ _ _).bind fun _ _ => .of_ok
  · rename_i hc
    refine ((points_within b s1 _ _).1.mono fun hk => ⟨h, s1, h1, by simpa using hc, hk.1, hk.2⟩).bind ?_
    rintro ⟨p, s2⟩ -
    exact (new_within _ _ _).bind fun _ _ => .of_ok

theorem read_valid {b : Build} {z : Zlib} {s : IStream} {f : SpocFile} (h : Apps.fileOf (readFile b z s) = .ok f) : f.isValid = true := by
  obtain ⟨s', h⟩ := fileOf_eq_ok h
  unfold readFile at h
  obtain ⟨⟨h1, s1⟩, -, h⟩ := Res.bind_eq_ok.mp h
  dsimp only at h
  split at h
  all_goals
    obtain ⟨⟨p, s2⟩, -, h⟩ := Res.bind_eq_ok.mp h
    obtain ⟨g, hg, h⟩ := Res.bind_eq_ok.mp h
    cases h
    exact new_valid hg

/-! ## Writing -/

theorem write_within {H : Prop} (b : Build) (z : Zlib) {f : SpocFile} (h : f.isValid = true) : (writeFile b z f).res.Within H :=
  .of_tame (writeFile_tame b z h)

theorem writeCompressed_within {H : Prop} (b : Build) (z : Zlib) {f : SpocFile} (h : f.isValid = true) :
    (writeFileCompressed b z f).res.Within H := by
  refine .of_tame (?_ : (writeFileCompressed b z f).Tame)
  unfold writeFileCompressed
  refine (Out.Tame.lift (require_tame _ _)).bind fun _ => ?_
  split
  · exact Out.Tame.lift .of_throw
  · refine (Out.Tame.lift (extraColumns_tame h)).bind fun _ => ?_
    iterate 9 refine (Out.Tame.lift (compressField_tame _ _ _)).bind fun _ => ?_
    refine (Out.Tame.lift (Res.Tame.mapM (compressField_tame _ _) _)).bind fun _ => ?_
    refine (Out.Tame.lift (getHeader_tame f)).bind fun _ => ?_
    refine (header_tame _).bind fun _ => ?_
    exact (writeFields_tame _).bind fun _ => writeFields_tame _

theorem record_tame (q : PointRecord) : q.write.Tame := by
  rw [PointRecord.write_eq]
  exact Res.Tame.of_ok

theorem records_tame (l : List PointRecord) : (writeRecords l).Tame := by
  induction l with
  | nil => exact Res.Tame.of_ok
  | cons q l ih => exact Out.Tame.bind (record_tame q) fun _ => ih

theorem writeUncompressed_within {H : Prop} (b : Build) (f : SpocFile) : (writeFileUncompressed b f).res.Within H := by
  refine .of_tame (?_ : (writeFileUncompressed b f).Tame)
  unfold writeFileUncompressed
  refine (Out.Tame.lift (require_tame _ _)).bind fun _ => ?_
  split
  · exact Out.Tame.lift .of_throw
  · refine (Out.Tame.lift (getHeader_tame f)).bind fun _ => ?_
    exact (header_tame _).bind fun _ => records_tame _

/-! ## The frame of an application -/

theorem openRead_input {w : Main.World} {n : Str} {s : IStream} (h : Main.openRead w.fs n = some s) : Input w s := by
  unfold Main.openRead at h
  split at h
  · rename_i f hf
    split at h
    · cases h
      exact .inr ⟨n, f, hf, rfl⟩
    · exact absurd h (by simp)
  · exact absurd h (by simp)

theorem inputStream_within {H : Prop} (w : Main.World) (n : Str) : (Main.inputStream w n).Within H := by
  unfold Main.inputStream
  split
  · exact .of_ok
  · split
    · exact .of_ok
    · exact .of_throw

theorem inputStream_input {w : Main.World} {n : Str} {s : IStream} (h : Main.inputStream w n = .ok s) : Input w s := by
  unfold Main.inputStream at h
  split at h
  · cases h
    exact .inl rfl
  · split at h
    · rename_i t ht
      cases h
      exact openRead_input ht
    · exact absurd h (by simp)

theorem outputStream_within {H : Prop} (w : Main.World) (n : Str) (o : Out Unit) (h : o.res.Within H) :
    (Main.outputStream w n o).res.Within H := by
  unfold Main.outputStream
  split
  · exact h.zero
  · split
    · exact h.zero
    · exact .of_throw

theorem readThenWrite_within {H : Prop} (w : Main.World) (i o : Str) (read : IStream → Res SpocFile) (write : SpocFile → Out Unit)
    (hr : ∀ s, Input w s → (read s).Within H) (hw : ∀ s f, Input w s → read s = .ok f → (write f).res.Within H) :
    (Main.readThenWrite w i o read write).res.Within H := by
  have h1 : (Main.inputStream w i >>= read).Within H :=
    (inputStream_within w i).bind fun s hs => hr s (inputStream_input hs)
  unfold Main.readThenWrite
  split
  · rename_i f hf
    obtain ⟨s, hs, hf⟩ := Res.bind_eq_ok.mp hf
    exact outputStream_within w o _ (hw s f (inputStream_input hs) hf)
  · rename_i hn
    exact h1.failWith hn

theorem withOperands_within {α β : Type} {H : Prop} {r : Res α} {help : α → Bool} {d : β} {ops : Res β} (hr : r.Within H)
    (ho : ops.Within H) : (Main.withOperands r help d ops).Within H := by
  unfold Main.withOperands
  refine hr.bind fun a _ => ?_
  split
  · exact .of_ok
  · exact ho.bind fun _ _ => .of_ok

theorem inOut_within {H : Prop} (l : List Str) : (Cmd.inOut l).Within H := by
  unfold Cmd.inOut
  split <;> first | exact .of_ok | exact .of_throw

theorem two_within {H : Prop} (l : List Str) : (Cmd.two l).Within H := by
  unfold Cmd.two
  split <;> first | exact .of_ok | exact .of_throw

theorem one_within {H : Prop} (l : List Str) : (Cmd.one l).Within H := by
  unfold Cmd.one
  split <;> first | exact .of_ok | exact .of_throw

theorem basicArgs_within {H : Prop} (l : List (String × Str)) (a : Cmd.Basic) : (Cmd.basicArgs l a).Within H := by
  induction l generalizing a with
  | nil => exact .of_ok
  | cons o l ih =>
    unfold Cmd.basicArgs
    repeat' split
    all_goals first | exact .of_ok | exact .of_throw | exact ih _

theorem srsArgs_within {H : Prop} (l : List (String × Str)) (a : Cmd.SrsArgs) : (Cmd.srsArgs l a).Within H := by
  induction l generalizing a with
  | nil => exact .of_ok
  | cons o l ih =>
    unfold Cmd.srsArgs
    repeat' split
    all_goals first | exact .of_ok | exact .of_throw | exact ih _

theorem mergeArgs_within {H : Prop} (l : List (String × Str)) (a : Merge.Args) : (Merge.getArgs l a).Within H := by
  induction l generalizing a with
  | nil => exact .of_ok
  | cons o l ih =>
    unfold Merge.getArgs
    repeat' split
    all_goals first | exact .of_ok | exact .of_throw | exact ih _

theorem diffArgs_within {H : Prop} (l : List (String × Str)) (a : Diff.Args) : (Diff.getArgs l a).Within H := by
  induction l generalizing a with
  | nil => exact .of_ok
  | cons o l ih =>
    unfold Diff.getArgs
    repeat' split
    all_goals first | exact .of_ok | exact .of_throw | exact ih _

theorem tileArgs_within {H : Prop} (l : List (String × Str)) (a : Tile.Args) : (Tile.getArgs l a).Within H := by
  induction l generalizing a with
  | nil => exact .of_ok
  | cons o l ih =>
    unfold Tile.getArgs
    repeat' split
    all_goals first | exact .of_ok | exact .of_throw | exact ih _

theorem infoArgs_within {H : Prop} (l : List String) (a : Info.Args) : (Info.getArgs l a).Within H := by
  induction l generalizing a with
  | nil => exact .of_ok
  | cons o l ih =>
    unfold Info.getArgs
    repeat' split
    all_goals first | exact .of_ok | exact .of_throw | exact ih _

theorem toolArgs_within {H : Prop} (l : List (String × Str)) (a : Tool.Args) : (Tool.getArgs l a).Within H := by
  induction l generalizing a with
  | nil => exact .of_ok
  | cons o l ih =>
    unfold Tool.getArgs
    split
    · exact .of_ok
    split
    · exact ih _
    split
    · exact ih _
    split
    · refine Res.Within.bind ?_ fun _ _ => ih _
      unfold Tool.setCommand
      split
      · exact .of_throw
      · exact .of_ok
    split
    · exact ih _
    split
    · exact ih _
    · exact .of_throw

theorem filterArgs_within {H : Prop} (l : List (String × Str)) (a : Filter.Args) : (Filter.getArgs l a).Within H := by
  induction l generalizing a with
  | nil => exact .of_ok
  | cons o l ih =>
    unfold Filter.getArgs
    refine Res.Within.bind ?_ fun _ _ => ?_
    · unfold Filter.dispatch
      repeat' split
      all_goals first | exact .of_ok | exact .of_throw
    · split
      · exact .of_ok
      · exact ih _

theorem transformArgs_within {H : Prop} (l : List (String × Str)) (a : Transform.Args) : (Transform.getArgs l a).Within H := by
  induction l generalizing a with
  | nil => exact .of_ok
  | cons o l ih =>
    unfold Transform.getArgs
    refine Res.Within.bind ?_ fun _ _ => ?_
    · unfold Transform.dispatch
      dsimp only
      split
      all_goals first | exact .of_ok | exact .of_throw
    · split
      · exact .of_ok
      · exact ih _

/-! ## compress, decompress, srs -/

theorem compress_within (b : Build) (z : Zlib) (argv : List Str) (w : Main.World) :
    (Main.compress b z argv w).res.Within (SomeEndless w) := by
  have h0 : (Main.basicArgs Cmd.compress argv).Within (SomeEndless w) :=
    withOperands_within (basicArgs_within _ _) (inOut_within _)
  unfold Main.compress
  split
  · split
    · exact .of_ok
    split
    · exact .of_ok
    · refine readThenWrite_within w _ _ _ _ (fun s hs => (readUncompressed_within b s).mono fun h => ⟨s, hs, h⟩) ?_
      intro s f _ hf
      have hv := readUncompressed_valid hf
      exact writeCompressed_within b z (f := f.setCompressed true) hv
  · rename_i hn
    exact h0.failWith fun ⟨a, i, o⟩ => hn a i o

theorem decompress_within {H : Prop} (b : Build) (z : Zlib) (argv : List Str) (w : Main.World) :
    (Main.decompress b z argv w).res.Within H := by
  have h0 : (Main.basicArgs Cmd.decompress argv).Within H :=
    withOperands_within (basicArgs_within _ _) (inOut_within _)
  unfold Main.decompress
  split
  · split
    · exact .of_ok
    split
    · exact .of_ok
    · exact readThenWrite_within w _ _ _ _ (fun s hs => readCompressed_within z s) fun s f _ hf => writeUncompressed_within b _
  · rename_i hn
    exact h0.failWith fun ⟨a, i, o⟩ => hn a i o

theorem showSrs_within {H : Prop} (s : IStream) : (Apps.showSrs s).res.Within H := by
  unfold Apps.showSrs
  exact Out.Within_bind (header_within s) fun _ _ => .of_ok

theorem showSrsLoop_within {H : Prop} (fs : Tile.FS) (l : List Str) : (Main.showSrsLoop fs l).res.Within H := by
  induction l with
  | nil => exact .of_ok
  | cons n l ih =>
    unfold Main.showSrsLoop
    refine Out.Within_bind ?_ fun s _ => Out.Within_bind (showSrs_within s) fun _ _ => ih
    show Res.Within H (match Main.openRead fs n with | some s => .ok s | none => .throw _)
    split
    · exact .of_ok
    · exact .of_throw

theorem setSrs_within {w : Main.World} (b : Build) (z : Zlib) (t : Bytes) (s : IStream) (hs : Input w s) :
    (Apps.setSrs b z t s).res.Within (SomeEndless w) := by
  unfold Apps.setSrs
  refine Out.Within_bind ((read_within b z s).mono fun h => ⟨s, hs, h⟩) fun f hf => ?_
  have hv := read_valid (b := b) (z := z) (s := s) hf
  exact write_within b z (f := f.setWkt t) hv

theorem srs_within (b : Build) (z : Zlib) (argv : List Str) (w : Main.World) : (Main.srs b z argv w).res.Within (SomeEndless w) := by
  have h0 : (Cmd.srsArgs (Cmd.srs.options argv) {}).Within (SomeEndless w) := srsArgs_within _ _
  unfold Main.srs
  split
  · split
    · exact .of_ok
    split
    · exact .of_ok
    split
    · exact outputStream_within w _ _ (setSrs_within b z _ _ (.inl rfl))
    · exact outputStream_within w _ _ (showSrs_within _)
    · rename_i i o t _ _
      have h1 : (match Main.openRead w.fs i with
          | some s => Apps.fileOf (Io.readFile b z s)
          | none => .throw "Could not open file for reading").Within (SomeEndless w) := by
        split
        · rename_i s hs
          exact (read_within b z s).mono fun h => ⟨s, openRead_input hs, h⟩
        · exact .of_throw
      split
      · rename_i f hf
        have hv : f.isValid = true := by
          split at hf
          · exact read_valid hf
          · exact absurd hf (by simp)
        split
        · exact (write_within b z (f := f.setWkt (Main.bytes t)) hv).zero
        · exact .of_throw
      · rename_i hn
        exact h1.failWith hn
    · exact .of_throw
    · exact outputStream_within w _ _ (showSrsLoop_within _ _)
  · rename_i hn
    exact h0.failWith hn

/-! ## merge, diff -/

theorem pushBack_within {H : Prop} (f : SpocFile) (q : PointRecord) : (f.pushBack q).Within H := by
  unfold SpocFile.pushBack
  split
  · exact .of_ok
  · split
    · exact .of_throw
    · exact .of_ok

theorem pushBack_valid {f g : SpocFile} {q : PointRecord} (hv : f.isValid = true) (h : f.pushBack q = .ok g) : g.isValid = true := by
  unfold SpocFile.pushBack at h
  rw [isValid_iff] at hv ⊢
  split at h
  · cases h
    simp [SpocFile.extraFields]
  · rename_i q0 l hl
    split at h
    · exact absurd h (by simp)
    · rename_i hq
      cases h
      have he : f.extraFields = q0.extra.length := by simp [SpocFile.extraFields, hl]
      have he' : SpocFile.extraFields { f with prs := f.prs ++ [q] } = q0.extra.length := by simp [SpocFile.extraFields, hl]
      intro p hp
      rw [he']
      simp only [List.mem_append, List.mem_singleton] at hp
      rcases hp with hp | rfl
      · rw [hv p hp, he]
      · simpa using hq

theorem appendLoop_within {H : Prop} (id : UInt32) (ps : List PointRecord) (f : SpocFile) : (Merge.appendLoop id ps f).2.Within H := by
  induction ps generalizing f with
  | nil => exact .of_ok
  | cons p ps ih =>
    unfold Merge.appendLoop
    split
    · exact ih _
    · rename_i hn
      exact (pushBack_within f _).mergeFailWith hn

theorem appendLoop_valid (id : UInt32) (ps : List PointRecord) (f : SpocFile) (hf : f.isValid = true) :
    (Merge.appendLoop id ps f).1.isValid = true := by
  induction ps generalizing f with
  | nil => exact hf
  | cons p ps ih =>
    unfold Merge.appendLoop
    split
    · rename_i g hg
      exact ih _ (pushBack_valid hf hg)
    · exact hf

theorem srsDiffer_within {H : Prop} (f g : SpocFile) (q : Bool) : (Merge.srsDiffer f g q).Within H := by
  unfold Merge.srsDiffer
  split
  · exact .of_ok
  · exact (Res.Within.of_tame (getHeader_tame f)).bind fun _ _ => (Res.Within.of_tame (getHeader_tame g)).bind fun _ _ => .of_ok

theorem append_within {H : Prop} (f g : SpocFile) (id : UInt32) (q : Bool) : (Merge.append f g id q).2.2.Within H := by
  unfold Merge.append
  split
  · exact appendLoop_within id f.prs g
  · rename_i hn
    exact (srsDiffer_within f g q).mergeFailWith hn

theorem append_valid (f g : SpocFile) (id : UInt32) (q : Bool) (hg : g.isValid = true) : (Merge.append f g id q).1.isValid = true := by
  unfold Merge.append
  split
  · exact appendLoop_valid id f.prs g hg
  · exact hg

theorem mergeOne_within {H : Prop} (a : Merge.Args) (i : Nat) (st : Merge.State) (f : SpocFile) : (Merge.mergeOne a i st f).2.Within H :=
  append_within _ _ _ _

theorem mergeOne_valid (a : Merge.Args) (i : Nat) (st : Merge.State) (f : SpocFile) (h : st.g.isValid = true) :
    (Merge.mergeOne a i st f).1.g.isValid = true := by
  refine append_valid _ _ _ _ ?_
  split <;> split <;> exact h

theorem mergeLoop_within {w : Main.World} (b : Build) (z : Zlib) (a : Merge.Args) (fs : List (Option IStream))
    (hfs : ∀ s, some s ∈ fs → Input w s) (i : Nat) (st : Merge.State) (hst : st.g.isValid = true) :
    (Merge.mergeLoop b z a i fs st).2.Within (SomeEndless w) ∧ (Merge.mergeLoop b z a i fs st).1.g.isValid = true := by
  induction fs generalizing i st with
  | nil => exact ⟨.of_ok, hst⟩
  | cons o fs ih =>
    cases o with
    | none => exact ⟨.of_throw, hst⟩
    | some s =>
      have h1 := (read_within b z s).mono fun h => (⟨s, hfs s (by simp), h⟩ : SomeEndless w)
      unfold Merge.mergeLoop
      split
      · rename_i f hf
        have h2 : (Merge.mergeOne a i st f).2.Within (SomeEndless w) := mergeOne_within a i st f
        have h3 := mergeOne_valid a i st f hst
        split
        · rename_i st' he
          rw [he] at h3
          exact ih (fun t ht => hfs t (by simp [ht])) _ _ h3
        · rename_i st' r _ he
          rw [he] at h2 h3
          exact ⟨h2, h3⟩
      · rename_i hn
        exact ⟨h1.mergeFailWith hn, hst⟩

theorem merge_within (b : Build) (z : Zlib) (argv : List Str) (w : Main.World) : (Main.merge b z argv w).res.Within (SomeEndless w) := by
  unfold Main.merge
  refine outputStream_within w _ _ ?_
  have h0 : (Merge.getArgs (Cmd.merge.options argv) {}).Within (SomeEndless w) := mergeArgs_within _ _
  unfold Merge.main
  split
  · split
    · exact .of_ok
    split
    · exact .of_ok
    split
    · exact .of_throw
    · rename_i a _ _ _ _
      have h1 := mergeLoop_within (w := w) b z a ((Cmd.merge.operands argv).map (Main.openRead w.fs))
        (by
          intro s hs
          obtain ⟨n, -, hn⟩ := List.mem_map.mp hs
          exact openRead_input hn) 0 { g := SpocFile.empty.setCompressed true, areaSum := F64.zero, log := [] } rfl
      split
      · rename_i st he
        rw [he] at h1
        exact write_within b z h1.2
      · rename_i st r _ he
        rw [he] at h1
        exact h1.1
  · rename_i hn
    exact h0.mergeFailWith hn

theorem getExtra_within {H : Prop} (b : Build) (k : Nat) (ps : List PointRecord) (h : ∀ p ∈ ps, k < p.extra.length) :
    (Diff.getExtra b k ps).Within H := by
  refine Res.Within.mapM fun p hp => ?_
  have := h p hp
  simp only [this, decide_true, cassert_true, Res.ok_bind, List.getElem?_eq_getElem]
  exact .of_ok

theorem extraFieldsSize_eq (f : SpocFile) : Diff.extraFieldsSize f.prs = f.extraFields := by
  unfold Diff.extraFieldsSize SpocFile.extraFields
  cases f.prs <;> rfl

theorem getExtra_valid {H : Prop} (b : Build) {f : SpocFile} (hf : f.isValid = true) {k : Nat} (hk : k < Diff.extraFieldsSize f.prs) :
    (Diff.getExtra b k f.prs).Within H := by
  refine getExtra_within b k f.prs fun p hp => ?_
  rw [(isValid_iff f).mp hf p hp, ← extraFieldsSize_eq]
  exact hk

theorem eqExtras_within {H : Prop} (b : Build) {f g : SpocFile} (hf : f.isValid = true) (hg : g.isValid = true)
    (he : Diff.extraFieldsSize f.prs = Diff.extraFieldsSize g.prs) :
    (Diff.eqExtras b f.prs g.prs (Diff.extraFieldsSize f.prs)).Within H := by
  refine Res.Within.foldlM (fun _ => True) trivial fun c _ k hk => ⟨?_, fun _ _ => trivial⟩
  have hk := List.mem_range.mp hk
  exact (getExtra_valid b hf hk).bind fun _ _ => (getExtra_valid b hg (he ▸ hk)).bind fun _ _ => .of_ok

theorem eqData_within {H : Prop} (b : Build) {f g : SpocFile} (hf : f.isValid = true) (hg : g.isValid = true) :
    (Diff.eqData b f.prs g.prs).Within H := by
  unfold Diff.eqData
  iterate 9
    split
    · exact .of_ok
  split
  · exact .of_ok
  · rename_i he
    exact eqExtras_within b hf hg (by simpa using he)

theorem ite_within {α : Type} {H : Prop} {c : Prop} [Decidable c] {x y : Res α} (hx : x.Within H) (hy : y.Within H) :
    (if c then x else y).Within H := by
  split
  · exact hx
  · exact hy

theorem dite_within {α : Type} {H : Prop} {c : Prop} [Decidable c] {x y : Res α} (hx : c → x.Within H) (hy : ¬ c → y.Within H) :
    (if c then x else y).Within H := by
  split
  · exact hx ‹_›
  · exact hy ‹_›

theorem eqField_within {H : Prop} (b : Build) {f g : SpocFile} (hf : f.isValid = true) (hg : g.isValid = true) (c : Char) :
    (Diff.eqField b f.prs g.prs c).Within H := by
  unfold Diff.eqField
  iterate 9
    refine ite_within .of_ok ?_
  refine ite_within ?_ .of_throw
  refine dite_within ?_ fun _ => .of_ok
  intro hk
  exact (getExtra_valid b hf hk.1).bind fun _ _ => (getExtra_valid b hg hk.2).bind fun _ _ => .of_ok

theorem eqFields_within {H : Prop} (b : Build) {f g : SpocFile} (hf : f.isValid = true) (hg : g.isValid = true) (cs : Str) :
    (Diff.eqFields b f.prs g.prs cs).Within H := by
  induction cs with
  | nil => exact .of_ok
  | cons c cs ih =>
    unfold Diff.eqFields
    refine (eqField_within b hf hg c).bind fun e _ => ?_
    split
    · exact ih
    · exact .of_ok

theorem diffFiles_within {H : Prop} (b : Build) {f g : SpocFile} (hf : f.isValid = true) (hg : g.isValid = true) (ho dO : Bool) (fs : Str)
    (rv : Bool) : (Diff.diff b f g ho dO fs rv).Within H := by
  have h1 : (Diff.eqHeaders f g).Within H :=
    (Res.Within.of_tame (getHeader_tame f)).bind fun _ _ => (Res.Within.of_tame (getHeader_tame g)).bind fun _ _ => .of_ok
  have h2 : (Diff.eqData b f.prs g.prs).Within H := eqData_within b hf hg
  have h3 : (Diff.eqFields b f.prs g.prs fs).Within H := eqFields_within b hf hg fs
  unfold Diff.diff
  have h4 : ∀ c : Int, (if rv = true then (.ok (if c = 0 then 1 else 0) : Res Int) else .ok c).Within H := fun _ => ite_within .of_ok .of_ok
  dsimp only
  refine ite_within (h1.bind fun x _ => ?_) ?_
  all_goals
    refine ite_within (h2.bind fun y _ => ?_) ?_
  all_goals
    refine ite_within (h3.bind fun z _ => ?_) ?_
  all_goals exact h4 _

end AppSafe

end Spoc
