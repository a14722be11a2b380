import Verif.Proofs.Label
import Verif.Proofs.Twice
import Verif.Props.UpsampleLaws
import Verif.Props.InfoOrder

/-!
# What the code does with the points of a cloud in another order
-/

namespace Spoc.Reordered

open Spec

/-- The same cloud with the points in another order. -/
def Like (f g : SpocFile) : Prop := g = { f with prs := g.prs } ∧ f.prs.Perm g.prs ∧ Uniform f.prs

/-- Two computations give such clouds, or fail in the same way. -/
def Both (r r' : Res SpocFile) : Prop := (∃ g g', r = .ok g ∧ r' = .ok g' ∧ Like g g') ∨ (r = r' ∧ r.isOk = false)

theorem Like.uniform {f g : SpocFile} (h : Like f g) : Uniform g.prs := Props.uniform_perm h.2.1 h.2.2

theorem Both.bind {r r' : Res SpocFile} (h : Both r r') {k k' : SpocFile → Res SpocFile} (hk : ∀ g g', Like g g' → Both (k g) (k' g')) :
    Both (r >>= k) (r' >>= k') := by
  rcases h with ⟨g, g', rfl, rfl, h⟩ | ⟨rfl, h⟩
  · exact hk g g' h
  · cases r with
    | ok g => cases h
    | _ => exact .inr ⟨rfl, rfl⟩

theorem Both.prefix {α : Type} (r : Res α) {k k' : α → Res SpocFile} (h : ∀ a, Both (k a) (k' a)) : Both (r >>= k) (r >>= k') := by
  cases r with
  | ok a => exact h a
  | _ => exact .inr ⟨rfl, rfl⟩

theorem Both.ok {g g' : SpocFile} (h : Like g g') : Both (.ok g) (.ok g') := .inl ⟨g, g', rfl, rfl, h⟩

theorem copy_both {f g : SpocFile} (h : Like f g) : Both f.copy g.copy := by
  rw [Tool.copy_ok h.2.2, Tool.copy_ok h.uniform]
  exact .ok h

/-! ## filter -/

theorem stage_both (on : Bool) {step : SpocFile → Res SpocFile} (h : ∀ f g, Like f g → Both (step f) (step g)) {f g : SpocFile} (hl : Like f g) :
    Both (Filter.stage on step f) (Filter.stage on step g) := by
  unfold Filter.stage
  cases on
  · exact .ok hl
  · exact (h f g hl).bind fun _ _ h => copy_both h

theorem select_both (keep : PointRecord → Bool) {f g : SpocFile} (h : Like f g) : Both (Filter.select f keep) (Filter.select g keep) := by
  rw [Filter.select_eq keep f h.2.2, Filter.select_eq keep g h.uniform]
  refine .ok ⟨?_, h.2.1.filter _, Filter.uniform_sublist h.2.2 List.filter_sublist⟩
  rw [h.1]

theorem removeCoords_both (stod : AppUtils.Stod) (op : Str) {f g : SpocFile} (h : Like f g) :
    Both (Filter.removeCoords stod f op) (Filter.removeCoords stod g op) := by
  unfold Filter.removeCoords
  split
  · refine .prefix _ fun v => .prefix _ fun cmp => ?_
    split
    · exact .inr ⟨rfl, rfl⟩
    · exact select_both _ h
  · exact .inr ⟨rfl, rfl⟩

theorem process_both (b : Build) (sh : Subsampling.Shuffle) (a : Filter.Args) (h1 : a.uniqueXyz = false)
    (h2 : F64.gt a.subsample F64.zero = false) {f g : SpocFile} (h : Like f g) : Both (Filter.process b sh a f) (Filter.process b sh a g) := by
  unfold Filter.process
  simp only [h1, h2]
  refine (stage_both _ (fun _ _ => select_both _) h).bind fun f g h => ?_
  refine (stage_both _ (fun _ _ => select_both _) h).bind fun f g h => ?_
  exact stage_both _ (fun _ _ => removeCoords_both _ _) h

theorem getArgs_keeps (os : List (String × Str)) (a : Filter.Args) {a' : Filter.Args} (h : Filter.getArgs os a = .ok a') :
    ((∀ o ∈ os, o.1 ≠ "unique-xyz") → a'.uniqueXyz = a.uniqueXyz) ∧ ((∀ o ∈ os, o.1 ≠ "subsample") → a'.subsample = a.subsample) := by
  induction os generalizing a with
  | nil => cases h; exact ⟨fun _ => rfl, fun _ => rfl⟩
  | cons o os ih =>
    obtain ⟨name, arg⟩ := o
    obtain ⟨a1, h1, h⟩ := Res.bind_eq_ok.mp h
    have key : (name ≠ "unique-xyz" → a1.uniqueXyz = a.uniqueXyz) ∧ (name ≠ "subsample" → a1.subsample = a.subsample) := by
      unfold Filter.dispatch at h1
      repeat' split at h1
      all_goals first | (cases h1; done) | (cases h1; exact ⟨fun h => by first | rfl | contradiction, fun h => by first | rfl | contradiction⟩)
    split at h
    · cases h
      exact ⟨fun h => key.1 (h (name, arg) (by simp)), fun h => key.2 (h (name, arg) (by simp))⟩
    · obtain ⟨k1, k2⟩ := ih a1 h
      exact ⟨fun h => (k1 fun o ho => h o (by simp [ho])).trans (key.1 (h (name, arg) (by simp))),
        fun h => (k2 fun o ho => h o (by simp [ho])).trans (key.2 (h (name, arg) (by simp)))⟩

/-! ## tool -/

theorem resizeExtra_both (b : Build) (n : Int) {f g : SpocFile} (h : Like f g) : Both (Tool.resizeExtra b f n) (Tool.resizeExtra b g n) := by
  unfold Tool.resizeExtra
  rw [Tool.uniform_valid h.2.2, Tool.uniform_valid h.uniform]
  refine .prefix _ fun _ => .prefix _ fun _ => (copy_both h).bind fun f g h => .ok ⟨?_, h.2.1.map _, ?_⟩
  · unfold SpocFile.resizeExtraFields
    rw [h.1]
  · intro p hp q hq
    obtain ⟨p, -, rfl⟩ := List.mem_map.mp hp
    obtain ⟨q, -, rfl⟩ := List.mem_map.mp hq
    simp [Props.resizeExtra_length]

theorem subtractMin_both (b : Build) (z : Bool) {f g : SpocFile} (h : Like f g) (hp : Props.PlainCoordinates f.prs) :
    Both (Tool.subtractMin b f z) (Tool.subtractMin b g z) := by
  rw [Twice.subtractMin_eq b f h.2.2 z, Twice.subtractMin_eq b g h.uniform z,
    ← Props.ofPoints_order (h.2.1.map _) (h.2.1.map _) (h.2.1.map _) hp]
  refine .ok ⟨by rw [h.1], h.2.1.map _, ?_⟩
  intro p hp q hq
  obtain ⟨p, hp', rfl⟩ := List.mem_map.mp hp
  obtain ⟨q, hq', rfl⟩ := List.mem_map.mp hq
  exact h.2.2 p hp' q hq'

/-! ## merge -/

theorem append_both (id : UInt32) (quiet : Bool) {f f' g g' : SpocFile} (hf : Like f f') (hg : Like g g') (h1 : f.wkt.length ≤ 0xFFFF)
    (h2 : g.wkt.length ≤ 0xFFFF) :
    Like (Merge.append f g id quiet).1 (Merge.append f' g' id quiet).1 ∧ (Merge.append f' g' id quiet).2.2 = (Merge.append f g id quiet).2.2
      ∧ (Merge.append f g id quiet).1.wkt = g.wkt := by
  have w1 : f'.wkt = f.wkt := by rw [hf.1]
  have w2 : g'.wkt = g.wkt := by rw [hg.1]
  unfold Merge.append
  rw [Label.srsDiffer_ok f g quiet h1 h2, Label.srsDiffer_ok f' g' quiet (w1 ▸ h1) (w2 ▸ h2)]
  simp only
  have hp : (g.prs ++ f.prs).Perm (g'.prs ++ f'.prs) := hg.2.1.append hf.2.1
  by_cases hu : Uniform (g.prs ++ f.prs)
  · rw [Merge.appendLoop_eq id f.prs g hu, Merge.appendLoop_eq id f'.prs g' (Props.uniform_perm hp hu)]
    exact ⟨⟨by rw [hg.1], hg.2.1.append (hf.2.1.map _), Merge.uniform_setId hu⟩, rfl, rfl⟩
  · rw [Merge.appendLoop_fail id hf.2.2 hg.2.2 hu, Merge.appendLoop_fail id hf.uniform hg.uniform (fun h => hu (Props.uniform_perm hp.symm h))]
    exact ⟨hg, rfl, rfl⟩

theorem mergeOne_both (a : Merge.Args) (i : Nat) {st st' : Merge.State} {f f' : SpocFile} (hf : Like f f') (hg : Like st.g st'.g)
    (h1 : f.wkt.length ≤ 0xFFFF) (h2 : st.g.wkt.length ≤ 0xFFFF) :
    Like (Merge.mergeOne a i st f).1.g (Merge.mergeOne a i st' f').1.g ∧ (Merge.mergeOne a i st' f').2 = (Merge.mergeOne a i st f).2
      ∧ (Merge.mergeOne a i st f).1.g.wkt.length ≤ 0xFFFF := by
  have w1 : f'.wkt = f.wkt := by rw [hf.1]
  have c1 : f'.compressed = f.compressed := by rw [hf.1]
  unfold Merge.mergeOne
  simp only
  rw [w1, c1]
  have key : ∀ g g' : SpocFile, Like g g' → g.wkt.length ≤ 0xFFFF →
      Like (Merge.append f g (Merge.pointId a i) a.quiet).1 (Merge.append f' g' (Merge.pointId a i) a.quiet).1
        ∧ (Merge.append f' g' (Merge.pointId a i) a.quiet).2.2 = (Merge.append f g (Merge.pointId a i) a.quiet).2.2
        ∧ (Merge.append f g (Merge.pointId a i) a.quiet).1.wkt.length ≤ 0xFFFF := by
    intro g g' hg hw
    obtain ⟨k1, k2, k3⟩ := append_both (Merge.pointId a i) a.quiet hf hg h1 hw
    exact ⟨k1, k2, by rw [k3]; exact hw⟩
  have c : ∀ {g g' : SpocFile} (v : Bool), Like g g' → Like (g.setCompressed v) (g'.setCompressed v) := by
    intro g g' v h
    refine ⟨?_, h.2.1, h.2.2⟩
    unfold SpocFile.setCompressed
    rw [h.1]
  have t : ∀ {g g' : SpocFile} (v : Bytes), Like g g' → Like (g.setWkt v) (g'.setWkt v) := by
    intro g g' v h
    refine ⟨?_, h.2.1, h.2.2⟩
    unfold SpocFile.setWkt
    rw [h.1]
  split <;> split
  · exact key _ _ (t _ (c _ hg)) h1
  · exact key _ _ (t _ hg) h1
  · exact key _ _ (c _ hg) h2
  · exact key _ _ hg h2

theorem mergeLoop_both (b : Build) (zl : Zlib) (a : Merge.Args) (ss ss' : List (Option IStream)) (i : Nat) {st st' : Merge.State}
    (h : Like st.g st'.g) (ht : st.g.wkt.length ≤ 0xFFFF)
    (hs : List.Forall₂ (fun s s' => ∃ x x' f f' r r', s = some x ∧ s' = some x' ∧ Io.readFile b zl x = .ok (f, r)
      ∧ Io.readFile b zl x' = .ok (f', r') ∧ Like f f' ∧ f.wkt.length ≤ 0xFFFF) ss ss') :
    Like (Merge.mergeLoop b zl a i ss st).1.g (Merge.mergeLoop b zl a i ss' st').1.g
      ∧ (Merge.mergeLoop b zl a i ss' st').2 = (Merge.mergeLoop b zl a i ss st).2 := by
  induction hs generalizing i st st' with
  | nil => exact ⟨h, rfl⟩
  | cons hd _ ih =>
    obtain ⟨x, x', f, f', r, r', rfl, rfl, e1, e2, l1, l2⟩ := hd
    unfold Merge.mergeLoop
    simp only [Apps.fileOf, e1, e2, Res.ok_bind]
    obtain ⟨k1, k2, k3⟩ := mergeOne_both a i l1 h l2 ht
    rcases hm : Merge.mergeOne a i st f with ⟨v, q⟩
    rcases hm' : Merge.mergeOne a i st' f' with ⟨v', q'⟩
    rw [hm, hm'] at k1 k2
    rw [hm] at k3
    obtain rfl : q' = q := k2
    cases q' with
    | ok _ => exact ih (i + 1) k1 k3
    | _ => exact ⟨k1, rfl⟩

end Spoc.Reordered
