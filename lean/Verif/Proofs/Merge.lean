import Verif.Model.Merge
import Verif.Spec.Merge
import Verif.Proofs.Filter

/-!
# Lemmas about the merge application
-/

namespace Spoc.Merge

open Spec Text

/-- The record with another point id. -/
def setId (id : UInt32) (q : PointRecord) : PointRecord := { q with p := id }

theorem uniform_setId {l m : List PointRecord} {id : UInt32} (h : Uniform (l ++ m)) : Uniform (l ++ m.map (setId id)) := by
  intro p hp q hq
  have key : ∀ p ∈ l ++ m.map (setId id), ∃ p' ∈ l ++ m, p'.extra.length = p.extra.length := by
    intro p hp
    rcases List.mem_append.mp hp with hp | hp
    · exact ⟨p, by simp [hp], rfl⟩
    · obtain ⟨p', hp', rfl⟩ := List.mem_map.mp hp
      exact ⟨p', by simp [hp'], rfl⟩
  obtain ⟨p', hp', e1⟩ := key p hp
  obtain ⟨q', hq', e2⟩ := key q hq
  rw [← e1, ← e2]
  exact h p' hp' q' hq'

theorem appendLoop_eq (id : UInt32) (ps : List PointRecord) (f2 : SpocFile) (h : Uniform (f2.prs ++ ps)) :
    appendLoop id ps f2 = ({ f2 with prs := f2.prs ++ ps.map (setId id) }, .ok ()) := by
  induction ps generalizing f2 with
  | nil => simp [appendLoop]
  | cons p ps ih =>
    have h1 : Uniform (f2.prs ++ [setId id p]) :=
      uniform_setId (l := f2.prs) (m := [p]) (Filter.uniform_sublist h (by simp))
    unfold appendLoop
    rw [show ({ p with p := id } : PointRecord) = setId id p from rfl, Filter.pushBack_eq h1]
    simp only
    rw [ih]
    · simp
    · have := uniform_setId (l := f2.prs ++ ps) (m := [p]) (id := id) (by
        intro a ha b hb
        exact h a (by simp at ha ⊢; tauto) b (by simp at hb ⊢; tauto))
      intro a ha b hb
      exact this a (by simp at ha ⊢; tauto) b (by simp at hb ⊢; tauto)

theorem appendLoop_fail (id : UInt32) {ps : List PointRecord} {f2 : SpocFile} (h1 : Uniform ps) (h2 : Uniform f2.prs)
    (h : ¬ Uniform (f2.prs ++ ps)) :
    appendLoop id ps f2 = (f2, .throw "The number of extra fields is incorrect") := by
  cases ps with
  | nil => simp at h; exact absurd h2 h
  | cons p ps =>
    cases e : f2.prs with
    | nil => rw [e] at h; exact absurd h1 h
    | cons q qs =>
      have hne : p.extra.length ≠ q.extra.length := by
        intro hpq
        apply h
        have key : ∀ a ∈ f2.prs ++ p :: ps, a.extra.length = p.extra.length := by
          intro a ha
          rcases List.mem_append.mp ha with ha | ha
          · rw [hpq]; exact h2 a ha q (by rw [e]; simp)
          · exact h1 a ha p (by simp)
        intro a ha b hb
        rw [key a ha, key b hb]
      unfold appendLoop SpocFile.pushBack
      rw [e]
      simp only
      rw [if_pos hne]
      rfl

theorem srsDiffer_eq {f1 f2 : SpocFile} (h1 : f1.wkt.length ≤ 65535) (h2 : f2.wkt.length ≤ 65535) (quiet : Bool) :
    srsDiffer f1 f2 quiet = .ok (!quiet && decide (f1.wkt ≠ f2.wkt)) := by
  unfold srsDiffer
  cases quiet with
  | true => rfl
  | false =>
    unfold SpocFile.getHeader Header.new
    have e1 : ¬ f1.wkt.length > 0xFFFF := by omega
    have e2 : ¬ f2.wkt.length > 0xFFFF := by omega
    rw [if_neg e1, if_neg e2]
    rfl

/-- The log of one call of `append`. -/
def warn (quiet : Bool) (w v : Bytes) : Log := if (!quiet && decide (w ≠ v)) = true then [srsWarning] else []

theorem append_eq {f1 f2 : SpocFile} (h1 : f1.wkt.length ≤ 65535) (h2 : f2.wkt.length ≤ 65535) (id : UInt32) (quiet : Bool)
    (h : Uniform (f2.prs ++ f1.prs)) : append f1 f2 id quiet
      = ({ f2 with prs := f2.prs ++ f1.prs.map (setId id) }, warn quiet f1.wkt f2.wkt, .ok ()) := by
  unfold append
  rw [srsDiffer_eq h1 h2]
  simp only
  rw [appendLoop_eq _ _ _ h]
  rfl

theorem append_fail {f1 f2 : SpocFile} (h1 : f1.wkt.length ≤ 65535) (h2 : f2.wkt.length ≤ 65535) (id : UInt32) (quiet : Bool)
    (u1 : Uniform f1.prs) (u2 : Uniform f2.prs) (h : ¬ Uniform (f2.prs ++ f1.prs)) : append f1 f2 id quiet
      = (f2, warn quiet f1.wkt f2.wkt, .throw "The number of extra fields is incorrect") := by
  unfold append
  rw [srsDiffer_eq h1 h2]
  simp only
  rw [appendLoop_fail _ u1 u2 h]
  rfl

/-- The streams `files` contain the files `fs`. -/
abbrev Contain (b : Build) (zl : Zlib) (files : List (Option IStream)) (fs : List SpocFile) : Prop :=
  List.Forall₂ (fun o f => ∃ s rest, o = some s ∧ Io.readFile b zl s = .ok (f, rest)) files fs

/-- Setting flag and reference before appending. -/
def prepare (i : Nat) (g f : SpocFile) : SpocFile :=
  { g with compressed := g.compressed && f.compressed, wkt := if i = 0 then f.wkt else g.wkt }

theorem mergeOne_prepare (a : Args) (i : Nat) (st : State) (f : SpocFile) :
    mergeOne a i st f =
      ({ g := (append f (prepare i st.g f) (pointId a i) a.quiet).1
         areaSum := F64.add st.areaSum (area (Extent.ofPoints f.prs))
         log := st.log ++ (append f (prepare i st.g f) (pointId a i) a.quiet).2.1 },
       (append f (prepare i st.g f) (pointId a i) a.quiet).2.2) := by
  have e : (if i = 0 then (if f.compressed = false then st.g.setCompressed false else st.g).setWkt f.wkt
      else (if f.compressed = false then st.g.setCompressed false else st.g)) = prepare i st.g f := by
    unfold prepare SpocFile.setWkt SpocFile.setCompressed
    cases hf : f.compressed <;> cases hg : st.g.compressed <;> by_cases hi : i = 0 <;> simp [hi, hg] <;>
      (obtain ⟨⟨_, _, _, _, _⟩, _, _⟩ := st; simp_all)
  unfold mergeOne
  simp only
  rw [e]

/-- The points of the files from position `i` on. -/
abbrev pointsFrom (a : Args) (i : Nat) (fs : List SpocFile) : List PointRecord := mergedPoints (fun k => pointId a (i + k)) fs

theorem pointsFrom_cons (a : Args) (i : Nat) (f : SpocFile) (fs : List SpocFile) :
    pointsFrom a i (f :: fs) = f.prs.map (setId (pointId a i)) ++ pointsFrom a (i + 1) fs := by
  unfold pointsFrom mergedPoints
  rw [List.mapIdx_cons, List.flatten_cons]
  congr 2
  · congr 1
    funext k f
    simp only
    rw [show i + 1 + k = i + (k + 1) by omega]

/-- The whole log of the loop. -/
def warnings (quiet : Bool) (w : Bytes) (fs : List SpocFile) : Log := fs.flatMap (fun f => warn quiet f.wkt w)

/-- The sum of the areas of the files, as the application computes it. -/
def areaTotal (s : F64) (fs : List SpocFile) : F64 := fs.foldl (fun s f => F64.add s (area (Extent.ofPoints f.prs))) s

theorem mergeLoop_pos (b : Build) (zl : Zlib) (a : Args) {files : List (Option IStream)} {fs : List SpocFile}
    (hr : Contain b zl files fs) (i : Nat) (hi : 1 ≤ i) (st : State) (hu : Uniform (st.g.prs ++ allPoints fs))
    (hw : st.g.wkt.length ≤ 65535) :
    mergeLoop b zl a i files st =
      ({ g := { st.g with compressed := st.g.compressed && fs.all (fun f => f.compressed),
                          prs := st.g.prs ++ pointsFrom a i fs }
         areaSum := areaTotal st.areaSum fs, log := st.log ++ warnings a.quiet st.g.wkt fs }, .ok ()) := by
  induction hr generalizing i st with
  | nil => simp [mergeLoop, mergedPoints, warnings, areaTotal]
  | @cons o f os fs h hr ih =>
    obtain ⟨s, rest, rfl, hs⟩ := h
    have hfw := (Props.readable_writable hs).wkt
    have hp : prepare i st.g f = { st.g with compressed := st.g.compressed && f.compressed } := by
      unfold prepare; rw [if_neg (by omega)]
    have hu1 : Uniform ((prepare i st.g f).prs ++ f.prs) := by
      rw [hp]
      apply Filter.uniform_sublist hu
      simp [allPoints]
    have ha := append_eq hfw (by rw [hp]; exact hw) (pointId a i) a.quiet hu1
    unfold mergeLoop
    rw [hs]
    simp only [Apps.fileOf, Res.ok_bind]
    rw [mergeOne_prepare, ha]
    simp only
    have e := ih (i + 1) (by omega)
      { g := { (prepare i st.g f) with prs := (prepare i st.g f).prs ++ f.prs.map (setId (pointId a i)) }
        areaSum := F64.add st.areaSum (area (Extent.ofPoints f.prs))
        log := st.log ++ warn a.quiet f.wkt (prepare i st.g f).wkt } (by
        rw [hp]
        have := uniform_setId (l := st.g.prs ++ allPoints fs) (m := f.prs) (id := pointId a i) (by
          intro x hx y hy
          exact hu x (by simp [allPoints] at hx ⊢; tauto) y (by simp [allPoints] at hy ⊢; tauto))
        intro x hx y hy
        exact this x (by simp at hx ⊢; tauto) y (by simp at hy ⊢; tauto)) (by rw [hp]; exact hw)
    rw [e, hp]
    simp only [pointsFrom_cons, warnings, List.flatMap_cons, List.all_cons, Bool.and_assoc, List.append_assoc, areaTotal, List.foldl_cons]

theorem mergeLoop_fail (b : Build) (zl : Zlib) (a : Args) {files : List (Option IStream)} {fs : List SpocFile}
    (hr : Contain b zl files fs) (i : Nat) (st : State) (hu : Uniform st.g.prs) (hn : ¬ Uniform (st.g.prs ++ allPoints fs))
    (hw : st.g.wkt.length ≤ 65535) :
    ∃ st', mergeLoop b zl a i files st = (st', .throw "The number of extra fields is incorrect") := by
  induction hr generalizing i st with
  | nil => simp [allPoints] at hn; exact absurd hu hn
  | @cons o f os fs h hr ih =>
    obtain ⟨s, rest, rfl, hs⟩ := h
    have hfw := (Props.readable_writable hs).wkt
    have hfu := (Props.readable_writable hs).uniform
    have hpw : (prepare i st.g f).wkt.length ≤ 65535 := by
      unfold prepare; simp only; split <;> assumption
    unfold mergeLoop
    rw [hs]
    simp only [Apps.fileOf, Res.ok_bind]
    rw [mergeOne_prepare]
    by_cases hu1 : Uniform (st.g.prs ++ f.prs)
    · rw [append_eq hfw hpw (pointId a i) a.quiet hu1]
      simp only
      apply ih
      · exact uniform_setId hu1
      · intro hc
        apply hn
        have key : ∀ x ∈ st.g.prs ++ allPoints (f :: fs), ∃ y ∈ st.g.prs ++ f.prs.map (setId (pointId a i)) ++ allPoints fs,
            y.extra.length = x.extra.length := by
          intro x hx
          simp only [allPoints, List.flatMap_cons, List.mem_append] at hx
          rcases hx with hx | hx | hx
          · exact ⟨x, by simp [hx], rfl⟩
          · exact ⟨setId (pointId a i) x, by simp only [List.mem_append, List.mem_map]; exact Or.inl (Or.inr ⟨x, hx, rfl⟩), rfl⟩
          · exact ⟨x, by simp only [List.mem_append]; exact Or.inr hx, rfl⟩
        intro x hx y hy
        obtain ⟨x', hx', e1⟩ := key x hx
        obtain ⟨y', hy', e2⟩ := key y hy
        rw [← e1, ← e2]
        exact hc x' hx' y' hy'
      · exact hpw
    · rw [append_fail hfw hpw (pointId a i) a.quiet hfu hu hu1]
      exact ⟨_, rfl⟩

end Spoc.Merge
