import Verif.Props.InfoOrder

/-!
# C100: merging in stages

`putFile fs m bs` is the file system after the standard output `bs` has been redirected into the file `m`.
-/

namespace Spoc.Props

open Getopt Cmd Main Spec Spec.Cmd Text

/-- What merge writes, byte by byte. -/
theorem merge_bytes (p : Params) (w : World) (argv : List Str) (quiet : Bool) (asked : Option Nat)
    (ha : ∀ n ∈ asked, n < 2 ^ 31) (hopt : Cmd.merge.options argv = mergeOptions quiet asked) (f : SpocFile) (fs : List SpocFile)
    (hf : List.Forall₂ (fun n f => HasCloud p w.fs n f) (Cmd.merge.operands argv) (f :: fs)) (h2 : fs ≠ [])
    (hu : Uniform (allPoints (f :: fs))) (hok : (Io.writeFile p.build p.zlib (mergedCloud asked f fs)).res = .ok ()) :
    (Name.merge.run p argv w).res = .ok 0 ∧ (Name.merge.run p argv w).out = (Io.writeFile p.build p.zlib (mergedCloud asked f fs)).bytes := by
  have hin : Merge.Contain p.build p.zlib ((Cmd.merge.operands argv).map (openRead w.fs)) (f :: fs) := by
    generalize Cmd.merge.operands argv = ns at hf
    generalize f :: fs = l at hf
    clear hok hu h2
    induction hf with
    | nil => exact .nil
    | cons h _ ih =>
      obtain ⟨s, s', h1, h2⟩ := hasCloud_open h
      exact .cons ⟨s, s', h1, h2⟩ ih
  obtain ⟨log, h3, -⟩ := c41_merge p.build p.zlib _ f fs hin h2 hu quiet asked ha
  unfold mergedCloud at hok ⊢
  simp only [Name.run, Main.merge, hopt, h3, outputStream, List.isEmpty_nil, if_true, hok]
  exact ⟨rfl, trivial⟩

/-- Two clouds that differ at most in the point ids. -/
def SameButIds (f g : SpocFile) : Prop :=
  f.major = g.major ∧ f.minor = g.minor ∧ f.wkt = g.wkt ∧ f.compressed = g.compressed ∧ f.prs.map withoutId = g.prs.map withoutId

theorem mergedPoints_some (n : Nat) (fs : List SpocFile) :
    mergedPoints (idOf (some n)) fs = (allPoints fs).map (fun q => { q with p := UInt32.ofNat n }) := by
  have e : idOf (some n) = fun _ => UInt32.ofNat n := rfl
  rw [e]
  generalize UInt32.ofNat n = id
  unfold mergedPoints allPoints
  have : fs.mapIdx (fun _ (f : SpocFile) => f.prs.map (fun q => { q with p := id }))
      = fs.map (fun f => f.prs.map (fun q => { q with p := id })) := List.mapIdx_eq_iff.mpr (by simp)
  rw [this, List.map_flatMap, List.flatMap_def]

theorem allPoints_append (fs gs : List SpocFile) : allPoints (fs ++ gs) = allPoints fs ++ allPoints gs := List.flatMap_append

/-- Merging in two stages with one point id gives the same cloud. -/
theorem mergedCloud_stages (n : Nat) (f : SpocFile) (fs gs : List SpocFile) :
    mergedCloud (some n) (mergedCloud (some n) f fs) gs = mergedCloud (some n) f (fs ++ gs) := by
  unfold mergedCloud
  congr 1
  · rw [List.all_cons, ← List.cons_append, List.all_append]
  · rw [mergedPoints_some n (_ :: gs), mergedPoints_some n (f :: (fs ++ gs)), ← List.cons_append, allPoints_append,
      show ∀ g, allPoints (g :: gs) = g.prs ++ allPoints gs from fun _ => List.flatMap_cons .., List.map_append, List.map_append]
    congr 1
    show List.map _ (mergedPoints (idOf (some n)) (f :: fs)) = _
    rw [mergedPoints_some, List.map_map]
    rfl

theorem mergedCloud_stages_ids (asked : Option Nat) (f : SpocFile) (fs gs : List SpocFile) :
    SameButIds (mergedCloud asked (mergedCloud asked f fs) gs) (mergedCloud asked f (fs ++ gs)) := by
  refine ⟨rfl, rfl, rfl, ?_, ?_⟩
  · show (List.all _ _ && _) = List.all _ _
    rw [← List.cons_append, List.all_append]
  · show (mergedPoints _ _).map withoutId = (mergedPoints _ _).map withoutId
    rw [mergedPoints_withoutId, mergedPoints_withoutId, ← List.cons_append, allPoints_append]
    unfold allPoints
    rw [List.flatMap_cons, List.map_append, List.map_append]
    congr 1
    exact mergedPoints_withoutId (idOf asked) (f :: fs)

theorem survives_ids {z : Zlib} {f g : SpocFile} (hf : Survives z f) (h : SameButIds g f) : Survives z g := by
  obtain ⟨h1, h2, h3, h4, h5⟩ := h
  obtain ⟨w, hu, hc⟩ := hf
  have hl : g.prs.length = f.prs.length := by simpa using congrArg List.length h5
  have hm : ∀ q ∈ g.prs, ∃ r ∈ f.prs, withoutId r = withoutId q := by
    intro q hq
    have : withoutId q ∈ f.prs.map withoutId := h5 ▸ List.mem_map_of_mem hq
    exact List.mem_map.mp this
  have hm' : ∀ r ∈ f.prs, ∃ q ∈ g.prs, withoutId q = withoutId r := by
    intro q hq
    have : withoutId q ∈ g.prs.map withoutId := h5 ▸ List.mem_map_of_mem hq
    exact List.mem_map.mp this
  have he : ∀ q ∈ g.prs, ∃ r ∈ f.prs, r.extra = q.extra := by
    intro q hq
    obtain ⟨r, hr, e⟩ := hm q hq
    have e' : (withoutId r).extra = (withoutId q).extra := congrArg PointRecord.extra e
    exact ⟨r, hr, e'⟩
  refine ⟨⟨h1.trans w.major, h2.trans w.minor, h3 ▸ w.wkt, ?_, ?_, hl ▸ w.count⟩, fun hcf q hq => ?_, fun hct => ⟨?_, ?_⟩⟩
  · intro q hq r hr
    obtain ⟨q', a1, a2⟩ := he q hq
    obtain ⟨r', b1, b2⟩ := he r hr
    rw [← a2, ← b2]
    exact w.uniform q' a1 r' b1
  · intro q hq
    obtain ⟨q', a1, a2⟩ := he q hq
    rw [← a2]
    exact w.extra q' a1
  · obtain ⟨q', a1, a2⟩ := he q hq
    rw [← a2]
    exact hu (h4 ▸ hcf) q' a1
  · rw [hl]
    exact (hc (h4 ▸ hct)).1
  · intro axis hax honly q hq
    have hid : ∀ r : PointRecord, axis (withoutId r) = axis r := by
      intro r
      rcases hax with rfl | rfl | rfl <;> rfl
    obtain ⟨r, b1, b2⟩ := hm q hq
    rw [← hid q, ← b2, hid r]
    refine (hc (h4 ▸ hct)).2 axis hax (fun r' hr' => ?_) r b1
    obtain ⟨q', c1, c2⟩ := hm' r' hr'
    rw [← hid r', ← c2, hid q']
    exact honly q' c1

/-- What the two stages produce. -/
theorem stages_run (p : Params) (hz : p.zlib.Correct) (w : World) (asked : Option Nat) (ha : ∀ n ∈ asked, n < 2 ^ 31)
    (first second once : List Str) (q1 q2 q3 : Bool)
    (ho1 : Cmd.merge.options first = mergeOptions q1 asked) (ho2 : Cmd.merge.options second = mergeOptions q2 asked)
    (ho3 : Cmd.merge.options once = mergeOptions q3 asked)
    (is js : List Str) (m : Str) (hm : m ∉ js)
    (h1 : Cmd.merge.operands first = is) (h2 : Cmd.merge.operands second = m :: js) (h3 : Cmd.merge.operands once = is ++ js)
    (hi : 2 ≤ is.length) (hj : js ≠ []) (f : SpocFile) (fs gs : List SpocFile)
    (hf : List.Forall₂ (fun n f => HasCloud p w.fs n f) is (f :: fs)) (hg : List.Forall₂ (fun n f => HasCloud p w.fs n f) js gs)
    (hu : Uniform (allPoints (f :: fs ++ gs))) (hs : Survives p.zlib (mergedCloud asked f fs))
    (hs' : Survives p.zlib (mergedCloud asked f (fs ++ gs)))
    (hs'' : Survives p.zlib (mergedCloud asked (mergedCloud asked f fs) gs))
    (w' : World) (hw : w'.fs = putFile w.fs m (Name.merge.run p first w).out) :
    ((Name.merge.run p first w).res = .ok 0 ∧ (Name.merge.run p second w').res = .ok 0 ∧ (Name.merge.run p once w).res = .ok 0)
      ∧ (Name.merge.run p second w').out = (Io.writeFile p.build p.zlib (mergedCloud asked (mergedCloud asked f fs) gs)).bytes
      ∧ (Name.merge.run p once w).out = (Io.writeFile p.build p.zlib (mergedCloud asked f (fs ++ gs))).bytes := by
  have hfs : fs ≠ [] := by
    rintro rfl
    have := hf.length_eq
    simp at this; omega
  have hgs : gs ≠ [] := by
    rintro rfl
    exact hj (List.eq_nil_of_length_eq_zero (by simpa using hg.length_eq))
  have hu1 : Uniform (allPoints (f :: fs)) := by
    intro q hq r hr
    rw [allPoints_append] at hu
    exact hu q (List.mem_append_left _ hq) r (List.mem_append_left _ hr)
  have key : ∀ q ∈ (mergedCloud asked f fs).prs, ∃ r ∈ allPoints (f :: fs), r.extra = q.extra := by
    intro q hq
    have : withoutId q ∈ (allPoints (f :: fs)).map withoutId := by
      rw [← mergedPoints_withoutId (idOf asked)]
      exact List.mem_map_of_mem hq
    obtain ⟨r, h4, h5⟩ := List.mem_map.mp this
    have h6 : (withoutId r).extra = (withoutId q).extra := congrArg PointRecord.extra h5
    exact ⟨r, h4, h6⟩
  have hu2 : Uniform (allPoints (mergedCloud asked f fs :: gs)) := by
    have hall : ∀ q ∈ allPoints (mergedCloud asked f fs :: gs), ∃ r ∈ allPoints (f :: fs ++ gs), r.extra = q.extra := by
      intro q hq
      rw [show allPoints (mergedCloud asked f fs :: gs) = (mergedCloud asked f fs).prs ++ allPoints gs from List.flatMap_cons ..] at hq
      rw [allPoints_append]
      rcases List.mem_append.mp hq with hq | hq
      · obtain ⟨r, h4, h5⟩ := key q hq
        exact ⟨r, List.mem_append_left _ h4, h5⟩
      · exact ⟨q, List.mem_append_right _ hq, rfl⟩
    intro q hq r hr
    obtain ⟨q', h4, h5⟩ := hall q hq
    obtain ⟨r', h6, h7⟩ := hall r hr
    rw [← h5, ← h7]
    exact hu q' h4 r' h6
  obtain ⟨a1, a2⟩ := merge_bytes p w first q1 asked ha ho1 f fs (h1 ▸ hf) hfs hu1 (survives_roundtrip p.build p.zlib hz _ hs).1
  obtain ⟨b1, b2⟩ := merge_bytes p w once q3 asked ha ho3 f (fs ++ gs) (by
      rw [h3, ← List.cons_append]
      exact List.rel_append hf hg) (by simp [hfs]) (by rw [← List.cons_append]; exact hu) (survives_roundtrip p.build p.zlib hz _ hs').1
  obtain ⟨c1, c2⟩ := merge_bytes p w' second q2 asked ha ho2 (mergedCloud asked f fs) gs (by
      rw [h2]
      refine .cons ⟨_, { rest := [] }, by rw [hw]; exact if_pos rfl, rfl, ?_⟩ ?_
      · have := (survives_roundtrip p.build p.zlib hz _ hs).2 []
        rw [List.append_nil] at this
        rw [a2]
        exact this
      · rw [hw]
        clear hj hgs hs' hs'' hu hu2 b1 b2 hw h2 h3
        induction hg with
        | nil => exact .nil
        | cons h _ ih =>
          obtain ⟨x, s, e1, e2, e3⟩ := h
          refine .cons ⟨x, s, ?_, e2, e3⟩ (ih (fun h => hm (List.mem_cons_of_mem _ h)))
          exact (if_neg (fun e => hm (by rw [e]; exact List.mem_cons_self))).trans e1) hgs hu2
    (survives_roundtrip p.build p.zlib hz _ hs'').1
  exact ⟨⟨a1, c1, b1⟩, c2, b2⟩

/-- **C100**: merging some files with a given point id, and merging the result with further files with the same id, gives the same bytes
as merging all of them at once. -/
theorem c100_same_bytes_partial (p : Params) (hz : p.zlib.Correct) (w : World) (n : Nat) (ha : n < 2 ^ 31)
    (first second once : List Str) (q1 q2 q3 : Bool)
    (ho1 : Cmd.merge.options first = mergeOptions q1 (some n)) (ho2 : Cmd.merge.options second = mergeOptions q2 (some n))
    (ho3 : Cmd.merge.options once = mergeOptions q3 (some n))
    (is js : List Str) (m : Str) (hm : m ∉ js)
    (h1 : Cmd.merge.operands first = is) (h2 : Cmd.merge.operands second = m :: js) (h3 : Cmd.merge.operands once = is ++ js)
    (hi : 2 ≤ is.length) (hj : js ≠ []) (f : SpocFile) (fs gs : List SpocFile)
    (hf : List.Forall₂ (fun n f => HasCloud p w.fs n f) is (f :: fs)) (hg : List.Forall₂ (fun n f => HasCloud p w.fs n f) js gs)
    (hu : Uniform (allPoints (f :: fs ++ gs))) (hs : Survives p.zlib (mergedCloud (some n) f fs))
    (hs' : Survives p.zlib (mergedCloud (some n) f (fs ++ gs)))
    (w' : World) (hw : w'.fs = putFile w.fs m (Name.merge.run p first w).out) :
    (Name.merge.run p second w').res = .ok 0 ∧ (Name.merge.run p once w).res = .ok 0
      ∧ (Name.merge.run p second w').out = (Name.merge.run p once w).out := by
  obtain ⟨⟨-, e2, e3⟩, e4, e5⟩ := stages_run p hz w (some n) (by simpa using ha) first second once q1 q2 q3 ho1 ho2 ho3 is js m hm h1 h2 h3
    hi hj f fs gs hf hg hu hs hs' (by rw [mergedCloud_stages]; exact hs') w' hw
  exact ⟨e2, e3, by rw [e4, e5, mergedCloud_stages]⟩

/-- **C100**: whatever point ids are asked for, merging in two stages gives the points of merging at once in the same order, with the same
spatial reference and the same compression; only point ids can differ (see `c100_ids_differ`). -/
theorem c100_same_points_partial (p : Params) (hz : p.zlib.Correct) (w : World) (asked : Option Nat) (ha : ∀ n ∈ asked, n < 2 ^ 31)
    (first second once : List Str) (q1 q2 q3 : Bool)
    (ho1 : Cmd.merge.options first = mergeOptions q1 asked) (ho2 : Cmd.merge.options second = mergeOptions q2 asked)
    (ho3 : Cmd.merge.options once = mergeOptions q3 asked)
    (is js : List Str) (m : Str) (hm : m ∉ js)
    (h1 : Cmd.merge.operands first = is) (h2 : Cmd.merge.operands second = m :: js) (h3 : Cmd.merge.operands once = is ++ js)
    (hi : 2 ≤ is.length) (hj : js ≠ []) (f : SpocFile) (fs gs : List SpocFile)
    (hf : List.Forall₂ (fun n f => HasCloud p w.fs n f) is (f :: fs)) (hg : List.Forall₂ (fun n f => HasCloud p w.fs n f) js gs)
    (hu : Uniform (allPoints (f :: fs ++ gs))) (hs : Survives p.zlib (mergedCloud asked f fs))
    (hs' : Survives p.zlib (mergedCloud asked f (fs ++ gs)))
    (w' : World) (hw : w'.fs = putFile w.fs m (Name.merge.run p first w).out) :
    ∃ g h s s', Io.readFile p.build p.zlib { rest := (Name.merge.run p second w').out } = .ok (g, s)
      ∧ Io.readFile p.build p.zlib { rest := (Name.merge.run p once w).out } = .ok (h, s') ∧ SameButIds g h := by
  have hids := mergedCloud_stages_ids asked f fs gs
  have hs'' : Survives p.zlib (mergedCloud asked (mergedCloud asked f fs) gs) := survives_ids hs' hids
  obtain ⟨-, e4, e5⟩ := stages_run p hz w asked ha first second once q1 q2 q3 ho1 ho2 ho3 is js m hm h1 h2 h3
    hi hj f fs gs hf hg hu hs hs' hs'' w' hw
  have r1 := (survives_roundtrip p.build p.zlib hz _ hs'').2 []
  have r2 := (survives_roundtrip p.build p.zlib hz _ hs').2 []
  rw [List.append_nil] at r1 r2
  exact ⟨_, _, _, _, by rw [e4]; exact r1, by rw [e5]; exact r2, hids⟩

/-! ## Examples -/

theorem merged_survives (asked : Option Nat) (f : SpocFile) (fs : List SpocFile) (h : (f :: fs).all (fun f => f.compressed) = false)
    (hw : f.wkt.length ≤ 65535) (hu : Uniform (mergedPoints (idOf asked) (f :: fs)))
    (he : ∀ q ∈ mergedPoints (idOf asked) (f :: fs), q.extra.length ≤ 123) (hl : (mergedPoints (idOf asked) (f :: fs)).length < 2 ^ 64) :
    Survives toyZlib (mergedCloud asked f fs) :=
  ⟨⟨rfl, rfl, hw, hu, fun q hq => (he q hq).trans (by decide), hl⟩, fun _ => he, fun h' => absurd (h.symm.trans h') (by simp)⟩

example : ∀ w' : World, w'.fs = putFile exampleDisk.fs ['m'] (Name.merge.run exampleParams ["-p7".toList, ['a'], ['d']] exampleDisk).out →
    (Name.merge.run exampleParams ["-p7".toList, ['m'], ['z']] w').out
      = (Name.merge.run exampleParams ["-p7".toList, ['a'], ['d'], ['z']] exampleDisk).out :=
  fun w' hw => (c100_same_bytes_partial exampleParams toyZlib_correct exampleDisk 7 (by decide) ["-p7".toList, ['a'], ['d']]
    ["-p7".toList, ['m'], ['z']] ["-p7".toList, ['a'], ['d'], ['z']] false false false (by decide +kernel) (by decide +kernel)
    (by decide +kernel) [['a'], ['d']] [['z']] ['m'] (by decide) (by decide +kernel) (by decide +kernel) (by decide +kernel) (by decide)
    (by decide) cloudA [cloudA] [{ cloudA with compressed := true }] (.cons cloudA_on_disk.1 (.cons cloudA_on_disk.2 .nil))
    (.cons cloudZ_on_disk .nil) (by unfold Uniform; decide +kernel)
    (merged_survives _ _ _ rfl (by decide) (by unfold Uniform; decide +kernel) (by decide +kernel) (by decide +kernel))
    (merged_survives _ _ _ rfl (by decide) (by unfold Uniform; decide +kernel) (by decide +kernel) (by decide +kernel)) w' hw).2.2

/-- **C100, negation**: without a given point id the points of the second and further files of the first stage lose their number. -/
theorem c100_ids_differ : ∃ (p : Params) (w w' : World) (first second once : List Str),
    w'.fs = putFile w.fs ['m'] (Name.merge.run p first w).out
      ∧ Cmd.merge.options first = [] ∧ Cmd.merge.options second = [] ∧ Cmd.merge.options once = []
      ∧ Cmd.merge.operands first = [['a'], ['d']] ∧ Cmd.merge.operands second = [['m'], ['z']]
      ∧ Cmd.merge.operands once = [['a'], ['d'], ['z']]
      ∧ (Name.merge.run p second w').res = .ok 0 ∧ (Name.merge.run p once w).res = .ok 0
      ∧ (Name.merge.run p second w').out ≠ (Name.merge.run p once w).out := by
  have s1 : Survives toyZlib (mergedCloud none cloudA ([cloudA] ++ [{ cloudA with compressed := true }])) :=
    merged_survives _ _ _ rfl (by decide) (by unfold Uniform; decide +kernel) (by decide +kernel) (by decide +kernel)
  have s2 : Survives toyZlib (mergedCloud none (mergedCloud none cloudA [cloudA]) [{ cloudA with compressed := true }]) :=
    merged_survives _ _ _ rfl (by decide) (by unfold Uniform; decide +kernel) (by decide +kernel) (by decide +kernel)
  obtain ⟨⟨-, e2, e3⟩, e4, e5⟩ := stages_run exampleParams toyZlib_correct exampleDisk none (by simp) [['a'], ['d']]
    [['m'], ['z']] [['a'], ['d'], ['z']] false false false (by decide +kernel) (by decide +kernel)
    (by decide +kernel) [['a'], ['d']] [['z']] ['m'] (by decide) (by decide +kernel) (by decide +kernel) (by decide +kernel) (by decide)
    (by decide) cloudA [cloudA] [{ cloudA with compressed := true }] (.cons cloudA_on_disk.1 (.cons cloudA_on_disk.2 .nil))
    (.cons cloudZ_on_disk .nil) (by unfold Uniform; decide +kernel)
    (merged_survives _ _ _ rfl (by decide) (by unfold Uniform; decide +kernel) (by decide +kernel) (by decide +kernel)) s1 s2
    { exampleDisk with fs := putFile exampleDisk.fs ['m'] (Name.merge.run exampleParams [['a'], ['d']] exampleDisk).out } rfl
  refine ⟨exampleParams, exampleDisk, _, [['a'], ['d']], [['m'], ['z']], [['a'], ['d'], ['z']], rfl, by decide +kernel, by decide +kernel,
    by decide +kernel, by decide +kernel, by decide +kernel, by decide +kernel, e2, e3, ?_⟩
  rw [e4, e5]
  intro h
  have r1 := (survives_roundtrip exampleParams.build exampleParams.zlib toyZlib_correct _ s2).2 []
  have r2 := (survives_roundtrip exampleParams.build exampleParams.zlib toyZlib_correct _ s1).2 []
  rw [h, r2] at r1
  injection r1 with r1
  have : (mergedCloud none cloudA ([cloudA] ++ [{ cloudA with compressed := true }])).prs.map (·.p)
      = (mergedCloud none (mergedCloud none cloudA [cloudA]) [{ cloudA with compressed := true }]).prs.map (·.p) := by
    rw [(Prod.mk.inj r1).1]
  revert this
  decide +kernel

end Spoc.Props
