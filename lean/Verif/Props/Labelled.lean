import Verif.Proofs.Related
import Verif.Props.Cubes

/-!
# C145: classifying a subsampled cloud and carrying the classes back
-/

namespace Spoc.Props

open Spec Text AppUtils Tool Subsampling Main

/-- The points `qs` are the points `ps`, in the same order, with any classes. -/
def Relabelled (ps qs : List PointRecord) : Prop := List.Forall₂ (fun p q => q = { p with c := q.c }) ps qs

theorem Relabelled.except {ps qs : List PointRecord} (h : Relabelled ps qs) : List.Forall₂ (SameExcept [.c]) ps qs := by
  refine h.imp fun p q e => ?_
  rw [e]
  refine ⟨rfl, fun fld hfld => ?_⟩
  cases fld <;> first | rfl | simp at hfld

theorem Relabelled.sameXyz {ps qs : List PointRecord} (h : Relabelled ps qs) : List.Forall₂ Related.SameXyz ps qs := by
  refine h.imp fun p q e => ?_
  rw [e]
  exact ⟨rfl, rfl, rfl⟩

/-- **C145**: subsample a cloud, give the points that are kept any classes, carry the classes to the cloud with the same resolution.  This succeeds and changes
nothing but classes; every class in the result is one that was given; and subsampling the result with the same seed returns the classified points. -/
theorem c145_back (b : Build) (sh : Shuffle) (hsh : sh.Lawful) (l f : SpocFile) (huf : Uniform f.prs) (r : F64) (hr : F64.gt r F64.zero = true)
    (seed : Nat) (qs : List PointRecord) (hq : subsamplePoints b sh f.prs r seed = .ok qs) (hl : Relabelled qs l.prs) :
    ∃ g n, upsample b l f r = .ok (g, n) ∧ SameApart f g ∧ Relabelled f.prs g.prs ∧ (∀ q ∈ g.prs, ∃ lp ∈ l.prs, q.c = lp.c)
      ∧ subsamplePoints b sh g.prs r seed = .ok l.prs := by
  obtain ⟨vs, ks, g, n, hv, hk, -, hu, ha, hlen, hg⟩ := c53_subsample_upsample b sh hsh l f huf r hr seed qs hq hl.except
  have hrel : Relabelled f.prs g.prs := by
    refine List.forall₂_iff_get.mpr ⟨hlen.symm, fun j hj hj' => ?_⟩
    exact (carried_from hu (List.getElem?_eq_getElem hj) (List.getElem?_eq_getElem hj')).1
  refine ⟨g, n, hu, ha, hrel, ?_, ?_⟩
  · intro q hq'
    obtain ⟨j, hj, rfl⟩ := List.getElem_of_mem hq'
    obtain ⟨q, i, k, lp, e1, -, -, -, e5, e6, -⟩ := hg j _ (List.getElem?_eq_getElem (hlen ▸ hj))
    rw [List.getElem?_eq_getElem hj] at e1
    obtain rfl := Option.some.inj e1
    exact ⟨lp, List.mem_of_getElem? e5, e6⟩
  · obtain ⟨ks', qs', h1, h2, h3, h4, h5, h6, h7⟩ := c23_one_per_voxel b sh hsh f.prs r seed vs hv
    rw [hk] at h1
    obtain rfl := Res.ok.inj h1
    rw [hq] at h2
    obtain rfl := Res.ok.inj h2
    have hv' : Voxel.getIndexes g.prs r = .ok vs := by rw [← Related.getIndexes_same hrel.sameXyz, hv]
    obtain ⟨ks', ls, m1, m2, m3, -⟩ := c23_one_per_voxel b sh hsh g.prs r seed vs hv'
    rw [← Related.subsampleIndexes_same b sh hrel.sameXyz, hk] at m1
    obtain rfl := Res.ok.inj m1
    rw [m2]
    congr 1
    have hlq : qs.length = l.prs.length := List.Forall₂.length_eq hl
    refine List.ext_getElem (by rw [← m3.length_eq, h3.length_eq, hlq]) fun i hi hi' => ?_
    have hik : i < ks.length := by rw [m3.length_eq]; exact hi
    have hiq : i < qs.length := by omega
    have e1 := forall₂_get m3 hik hi
    have e2 := forall₂_get h3 hik hiq
    have e3 := forall₂_get (R := fun p q : PointRecord => q = { p with c := q.c }) hl hiq hi'
    obtain ⟨q, i', k', lp, a1, -, a3, a4, a5, a6, a7⟩ := hg _ _ e2
    have := a7 i _ (List.getElem?_eq_getElem hik) rfl
    subst this
    rw [e1] at a1
    obtain rfl := Option.some.inj a1
    rw [List.getElem?_eq_getElem hi'] at a5
    obtain rfl := Option.some.inj a5
    have e4 := (carried_from hu e2 e1).1
    rw [e4, e3, a6]

/-- **C145** with files (partial: no negative zeros in compressed files): `filter --subsample` on `h` writes `s`; a file `i` has the points of `s` with any classes;
`tool --upsample-classifications=h` writes `o`, where every point of `h` has one of the classes in `i`; and `filter` with the options from before writes the points of `i`
when it reads `o`. -/
theorem c145_files_partial (p : Params) (hz : p.zlib.Correct) (hsh : p.shuffle.Lawful) (w : World) (first : List Str) (h s t : Str) (seed : Nat)
    (hopt : Asks (Cmd.filter.options first) { resolution := some (atof t), seed := seed }) (hops : Cmd.filter.operands first = [h, s]) (hh : h ≠ []) (hs : s ≠ [])
    (hc : CanReplace w s) (f : SpocFile) (hf : HasCloud p w.fs h f) (hu : Lossless p.zlib f) (hr : F64.gt (atof t) F64.zero = true)
    (qs : List PointRecord) (hq : subsamplePoints p.build p.shuffle f.prs (atof t) seed = .ok qs) :
    Makes .filter p w first s { f with prs := qs }
      ∧ ∀ (w' : World) (second third : List Str) (i o u : Str) (l : SpocFile), HasCloud p w'.fs h f → HasCloud p w'.fs i l → Relabelled qs l.prs →
        Cmd.tool.options second = [("upsample-classifications", h), ("resolution", t)] → Cmd.tool.operands second = [i, o] →
        Cmd.filter.options third = Cmd.filter.options first → Cmd.filter.operands third = [o, u] → i ≠ [] → o ≠ [] → u ≠ [] →
        CanReplace w' o →
          ∃ g, Makes .tool p w' second o g ∧ SameApart f g ∧ Relabelled f.prs g.prs ∧ (∀ q ∈ g.prs, ∃ lp ∈ l.prs, q.c = lp.c)
            ∧ (CanReplace (after .tool p second w') u → Makes .filter p (after .tool p second w') third u { f with prs := l.prs }) := by
  obtain ⟨x, s', h1, h2, h3⟩ := id hf
  have hw := readable_writable h3
  have hsf : Survives p.zlib f := lossless_survives hw (fun e => (readable_survives h3 e).2.1 e) hu
  obtain ⟨vs, -, -, -, hv, -⟩ := c53_subsample_upsample p.build p.shuffle hsh { f with prs := qs } f hw.uniform (atof t) hr seed qs hq
    (List.forall₂_same.mpr fun q _ => ⟨rfl, fun _ _ => rfl⟩)
  obtain ⟨ks, qs₁, k1, k2, k3, k4, k5, k6⟩ := c23_one_per_voxel p.build p.shuffle hsh f.prs (atof t) seed vs hv
  rw [hq] at k2
  obtain rfl := Res.ok.inj k2
  obtain ⟨qs', l1, l2, -⟩ := pick_only f hw.uniform ks k4 k5
  obtain rfl : qs' = qs := by rw [forall₂_filterMap l1, forall₂_filterMap k3]
  refine ⟨?_, ?_⟩
  · exact (c149_filter p hz hsh w first h s _ hopt hops hh hs hc f hf hu qs' ⟨f.prs, f.prs, f.prs, qs', rfl, by simp, rfl, hq, rfl⟩).1
  · intro w' second third i o u l hf' hl hrel hopt2 hops2 hopt3 hops3 hi ho hu' hc2
    obtain ⟨g, n, g1, g2, g3, g4, g5⟩ := c145_back p.build p.shuffle hsh l f hw.uniform (atof t) hr seed qs' hq hrel
    have hvl : ∃ vl, Voxel.getIndexesIn l.prs (Extent.ofPoints f.prs) (atof t) = .ok vl := by
      have e : Voxel.getIndexesIn l.prs (Extent.ofPoints f.prs) (atof t) = Voxel.getIndexesIn qs' (Extent.ofPoints f.prs) (atof t) :=
        (Related.getIndexesIn_same hrel.sameXyz _ _).symm
      rw [e]
      apply mapM_ok_of
      intro q hq
      obtain ⟨j, hj, e⟩ := List.getElem_of_mem (l2.subset hq)
      obtain ⟨v, -, w2⟩ := Spoc.mapM_get hv (e ▸ List.getElem?_eq_getElem hj)
      exact ⟨v, w2⟩
    obtain ⟨vl, hvl⟩ := hvl
    obtain ⟨g', m, m1, m2, m3, -⟩ := c76_upsample_run p hz w' second i h t o hopt2 hops2 hi ho hc2 l f hl hf' hsf hr vs vl hv hvl
    rw [g1] at m1
    obtain ⟨rfl, rfl⟩ := Prod.mk.inj (Res.ok.inj m1)
    refine ⟨g, m3, g2, g3, g4, fun hc3 => ?_⟩
    have eg : { g with prs := l.prs } = { f with prs := l.prs } := by
      obtain ⟨a1, a2, a3, a4⟩ := g2
      cases g; cases f
      simp only at a1 a2 a3 a4
      subst a1 a2 a3 a4
      rfl
    rw [← eg]
    have hlg : Lossless p.zlib g := by
      intro e
      rw [g2.2.2.2] at e
      refine ⟨by rw [← List.Forall₂.length_eq g3]; exact (hu e).1, fun q hq' => ?_⟩
      obtain ⟨q', n1, n2⟩ := forall₂_right g3 q hq'
      rw [n2]
      exact (hu e).2 q' n1
    exact (c149_filter p hz hsh _ third o u { resolution := some (atof t), seed := seed } (hopt3 ▸ hopt) hops3 ho hu' hc3 g m3.2.2.1 hlg l.prs
      ⟨g.prs, g.prs, g.prs, l.prs, rfl, by simp, rfl, g5, rfl⟩).1

/-- The point that is kept of `cloudA` with the resolution 20, with the class 7. -/
def labelA : SpocFile := { SpocFile.empty with prs := [{ x := num 0, y := num 0, c := 7 }] }

theorem cloudA_sampled (b : Build) : subsamplePoints b noShuffle cloudA.prs (atof ['2', '0']) 0 = .ok [{ x := num 0, y := num 0 }] := by
  cases b <;> decide +kernel

theorem labelA_relabelled : Relabelled [{ x := num 0, y := num 0 }] labelA.prs := by
  have key : ∀ a b : F64, Relabelled [{ x := a, y := b }] [{ x := a, y := b, c := 7 }] := fun a b => .cons rfl .nil
  exact key (num 0) (num 0)

/-- **C145**, why the resolution has to be the same: with a smaller one only one of three points gets the class. -/
theorem c145_smaller (b : Build) : subsamplePoints b noShuffle cloudA.prs (num 20) 0 = .ok [{ x := num 0, y := num 0 }]
    ∧ ∃ g n, upsample b labelA cloudA (num 10) = .ok (g, n) ∧ g.prs.map (·.c) = [7, 0, 0] := by
  refine ⟨by cases b <;> decide +kernel, ?_⟩
  have h : ∀ b, (match upsample b labelA cloudA (num 10) with | .ok (g, _) => g.prs.map (·.c) | _ => []) = [7, 0, 0] := by
    intro b
    cases b <;> decide +kernel
  have h' := h b
  split at h'
  · next g n e => exact ⟨g, n, e, h'⟩
  · simp at h'

/-! ## examples -/

/-- The hypotheses of `c145_back` hold. -/
example (b : Build) : ∃ g n, upsample b labelA cloudA (atof ['2', '0']) = .ok (g, n) ∧ (∀ q ∈ g.prs, ∃ lp ∈ labelA.prs, q.c = lp.c)
    ∧ subsamplePoints b noShuffle g.prs (atof ['2', '0']) 0 = .ok labelA.prs := by
  obtain ⟨g, n, h1, -, -, h4, h5⟩ := c145_back b noShuffle (fun _ l => List.Perm.refl l) labelA cloudA cloudA_survives.1.uniform (atof ['2', '0'])
    (by decide +kernel) 0 _ (cloudA_sampled b) labelA_relabelled
  exact ⟨g, n, h1, h4, h5⟩

/-- The disk with the classified points in the file `l`. -/
def labelDisk : World where
  fs := fun n =>
    if n = ['l'] then some { content := (Io.writeFile .release toyZlib labelA).bytes, readable := true, writable := true } else exampleDisk.fs n
  canCreate _ := true
  stdin := { rest := [] }

theorem labelDiskL : HasCloud exampleParams labelDisk.fs ['l'] labelA := by
  have h := (survives_roundtrip .release toyZlib toyZlib_correct labelA
    ⟨⟨rfl, rfl, by decide, by unfold Uniform; decide, by decide, by decide⟩, fun _ => by decide, fun h => by simp [labelA, SpocFile.empty] at h⟩).2 []
  rw [List.append_nil] at h
  exact ⟨_, _, rfl, rfl, h⟩

theorem labelDiskA : HasCloud exampleParams labelDisk.fs ['a'] cloudA := by
  have h := (survives_roundtrip .release toyZlib toyZlib_correct cloudA cloudA_survives).2 []
  rw [List.append_nil] at h
  exact ⟨_, _, rfl, rfl, h⟩

/-- The hypotheses of `c145_files_partial` hold. -/
example : ∃ g, Makes .filter exampleParams exampleDisk ["--subsample=20".toList, ['a'], ['s']] ['s'] { cloudA with prs := [{ x := num 0, y := num 0 }] }
    ∧ Makes .tool exampleParams labelDisk ["--upsample-classifications=a".toList, "--resolution=20".toList, ['l'], ['o']] ['o'] g
    ∧ (∀ q ∈ g.prs, ∃ lp ∈ labelA.prs, q.c = lp.c)
    ∧ Makes .filter exampleParams (after .tool exampleParams ["--upsample-classifications=a".toList, "--resolution=20".toList, ['l'], ['o']] labelDisk)
        ["--subsample=20".toList, ['o'], ['u']] ['u'] { cloudA with prs := labelA.prs } := by
  have e : Cmd.filter.options ["--subsample=20".toList, ['a'], ['s']] = [("subsample", ['2', '0'])] := by decide +kernel
  have ask : Asks [("subsample", ['2', '0'])] { resolution := some (atof ['2', '0']), seed := 0 } :=
    ⟨by decide, by decide, by decide, by decide, by decide, by simp,
      by show some (atof ['2', '0']) = if F64.gt (atof ['2', '0']) F64.zero then some (atof ['2', '0']) else none; decide +kernel,
      .inr ⟨rfl, rfl⟩, by decide, .inl rfl⟩
  obtain ⟨h1, h2⟩ := c145_files_partial exampleParams toyZlib_correct (fun _ l => List.Perm.refl l) exampleDisk _ ['a'] ['s'] ['2', '0'] 0 (by rw [e]; exact ask)
    (by decide +kernel) (by decide) (by decide) rfl cloudA cloudA_on_disk.1 (fun e => nomatch e) (by decide +kernel) _ (cloudA_sampled .release)
  obtain ⟨g, h3, -, -, h4, h5⟩ := h2 labelDisk ["--upsample-classifications=a".toList, "--resolution=20".toList, ['l'], ['o']]
    ["--subsample=20".toList, ['o'], ['u']] ['l'] ['o'] ['u'] labelA labelDiskA labelDiskL labelA_relabelled (by decide +kernel) (by decide +kernel) (by decide +kernel)
    (by decide +kernel) (by decide) (by decide) (by decide) rfl
  refine ⟨g, h1, h3, h4, h5 ?_⟩
  have e := h3.2.2.2 ['u'] (by decide)
  unfold CanReplace after
  simp only [e]
  rfl

end Spoc.Props
