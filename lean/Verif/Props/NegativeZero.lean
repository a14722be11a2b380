import Verif.Props.ToOrigin

/-!
# C149: compressed files without negative zeros

A compressed file loses the sign of zeros in a column of zeros (C02).  Selecting and moving points produces no negative zeros, so that clouds without
them can be processed in compressed files without loss (/repo/spoc/io.h, write_spoc_file_compressed; /repo/apps/filter/filter.cpp; /repo/apps/tool/tool.h, subtract_min).
-/

namespace Spoc

namespace F64

theorem rfv_eq_zero {A : Int} (h : rfv A 1 = 0) : A = 0 := by
  have e1 : (⟨1⟩ : F64).fv = 1 := by decide +kernel
  have e : rfv 1 1 = 1 := by simpa [e1] using rfv_exact (x := ⟨1⟩) (by decide) (B := 1) (by norm_num)
  rcases lt_trichotomy A 0 with hA | hA | hA
  · have := rfv_mono (A1 := 1) (A2 := -A) (B1 := 1) (B2 := 1) (by norm_num) (by norm_num) (by omega)
    rw [rfv_neg _ (by norm_num)] at this
    omega
  · exact hA
  · have := rfv_mono (A1 := 1) (A2 := A) (B1 := 1) (B2 := 1) (by norm_num) (by norm_num) (by omega)
    omega

/-- A sum is a negative zero only if both numbers are. -/
theorem add_eq_negZero {x y : F64} (h : add x y = negZero) : x = negZero ∧ y = negZero := by
  unfold add at h
  split at h
  · exact absurd h (by decide)
  · split at h
    · rename_i hx
      split at h
      · exact absurd h (by decide)
      · rw [h] at hx; exact absurd hx (by decide)
    · split at h
      · rename_i hy
        rw [h] at hy; exact absurd hy (by decide)
      · have hfv := rnd_fv (x.neg && y.neg) (x.fv + y.fv) (B := 1) (by norm_num)
        rw [h] at hfv
        have h0 : x.fv + y.fv = 0 := rfv_eq_zero (hfv.symm.trans (by decide +kernel))
        unfold rnd at h
        rw [if_pos h0, ext_iff'] at h
        have hn := h.1
        rw [neg_mk' _ (by norm_num), show negZero.neg = true by decide, Bool.and_eq_true] at hn
        have n1 : x.fv = - (fixMag x.mag : Int) := by unfold fv; rw [if_pos hn.1]
        have n2 : y.fv = - (fixMag y.mag : Int) := by unfold fv; rw [if_pos hn.2]
        have m1 : x.mag = 0 := fixMag_eq_zero.mp (by omega)
        have m2 : y.mag = 0 := fixMag_eq_zero.mp (by omega)
        refine ⟨ext_iff'.mpr ⟨hn.1, m1⟩, ext_iff'.mpr ⟨hn.2, m2⟩⟩

end F64

namespace Props

open Getopt Cmd Main Spec Spec.Cmd Text AppUtils

/-- No coordinate is a negative zero. -/
def NoNegZero (ps : List PointRecord) : Prop := ∀ q ∈ ps, q.x ≠ F64.negZero ∧ q.y ≠ F64.negZero ∧ q.z ≠ F64.negZero

/-- The cloud is in an uncompressed file, or in a compressed one with columns below 4 GiB and without negative zeros. -/
def Lossless (z : Zlib) (f : SpocFile) : Prop := f.compressed = true → FitsZlib z f.prs.length ∧ NoNegZero f.prs

/-- Such a cloud survives writing and reading. -/
theorem lossless_survives {z : Zlib} {f : SpocFile} (hw : Writable f) (he : f.compressed = false → ∀ q ∈ f.prs, q.extra.length ≤ 123) (hl : Lossless z f) :
    Survives z f := by
  refine ⟨hw, he, fun hc => ⟨(hl hc).1, ?_⟩⟩
  rintro axis (rfl | rfl | rfl) ho q hq
  · exact (ho q hq).resolve_right ((hl hc).2 q hq).1
  · exact (ho q hq).resolve_right ((hl hc).2 q hq).2.1
  · exact (ho q hq).resolve_right ((hl hc).2 q hq).2.2

theorem lossless_subperm {z : Zlib} {f : SpocFile} (h : Lossless z f) {qs : List PointRecord} (hl : qs.Subperm f.prs) : Lossless z { f with prs := qs } :=
  fun hc => ⟨fitsZlib_mono (h hc).1 hl.length_le, fun q hq => (h hc).2 q (hl.subset hq)⟩

/-- **C149**, filter: whatever is asked for, the points that the options select are exactly what is written, for every file that can be read, compressed or not;
and the result is such a cloud again. -/
theorem c149_filter (p : Params) (hz : p.zlib.Correct) (hsh : p.shuffle.Lawful) (w : World) (argv : List Str) (i o : Str)
    (r : FilterRequest) (hopt : Asks (Cmd.filter.options argv) r) (hops : Cmd.filter.operands argv = [i, o]) (hi : i ≠ []) (ho : o ≠ [])
    (hc : CanReplace w o) (f : SpocFile) (hf : HasCloud p w.fs i f) (hl : Lossless p.zlib f) (qs : List PointRecord)
    (hq : FilterSteps p.build p.shuffle r f.prs qs) :
    Makes .filter p w argv o { f with prs := qs } ∧ Lossless p.zlib { f with prs := qs } := by
  obtain ⟨x, s', h1, h2, h3⟩ := id hf
  have hw := readable_writable h3
  have hsub := filterSteps_subperm _ _ hsh _ hq
  have hl' := lossless_subperm hl hsub
  refine ⟨c76_filter_partial p hz hsh w argv i o r hopt hops hi ho hc f hf qs hq (lossless_survives ?_ (fun e q hm => ?_) hl'), hl'⟩
  · exact ⟨hw.major, hw.minor, hw.wkt, uniform_subperm hw.uniform hsub, fun q hq => hw.extra q (hsub.subset hq), lt_of_le_of_lt hsub.length_le hw.count⟩
  · exact (readable_survives h3 e).2.1 e q (hsub.subset hm)

/-- **C149**, moving to the origin: the moved cloud is exactly what is written, for every file that can be read, compressed or not; and the result is such a cloud again. -/
theorem c149_move (p : Params) (hz : p.zlib.Correct) (w : World) (argv : List Str) (i o : Str) (zFlag : Bool)
    (hopt : Cmd.tool.options argv = [(if zFlag then "subtract-min-xyz" else "subtract-min-xy", [])]) (hops : Cmd.tool.operands argv = [i, o]) (hi : i ≠ []) (ho : o ≠ [])
    (hc : CanReplace w o) (f : SpocFile) (hf : HasCloud p w.fs i f) (hl : Lossless p.zlib f) :
    ∃ g, Tool.subtractMin p.build f zFlag = .ok g ∧ g.compressed = f.compressed ∧ Makes .tool p w argv o g ∧ Lossless p.zlib g := by
  obtain ⟨x, s, hx, hr, hfile⟩ := hf
  have hw := readable_writable hfile
  have h1 := Twice.subtractMin_eq p.build f hw.uniform zFlag
  have hl' : Lossless p.zlib { f with prs := f.prs.map (Twice.movedBy (Extent.ofPoints f.prs).minp zFlag) } := by
    intro e
    refine ⟨by rw [List.length_map]; exact (hl e).1, ?_⟩
    intro q hq
    obtain ⟨q, hm, rfl⟩ := List.mem_map.mp hq
    obtain ⟨n1, n2, n3⟩ := (hl e).2 q hm
    refine ⟨fun h => n1 (F64.add_eq_negZero h).1, fun h => n2 (F64.add_eq_negZero h).1, ?_⟩
    cases zFlag
    · exact n3
    · exact fun h => n3 (F64.add_eq_negZero h).1
  refine ⟨_, h1, rfl, ?_, hl'⟩
  have hext : ∀ q ∈ f.prs.map (Twice.movedBy (Extent.ofPoints f.prs).minp zFlag), ∃ q' ∈ f.prs, q.extra = q'.extra := by
    intro q hq
    obtain ⟨q, hm, rfl⟩ := List.mem_map.mp hq
    exact ⟨q, hm, rfl⟩
  have hs : Survives p.zlib { f with prs := f.prs.map (Twice.movedBy (Extent.ofPoints f.prs).minp zFlag) } := by
    refine lossless_survives ⟨hw.major, hw.minor, hw.wkt, ?_, fun q hq => ?_, by simpa using hw.count⟩ (fun e q hq => ?_) hl'
    · intro a ha b hb
      obtain ⟨a', ha', ea⟩ := hext a ha
      obtain ⟨b', hb', eb⟩ := hext b hb
      rw [ea, eb]
      exact hw.uniform a' ha' b' hb'
    · obtain ⟨q', hq', e⟩ := hext q hq
      rw [e]
      exact hw.extra q' hq'
    · obtain ⟨q', hq', e'⟩ := hext q hq
      rw [e']
      exact (readable_survives hfile e).2.1 e q' hq'
  refine outputStream_cloud hz ho hc hs ?_
  have hin : inputStream w i = .ok { rest := x.content } := by simp [inputStream, hi, openRead, hx, hr]
  have ha : Tool.getArgs (Cmd.tool.options argv) {} = .ok { command := ⟨if zFlag then "subtract-min-xyz" else "subtract-min-xy", []⟩ } := by
    rw [hopt]
    cases zFlag <;> decide +kernel
  have hrun : Tool.run p.build p.zlib (toolFiles w.fs) { command := ⟨if zFlag then "subtract-min-xyz" else "subtract-min-xy", []⟩ } f
      = .ok { f with prs := f.prs.map (Twice.movedBy (Extent.ofPoints f.prs).minp zFlag) } := by
    rw [← h1]
    unfold Tool.run
    cases zFlag <;> simp
  have hname : (if zFlag then "subtract-min-xyz" else "subtract-min-xy") ≠ "" ∧ (if zFlag then "subtract-min-xyz" else "subtract-min-xy") ≠ "get-field" := by
    cases zFlag <;> decide
  simp only [Name.run, Main.tool, toolArgs, withOperands, ha, hops, inOut, Res.ok_bind, Bool.false_eq_true, if_false, hname.1, hname.2,
    readThenWrite, hin, Apps.fileOf, hfile, hrun]

/-- **C149**, adding and subtracting: the sum and the difference of a number that is no negative zero and any other number is no negative zero. -/
theorem c149_sum (x v : F64) (hx : x ≠ F64.negZero) : F64.add x v ≠ F64.negZero ∧ F64.sub x v ≠ F64.negZero :=
  ⟨fun h => hx (F64.add_eq_negZero h).1, fun h => hx (F64.add_eq_negZero h).1⟩

/-- **C149, limit**: scaling with -1 makes a negative zero of zero. -/
theorem c149_scale : ∃ q, Transform.scaleXOp (num (-1)) 0 (pointX F64.zero) = .ok q ∧ NoNegZero [pointX F64.zero] ∧ ¬ NoNegZero [q] := by
  refine ⟨pointX F64.negZero, by decide +kernel, by unfold NoNegZero; decide, by unfold NoNegZero; decide⟩

/-! ## examples -/

theorem cloudZ_lossless : Lossless toyZlib { cloudA with compressed := true } := fun _ => ⟨toyZlib_fits (by decide), by unfold NoNegZero; decide +kernel⟩

/-- The hypotheses of `c149_filter` hold, for a compressed file. -/
example : ∃ qs, Makes .filter exampleParams exampleDisk ["--subsample=10".toList, ['z'], ['o']] ['o'] { cloudA with compressed := true, prs := qs } := by
  have e : Cmd.filter.options ["--subsample=10".toList, ['z'], ['o']] = [("subsample", ['1', '0'])] := by decide +kernel
  have ask : Asks [("subsample", ['1', '0'])] { resolution := some (num 10), seed := 0 } :=
    ⟨by decide, by decide, by decide, by decide, by decide, by simp,
      by show some (num 10) = if F64.gt (atof ['1', '0']) F64.zero then some (atof ['1', '0']) else none; decide +kernel,
      .inr ⟨rfl, rfl⟩, by decide, .inl rfl⟩
  obtain ⟨vs, hv, -⟩ := c137_voxels_partial (k := 0) (by norm_num) (by norm_num) cloudA.prs tilePoints_onGrid (num 10) (onGrid_num (by norm_num) (by norm_num)) ten_pos
    tilePoints_least.1 tilePoints_least.2.1 tilePoints_least.2.2
  obtain ⟨ks, qs, -, h2, -⟩ := c23_one_per_voxel .release noShuffle (fun _ l => List.Perm.refl l) cloudA.prs (num 10) 0 vs hv
  exact ⟨qs, (c149_filter exampleParams toyZlib_correct (fun _ l => List.Perm.refl l) exampleDisk _ ['z'] ['o'] { resolution := some (num 10), seed := 0 } (by rw [e]; exact ask)
    (by decide +kernel) (by decide) (by decide) rfl _ cloudZ_on_disk cloudZ_lossless qs ⟨_, _, _, qs, rfl, by simp, rfl, h2, rfl⟩).1⟩

/-- The hypotheses of `c149_move` hold, for a compressed file. -/
example : ∃ g, g.compressed = true ∧ Makes .tool exampleParams exampleDisk ["--subtract-min-xyz".toList, ['z'], ['o']] ['o'] g := by
  obtain ⟨g, -, h1, h2, -⟩ := c149_move exampleParams toyZlib_correct exampleDisk ["--subtract-min-xyz".toList, ['z'], ['o']] ['z'] ['o'] true (by decide +kernel)
    (by decide +kernel) (by decide) (by decide) rfl _ cloudZ_on_disk cloudZ_lossless
  exact ⟨g, h1, h2⟩

/-- The hypothesis of `c149_sum` holds, for zero. -/
example (v : F64) := c149_sum F64.zero v (by decide)

end Props
end Spoc
