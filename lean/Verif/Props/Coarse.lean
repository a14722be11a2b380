import Verif.Props.Cubes
import Verif.Props.NegativeZero

/-!
# C148: very coarse and very fine resolutions

`filter --subsample` (/repo/spoc/voxel.h, get_voxel_index; /repo/spoc/subsampling.h, get_subsample_indexes).
-/

namespace Spoc

namespace F64

/-- The next smaller magnitude is at most 1 - 2^-53 times as large. -/
theorem fixMag_gap {a b : Nat} (h : a < b) : fixMag a * 2 ^ 53 ≤ fixMag b * (2 ^ 53 - 1) := by
  obtain ⟨c, rfl⟩ : ∃ c, b = c + 1 := ⟨b - 1, by omega⟩
  refine (Nat.mul_le_mul_right _ (fixMag_le_iff.mpr (Nat.le_of_lt_succ h))).trans ?_
  obtain ⟨k, n, rfl, hn, hk⟩ := mag_dec c
  rw [fixMag_enc hn.le hk, Nat.add_assoc, fixMag_enc (k := k) (n := n + 1) hn (hk.imp id (by omega))]
  rw [Nat.mul_right_comm, Nat.mul_right_comm (n + 1)]
  exact Nat.mul_le_mul_right _ (by omega)

/-- 1 - 2^-53 -/
def belowOne : F64 := ⟨0x3FEFFFFFFFFFFFFF⟩

theorem belowOne_fv : belowOne.fv * 2 ^ 53 = one1074 * (2 ^ 53 - 1) := by decide +kernel

theorem belowOne_lt : belowOne.fv < one1074 := by decide +kernel

/-- The quotient of a double by a larger one is less than one, after rounding too. -/
theorem div_lt_one {s r : F64} (hs : s.isFinite = true) (hr : r.isFinite = true) (h0 : 0 ≤ s.fv) (h : s.fv < r.fv) : (div s r).fv < one1074 := by
  have hpos : 0 < r.fv := lt_of_le_of_lt h0 h
  refine lt_of_le_of_lt ?_ belowOne_lt
  rw [(div_fv hs hr hpos).1]
  refine rfv_le (by decide) (by omega) ?_
  have e1 : ((fixMag s.mag : Nat) : Int) = s.fv := by rw [← fv_natAbs]; omega
  have e2 : ((fixMag r.mag : Nat) : Int) = r.fv := by rw [← fv_natAbs]; omega
  have hm : s.mag < r.mag := fixMag_lt_iff.mp (by omega)
  have g := fixMag_gap hm
  have g' : s.fv * 2 ^ 53 ≤ r.fv * (2 ^ 53 - 1) := by
    rw [← e1, ← e2]
    have : ((fixMag s.mag * 2 ^ 53 : Nat) : Int) ≤ ((fixMag r.mag * (2 ^ 53 - 1) : Nat) : Int) := by exact_mod_cast g
    simpa using this
  have e3 : (r.fv.natAbs : Int) = r.fv := by omega
  rw [e3]
  have hU : (0 : Int) < one1074 := by exact_mod_cast one1074_pos
  have hb := belowOne_fv
  generalize (one1074 : Int) = U at *
  have : s.fv * U * 2 ^ 53 ≤ belowOne.fv * r.fv * 2 ^ 53 := by
    calc s.fv * U * 2 ^ 53 = (s.fv * 2 ^ 53) * U := by ring
      _ ≤ (r.fv * (2 ^ 53 - 1)) * U := mul_le_mul_of_nonneg_right g' hU.le
      _ = (U * (2 ^ 53 - 1)) * r.fv := by ring
      _ = belowOne.fv * r.fv * 2 ^ 53 := by rw [← hb]; ring
  exact le_of_mul_le_mul_right this (by norm_num)

theorem div_by_inf {x : F64} (hx : x.isFinite = true) : (div x (inf false)).fv = 0 := by
  have hn : (inf false).isNaN = false := inf_not_nan _
  have hi : (inf false).isInf = true := inf_isInf _
  simp only [div, not_nan_of_finite hx, isInf_eq_false_of_finite hx, hn, hi, Bool.or_self, Bool.false_eq_true, if_false, if_true]
  generalize (x.neg != (inf false).neg) = s
  cases s <;> decide +kernel

end F64

namespace Props

open Getopt Cmd Main Spec Spec.Cmd Text AppUtils Subsampling

/-- A double is less than the resolution, which may be infinite. -/
def UnderResolution (s r : F64) : Prop := s.isFinite = true ∧ (r = F64.inf false ∨ r.isFinite = true ∧ s.val < r.val)

/-- No two numbers in the list are further apart than `d`. -/
def NoFurther (d : ℝ) (l : List F64) : Prop := ∀ a ∈ l, ∀ b ∈ l, a.val - b.val ≤ d

theorem index1_coarse {x m s r : F64} (hx : x.isFinite = true) (hm : m.isFinite = true) (hle : m.fv ≤ x.fv) (hs : UnderResolution s r) (h : x.val - m.val ≤ s.val) :
    Voxel.index1 x m r = .ok 0 := by
  obtain ⟨hsf, hr⟩ := hs
  have hd : x.fv - m.fv ≤ s.fv := by
    have hU := F64.one1074_pos'
    unfold F64.val at h
    rw [← sub_div, div_le_div_iff_of_pos_right hU] at h
    exact_mod_cast h
  have h0 : 0 ≤ (F64.sub x m).fv := by rw [F64.sub_fv hx hm]; exact F64.rfv_nonneg (by omega)
  have h1 : (F64.sub x m).fv ≤ s.fv := by
    rw [F64.sub_fv hx hm]
    exact F64.rfv_le (F64.not_nan_of_finite hsf) (by norm_num) (by simpa using hd)
  have hf : (F64.sub x m).isFinite = true := by
    rw [F64.sub_fv hx hm] at h1
    have := F64.finite_fv_lt hsf
    by_contra hc
    have e := F64.eq_inf_of_not_finite (F64.sub_not_nan hx hm) (by simpa using hc)
    have e0 : F64.sub x m = F64.inf false := by
      cases hn : (F64.sub x m).neg
      · rw [hn] at e; exact e
      · rw [hn] at e
        rw [e] at h0
        exact absurd h0 (by decide +kernel)
    rw [← F64.sub_fv hx hm, e0] at h1
    omega
  have key : (F64.div (F64.sub x m) r).isNaN = false ∧ 0 ≤ (F64.div (F64.sub x m) r).fv ∧ (F64.div (F64.sub x m) r).fv < F64.one1074 := by
    rcases hr with rfl | ⟨hrf, hlt⟩
    · have e := F64.div_by_inf hf
      exact ⟨F64.not_nan_of_finite (F64.finite_of_fv_zero e), e.ge, by rw [e]; exact_mod_cast F64.one1074_pos⟩
    · have hlt' := F64.val_lt_iff.mp hlt
      obtain ⟨k1, k2⟩ := Voxel.quot_spec hx hm hrf (by omega) hle
      exact ⟨k1, k2, F64.div_lt_one hf hrf h0 (by omega)⟩
  obtain ⟨k1, k2, k3⟩ := key
  have ht : (F64.div (F64.sub x m) r).trunc = 0 := by
    unfold F64.trunc
    rw [Int.tdiv_eq_ediv_of_nonneg k2]
    exact Int.ediv_eq_zero_of_lt k2 k3
  have hfin : (F64.div (F64.sub x m) r).isFinite = true := by
    by_contra hc
    have e := F64.eq_inf_of_not_finite k1 (by simpa using hc)
    cases hn : (F64.div (F64.sub x m) r).neg
    · rw [hn] at e; rw [e] at k3; exact absurd k3 (by decide +kernel)
    · rw [hn] at e; rw [e] at k2; exact absurd k2 (by decide +kernel)
  unfold Voxel.index1 F64.toU64
  rw [if_pos hfin, ht]
  rfl

section

variable {α : Type} [HasXYZ α]

theorem coarse_indexes (ps : List α) (hne : ps ≠ []) (hf : ∀ p ∈ ps, Spec.Fin (pt p)) {s r : F64} (hs : UnderResolution s r)
    (hx : NoFurther s.val (ps.map (fun p => (pt p).x))) (hy : NoFurther s.val (ps.map (fun p => (pt p).y))) (hz : NoFurther s.val (ps.map (fun p => (pt p).z))) :
    ∃ vs, Voxel.getIndexes ps r = .ok vs ∧ vs.length = ps.length ∧ ∀ v ∈ vs, v = ⟨0, 0, 0⟩ := by
  obtain ⟨hmin, -⟩ := extent_finite ps hne hf
  obtain ⟨hin, ⟨p1, m1, e1⟩, _, ⟨p3, m3, e3⟩, _, ⟨p5, m5, e5⟩, _⟩ := c15_extent_tight_partial ps hne hf
  have each : ∀ p ∈ ps, Voxel.getIndex (pt p) (Extent.ofPoints ps).minp r = .ok ⟨0, 0, 0⟩ := by
    intro p hp
    obtain ⟨i1, i2, i3, i4, i5, i6⟩ := hin p hp
    obtain ⟨f1, f2, f3⟩ := hf p hp
    refine getIndex_eq.mpr ⟨index1_coarse f1 hmin.1 i1 hs ?_, index1_coarse f2 hmin.2.1 i3 hs ?_, index1_coarse f3 hmin.2.2 i5 hs ?_⟩
    · rw [← e1]; exact hx _ (List.mem_map_of_mem hp) _ (List.mem_map_of_mem m1)
    · rw [← e3]; exact hy _ (List.mem_map_of_mem hp) _ (List.mem_map_of_mem m3)
    · rw [← e5]; exact hz _ (List.mem_map_of_mem hp) _ (List.mem_map_of_mem m5)
  obtain ⟨vs, hvs⟩ := mapM_ok_of (fun p hp => ⟨_, each p hp⟩)
  refine ⟨vs, hvs, mapM_length hvs, fun v hv => ?_⟩
  obtain ⟨n, hn, rfl⟩ := List.getElem_of_mem hv
  have hn' : n < ps.length := by rw [← mapM_length hvs]; exact hn
  obtain ⟨w, hw, gw⟩ := Spoc.mapM_get hvs (List.getElem?_eq_getElem hn')
  rw [List.getElem?_eq_getElem hn] at hw
  rw [Option.some.inj hw]
  exact (Res.ok.inj ((each _ (List.getElem_mem hn')).symm.trans gw)).symm

theorem coarse_kept (b : Build) (sh : Shuffle) (hsh : sh.Lawful) (ps : List α) (hne : ps ≠ []) (hf : ∀ p ∈ ps, Spec.Fin (pt p)) {s r : F64} (hs : UnderResolution s r)
    (hx : NoFurther s.val (ps.map (fun p => (pt p).x))) (hy : NoFurther s.val (ps.map (fun p => (pt p).y))) (hz : NoFurther s.val (ps.map (fun p => (pt p).z))) (seed : Nat) :
    ∃ k q, subsampleIndexes b sh ps r seed = .ok [k] ∧ subsamplePoints b sh ps r seed = .ok [q] ∧ ps[k]? = some q ∧ (seed = 0 → k = 0) := by
  obtain ⟨vs, hv, hl, hall⟩ := coarse_indexes ps hne hf hs hx hy hz
  obtain ⟨ks, qs, h1, h2, h3, h4, h5, h6, h7⟩ := c23_one_per_voxel b sh hsh ps r seed vs hv
  have hpos : 0 < ps.length := List.length_pos_of_ne_nil hne
  have same : ∀ i < ps.length, vs[i]? = some ⟨0, 0, 0⟩ := by
    intro i hi
    rw [List.getElem?_eq_getElem (by omega)]
    rw [hall _ (List.getElem_mem _)]
  obtain ⟨k, hk, -⟩ := h7 0 hpos
  have only : ∀ l ∈ ks, l = k := fun l hl' => h6 l hl' k hk (by rw [same l (h5 l hl'), same k (h5 k hk)])
  have hks : ks = [k] := by
    match ks, h4, hk, only with
    | [], _, hk, _ => simp at hk
    | [a], _, _, only => rw [only a (by simp)]
    | a :: c :: _, h4, _, only =>
      exfalso
      have := only a (by simp)
      have := only c (by simp)
      simp_all
  subst hks
  match qs, h3 with
  | [q], .cons e .nil =>
    refine ⟨k, q, h1, h2, e, fun e0 => ?_⟩
    subst e0
    rw [c24_stable b sh hsh ps r vs hv] at h1
    have h0 : (0 : Nat) ∈ [k] := by
      rw [← Res.ok.inj h1]
      simp [hpos]
    simpa using (List.mem_singleton.mp h0).symm

/-- **C148**: if the cloud extends along no axis further than a double that is less than the resolution, exactly one point is kept, without a seed the first one. -/
theorem c148_one (b : Build) (sh : Shuffle) (hsh : sh.Lawful) (p : α) (ps : List α) (hf : ∀ q ∈ p :: ps, Spec.Fin (pt q)) {s r : F64} (hs : UnderResolution s r)
    (hx : NoFurther s.val ((p :: ps).map (fun q => (pt q).x))) (hy : NoFurther s.val ((p :: ps).map (fun q => (pt q).y)))
    (hz : NoFurther s.val ((p :: ps).map (fun q => (pt q).z))) (seed : Nat) :
    ∃ q ∈ p :: ps, subsamplePoints b sh (p :: ps) r seed = .ok [q] ∧ (seed = 0 → q = p) := by
  obtain ⟨k, q, -, h2, h3, h4⟩ := coarse_kept b sh hsh (p :: ps) (by simp) hf hs hx hy hz seed
  refine ⟨q, List.mem_of_getElem? h3, h2, fun e => ?_⟩
  rw [h4 e] at h3
  exact (Option.some.inj h3).symm

/-- Two points are at least `r` apart along some axis. -/
def ApartBy (r : ℝ) (p q : α) : Prop :=
  r ≤ |(pt p).x.val - (pt q).x.val| ∨ r ≤ |(pt p).y.val - (pt q).y.val| ∨ r ≤ |(pt p).z.val - (pt q).z.val|

/-- **C148** (partial: coordinates and resolution on a grid; see `c148_merged`): if any two points are at least the resolution apart along some axis, all are kept;
without a seed the cloud is unchanged. -/
theorem c148_all_partial {k : ℤ} (hk0 : -1074 ≤ k) (hk : k ≤ 970) (b : Build) (sh : Shuffle) (hsh : sh.Lawful) (ps : List α) (hps : CloudOnGrid k ps) {r : F64}
    (hr : OnGrid k 53 r) (hpos : 0 < r.val) (seed : Nat) {ox oy oz : ℝ} (ho : Corner ps ox oy oz) (hap : ps.Pairwise (ApartBy r.val)) :
    ∃ qs, subsamplePoints b sh ps r seed = .ok qs ∧ qs.Perm ps ∧ (seed = 0 → qs = ps) := by
  obtain ⟨ks, qs, h1, h2, h3, h4, h5, h6⟩ := one_per_cube hk0 hk b sh hsh ps hps hr hpos seed ho
  have nd : (ps.map (fun p => cubeOf r.val ox oy oz (pt p))).Nodup := by
    rw [List.Nodup, List.pairwise_map]
    refine hap.imp ?_
    intro p q hpq e
    simp only [cubeOf, Prod.mk.injEq] at e
    rcases hpq with h | h | h
    · exact absurd (apart_of_floor hpos e.1) (not_lt.mpr h)
    · exact absurd (apart_of_floor hpos e.2.1) (not_lt.mpr h)
    · exact absurd (apart_of_floor hpos e.2.2) (not_lt.mpr h)
  have hlen : qs.length = ps.length := by rw [h6.length, List.toFinset_card_of_nodup nd, List.length_map]
  have hkl : ks.length = ps.length := by rw [h3.length_eq, hlen]
  have hperm : ks.Perm (List.range ps.length) := by
    have hsub : ks.Subperm (List.range ps.length) := h4.subperm (fun l hl => List.mem_range.mpr (h5 l hl))
    exact hsub.perm_of_length_le (by simp [hkl])
  have hq : qs.Perm ps := by
    rw [forall₂_filterMap h3]
    refine (hperm.filterMap _).trans ?_
    rw [← forall₂_filterMap (ps := ps) (ks := List.range ps.length) (qs := ps)]
    exact List.forall₂_iff_get.mpr ⟨by simp, fun n h1 h2 => by simp⟩
  refine ⟨qs, h2, hq, ?_⟩
  rintro rfl
  obtain ⟨vs, hv, -⟩ := c137_voxels_partial hk0 hk ps hps r hr hpos ho.1 ho.2.1 ho.2.2
  obtain ⟨qs', h7, h8⟩ := c24_subsequence b sh hsh ps r vs hv
  obtain rfl := Res.ok.inj (h2.symm.trans h7)
  exact h8.eq_of_length hlen

end

/-- **C148**, filter: with such a resolution, `filter --subsample` writes a cloud of one point (compressed files: without negative zeros, see C149). -/
theorem c148_filter (p : Params) (hz : p.zlib.Correct) (hsh : p.shuffle.Lawful) (w : World) (argv : List Str) (i o : Str) (r : F64) (seed : Nat)
    (hopt : Asks (Cmd.filter.options argv) { resolution := some r, seed := seed })
    (hops : Cmd.filter.operands argv = [i, o]) (hi : i ≠ []) (ho : o ≠ []) (hc : CanReplace w o) (f : SpocFile) (hcloud : HasCloud p w.fs i f)
    (hl : Lossless p.zlib f) (hne : f.prs ≠ []) (hf : ∀ q ∈ f.prs, Spec.Fin (pt q)) {s : F64} (hs : UnderResolution s r)
    (hx : NoFurther s.val (f.prs.map (·.x))) (hy : NoFurther s.val (f.prs.map (·.y))) (hz' : NoFurther s.val (f.prs.map (·.z))) :
    ∃ q ∈ f.prs, Makes .filter p w argv o { f with prs := [q] } ∧ (seed = 0 → f.prs.head? = some q) := by
  obtain ⟨k, q, k1, k2, k3, k4⟩ := coarse_kept p.build p.shuffle hsh f.prs hne hf hs hx hy hz' seed
  refine ⟨q, List.mem_of_getElem? k3, ?_, fun e => by rw [k4 e] at k3; rw [List.head?_eq_getElem?]; exact k3⟩
  exact (c149_filter p hz hsh w argv i o { resolution := some r, seed := seed } hopt hops hi ho hc f hcloud hl [q] ⟨f.prs, f.prs, f.prs, [q], rfl, by simp, rfl, k2, rfl⟩).1

/-- **C148, limit**: -3/4 and 2^53 - 1 are less than 2^53 apart, but both are kept with the resolution 2^53. -/
theorem c148_rounded (b : Build) : subsamplePoints b (fun _ l => l) ([⟨0xBFE8000000000000⟩, ⟨0x433FFFFFFFFFFFFF⟩].map pointX) ⟨0x4340000000000000⟩ 0
      = .ok ([⟨0xBFE8000000000000⟩, ⟨0x433FFFFFFFFFFFFF⟩].map pointX)
    ∧ (⟨0x433FFFFFFFFFFFFF⟩ : F64).val - (⟨0xBFE8000000000000⟩ : F64).val < (⟨0x4340000000000000⟩ : F64).val := by
  constructor
  · cases b <;> decide +kernel
  · unfold F64.val
    rw [← sub_div, div_lt_div_iff_of_pos_right F64.one1074_pos']
    have : (⟨0x433FFFFFFFFFFFFF⟩ : F64).fv - (⟨0xBFE8000000000000⟩ : F64).fv < (⟨0x4340000000000000⟩ : F64).fv := by decide +kernel
    exact_mod_cast this

/-- **C148, negation**: -2^53, 1/4 and 1/2 are at least 1/4 apart, but with this resolution the last one is not kept. -/
theorem c148_merged (b : Build) : subsamplePoints b (fun _ l => l) ([⟨0xC340000000000000⟩, ⟨0x3FD0000000000000⟩, ⟨0x3FE0000000000000⟩].map pointX) ⟨0x3FD0000000000000⟩ 0
      = .ok ([⟨0xC340000000000000⟩, ⟨0x3FD0000000000000⟩].map pointX)
    ∧ (⟨0x3FD0000000000000⟩ : F64).val ≤ (⟨0x3FE0000000000000⟩ : F64).val - (⟨0x3FD0000000000000⟩ : F64).val := by
  constructor
  · cases b <;> decide +kernel
  · unfold F64.val
    rw [← sub_div, div_le_div_iff_of_pos_right F64.one1074_pos']
    have : (⟨0x3FD0000000000000⟩ : F64).fv ≤ (⟨0x3FE0000000000000⟩ : F64).fv - (⟨0x3FD0000000000000⟩ : F64).fv := by decide +kernel
    exact_mod_cast this

/-! ## examples -/

theorem within_of_fv {s : F64} {l : List F64} (h : ∀ a ∈ l, ∀ b ∈ l, a.fv - b.fv ≤ s.fv) : NoFurther s.val l := by
  intro a ha b hb
  unfold F64.val
  rw [← sub_div, div_le_div_iff_of_pos_right F64.one1074_pos']
  exact_mod_cast h a ha b hb

theorem cloudA_within : NoFurther (num 17).val (cloudA.prs.map (·.x)) ∧ NoFurther (num 17).val (cloudA.prs.map (·.y)) ∧ NoFurther (num 17).val (cloudA.prs.map (·.z)) :=
  ⟨within_of_fv (by decide +kernel), within_of_fv (by decide +kernel), within_of_fv (by decide +kernel)⟩

theorem cloudA_fin : ∀ q ∈ cloudA.prs, Spec.Fin (pt q) := by unfold Spec.Fin; decide +kernel

/-- The hypotheses of `c148_one` hold, also with an infinite resolution: of -3/4 and 2^53 - 1, one is kept. -/
example (b : Build) : ∃ q, subsamplePoints b noShuffle ([⟨0xBFE8000000000000⟩, ⟨0x433FFFFFFFFFFFFF⟩].map pointX) (F64.inf false) 5 = .ok [q] := by
  obtain ⟨q, -, h1, -⟩ := c148_one b noShuffle (fun _ l => List.Perm.refl l) (pointX ⟨0xBFE8000000000000⟩) [pointX ⟨0x433FFFFFFFFFFFFF⟩] (by unfold Spec.Fin; decide)
    (s := ⟨0x4340000000000000⟩) ⟨by decide, .inl rfl⟩ (within_of_fv (by decide +kernel)) (within_of_fv (by decide +kernel)) (within_of_fv (by decide +kernel)) 5
  exact ⟨q, h1⟩

/-- The hypotheses of `c148_all_partial` hold: the three points are at least 10 apart along some axis. -/
example (b : Build) : subsamplePoints b noShuffle cloudA.prs (num 10) 0 = .ok cloudA.prs := by
  have far : cloudA.prs.Pairwise (ApartBy (num 10).val) := by
    have h : cloudA.prs.Pairwise (fun p q => (num 10).fv ≤ q.x.fv - p.x.fv ∨ (num 10).fv ≤ q.y.fv - p.y.fv) := by decide +kernel
    have key : ∀ a b r : F64, r.fv ≤ b.fv - a.fv → r.val ≤ |a.val - b.val| := by
      intro a b r h
      rw [abs_sub_comm]
      refine le_trans ?_ (le_abs_self _)
      unfold F64.val
      rw [← sub_div, div_le_div_iff_of_pos_right F64.one1074_pos']
      exact_mod_cast h
    exact h.imp (fun {p q} hpq => hpq.elim (fun h => .inl (key p.x q.x (num 10) h)) (fun h => .inr (.inl (key p.y q.y (num 10) h))))
  obtain ⟨qs, h1, -, h2⟩ := c148_all_partial (k := 0) (by norm_num) (by norm_num) b noShuffle (fun _ l => List.Perm.refl l) cloudA.prs tilePoints_onGrid
    (onGrid_num (by norm_num) (by norm_num)) ten_pos 0 cloudA_corner far
  rw [h1, h2 rfl]

/-- The hypotheses of `c148_filter` hold: the cloud becomes its first point. -/
example : ∃ q, Makes .filter exampleParams exampleDisk ["--subsample=inf".toList, ['z'], ['o']] ['o'] { cloudA with compressed := true, prs := [q] } := by
  have e : Cmd.filter.options ["--subsample=inf".toList, ['z'], ['o']] = [("subsample", "inf".toList)] := by decide +kernel
  have ask : Asks [("subsample", "inf".toList)] { resolution := some (F64.inf false), seed := 0 } :=
    ⟨by decide, by decide, by decide, by decide, by decide, by simp,
      by show some (F64.inf false) = if F64.gt (atof "inf".toList) F64.zero then some (atof "inf".toList) else none; decide +kernel,
      .inr ⟨rfl, rfl⟩, by decide, .inl rfl⟩
  obtain ⟨q, -, h, -⟩ := c148_filter exampleParams toyZlib_correct (fun _ l => List.Perm.refl l) exampleDisk _ ['z'] ['o'] (F64.inf false) 0 (by rw [e]; exact ask)
    (by decide +kernel) (by decide) (by decide) rfl _ cloudZ_on_disk cloudZ_lossless (by decide) cloudA_fin (s := num 17) ⟨by decide +kernel, .inl rfl⟩
    cloudA_within.1 cloudA_within.2.1 cloudA_within.2.2
  exact ⟨q, h⟩

end Props
end Spoc
