import Verif.Props.Cells
import Verif.Props.Coverage
import Verif.Props.CarriedClasses
import Verif.Props.Plain
import Verif.Props.Nothing
import Verif.Props.NegativeZero

/-!
# C144: subsampling keeps one point of every cube
-/

namespace Spoc.Props

open Getopt Cmd Main Spec Spec.Cmd Text AppUtils Subsampling

section

variable {α : Type} [HasXYZ α]

/-- The cube of side `r` that a point is in, counted from the corner (ox, oy, oz), without rounding. -/
noncomputable def cubeOf (r ox oy oz : ℝ) (p : Pt F64) : ℤ × ℤ × ℤ := (⌊(p.x.val - ox) / r⌋, ⌊(p.y.val - oy) / r⌋, ⌊(p.z.val - oz) / r⌋)

/-- The least coordinates of a cloud are (ox, oy, oz). -/
def Corner (ps : List α) (ox oy oz : ℝ) : Prop :=
  IsLeast {x | ∃ p ∈ ps, x = (pt p).x.val} ox ∧ IsLeast {y | ∃ p ∈ ps, y = (pt p).y.val} oy ∧ IsLeast {z | ∃ p ∈ ps, z = (pt p).z.val} oz

/-- Of the points `ps`, the points `qs` are one of every cube that is not empty. -/
def OnePerCube (c : Pt F64 → ℤ × ℤ × ℤ) (ps qs : List α) : Prop :=
  (∀ q ∈ qs, q ∈ ps) ∧ (qs.map (fun q => c (pt q))).Nodup ∧ ∀ p ∈ ps, ∃ q ∈ qs, c (pt q) = c (pt p)

/-- The number of such points is the number of cubes that are not empty. -/
theorem OnePerCube.length {c : Pt F64 → ℤ × ℤ × ℤ} {ps qs : List α} (h : OnePerCube c ps qs) :
    qs.length = (ps.map (fun p => c (pt p))).toFinset.card := by
  obtain ⟨h1, h2, h3⟩ := h
  rw [← List.length_map (as := qs) (fun q => c (pt q)), ← List.toFinset_card_of_nodup h2]
  congr 1
  ext t
  simp only [List.mem_toFinset, List.mem_map]
  constructor
  · rintro ⟨q, hq, rfl⟩
    exact ⟨q, h1 q hq, rfl⟩
  · rintro ⟨p, hp, rfl⟩
    exact h3 p hp

theorem one_per_cube {k : ℤ} (hk0 : -1074 ≤ k) (hk : k ≤ 970) (b : Build) (sh : Shuffle) (hsh : sh.Lawful) (ps : List α) (hps : CloudOnGrid k ps) {r : F64}
    (hr : OnGrid k 53 r) (hpos : 0 < r.val) (seed : Nat) {ox oy oz : ℝ} (ho : Corner ps ox oy oz) :
    ∃ ks qs, subsampleIndexes b sh ps r seed = .ok ks ∧ subsamplePoints b sh ps r seed = .ok qs ∧ List.Forall₂ (fun k q => ps[k]? = some q) ks qs
      ∧ ks.Nodup ∧ (∀ k ∈ ks, k < ps.length) ∧ OnePerCube (cubeOf r.val ox oy oz) ps qs := by
  obtain ⟨vs, hv, hl, hc⟩ := c137_voxels_partial hk0 hk ps hps r hr hpos ho.1 ho.2.1 ho.2.2
  obtain ⟨ks, qs, h1, h2, h3, h4, h5, h6, h7⟩ := c23_one_per_voxel b sh hsh ps r seed vs hv
  have same : ∀ (i j : Nat) (p q : α), ps[i]? = some p → ps[j]? = some q → (vs[i]? = vs[j]? ↔ cubeOf r.val ox oy oz (pt p) = cubeOf r.val ox oy oz (pt q)) := by
    intro i j p q hp hq
    have hi : i < vs.length := by rw [hl]; exact (List.getElem?_eq_some_iff.mp hp).1
    have hj : j < vs.length := by rw [hl]; exact (List.getElem?_eq_some_iff.mp hq).1
    rw [List.getElem?_eq_getElem hi, List.getElem?_eq_getElem hj, Option.some.injEq]
    obtain ⟨a1, a2, a3⟩ := hc i p _ hp (List.getElem?_eq_getElem hi)
    obtain ⟨b1, b2, b3⟩ := hc j q _ hq (List.getElem?_eq_getElem hj)
    unfold cubeOf
    rw [← a1, ← a2, ← a3, ← b1, ← b2, ← b3]
    generalize vs[i] = v
    generalize vs[j] = w
    obtain ⟨v1, v2, v3⟩ := v
    obtain ⟨w1, w2, w3⟩ := w
    simp only [VoxelIndex.mk.injEq, Prod.mk.injEq, Nat.cast_inj, UInt64.toNat_inj]
  obtain ⟨n3, m3⟩ := List.forall₂_iff_get.mp h3
  refine ⟨ks, qs, h1, h2, h3, h4, h5, ?_, ?_, ?_⟩
  · intro q hq
    obtain ⟨n, hn, rfl⟩ := List.getElem_of_mem hq
    exact List.mem_of_getElem? (m3 n (by omega) hn)
  · rw [List.nodup_iff_injective_get]
    rintro ⟨m, hm⟩ ⟨n, hn⟩ e
    rw [List.length_map] at hm hn
    have e' : cubeOf r.val ox oy oz (pt qs[m]) = cubeOf r.val ox oy oz (pt qs[n]) := by simpa using e
    have := (same _ _ _ _ (m3 m (by omega) hm) (m3 n (by omega) hn)).mpr e'
    have := h6 _ (List.getElem_mem (by omega)) _ (List.getElem_mem (by omega)) this
    exact Fin.ext ((h4.getElem_inj_iff).mp this)
  · intro p hp
    obtain ⟨i, hi, rfl⟩ := List.getElem_of_mem hp
    obtain ⟨l, hl', e⟩ := h7 i hi
    obtain ⟨n, hn, rfl⟩ := List.getElem_of_mem hl'
    refine ⟨qs[n]'(by omega), List.getElem_mem _, ?_⟩
    exact (same _ _ _ _ (m3 n hn (by omega)) (List.getElem?_eq_getElem hi)).mp e

/-- **C144** (partial: coordinates and resolution on a grid; see `c144_shared`): subsampling keeps exactly one point of every cube of the side of the resolution that is
not empty, so every point has a kept one less than the resolution away along each axis. -/
theorem c144_cubes_partial {k : ℤ} (hk0 : -1074 ≤ k) (hk : k ≤ 970) (b : Build) (sh : Shuffle) (hsh : sh.Lawful) (ps : List α) (hps : CloudOnGrid k ps) {r : F64}
    (hr : OnGrid k 53 r) (hpos : 0 < r.val) (seed : Nat) {ox oy oz : ℝ} (ho : Corner ps ox oy oz) :
    ∃ qs, subsamplePoints b sh ps r seed = .ok qs ∧ OnePerCube (cubeOf r.val ox oy oz) ps qs
      ∧ ∀ p ∈ ps, ∃ q ∈ qs, |(pt p).x.val - (pt q).x.val| < r.val ∧ |(pt p).y.val - (pt q).y.val| < r.val ∧ |(pt p).z.val - (pt q).z.val| < r.val := by
  obtain ⟨ks, qs, -, h2, -, -, -, h⟩ := one_per_cube hk0 hk b sh hsh ps hps hr hpos seed ho
  refine ⟨qs, h2, h, fun p hp => ?_⟩
  obtain ⟨q, hq, e⟩ := h.2.2 p hp
  simp only [cubeOf, Prod.mk.injEq] at e
  exact ⟨q, hq, apart_of_floor hpos e.1.symm, apart_of_floor hpos e.2.1.symm, apart_of_floor hpos e.2.2.symm⟩

/-- **C144**, number of points (partial: as before): how many points are kept does not depend on the seed, on how points are shuffled or on the order of the points. -/
theorem c144_count_partial {k : ℤ} (hk0 : -1074 ≤ k) (hk : k ≤ 970) (b b' : Build) (sh sh' : Shuffle) (hsh : sh.Lawful) (hsh' : sh'.Lawful) (ps ps' : List α)
    (hperm : ps.Perm ps') (hps : CloudOnGrid k ps) {r : F64} (hr : OnGrid k 53 r) (hpos : 0 < r.val) (seed seed' : Nat) {ox oy oz : ℝ} (ho : Corner ps ox oy oz) :
    ∃ qs qs', subsamplePoints b sh ps r seed = .ok qs ∧ subsamplePoints b' sh' ps' r seed' = .ok qs' ∧ qs.length = qs'.length := by
  have hps' : CloudOnGrid k ps' := fun p hp => hps p (hperm.mem_iff.mpr hp)
  have ho' : Corner ps' ox oy oz := by
    unfold Corner at ho ⊢
    simp only [← hperm.mem_iff]
    exact ho
  obtain ⟨-, qs, -, h1, -, -, -, h2⟩ := one_per_cube hk0 hk b sh hsh ps hps hr hpos seed ho
  obtain ⟨-, qs', -, h1', -, -, -, h2'⟩ := one_per_cube hk0 hk b' sh' hsh' ps' hps' hr hpos seed' ho'
  refine ⟨qs, qs', h1, h1', ?_⟩
  rw [h2.length, h2'.length]
  congr 1
  ext t
  simp only [List.mem_toFinset, List.mem_map, hperm.mem_iff]

end

/-- **C144**, filter (partial: as before, and no negative zeros in compressed files): `filter --subsample` writes exactly one point of every cube that is not empty. -/
theorem c144_filter_partial {k : ℤ} (hk0 : -1074 ≤ k) (hk : k ≤ 970) (p : Params) (hz : p.zlib.Correct) (hsh : p.shuffle.Lawful) (w : World)
    (argv : List Str) (i o : Str) (r : F64) (seed : Nat) (hopt : Asks (Cmd.filter.options argv) { resolution := some r, seed := seed })
    (hops : Cmd.filter.operands argv = [i, o]) (hi : i ≠ []) (ho : o ≠ []) (hc : CanReplace w o) (f : SpocFile) (hcloud : HasCloud p w.fs i f)
    (hu : Lossless p.zlib f) (hps : CloudOnGrid k f.prs) (hr : OnGrid k 53 r) (hpos : 0 < r.val) {ox oy oz : ℝ} (hcorner : Corner f.prs ox oy oz) :
    ∃ qs, Makes .filter p w argv o { f with prs := qs } ∧ List.Subperm qs f.prs ∧ OnePerCube (cubeOf r.val ox oy oz) f.prs qs := by
  obtain ⟨x, s', h1, h2, h3⟩ := id hcloud
  have hw := readable_writable h3
  obtain ⟨ks, qs, k1, k2, k3, k4, k5, k6⟩ := one_per_cube hk0 hk p.build p.shuffle hsh f.prs hps hr hpos seed hcorner
  obtain ⟨qs', l1, l2, -⟩ := pick_only f hw.uniform ks k4 k5
  obtain rfl : qs' = qs := by rw [forall₂_filterMap l1, forall₂_filterMap k3]
  exact ⟨qs', (c149_filter p hz hsh w argv i o _ hopt hops hi ho hc f hcloud hu qs' ⟨f.prs, f.prs, f.prs, qs', rfl, by simp, rfl, k2, rfl⟩).1, l2, k6⟩

theorem floor_of_fv {a r : F64} {n : ℤ} (hr : 0 < r.fv) (h1 : n * r.fv ≤ a.fv) (h2 : a.fv < (n + 1) * r.fv) : ⌊(a.val - 0) / r.val⌋ = n := by
  have hr' : 0 < r.val := F64.val_pos.mpr hr
  have hU := F64.one1074_pos'
  rw [sub_zero, Int.floor_eq_iff, le_div_iff₀ hr', div_lt_iff₀ hr']
  unfold F64.val
  rw [← mul_div_assoc, ← mul_div_assoc, div_le_div_iff_of_pos_right hU, div_lt_div_iff_of_pos_right hU]
  exact_mod_cast And.intro h1 h2

/-- **C144, negation**: of 0, 190 and 192 with the resolution 6.4, all three are kept, although the double nearest to 6.4 is contained 29 times in both 190 and 192. -/
theorem c144_shared (b : Build) : subsamplePoints b (fun _ l => l) ([num 0, num 190, num 192].map pointX) ⟨0x401999999999999a⟩ 0 = .ok ([num 0, num 190, num 192].map pointX)
    ∧ ⌊((num 190).val - 0) / (⟨0x401999999999999a⟩ : F64).val⌋ = 29 ∧ ⌊((num 192).val - 0) / (⟨0x401999999999999a⟩ : F64).val⌋ = 29 := by
  refine ⟨?_, floor_of_fv (by decide +kernel) (by decide +kernel) (by decide +kernel), floor_of_fv (by decide +kernel) (by decide +kernel) (by decide +kernel)⟩
  cases b <;> decide +kernel

/-! ## examples -/

theorem cloudA_corner : Corner cloudA.prs 0 0 0 := tilePoints_least

/-- The hypotheses of `c144_cubes_partial` hold. -/
example (b : Build) (seed : Nat) : ∃ qs, subsamplePoints b noShuffle cloudA.prs (num 10) seed = .ok qs ∧ OnePerCube (cubeOf (num 10).val 0 0 0) cloudA.prs qs := by
  obtain ⟨qs, h1, h2, -⟩ := c144_cubes_partial (k := 0) (by norm_num) (by norm_num) b noShuffle (fun _ l => List.Perm.refl l) cloudA.prs tilePoints_onGrid
    (onGrid_num (by norm_num) (by norm_num)) ten_pos seed cloudA_corner
  exact ⟨qs, h1, h2⟩

/-- The hypotheses of `c144_count_partial` hold, for the cloud read backwards. -/
example (b b' : Build) (seed seed' : Nat) : ∃ qs qs', subsamplePoints b noShuffle cloudA.prs (num 10) seed = .ok qs
    ∧ subsamplePoints b' noShuffle cloudA.prs.reverse (num 10) seed' = .ok qs' ∧ qs.length = qs'.length :=
  c144_count_partial (k := 0) (by norm_num) (by norm_num) b b' noShuffle noShuffle (fun _ l => List.Perm.refl l) (fun _ l => List.Perm.refl l) cloudA.prs _
    (List.reverse_perm _).symm tilePoints_onGrid (onGrid_num (by norm_num) (by norm_num)) ten_pos seed seed' cloudA_corner

/-- The hypotheses of `c144_filter_partial` hold, for an uncompressed file. -/
example : ∃ qs, Makes .filter exampleParams exampleDisk ["--subsample=10".toList, ['a'], ['o']] ['o'] { cloudA with prs := qs }
    ∧ OnePerCube (cubeOf (num 10).val 0 0 0) cloudA.prs qs := by
  have e : Cmd.filter.options ["--subsample=10".toList, ['a'], ['o']] = [("subsample", ['1', '0'])] := by decide +kernel
  have ask : Asks [("subsample", ['1', '0'])] { resolution := some (num 10), seed := 0 } :=
    ⟨by decide, by decide, by decide, by decide, by decide, by simp,
      by show some (num 10) = if F64.gt (atof ['1', '0']) F64.zero then some (atof ['1', '0']) else none; decide +kernel,
      .inr ⟨rfl, rfl⟩, by decide, .inl rfl⟩
  obtain ⟨qs, h1, -, h2⟩ := c144_filter_partial (k := 0) (by norm_num) (by norm_num) exampleParams toyZlib_correct
    (fun _ l => List.Perm.refl l) exampleDisk _ ['a'] ['o'] (num 10) 0 (by rw [e]; exact ask) (by decide +kernel) (by decide) (by decide) rfl cloudA
    cloudA_on_disk.1 (fun e => nomatch e) tilePoints_onGrid (onGrid_num (by norm_num) (by norm_num)) ten_pos cloudA_corner
  exact ⟨qs, h1, h2⟩

/-- The hypotheses of `c144_filter_partial` hold, for a compressed file. -/
example : ∃ qs, Makes .filter exampleParams exampleDisk ["--subsample=10".toList, ['z'], ['o']] ['o'] { cloudA with compressed := true, prs := qs }
    ∧ OnePerCube (cubeOf (num 10).val 0 0 0) cloudA.prs qs := by
  have e : Cmd.filter.options ["--subsample=10".toList, ['z'], ['o']] = [("subsample", ['1', '0'])] := by decide +kernel
  have ask : Asks [("subsample", ['1', '0'])] { resolution := some (num 10), seed := 0 } :=
    ⟨by decide, by decide, by decide, by decide, by decide, by simp,
      by show some (num 10) = if F64.gt (atof ['1', '0']) F64.zero then some (atof ['1', '0']) else none; decide +kernel,
      .inr ⟨rfl, rfl⟩, by decide, .inl rfl⟩
  obtain ⟨qs, h1, -, h2⟩ := c144_filter_partial (k := 0) (by norm_num) (by norm_num) exampleParams toyZlib_correct
    (fun _ l => List.Perm.refl l) exampleDisk _ ['z'] ['o'] (num 10) 0 (by rw [e]; exact ask) (by decide +kernel) (by decide) (by decide) rfl _
    cloudZ_on_disk cloudZ_lossless tilePoints_onGrid (onGrid_num (by norm_num) (by norm_num)) ten_pos cloudA_corner
  exact ⟨qs, h1, h2⟩

end Spoc.Props
