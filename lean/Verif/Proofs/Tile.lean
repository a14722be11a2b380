import Verif.Spec.Tile
import Verif.Proofs.Filter
import Verif.Proofs.Voxel
import Verif.Proofs.Quantize
import Mathlib.Data.List.Perm.Basic
import Mathlib.Tactic.Linarith

/-!
# Lemmas about the tile application
-/

namespace Spoc.Tile

open Spec Text

/-! ## The map from tile numbers to points -/

/-- What the map holds for a number. -/
def look (m : TileMap) (k : UInt64) : List Nat := ((m.find? (fun e => decide (e.1 = k))).map (fun e => e.2)).getD []

theorem look_push (m : TileMap) (k : UInt64) (i : Nat) (k' : UInt64) :
    look (m.push k i) k' = if k = k' then look m k' ++ [i] else look m k' := by
  induction m with
  | nil =>
    unfold TileMap.push look
    by_cases h : k = k' <;> simp [h]
  | cons e m ih =>
    obtain ⟨a, v⟩ := e
    unfold TileMap.push
    by_cases h : a = k
    · rw [if_pos h]
      subst h
      by_cases h2 : a = k'
      · simp [look, h2]
      · simp [look, h2]
    · rw [if_neg h]
      by_cases h2 : a = k'
      · have : ¬ k = k' := fun e => h (h2.trans e.symm)
        simp [look, h2, this]
      · have e1 : ∀ m : TileMap, look ((a, v) :: m) k' = look m k' := by
          intro m; simp [look, h2]
        rw [e1, e1, ih]

theorem keys_push (m : TileMap) (k : UInt64) (i : Nat) :
    (m.push k i).map (fun e => e.1) = if k ∈ m.map (fun e => e.1) then m.map (fun e => e.1) else m.map (fun e => e.1) ++ [k] := by
  induction m with
  | nil => rfl
  | cons e m ih =>
    obtain ⟨a, v⟩ := e
    unfold TileMap.push
    by_cases h : a = k
    · rw [if_pos h]; simp [h]
    · rw [if_neg h]
      have h' : ¬ k = a := fun e => h e.symm
      simp only [List.map_cons, ih, List.mem_cons, h', false_or]
      split <;> simp

theorem push_fold (l : List (UInt64 × Nat)) (m : TileMap) (hm : (m.map (fun e => e.1)).Nodup) :
    let r := l.foldl (fun m e => m.push e.1 e.2) m
    (r.map (fun e => e.1)).Nodup
      ∧ (∀ k, k ∈ r.map (fun e => e.1) ↔ k ∈ m.map (fun e => e.1) ∨ k ∈ l.map (fun e => e.1))
      ∧ (∀ k, look r k = look m k ++ (l.filter (fun e => decide (e.1 = k))).map (fun e => e.2)) := by
  induction l generalizing m with
  | nil => exact ⟨hm, by simp, by simp⟩
  | cons e l ih =>
    obtain ⟨a, i⟩ := e
    have hk := keys_push m a i
    have hm' : ((m.push a i).map (fun e => e.1)).Nodup := by
      rw [hk]
      split
      · exact hm
      · next h =>
        rw [List.nodup_append]
        refine ⟨hm, List.nodup_singleton _, ?_⟩
        intro x hx y hy
        rw [List.mem_singleton] at hy
        subst hy
        exact fun e => h (e ▸ hx)
    obtain ⟨h1, h2, h3⟩ := ih _ hm'
    refine ⟨h1, fun k => ?_, fun k => ?_⟩
    · rw [List.foldl_cons, h2, hk]
      split
      · next h =>
        simp only [List.map_cons, List.mem_cons]
        constructor
        · tauto
        · rintro (h' | rfl | h')
          · exact Or.inl h'
          · exact Or.inl h
          · exact Or.inr h'
      · simp only [List.mem_append, List.map_cons, List.mem_cons]; tauto
    · rw [List.foldl_cons, h3, look_push]
      by_cases h : a = k
      · simp [h]
      · simp [h]

theorem getTileMap_spec (idx : List UInt64) :
    ((getTileMap idx).map (fun e => e.1)).Nodup ∧ (∀ k, k ∈ (getTileMap idx).map (fun e => e.1) ↔ k ∈ idx)
      ∧ ∀ k, look (getTileMap idx) k = (idx.zipIdx.filter (fun e => decide (e.1 = k))).map (fun e => e.2) := by
  obtain ⟨h1, h2, h3⟩ := push_fold idx.zipIdx [] (by simp)
  refine ⟨h1, fun k => ?_, fun k => ?_⟩
  · rw [getTileMap, h2]
    have : idx.zipIdx.map (fun e => e.1) = idx := List.zipIdx_map_fst 0 idx
    rw [this]; simp
  · rw [getTileMap, h3]; simp [look]

theorem at_eq {m : TileMap} {k : UInt64} (h : k ∈ m.map (fun e => e.1)) : m.at k = .ok (look m k) := by
  unfold TileMap.at look
  obtain ⟨e, he, rfl⟩ := List.mem_map.mp h
  cases hf : m.find? (fun e' => decide (e'.1 = e.1)) with
  | none =>
    rw [List.find?_eq_none] at hf
    exact absurd (by simp) (hf e he)
  | some e' => rfl

/-! ## Sorting -/

theorem insertSorted_perm (k : UInt64) (l : List UInt64) : (insertSorted k l).Perm (k :: l) := by
  induction l with
  | nil => exact List.Perm.refl _
  | cons a l ih =>
    unfold insertSorted
    split
    · exact List.Perm.refl _
    · exact (ih.cons a).trans (List.Perm.swap _ _ _)

theorem sort_perm (l : List UInt64) : (sort l).Perm l := by
  unfold sort
  induction l with
  | nil => exact List.Perm.refl _
  | cons a l ih => rw [List.foldr_cons]; exact (insertSorted_perm _ _).trans (ih.cons a)

theorem insertSorted_sorted (k : UInt64) (l : List UInt64) (h : l.Pairwise (· ≤ ·)) : (insertSorted k l).Pairwise (· ≤ ·) := by
  induction l with
  | nil => simp [insertSorted]
  | cons a l ih =>
    rw [List.pairwise_cons] at h
    unfold insertSorted
    split
    · next hk =>
      rw [List.pairwise_cons, List.pairwise_cons]
      refine ⟨?_, h⟩
      intro x hx
      rcases List.mem_cons.mp hx with rfl | hx
      · exact hk
      · exact UInt64.le_trans hk (h.1 x hx)
    · next hk =>
      rw [List.pairwise_cons]
      refine ⟨?_, ih h.2⟩
      intro x hx
      rcases List.mem_cons.mp ((insertSorted_perm k l).subset hx) with rfl | hx
      · exact (UInt64.le_total a x).resolve_right hk
      · exact h.1 x hx

theorem sort_sorted (l : List UInt64) : (sort l).Pairwise (· ≤ ·) := by
  unfold sort
  induction l with
  | nil => exact List.Pairwise.nil
  | cons a l ih => rw [List.foldr_cons]; exact insertSorted_sorted _ _ ih

theorem sortedKeys_spec (idx : List UInt64) :
    (sortedKeys (getTileMap idx)).Pairwise (· < ·) ∧ ∀ k, k ∈ sortedKeys (getTileMap idx) ↔ k ∈ idx := by
  obtain ⟨h1, h2, _⟩ := getTileMap_spec idx
  have hp := sort_perm ((getTileMap idx).map (fun e => e.1))
  refine ⟨?_, fun k => ?_⟩
  · have hs := sort_sorted ((getTileMap idx).map (fun e => e.1))
    have hn := hp.nodup_iff.mpr h1
    refine List.Pairwise.imp₂ ?_ hs hn
    intro a b h1 h2
    rcases UInt64.lt_or_eq_of_le h1 with h | h
    · exact h
    · exact absurd h h2
  · unfold sortedKeys; rw [hp.mem_iff, h2]

/-! ## The points of a tile -/

theorem filter_zipIdx (ps : List PointRecord) (idx : List UInt64) (h : idx.length = ps.length) (k : UInt64) (pre : List PointRecord) :
    ((idx.zipIdx pre.length).filter (fun e => decide (e.1 = k))).map (fun e => (pre ++ ps)[e.2]?)
      = (pointsNumbered ps idx k).map some := by
  induction idx generalizing ps pre with
  | nil => cases ps <;> simp [pointsNumbered]
  | cons a idx ih =>
    cases ps with
    | nil => simp at h
    | cons p ps =>
      have := ih ps (by simpa using h) (pre ++ [p])
      rw [List.length_append, List.length_singleton, List.append_assoc, List.singleton_append] at this
      unfold pointsNumbered at this ⊢
      rw [List.zipIdx_cons]
      by_cases hk : a = k
      · rw [List.filter_cons_of_pos (by simpa using hk), List.map_cons, this, List.zip_cons_cons,
          List.filter_cons_of_pos (by simpa using hk)]
        simp
      · rw [List.filter_cons_of_neg (by simpa using hk), this, List.zip_cons_cons,
          List.filter_cons_of_neg (by simpa using hk)]

theorem pointsNumbered_sublist (ps : List PointRecord) (idx : List UInt64) (k : UInt64) :
    (pointsNumbered ps idx k).Sublist ps := by
  unfold pointsNumbered
  have h1 := (List.filter_sublist (p := fun e : PointRecord × UInt64 => decide (e.2 = k)) (l := ps.zip idx)).map (fun e => e.1)
  refine h1.trans ?_
  clear h1
  induction ps generalizing idx with
  | nil => simp
  | cons p ps ih =>
    cases idx with
    | nil => simp
    | cons a idx => simpa using ih idx

theorem pushIdx (b : Build) (f : SpocFile) (v : List Nat) (ps : List PointRecord) (t : SpocFile)
    (hv : v.map (fun j => f.prs[j]?) = ps.map some) (hu : Uniform (t.prs ++ ps)) :
    v.foldlM (fun t j => do
      let p ← f.getPointRecord b j
      t.pushBack p) t = .ok { t with prs := t.prs ++ ps } := by
  induction v generalizing ps t with
  | nil =>
    cases ps with
    | nil => simp
    | cons p ps => simp at hv
  | cons j v ih =>
    cases ps with
    | nil => simp at hv
    | cons p ps =>
      simp only [List.map_cons, List.cons.injEq] at hv
      have hlt : j < f.prs.length := (List.getElem?_eq_some_iff.mp hv.1).1
      have hg : f.getPointRecord b j = .ok p := by
        unfold SpocFile.getPointRecord cassert
        rw [hv.1]
        cases b <;> simp [hlt]
      rw [List.foldlM_cons, hg]
      simp only [Res.ok_bind]
      rw [Filter.pushBack_eq (Filter.uniform_sublist hu (by simp)), Res.ok_bind, ih ps _ hv.2 (by simpa using hu)]
      simp

theorem tileFile_eq (b : Build) (f : SpocFile) (hu : Uniform f.prs) (idx : List UInt64) (hl : idx.length = f.prs.length)
    (k : UInt64) (hk : k ∈ idx) :
    tileFile b f (getTileMap idx) k
      = .ok { SpocFile.empty with wkt := f.wkt, compressed := f.compressed, prs := pointsNumbered f.prs idx k }
    ∧ pointsNumbered f.prs idx k ≠ [] := by
  obtain ⟨_, h2, h3⟩ := getTileMap_spec idx
  have hz := filter_zipIdx f.prs idx hl k []
  rw [List.length_nil, List.nil_append] at hz
  have hv : (look (getTileMap idx) k).map (fun j => f.prs[j]?) = (pointsNumbered f.prs idx k).map some := by
    rw [h3, List.map_map]; exact hz
  have hne : pointsNumbered f.prs idx k ≠ [] := by
    unfold pointsNumbered
    obtain ⟨i, hi, rfl⟩ := List.getElem_of_mem hk
    intro he
    rw [List.map_eq_nil_iff, List.filter_eq_nil_iff] at he
    have hi2 : i < f.prs.length := hl ▸ hi
    refine he (f.prs[i], idx[i]) ?_ (by simp)
    have hi3 : i < (f.prs.zip idx).length := by simp [hi, hi2]
    have := List.getElem_mem hi3
    rwa [List.getElem_zip] at this
  refine ⟨?_, hne⟩
  unfold tileFile
  rw [at_eq ((h2 k).mpr hk), Res.ok_bind]
  have hle : (look (getTileMap idx) k).isEmpty = false := by
    cases hl' : look (getTileMap idx) k with
    | nil =>
      rw [hl', List.map_nil] at hv
      exact absurd (List.map_eq_nil_iff.mp hv.symm) hne
    | cons => rfl
  have hc : cassert b (!(look (getTileMap idx) k).isEmpty) = .ok () := by rw [hle]; cases b <;> rfl
  rw [hc]
  simp only [Res.ok_bind]
  rw [pushIdx b f _ _ _ hv (by
    have := Filter.uniform_sublist hu (pointsNumbered_sublist f.prs idx k)
    simpa [SpocFile.empty, SpocFile.setWkt, SpocFile.setCompressed] using this)]
  simp [SpocFile.empty, SpocFile.setWkt, SpocFile.setCompressed]

/-- The tiles together are the points. -/
theorem tiles_perm (ps : List PointRecord) (idx : List UInt64) (hl : idx.length = ps.length) (ks : List UInt64) (hn : ks.Nodup)
    (hk : ∀ k, k ∈ ks ↔ k ∈ idx) : (ks.flatMap (pointsNumbered ps idx)).Perm ps := by
  have key : ∀ (z : List (PointRecord × UInt64)) (ks : List UInt64), ks.Nodup → (∀ e ∈ z, e.2 ∈ ks) →
      (ks.flatMap (fun k => z.filter (fun e => decide (e.2 = k)))).Perm z := by
    intro z ks
    induction ks generalizing z with
    | nil =>
      intro _ h
      cases z with
      | nil => exact List.Perm.refl _
      | cons e z => exact absurd (h e (by simp)) (by simp)
    | cons k ks ih =>
      intro hn h
      rw [List.nodup_cons] at hn
      rw [List.flatMap_cons]
      have h1 := ih (z.filter (fun e => !decide (e.2 = k))) hn.2 (by
        intro e he
        rw [List.mem_filter] at he
        rcases List.mem_cons.mp (h e he.1) with h' | h'
        · simp [h'] at he
        · exact h')
      have h2 : ks.flatMap (fun k' => (z.filter (fun e => !decide (e.2 = k))).filter (fun e => decide (e.2 = k')))
          = ks.flatMap (fun k' => z.filter (fun e => decide (e.2 = k'))) := by
        rw [List.flatMap_def, List.flatMap_def]
        congr 1
        refine List.map_congr_left ?_
        intro k' hk'
        rw [List.filter_filter]
        refine List.filter_congr ?_
        intro e _
        by_cases hc : e.2 = k'
        · have : ¬ k' = k := fun e => hn.1 (e ▸ hk')
          simp [hc, this]
        · simp [hc]
      rw [h2] at h1
      exact (h1.append_left _).trans (List.filter_append_perm _ _)
  have h1 := (key (ps.zip idx) ks hn (fun e he => (hk _).mpr (List.of_mem_zip he).2)).map (fun e => e.1)
  rw [List.map_flatMap] at h1
  have : (ps.zip idx).map (fun e => e.1) = ps := List.map_fst_zip (by omega)
  rw [this] at h1
  exact h1

end Spoc.Tile

namespace Spoc.Tile

open Spec Text F64 Utils

/-! ## Columns and rows -/

theorem gt_zero {x : F64} (hx : x.isFinite = true) : gt x zero = true ↔ 0 < x.fv := by
  rw [gt_iff, zero_fv]
  exact ⟨fun h => h.2.2, fun h => ⟨not_nan_of_finite hx, by decide, h⟩⟩

theorem gridCell_pos {ts o v : F64} (hts : ts.isFinite = true) (hpos : 0 < ts.fv) :
    gridCell ts o v = (div (sub v o) ts).trunc := by
  unfold gridCell; rw [if_pos ((gt_zero hts).mpr hpos)]

theorem gridCell_nonpos {ts o v : F64} (hts : ts.isFinite = true) (hpos : ¬ 0 < ts.fv) : gridCell ts o v = 0 := by
  unfold gridCell; rw [if_neg (fun h => hpos ((gt_zero hts).mp h))]

theorem toU64_small {x : F64} (hf : x.isFinite = true) (h0 : 0 ≤ x.fv) (h : x.trunc < 2 ^ 64) :
    ∃ u, x.toU64 = .ok u ∧ (u.toNat : Int) = x.trunc := by
  have e : x.toU64 = .ok (UInt64.ofNat x.trunc.toNat) := by
    unfold toU64
    rw [if_pos hf, if_pos ⟨trunc_nonneg h0, h⟩]
  exact ⟨_, e, toU64_toNat e⟩

/-- One column (row) number. -/
theorem index1_cell {ts o v last : F64} (hts : ts.isFinite = true) (ho : o.isFinite = true) (hv : v.isFinite = true)
    (hl : last.isFinite = true) (h1 : o.fv ≤ v.fv) (h2 : v.fv ≤ last.fv) (hfew : FewCells ts o last) :
    ∃ u, index1 ts o v = .ok u ∧ (u.toNat : Int) = gridCell ts o v ∧ gridCell ts o v ≤ gridCell ts o last
      ∧ gridCell ts o last + 1 < 2 ^ 32 := by
  by_cases hpos : 0 < ts.fv
  · have hg := (gt_zero hts).mpr hpos
    obtain ⟨hq, hc⟩ := hfew hg
    obtain ⟨n1, p1⟩ := Voxel.quot_spec hv ho hts hpos h1
    have hm := Voxel.quot_mono hv hl ho hts hpos h2
    have ht := trunc_mono p1 hm
    rw [gridCell_pos hts hpos] at hc
    rw [gridCell_pos hts hpos, gridCell_pos hts hpos]
    have hfin : (div (sub v o) ts).isFinite = true := finite_of_fv_le hq (by omega)
    obtain ⟨u, hu, hn⟩ := toU64_small hfin p1 (by omega)
    refine ⟨u, ?_, hn, ht, hc⟩
    unfold index1
    rw [if_pos hg]; exact hu
  · rw [gridCell_nonpos hts hpos, gridCell_nonpos hts hpos]
    refine ⟨0, ?_, rfl, le_refl _, by norm_num⟩
    unfold index1
    rw [if_neg (fun h => hpos ((gt_zero hts).mp h))]
    decide +kernel

/-- The stride exceeds every column number. -/
theorem stride_spec {ts : F64} {e : Extent} (hts : ts.isFinite = true) (ho : e.minp.x.isFinite = true)
    (hl : e.maxp.x.isFinite = true) (h1 : e.minp.x.fv ≤ e.maxp.x.fv) (hfew : FewCells ts e.minp.x e.maxp.x) :
    ∃ s, getStride e ts = .ok s ∧ gridCell ts e.minp.x e.maxp.x < s.toNat ∧ s.toNat ≤ 2 ^ 32 := by
  by_cases hpos : 0 < ts.fv
  · have hg := (gt_zero hts).mpr hpos
    obtain ⟨hq, hc⟩ := hfew hg
    obtain ⟨n1, p1⟩ := Voxel.quot_spec hl ho hts hpos h1
    rw [gridCell_pos hts hpos] at hc ⊢
    unfold getStride
    rw [if_pos hg]
    set q := div (sub e.maxp.x e.minp.x) ts with hqd
    have hone : one.isFinite = true := by decide +kernel
    have hU : (0 : Int) < one1074 := by exact_mod_cast one1074_pos
    have t0 := trunc_nonneg p1
    have tq : q.trunc * one1074 ≤ q.fv ∧ q.fv < (q.trunc + 1) * one1074 := by
      unfold trunc
      rw [Int.tdiv_eq_ediv_of_nonneg p1]
      exact ⟨Int.ediv_mul_le _ (by omega), Int.lt_ediv_add_one_mul_self _ hU⟩
    have ha := add_fv hq hone
    rw [one_fv] at ha
    have k1 : (q.trunc + 1).natAbs < 2 ^ 53 := by omega
    have lo : (q.trunc + 1) * one1074 ≤ (add q one).fv := by
      rw [ha, ← ofInt_fv k1]
      refine le_rfv (not_nan_of_finite (ofInt_finite k1)) (by norm_num) ?_
      rw [ofInt_fv k1]
      have := tq.1
      push_cast
      linarith
    have k2 : (2 ^ 32 : Int).natAbs < 2 ^ 53 := by decide
    have hi : (add q one).fv ≤ 2 ^ 32 * one1074 := by
      rw [ha, ← ofInt_fv k2]
      refine rfv_le (not_nan_of_finite (ofInt_finite k2)) (by norm_num) ?_
      rw [ofInt_fv k2]
      have := tq.2
      have : (q.trunc + 1) * (one1074 : Int) ≤ (2 ^ 32 - 1) * one1074 := mul_le_mul_of_nonneg_right (by omega) hU.le
      push_cast
      linarith
    have a0 : 0 ≤ (add q one).fv := le_trans (mul_nonneg (by omega) hU.le) lo
    have hfin : (add q one).isFinite = true := by
      refine finite_of_fv_le (ofInt_finite k2) ?_
      rw [ofInt_fv k2]; omega
    have e1 : q.trunc + 1 ≤ (add q one).trunc := by
      unfold trunc at lo ⊢
      exact le_tdiv hU lo
    have e2 : (add q one).trunc ≤ 2 ^ 32 := by unfold trunc; exact tdiv_le hU hi
    obtain ⟨u, hu, hn⟩ := toU64_small hfin a0 (by omega)
    exact ⟨u, hu, by omega, by omega⟩
  · rw [gridCell_nonpos hts hpos]
    refine ⟨1, ?_, by decide, by decide⟩
    unfold getStride
    rw [if_neg (fun h => hpos ((gt_zero hts).mp h))]
    decide +kernel

theorem grid_inj {S xi yi xj yj : Nat} (h1 : xi < S) (h2 : xj < S) : yi * S + xi = yj * S + xj ↔ xi = xj ∧ yi = yj := by
  constructor
  · intro h
    have e1 := congrArg (· % S) h
    simp only [Nat.mul_add_mod_self_right, Nat.mod_eq_of_lt h1, Nat.mod_eq_of_lt h2] at e1
    refine ⟨e1, ?_⟩
    have : yi * S = yj * S := by omega
    exact Nat.eq_of_mul_eq_mul_right (by omega) this
  · rintro ⟨rfl, rfl⟩; rfl

/-! ## The tile size for a number of tiles -/

theorem epsilon_fv : epsilon.fv * 2 ^ 23 = one1074 := by decide +kernel
theorem epsilon_finite : epsilon.isFinite = true := by decide +kernel

theorem epsilon_val : epsilon.val = 1 / 2 ^ 23 := by
  unfold val
  have : (epsilon.fv : ℝ) * 2 ^ 23 = one1074 := by exact_mod_cast epsilon_fv
  have hU := one1074_pos'
  rw [← this]
  have : (epsilon.fv : ℝ) ≠ 0 := fun h => by rw [h] at this; linarith
  field_simp

theorem val_le_int {x : F64} {k : Int} : x.val ≤ k ↔ x.fv ≤ k * one1074 := by
  unfold val
  rw [div_le_iff₀ one1074_pos']
  exact_mod_cast Iff.rfl

theorem finite_of_le_int {x : F64} {k : Int} (hk : k.natAbs < 2 ^ 53) (h0 : 0 ≤ x.fv) (h : x.fv ≤ k * one1074) :
    x.isFinite = true := by
  refine finite_of_fv_le (ofInt_finite hk) ?_
  rw [ofInt_fv hk]; omega

/-- The extent in one dimension, enlarged. -/
theorem enlarge {mn mx : F64} (h1 : mn.isFinite = true) (h2 : mx.isFinite = true) (hle : mn.fv ≤ mx.fv)
    (hd : mx.val - mn.val ≤ 2 ^ 28) :
    (sub mx mn).isFinite = true ∧ 0 ≤ (sub mx mn).val ∧ (sub mx mn).val ≤ 2 ^ 28
      ∧ (add (sub mx mn) epsilon).isFinite = true ∧ (add (sub mx mn) epsilon).val ≤ 2 ^ 29
      ∧ (sub mx mn).val * (1 + 2.9 / 2 ^ 53) ≤ (add (sub mx mn) epsilon).val ∧ 1 / 2 ^ 24 ≤ (add (sub mx mn) epsilon).val := by
  have k1 : (2 ^ 28 : Int).natAbs < 2 ^ 53 := by decide
  have k2 : (2 ^ 29 : Int).natAbs < 2 ^ 53 := by decide
  have s0 : 0 ≤ (sub mx mn).fv := by rw [sub_fv h2 h1]; exact rfv_nonneg (by omega)
  have s1 : (sub mx mn).fv ≤ 2 ^ 28 * one1074 := by
    rw [sub_fv h2 h1, ← ofInt_fv k1]
    refine rfv_le (not_nan_of_finite (ofInt_finite k1)) (by norm_num) ?_
    rw [ofInt_fv k1]
    unfold val at hd
    rw [← sub_div, div_le_iff₀ one1074_pos'] at hd
    rw [Nat.cast_one, mul_one]
    generalize one1074 = U at hd ⊢
    exact_mod_cast hd
  have sf := finite_of_le_int k1 s0 s1
  have v0 : 0 ≤ (sub mx mn).val := val_nonneg.mpr s0
  have v1 : (sub mx mn).val ≤ 2 ^ 28 := by
    have := val_le_int.mpr s1
    rw [show ((2 ^ 28 : Int) : ℝ) = 2 ^ 28 by norm_num] at this; exact this
  have ep := epsilon_val
  have e0 : 0 ≤ epsilon.fv := val_nonneg.mp (by rw [ep]; positivity)
  have a0 : 0 ≤ (add (sub mx mn) epsilon).fv := by rw [add_fv sf epsilon_finite]; exact rfv_nonneg (by omega)
  have a1 : (add (sub mx mn) epsilon).fv ≤ 2 ^ 29 * one1074 := by
    rw [add_fv sf epsilon_finite, ← ofInt_fv k2]
    refine rfv_le (not_nan_of_finite (ofInt_finite k2)) (by norm_num) ?_
    rw [ofInt_fv k2]
    have : epsilon.fv ≤ 1 * one1074 := val_le_int.mp (by rw [ep]; norm_num)
    push_cast
    have hU : (0 : Int) < one1074 := by exact_mod_cast one1074_pos
    linarith
  have af := finite_of_le_int k2 a0 a1
  have ae := add_val sf epsilon_finite af
  rw [ep] at ae
  rw [abs_of_nonneg (show 0 ≤ (sub mx mn).val + 1 / 2 ^ 23 by positivity)] at ae
  have ae2 := (abs_le.mp (show |(add (sub mx mn) epsilon).val - ((sub mx mn).val + 1 / 2 ^ 23)|
      ≤ ((sub mx mn).val + 1 / 2 ^ 23) / 2 ^ 53 by rw [le_div_iff₀ (by norm_num)]; linarith)).1
  refine ⟨sf, v0, v1, af, ?_, ?_, ?_⟩
  · have := val_le_int.mpr a1
    rw [show ((2 ^ 29 : Int) : ℝ) = 2 ^ 29 by norm_num] at this; exact this
  · linarith
  · linarith

/-- The number of columns when the tile size is (at least) the enlarged extent divided by the number of tiles. -/
theorem column_bound {d S : F64} {n : Nat} (hn : 1 ≤ n) (hn2 : n < 2 ^ 32) (hd : d.isFinite = true) (d0 : 0 ≤ d.val)
    (hS : S.isFinite = true) (S1 : S.val ≤ 2 ^ 29) (S2 : d.val * (1 + 2.9 / 2 ^ 53) ≤ S.val) (S3 : 1 / 2 ^ 24 ≤ S.val) :
    (div S (F64.ofNat n)).isFinite = true ∧ 0 < (div S (F64.ofNat n)).fv
      ∧ (div d (div S (F64.ofNat n))).isFinite = true ∧ (div d (div S (F64.ofNat n))).val < n := by
  have kn : ((n : Nat) : Int).natAbs < 2 ^ 53 := by omega
  have fn : (F64.ofNat n).isFinite = true := ofInt_finite kn
  have vn : (F64.ofNat n).val = n := by unfold F64.ofNat; rw [ofInt_val kn]; simp
  have en : (F64.ofNat n).fv = n * one1074 := ofInt_fv kn
  have hU : (0 : Int) < one1074 := by exact_mod_cast one1074_pos
  have pn : 0 < (F64.ofNat n).fv := by rw [en]; exact mul_pos (by omega) hU
  have n1 : (1 : ℝ) ≤ n := by exact_mod_cast hn
  have n2 : (n : ℝ) ≤ 2 ^ 32 := by exact_mod_cast hn2.le
  have Spos : 0 < S.val := lt_of_lt_of_le (by positivity) S3
  have S0 : 0 ≤ S.fv := val_nonneg.mp Spos.le
  have k2 : (2 ^ 29 : Int).natAbs < 2 ^ 53 := by decide
  have hκ : (2 : ℝ) ^ 52 / one1074 ≤ 1 / 2 ^ 100 := by
    rw [div_le_div_iff₀ one1074_pos' (by positivity)]
    have h : 2 ^ 152 ≤ one1074 := le_one1074 152 (by norm_num)
    have h2 : ((2 ^ 152 : Nat) : ℝ) ≤ (one1074 : ℝ) := Nat.cast_le.mpr h
    rw [one_mul]
    refine le_trans (le_of_eq ?_) h2
    rw [Nat.cast_pow, ← pow_add]; norm_num
  have hκ0 : (0 : ℝ) ≤ 2 ^ 52 / one1074 := div_nonneg (by norm_num) one1074_pos'.le
  obtain ⟨κ, hκd⟩ : ∃ κ : ℝ, κ = 2 ^ 52 / one1074 := ⟨_, rfl⟩
  rw [← hκd] at hκ hκ0
  -- the tile size
  have t1 : (div S (F64.ofNat n)).fv ≤ 2 ^ 29 * one1074 := by
    refine div_le_int fn hS pn k2 ?_
    rw [en]
    have h1 := (val_le_int (x := S) (k := 2 ^ 29)).mp (by rw [show ((2 ^ 29 : Int) : ℝ) = 2 ^ 29 by norm_num]; exact S1)
    have : (2 ^ 29 : Int) * one1074 * 1 ≤ 2 ^ 29 * one1074 * n := mul_le_mul_of_nonneg_left (by omega) (mul_nonneg (by norm_num) hU.le)
    generalize (one1074 : Int) = U at *
    linarith
  have t0 : 0 ≤ (div S (F64.ofNat n)).fv := by
    rw [(div_fv hS fn pn).1]
    exact rfv_nonneg (mul_nonneg S0 hU.le)
  have tf := finite_of_le_int k2 t0 t1
  have te := div_val hS fn pn tf
  rw [vn, ← hκd] at te
  have R0 : 0 < S.val / n := by positivity
  have R1 : 1 / 2 ^ 56 ≤ S.val / n := by
    rw [div_le_div_iff₀ (by positivity) (by linarith only [n1])]
    nlinarith only [S3, n2, n1]
  rw [abs_of_pos R0] at te
  have te2 := (abs_le.mp (show |(div S (F64.ofNat n)).val - S.val / n| ≤ (S.val / n + κ) / 2 ^ 53 by
    rw [le_div_iff₀ (by norm_num)]; rw [mul_comm]; exact te)).1
  set t := div S (F64.ofNat n) with htd
  have tR : S.val / n * (1 - 1.001 / 2 ^ 53) ≤ t.val := by linarith
  have tpos : 0 < t.val := lt_of_lt_of_le (by positivity) tR
  have nt : S.val * (1 - 1.001 / 2 ^ 53) ≤ n * t.val := by
    have := mul_le_mul_of_nonneg_left tR (by linarith : (0 : ℝ) ≤ n)
    have e : (n : ℝ) * (S.val / n * (1 - 1.001 / 2 ^ 53)) = S.val * (1 - 1.001 / 2 ^ 53) := by
      field_simp
    linarith
  have nd : d.val * (1 + 1.8 / 2 ^ 53) ≤ n * t.val := by
    have h1 := mul_le_mul_of_nonneg_right S2 (show (0 : ℝ) ≤ 1 - 1.001 / 2 ^ 53 by norm_num)
    have h2 : d.val * (1 + 1.8 / 2 ^ 53) ≤ d.val * (1 + 2.9 / 2 ^ 53) * (1 - 1.001 / 2 ^ 53) := by
      rw [mul_assoc]
      exact mul_le_mul_of_nonneg_left (by norm_num) d0
    linarith
  have tfv : 0 < t.fv := val_pos.mp tpos
  -- the quotient
  have hdt : d.fv ≤ n * t.fv := by
    have : d.val ≤ n * t.val := by
      have : d.val * 1 ≤ d.val * (1 + 1.8 / 2 ^ 53) := mul_le_mul_of_nonneg_left (by norm_num) d0
      linarith
    unfold val at this
    rw [← mul_div_assoc, div_le_div_iff_of_pos_right one1074_pos'] at this
    exact_mod_cast this
  have q1 := div_le_int tf hd tfv kn hdt
  have q0 : 0 ≤ (div d t).fv := by
    rw [(div_fv hd tf tfv).1]
    exact rfv_nonneg (mul_nonneg (val_nonneg.mp d0) hU.le)
  have qf := finite_of_le_int kn q0 q1
  refine ⟨tf, tfv, qf, ?_⟩
  have qe := div_val hd tf tfv qf
  rw [← hκd] at qe
  have w0 : 0 ≤ d.val / t.val := div_nonneg d0 tpos.le
  rw [abs_of_nonneg w0] at qe
  have qe2 := (abs_le.mp (show |(div d t).val - d.val / t.val| ≤ (d.val / t.val + κ) / 2 ^ 53 by
    rw [le_div_iff₀ (by norm_num)]; rw [mul_comm]; exact qe)).2
  have wn : d.val / t.val * (1 + 1.8 / 2 ^ 53) ≤ n := by
    rw [div_mul_eq_mul_div, div_le_iff₀ tpos]; exact nd
  set w := d.val / t.val with hw
  rcases le_or_gt (1 / 2) w with hw2 | hw2
  · linarith
  · linarith

end Spoc.Tile

namespace Spoc.Tile

open Spec Text

/-! ## File names and the file system -/

theorem padded_inj (d : Int) {k k' : UInt64} (h : padded d k = padded d k') : k = k' := by
  have key : ∀ k, decVal (padded d k) = k.toNat := by
    intro k
    unfold decVal padded
    rw [Nat.ofDigitChars_append, Nat.ofDigitChars_replicate_zero, Nat.mul_zero]
    exact decVal_showNat _
  have := congrArg decVal h
  rw [key, key] at this
  exact UInt64.toNat_inj.mp this

theorem outputName_inj (fn pre : Str) (c : Bool) (d : Int) {k k' : UInt64}
    (h : outputName fn pre c d k = outputName fn pre c d k') : k = k' := by
  unfold outputName at h
  simp only [List.append_assoc] at h
  have h1 := List.append_cancel_left h
  exact padded_inj d (List.append_cancel_right h1)

theorem set_same (fs : FS) (n : Str) (f : File) : (fs.set n f) n = some f := by simp [FS.set]
theorem set_other (fs : FS) {n m : Str} (f : File) (h : m ≠ n) : (fs.set n f) m = fs m := by simp [FS.set, h]

theorem writeTile_other (b : Build) (zl : Zlib) (cc : Str → Bool) (force : Bool) (fs : FS) (name : Str) (t : SpocFile) {n : Str}
    (h : n ≠ name) : (writeTile b zl cc force fs name t).1 n = fs n := by
  unfold writeTile
  by_cases hp : (!force && fs.present name) = true
  · rw [if_pos hp]
  · rw [if_neg hp]
    cases openWrite cc fs name with
    | none => rfl
    | some f => exact set_other _ _ h

/-- A readable file is left alone when there is no force option. -/
theorem writeTile_keeps (b : Build) (zl : Zlib) (cc : Str → Bool) (fs : FS) (name : Str) (t : SpocFile) {n : Str} {f : File}
    (hf : fs n = some f) (hr : f.readable = true) : (writeTile b zl cc false fs name t).1 n = some f := by
  by_cases e : n = name
  · subst e
    have hp : (!false && fs.present n) = true := by simp [FS.present, hf, hr]
    unfold writeTile
    rw [if_pos hp]
    exact hf
  · rw [writeTile_other _ _ _ _ _ _ _ e]; exact hf

theorem writeTiles_keeps (b : Build) (zl : Zlib) (cc : Str → Bool) (name : UInt64 → Str) (g : SpocFile) (m : TileMap)
    (ks : List UInt64) (fs : FS) {n : Str} {f : File} (hf : fs n = some f) (hr : f.readable = true) :
    (writeTiles b zl cc false name g m ks fs).1 n = some f := by
  induction ks generalizing fs with
  | nil => exact hf
  | cons k ks ih =>
    unfold writeTiles
    cases tileFile b g m k with
    | ok t =>
      have h := writeTile_keeps b zl cc fs (name k) t hf hr
      simp only
      generalize writeTile b zl cc false fs (name k) t = w at h ⊢
      obtain ⟨fs', r⟩ := w
      cases r
      · exact ih _ h
      all_goals exact h
    | throw e => exact hf
    | ub w => exact hf
    | abort => exact hf
    | hang => exact hf

/-- Only tile files are touched. -/
theorem writeTiles_others (b : Build) (zl : Zlib) (cc : Str → Bool) (force : Bool) (name : UInt64 → Str) (g : SpocFile) (m : TileMap)
    (ks : List UInt64) (fs : FS) {n : Str} (hn : ∀ k ∈ ks, n ≠ name k) :
    (writeTiles b zl cc force name g m ks fs).1 n = fs n := by
  induction ks generalizing fs with
  | nil => rfl
  | cons k ks ih =>
    unfold writeTiles
    cases tileFile b g m k with
    | ok t =>
      have h := writeTile_other b zl cc force fs (name k) t (hn k (by simp))
      simp only
      generalize writeTile b zl cc force fs (name k) t = w at h ⊢
      obtain ⟨fs', r⟩ := w
      cases r
      · exact (ih _ (fun k hk => hn k (by simp [hk]))).trans h
      all_goals exact h
    | throw e => rfl
    | ub w => rfl
    | abort => rfl
    | hang => rfl

theorem writeTile_new (b : Build) (zl : Zlib) (cc : Str → Bool) (force : Bool) (fs : FS) (name : Str) (t : SpocFile)
    (hn : fs name = none) (hc : cc name = true) :
    writeTile b zl cc force fs name t
      = (fs.set name { content := (Io.writeFile b zl t).bytes, readable := true, writable := true }, (Io.writeFile b zl t).res) := by
  have hp : ¬ (!force && fs.present name) = true := by simp [FS.present, hn]
  unfold writeTile
  rw [if_neg hp]
  unfold openWrite
  rw [hn]
  simp [hc]

/-- All tiles are written when no file of that name exists. -/
theorem writeTiles_new (b : Build) (zl : Zlib) (cc : Str → Bool) (force : Bool) (name : UInt64 → Str) (g : SpocFile) (m : TileMap)
    (tile : UInt64 → SpocFile) (ks : List UInt64) (fs : FS) (hinj : ∀ k k', name k = name k' → k = k') (hnd : ks.Nodup)
    (ht : ∀ k ∈ ks, tileFile b g m k = .ok (tile k)) (hn : ∀ k ∈ ks, fs (name k) = none) (hc : ∀ k ∈ ks, cc (name k) = true)
    (hw : ∀ k ∈ ks, (Io.writeFile b zl (tile k)).res = .ok ()) :
    (writeTiles b zl cc force name g m ks fs).2 = .ok () ∧
      ∀ k ∈ ks, (writeTiles b zl cc force name g m ks fs).1 (name k)
        = some { content := (Io.writeFile b zl (tile k)).bytes, readable := true, writable := true } := by
  induction ks generalizing fs with
  | nil => exact ⟨rfl, by simp⟩
  | cons k ks ih =>
    rw [List.nodup_cons] at hnd
    have e : writeTiles b zl cc force name g m (k :: ks) fs
        = writeTiles b zl cc force name g m ks
            (fs.set (name k) { content := (Io.writeFile b zl (tile k)).bytes, readable := true, writable := true }) := by
      rw [writeTiles, ht k (by simp)]
      simp only
      rw [writeTile_new b zl cc force fs _ _ (hn k (by simp)) (hc k (by simp)), hw k (by simp)]
    have hne : ∀ k' ∈ ks, name k' ≠ name k := fun k' hk' h => hnd.1 (hinj _ _ h ▸ hk')
    obtain ⟨h1, h2⟩ := ih
      (fs.set (name k) { content := (Io.writeFile b zl (tile k)).bytes, readable := true, writable := true }) hnd.2
      (fun k' hk' => ht k' (by simp [hk'])) (by
        intro k' hk'
        rw [set_other _ _ (hne k' hk')]
        exact hn k' (by simp [hk'])) (fun k' hk' => hc k' (by simp [hk'])) (fun k' hk' => hw k' (by simp [hk']))
    rw [e]
    refine ⟨h1, fun k' hk' => ?_⟩
    rcases List.mem_cons.mp hk' with rfl | hk'
    · rw [writeTiles_others _ _ _ _ _ _ _ _ _ (fun k2 hk2 => (hne k2 hk2).symm), set_same]
    · exact h2 k' hk'

end Spoc.Tile
