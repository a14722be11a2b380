import Verif.Proofs.Subsampling
import Verif.Props.Voxel
import Verif.Props.Parallel

/-!
# C23-C26: subsampling and removal of duplicates
-/

namespace Spoc.Props

open Spec Subsampling

section
variable {α : Type} [HasXYZ α]

theorem subsampleIndexes_eq (b : Build) (sh : Shuffle) (hsh : sh.Lawful) (ps : List α) (res : F64) (seed : Nat)
    (vs : List VoxelIndex) (hv : Voxel.getIndexes ps res = .ok vs) :
    subsampleIndexes b sh ps res seed
      = .ok (dedupe (fun i j => decide (vs[i]? = vs[j]?)) (order sh seed ps.length) []) := by
  have hlen : vs.length = ps.length := mapM_length hv
  obtain ⟨a, ha, hk⟩ := foldlM_voxel b ps.length vs hlen (order sh seed ps.length)
    (fun j hj => List.mem_range.mp ((order_perm hsh seed ps.length).mem_iff.mp hj)) ⟨[], []⟩ (by simp)
  unfold subsampleIndexes
  rw [hv, Res.ok_bind, ha, Res.ok_bind, hk]

theorem uniqueXyzIndexes_eq (b : Build) (sh : Shuffle) (hsh : sh.Lawful) (ps : List α) (seed : Nat) :
    uniqueXyzIndexes b sh ps seed = .ok (dedupe (sameLoc ps) (order sh seed ps.length) []) := by
  obtain ⟨a, ha, hk⟩ := foldlM_xyz b ps (order sh seed ps.length)
    (fun j hj => List.mem_range.mp ((order_perm hsh seed ps.length).mem_iff.mp hj)) ⟨[], []⟩ (by simp)
  unfold uniqueXyzIndexes
  rw [ha, Res.ok_bind, hk]

theorem filterMap_range {β : Type} (l : List β) : (List.range l.length).filterMap (fun k => l[k]?) = l := by
  have h : (List.range l.length).map (fun k => l[k]?) = l.map some := by
    apply List.ext_getElem
    · simp
    · intro i h1 h2
      have : i < l.length := by simpa using h1
      simp [List.getElem?_eq_getElem this]
  have h2 : (List.range l.length).filterMap (fun k => l[k]?)
      = ((List.range l.length).map (fun k => l[k]?)).filterMap id := by
    rw [List.filterMap_map]; rfl
  rw [h2, h, List.filterMap_map]
  simp

theorem forall₂_filterMap {β : Type} {ps : List β} {ks : List Nat} {qs : List β}
    (h : List.Forall₂ (fun k q => ps[k]? = some q) ks qs) : qs = ks.filterMap (fun k => ps[k]?) := by
  induction h with
  | nil => rfl
  | cons h _ ih => rw [List.filterMap_cons, h]; simp [ih]

omit [HasXYZ α] in
/-- Taking elements by valid indexes never fails. -/
theorem mapM_at (ps : List α) (ks : List Nat) (h : ∀ k ∈ ks, k < ps.length) :
    ∃ qs, ks.mapM (fun i => Voxel.at' ps i) = .ok qs ∧ List.Forall₂ (fun k q => ps[k]? = some q) ks qs := by
  obtain ⟨qs, hq⟩ := mapM_ok_of (f := fun i => Voxel.at' ps i) (l := ks) (fun k hk => by
    exact ⟨ps[k]'(h k hk), by unfold Voxel.at'; rw [List.getElem?_eq_getElem (h k hk)]⟩)
  refine ⟨qs, hq, (mapM_eq_ok.mp hq).imp ?_⟩
  intro k q hkq
  unfold Voxel.at' at hkq
  cases hp : ps[k]? with
  | none => rw [hp] at hkq; simp at hkq
  | some p => rw [hp] at hkq; rw [Res.ok.inj hkq]

theorem order_nodup {sh : Shuffle} (hsh : sh.Lawful) (seed n : Nat) : (order sh seed n).Nodup :=
  (order_perm hsh seed n).nodup_iff.mpr List.nodup_range

/-- C23: whenever the voxel indexes `vs` are defined, subsampling returns input points only, no two in the same
voxel, and one for every occupied voxel; for every seed and every shuffle. -/
theorem c23_one_per_voxel (b : Build) (sh : Shuffle) (hsh : sh.Lawful) (ps : List α) (res : F64) (seed : Nat)
    (vs : List VoxelIndex) (hv : Voxel.getIndexes ps res = .ok vs) :
    ∃ ks qs, subsampleIndexes b sh ps res seed = .ok ks ∧ subsamplePoints b sh ps res seed = .ok qs
      ∧ List.Forall₂ (fun k q => ps[k]? = some q) ks qs
      ∧ ks.Nodup ∧ (∀ k ∈ ks, k < ps.length)
      ∧ (∀ k ∈ ks, ∀ l ∈ ks, vs[k]? = vs[l]? → k = l)
      ∧ (∀ i < ps.length, ∃ k ∈ ks, vs[k]? = vs[i]?) := by
  set ks := dedupe (fun i j => decide (vs[i]? = vs[j]?)) (order sh seed ps.length) [] with hks
  have hi := subsampleIndexes_eq b sh hsh ps res seed vs hv
  have hsub : ks.Sublist (order sh seed ps.length) := dedupe_sublist _
  have hlt : ∀ k ∈ ks, k < ps.length := fun k hk =>
    List.mem_range.mp ((order_perm hsh seed ps.length).mem_iff.mp (hsub.subset hk))
  obtain ⟨qs, hq, hf⟩ := mapM_at ps ks hlt
  refine ⟨ks, qs, hi, ?_, hf, hsub.nodup (order_nodup hsh _ _), hlt, ?_, ?_⟩
  · unfold subsamplePoints; rw [hi, Res.ok_bind]; exact hq
  · have hp : ks.Pairwise (fun a b => vs[a]? ≠ vs[b]?) :=
      (dedupe_pairwise _).imp (fun {a b} h => by simpa using h)
    intro k hk l hl e
    by_contra hne
    have : Std.Symm (fun a b : Nat => vs[a]? ≠ vs[b]?) := ⟨fun _ _ h => h.symm⟩
    exact hp.forall hk hl hne e
  · intro i hi'
    rcases dedupe_covers (dup := fun i j => decide (vs[i]? = vs[j]?)) (order sh seed ps.length)
      ((order_perm hsh seed ps.length).mem_iff.mpr (List.mem_range.mpr hi')) with h | ⟨k, hk, h⟩
    · exact ⟨i, h, rfl⟩
    · exact ⟨k, hk, by simpa using h⟩

/-- C23: if the voxel indexes are undefined, so is subsampling. -/
theorem c23_undefined (b : Build) (sh : Shuffle) (ps : List α) (res : F64) (seed : Nat)
    (hv : (Voxel.getIndexes ps res).isOk = false) : (subsamplePoints b sh ps res seed).isOk = false := by
  unfold subsamplePoints subsampleIndexes
  cases h : Voxel.getIndexes ps res <;> first | rfl | (rw [h] at hv; simp [Res.isOk] at hv)

/-- C24: with seed 0 exactly the first point of each voxel is kept, in file order. -/
theorem c24_stable (b : Build) (sh : Shuffle) (hsh : sh.Lawful) (ps : List α) (res : F64)
    (vs : List VoxelIndex) (hv : Voxel.getIndexes ps res = .ok vs) :
    subsampleIndexes b sh ps res 0
      = .ok ((List.range ps.length).filter (fun i => decide (∀ j < i, vs[j]? ≠ vs[i]?))) := by
  rw [subsampleIndexes_eq b sh hsh ps res 0 vs hv, order_zero, dedupe_range]
  · congr 2
    funext i
    simp
  · intro a b c h1 h2
    simp only [decide_eq_true_eq] at *
    exact h1.trans h2

/-- C24: consequently the kept points form a subsequence of the input. -/
theorem c24_subsequence (b : Build) (sh : Shuffle) (hsh : sh.Lawful) (ps : List α) (res : F64)
    (vs : List VoxelIndex) (hv : Voxel.getIndexes ps res = .ok vs) :
    ∃ qs, subsamplePoints b sh ps res 0 = .ok qs ∧ qs.Sublist ps := by
  obtain ⟨ks, qs, h1, h2, h3, _⟩ := c23_one_per_voxel b sh hsh ps res 0 vs hv
  refine ⟨qs, h2, ?_⟩
  rw [c24_stable b sh hsh ps res vs hv] at h1
  have hk := (Res.ok.inj h1).symm
  have hks : ks.Sublist (List.range ps.length) := by rw [hk]; exact List.filter_sublist
  have hq : qs = ks.filterMap (fun k => ps[k]?) := by
    exact forall₂_filterMap h3
  have hall : (List.range ps.length).filterMap (fun k => ps[k]?) = ps := filterMap_range ps
  rw [hq]
  conv_rhs => rw [← hall]
  exact hks.filterMap _

/-- C25 (partial: under the condition that the subsampled cloud has the same minimum corner, so that the voxel grid is
not shifted; without it see `c25_not_idempotent`): subsampling twice changes nothing. -/
theorem c25_idempotent_partial (b : Build) (sh : Shuffle) (hsh : sh.Lawful) (ps qs : List α) (res : F64)
    (h : subsamplePoints b sh ps res 0 = .ok qs) (hmin : (Extent.ofPoints qs).minp = (Extent.ofPoints ps).minp) :
    subsamplePoints b sh qs res 0 = .ok qs := by
  cases hv : Voxel.getIndexes ps res with
  | ok vs =>
    obtain ⟨ks, qs', h1, h2, h3, h4, h5, h6, h7⟩ := c23_one_per_voxel b sh hsh ps res 0 vs hv
    rw [h] at h2
    obtain rfl := Res.ok.inj h2
    obtain ⟨ws, hw⟩ : ∃ ws, Voxel.getIndexes qs res = .ok ws := by
      apply mapM_ok_of
      intro q hq
      obtain ⟨i, hi, rfl⟩ := List.mem_iff_getElem.mp hq
      have e := (List.forall₂_iff_get.mp h3).2 i (by rw [h3.length_eq]; exact hi) hi
      obtain ⟨v, _, hv'⟩ := mapM_get hv e
      rw [hmin]
      exact ⟨v, hv'⟩
    have hwv : ∀ (i k : Nat), ks[i]? = some k → ws[i]? = vs[k]? := by
      intro i k hk
      obtain ⟨hi, e⟩ := List.getElem?_eq_some_iff.mp hk
      have hi2 : i < qs.length := by rw [← h3.length_eq]; exact hi
      have e2 := (List.forall₂_iff_get.mp h3).2 i hi hi2
      simp only [List.get_eq_getElem] at e2
      rw [e] at e2
      obtain ⟨w, hw1, hw2⟩ := mapM_get hw (List.getElem?_eq_getElem hi2)
      obtain ⟨v, hv1, hv2⟩ := mapM_get hv e2
      rw [hmin] at hw2
      rw [hw2] at hv2
      rw [hw1, hv1, Res.ok.inj hv2]
    have hidx := subsampleIndexes_eq b sh hsh qs res 0 ws hw
    rw [order_zero, dedupe_id] at hidx
    · unfold subsamplePoints
      rw [hidx, Res.ok_bind]
      have := mapM_range (fun p : α => (Res.ok p : Res α)) qs
      have e1 : (fun i => Voxel.at' qs i >>= fun p : α => (Res.ok p : Res α)) = fun i => Voxel.at' qs i := by
        funext i; cases Voxel.at' qs i <;> rfl
      rw [e1] at this
      rw [this]
      exact mapM_eq_ok.mpr (List.forall₂_same.mpr (fun _ _ => rfl))
    · rw [List.pairwise_iff_getElem]
      intro i j hi hj hij
      simp only [List.getElem_range, decide_eq_false_iff_not]
      intro e
      have hik : i < ks.length := by rw [h3.length_eq]; simpa using hi
      have hjk : j < ks.length := by rw [h3.length_eq]; simpa using hj
      rw [hwv i _ (List.getElem?_eq_getElem hik), hwv j _ (List.getElem?_eq_getElem hjk)] at e
      have := h6 _ (List.getElem_mem hik) _ (List.getElem_mem hjk) e
      have := (h4.getElem_inj_iff).mp this
      omega
  | _ =>
    have := c23_undefined b sh ps res 0 (by rw [hv]; rfl)
    rw [h] at this; simp [Res.isOk] at this

/-! ## C26 -/

/-- C26: the kept indexes: no two kept records are at the same place, and every record that is not kept is at the
same place as a kept one; for every cloud, seed and shuffle.  (A record with a NaN coordinate is at no record's place,
not even its own, and is always kept.) -/
theorem c26_unique (b : Build) (sh : Shuffle) (hsh : sh.Lawful) (ps : List α) (seed : Nat) :
    ∃ ks, uniqueXyzIndexes b sh ps seed = .ok ks ∧ ks.Nodup ∧ (∀ k ∈ ks, k < ps.length)
      ∧ (∀ k ∈ ks, ∀ l ∈ ks, ∀ p q, ps[k]? = some p → ps[l]? = some q →
          NoNaN (pt p) → NoNaN (pt q) → SamePlace (pt p) (pt q) → k = l)
      ∧ (∀ i p, ps[i]? = some p → i ∈ ks ∨ ∃ k ∈ ks, ∃ q, ps[k]? = some q ∧ NoNaN (pt p) ∧ NoNaN (pt q)
          ∧ SamePlace (pt q) (pt p)) := by
  set ks := dedupe (sameLoc ps) (order sh seed ps.length) [] with hks
  have hsub : ks.Sublist (order sh seed ps.length) := dedupe_sublist _
  have hnd : ks.Nodup := hsub.nodup (order_nodup hsh _ _)
  refine ⟨ks, uniqueXyzIndexes_eq b sh hsh ps seed, hnd, fun k hk =>
    List.mem_range.mp ((order_perm hsh seed ps.length).mem_iff.mp (hsub.subset hk)), ?_, ?_⟩
  · intro k hk l hl p q hp hq n1 n2 hs
    by_contra hne
    have hpw : ks.Pairwise (fun a b => sameLoc ps a b = false) := dedupe_pairwise _
    have : Std.Symm (fun a b : Nat => sameLoc ps a b = false) := ⟨fun a b h => by
      rw [← h]; unfold sameLoc
      cases ps[a]? <;> cases ps[b]? <;> first | rfl | exact (c14_point_equivalence.2.1 _ _)⟩
    have h1 := hpw.forall hk hl hne
    unfold sameLoc at h1
    rw [hp, hq] at h1
    have h2 := (c14_point_equality_meaning (pt p) (pt q)).mpr ⟨n1, n2, hs⟩
    simp [h2] at h1
  · intro i p hp
    have hi := (List.getElem?_eq_some_iff.mp hp).1
    rcases dedupe_covers (dup := sameLoc ps) (order sh seed ps.length)
      ((order_perm hsh seed ps.length).mem_iff.mpr (List.mem_range.mpr hi)) with h | ⟨k, hk, h⟩
    · exact Or.inl h
    · right
      unfold sameLoc at h
      rw [hp] at h
      cases hq : ps[k]? with
      | none => rw [hq] at h; simp at h
      | some q =>
        rw [hq] at h
        obtain ⟨n1, n2, hs⟩ := (c14_point_equality_meaning _ _).mp h
        exact ⟨k, hk, q, hq, n2, n1, hs⟩

/-- The record is at the same place as record `j` (no NaN involved). -/
def AtPlaceOf (ps : List α) (j i : Nat) : Prop :=
  ∃ p q, ps[j]? = some p ∧ ps[i]? = some q ∧ NoNaN (pt p) ∧ NoNaN (pt q) ∧ SamePlace (pt p) (pt q)

theorem sameLoc_iff (ps : List α) (j i : Nat) : sameLoc ps j i = true ↔ AtPlaceOf ps j i := by
  unfold sameLoc AtPlaceOf
  cases h1 : ps[j]? <;> cases h2 : ps[i]? <;> simp [c14_point_equality_meaning]

open Classical in
/-- C26: with seed 0 exactly those records are kept that have no earlier record at the same place, in file order. -/
theorem c26_first (b : Build) (sh : Shuffle) (hsh : sh.Lawful) (ps : List α) :
    uniqueXyzIndexes b sh ps 0
      = .ok ((List.range ps.length).filter (fun i => decide (∀ j < i, ¬ AtPlaceOf ps j i))) := by
  rw [uniqueXyzIndexes_eq b sh hsh ps 0, order_zero, dedupe_range]
  · congr 2
    funext i
    rw [Bool.eq_iff_iff]
    simp only [decide_eq_true_eq, ← sameLoc_iff, Bool.not_eq_true]
  · intro a b c h1 h2
    unfold sameLoc at *
    cases ha : ps[a]? <;> cases hb : ps[b]? <;> cases hc : ps[c]? <;> simp [ha, hb, hc] at h1 h2 ⊢
    exact c14_point_equivalence.2.2.1 _ _ _ h1 h2

/-- The records selected by the unique-xyz filter. -/
def uniqueXyzPoints (b : Build) (sh : Shuffle) (ps : List α) (seed : Nat) : Res (List α) := do
  let indexes ← uniqueXyzIndexes b sh ps seed
  indexes.mapM (fun i => Voxel.at' ps i)

theorem forall₂_get {β γ : Type} {R : β → γ → Prop} {l : List β} {m : List γ} (h : List.Forall₂ R l m) {i : Nat}
    (hi : i < l.length) (hi2 : i < m.length) : R l[i] m[i] := by
  have := (List.forall₂_iff_get.mp h).2 i hi hi2
  simpa using this

/-- C26 (partial: with another seed than 0 the order may change, see `c26_seeded_order`): filtering twice, the second time
with any seed, returns the same records (in the shuffled order if the seed is not 0); with seed 0 the result is
unchanged. -/
theorem c26_twice_partial (b : Build) (sh : Shuffle) (hsh : sh.Lawful) (ps : List α) (s1 s2 : Nat) :
    ∃ qs rs, uniqueXyzPoints b sh ps s1 = .ok qs ∧ uniqueXyzPoints b sh qs s2 = .ok rs
      ∧ rs.Perm qs ∧ (s2 = 0 → rs = qs) := by
  obtain ⟨ks, h1, h2, h3, h4, h5⟩ := c26_unique b sh hsh ps s1
  obtain ⟨qs, hq, hf⟩ := mapM_at ps ks h3
  have hu : uniqueXyzPoints b sh ps s1 = .ok qs := by unfold uniqueXyzPoints; rw [h1, Res.ok_bind]; exact hq
  have hdis : ∀ i j, i ≠ j → sameLoc qs i j = false := by
    intro i j hij
    by_contra hc
    have hc' : sameLoc qs i j = true := by simpa using hc
    obtain ⟨p, q, hp, hq', n1, n2, hs⟩ := (sameLoc_iff qs i j).mp hc'
    obtain ⟨hi, ei⟩ := List.getElem?_eq_some_iff.mp hp
    obtain ⟨hj, ej⟩ := List.getElem?_eq_some_iff.mp hq'
    have hik : i < ks.length := by rw [hf.length_eq]; exact hi
    have hjk : j < ks.length := by rw [hf.length_eq]; exact hj
    have e1 := forall₂_get hf hik hi
    have e2 := forall₂_get hf hjk hj
    rw [ei] at e1; rw [ej] at e2
    have := h4 _ (List.getElem_mem hik) _ (List.getElem_mem hjk) p q e1 e2 n1 n2 hs
    exact hij ((h2.getElem_inj_iff).mp this)
  have hidx := uniqueXyzIndexes_eq b sh hsh qs s2
  rw [dedupe_id] at hidx
  · have hlt : ∀ k ∈ order sh s2 qs.length, k < qs.length := fun k hk =>
      List.mem_range.mp ((order_perm hsh s2 qs.length).mem_iff.mp hk)
    obtain ⟨rs, hr, hfr⟩ := mapM_at qs _ hlt
    have hrs : rs = (order sh s2 qs.length).filterMap (fun k => qs[k]?) := forall₂_filterMap hfr
    refine ⟨qs, rs, hu, ?_, ?_, ?_⟩
    · unfold uniqueXyzPoints; rw [hidx, Res.ok_bind]; exact hr
    · rw [hrs]
      have := (order_perm hsh s2 qs.length).filterMap (fun k => qs[k]?)
      rwa [filterMap_range] at this
    · rintro rfl
      rw [hrs, order_zero, filterMap_range]
  · exact (order_nodup hsh s2 qs.length).imp (fun {a b} h => hdis a b h)

end

/-- C25 is false: keeping 0.5 but not 0 of the first voxel shifts the grid. -/
theorem c25_not_idempotent :
    let half : F64 := ⟨0x3FE0000000000000⟩
    let x12 : F64 := ⟨0x3FF3333333333333⟩
    let ps : List (Pt F64) := [⟨half, num 0, num 0⟩, ⟨num 0, num 0, num 0⟩, ⟨x12, num 0, num 0⟩]
    let sh : Shuffle := fun _ l => l
    subsamplePoints .release sh ps F64.one 0 = .ok [⟨half, num 0, num 0⟩, ⟨x12, num 0, num 0⟩]
      ∧ subsamplePoints .release sh [(⟨half, num 0, num 0⟩ : Pt F64), ⟨x12, num 0, num 0⟩] F64.one 0
        = .ok [⟨half, num 0, num 0⟩] := by decide +kernel

/-- The hypotheses hold in a case where a point is removed. -/
example : let ps : List (Pt F64) := [⟨num 0, num 0, num 0⟩, ⟨⟨0x3FE0000000000000⟩, num 0, num 0⟩, ⟨num 3, num 0, num 0⟩]
    let sh : Shuffle := fun _ l => l.reverse
    Voxel.getIndexes ps F64.one = .ok [⟨0, 0, 0⟩, ⟨0, 0, 0⟩, ⟨3, 0, 0⟩]
      ∧ sh.Lawful
      ∧ subsamplePoints .debug sh ps F64.one 0 = .ok [⟨num 0, num 0, num 0⟩, ⟨num 3, num 0, num 0⟩]
      ∧ subsamplePoints .debug sh ps F64.one 1 = .ok [⟨num 3, num 0, num 0⟩, ⟨⟨0x3FE0000000000000⟩, num 0, num 0⟩]
      ∧ (Extent.ofPoints [(⟨num 0, num 0, num 0⟩ : Pt F64), ⟨num 3, num 0, num 0⟩]).minp
        = (Extent.ofPoints ps).minp :=
  ⟨by decide +kernel, fun _ l => List.reverse_perm l, by decide +kernel, by decide +kernel, by decide +kernel⟩

/-- Signed zeros are the same place, NaN is nobody's place. -/
example : let ps : List (Pt F64) := [⟨F64.zero, num 0, num 0⟩, ⟨F64.nan, num 0, num 0⟩, ⟨F64.negZero, num 0, num 0⟩,
      ⟨F64.nan, num 0, num 0⟩]
    uniqueXyzIndexes .debug (fun _ l => l) ps 0 = .ok [0, 1, 3] := by decide +kernel

/-- C26 with a seed: the records come out in a different order the second time. -/
theorem c26_seeded_order :
    let ps : List (Pt F64) := [⟨num 0, num 0, num 0⟩, ⟨num 1, num 0, num 0⟩]
    let sh : Shuffle := fun _ l => l.reverse
    sh.Lawful ∧ (uniqueXyzPoints .release sh ps 1 >>= fun qs => uniqueXyzPoints .release sh qs 1)
      ≠ uniqueXyzPoints .release sh ps 1 :=
  ⟨fun _ l => List.reverse_perm l, by decide +kernel⟩

end Spoc.Props
