import Verif.Proofs.Axes
import Verif.Props.Subsampling
import Verif.Props.Tile
import Verif.Props.RadiusSearch
import Verif.Model.Filter

/-!
# C116: no axis is preferred
-/

namespace Spoc.Props

open Spec

section
variable {α : Type} [HasXYZ α]

/-- **C116**, extent: exchanging the axes of a cloud exchanges the axes of its extent. -/
theorem c116_extent (σ : Equiv.Perm (Fin 3)) {ps qs : List α} (h : List.Forall₂ (fun p q => pt q = reorder σ (pt p)) ps qs) :
    (Extent.ofPoints qs).minp = reorder σ (Extent.ofPoints ps).minp ∧ (Extent.ofPoints qs).maxp = reorder σ (Extent.ofPoints ps).maxp :=
  extent_reorder h

/-- **C116**, voxels: the voxel of every point has the same three numbers in the new order; and they are undefined for one cloud
exactly if they are for the other. -/
theorem c116_voxels (σ : Equiv.Perm (Fin 3)) {ps qs : List α} (h : List.Forall₂ (fun p q => pt q = reorder σ (pt p)) ps qs) (res : F64) :
    Voxel.getIndexes qs res = (do
      let vs ← Voxel.getIndexes ps res
      .ok (vs.map (fun v => let c := reorder σ ⟨v.i, v.j, v.k⟩; ⟨c.x, c.y, c.z⟩))) :=
  indexes_reorder h res

/-- **C116**, subsampling: the same points are kept. -/
theorem c116_subsample (b : Build) (sh : Subsampling.Shuffle) (σ : Equiv.Perm (Fin 3)) {ps qs : List α}
    (h : List.Forall₂ (fun p q => pt q = reorder σ (pt p)) ps qs) (res : F64) (seed : Nat) :
    Subsampling.subsampleIndexes b sh qs res seed = Subsampling.subsampleIndexes b sh ps res seed := by
  unfold Subsampling.subsampleIndexes
  rw [indexes_reorder h res, ← h.length_eq]
  cases Voxel.getIndexes ps res <;> try rfl
  rename_i vs
  have e := steps_rename b ps.length (reorderV σ) (fun v w => (reorderV_inj σ).mp) vs (Subsampling.order sh seed ps.length) ⟨[], []⟩
  show (List.foldlM (Subsampling.stepVoxel b ps.length (vs.map (reorderV σ))) ⟨[], []⟩ (Subsampling.order sh seed ps.length)).bind _
    = (List.foldlM (Subsampling.stepVoxel b ps.length vs) ⟨[], []⟩ (Subsampling.order sh seed ps.length)).bind _
  rw [List.map_nil] at e
  rw [e]
  cases List.foldlM (Subsampling.stepVoxel b ps.length vs) ⟨[], []⟩ (Subsampling.order sh seed ps.length) <;> rfl

theorem beq_iff_coord (p q : Pt F64) : Pt.beq p q = true ↔ ∀ i, F64.fne (coord p i) (coord q i) = false := by
  have e : Pt.beq p q = true ↔ F64.fne p.x q.x = false ∧ F64.fne p.y q.y = false ∧ F64.fne p.z q.z = false := by
    unfold Pt.beq
    cases F64.fne p.x q.x <;> cases F64.fne p.y q.y <;> cases F64.fne p.z q.z <;> simp
  rw [e]
  constructor
  · rintro ⟨h0, h1, h2⟩ i
    fin_cases i
    · exact h0
    · exact h1
    · exact h2
  · intro h; exact ⟨h 0, h 1, h 2⟩

theorem beq_reorder (σ : Equiv.Perm (Fin 3)) (p q : Pt F64) : Pt.beq (reorder σ p) (reorder σ q) = Pt.beq p q := by
  rw [Bool.eq_iff_iff, beq_iff_coord, beq_iff_coord]
  simp only [coord_reorder]
  exact all_coord (P := fun i => F64.fne (coord p i) (coord q i) = false)

theorem AxesOf.get {σ : Equiv.Perm (Fin 3)} {ps qs : List α} (h : AxesOf σ ps qs) (i : Nat) :
    (ps[i]? = none ∧ qs[i]? = none) ∨ ∃ p q, ps[i]? = some p ∧ qs[i]? = some q ∧ pt q = reorder σ (pt p) := by
  induction h generalizing i with
  | nil => exact .inl ⟨rfl, rfl⟩
  | cons hp _ ih =>
    cases i with
    | zero => exact .inr ⟨_, _, rfl, rfl, hp⟩
    | succ i => simpa only [List.getElem?_cons_succ] using ih i

/-- **C116**, points at the same place: the same points are kept. -/
theorem c116_unique (b : Build) (sh : Subsampling.Shuffle) (hsh : sh.Lawful) (σ : Equiv.Perm (Fin 3)) {ps qs : List α}
    (h : List.Forall₂ (fun p q => pt q = reorder σ (pt p)) ps qs) (seed : Nat) :
    Subsampling.uniqueXyzIndexes b sh qs seed = Subsampling.uniqueXyzIndexes b sh ps seed := by
  rw [uniqueXyzIndexes_eq b sh hsh, uniqueXyzIndexes_eq b sh hsh, h.length_eq]
  congr 2
  funext i j
  unfold Subsampling.sameLoc
  rcases AxesOf.get h i with ⟨h1, h2⟩ | ⟨p, q, h1, h2, h3⟩ <;> rcases AxesOf.get h j with ⟨k1, k2⟩ | ⟨p', q', k1, k2, k3⟩ <;>
    rw [h1, h2, k1, k2]
  show Pt.beq (pt q) (pt q') = Pt.beq (pt p) (pt p')
  rw [h3, k3, beq_reorder]

/-- **C116**, centre: exchanging the axes of a cloud exchanges the axes of its centre, to the last bit. -/
theorem c116_center (σ : Equiv.Perm (Fin 3)) {ps qs : List α} (h : List.Forall₂ (fun p q => pt q = reorder σ (pt p)) ps qs) :
    Utils.getCenter qs = reorder σ (Utils.getCenter ps) := by
  have key : ∀ c c' : Pt F64, c' = reorder σ c →
      qs.foldl (fun c p => Pt.add c (pt p)) c' = reorder σ (ps.foldl (fun c p => Pt.add c (pt p)) c) := by
    induction h with
    | nil => intro c c' hc; exact hc
    | cons hp _ ih =>
      intro c c' hc
      refine ih _ _ ?_
      have e : ∀ (a b : Pt F64) (i : Fin 3), coord (Pt.add a b) i = F64.add (coord a i) (coord b i) := by
        intro a b i; fin_cases i <;> rfl
      rw [reorder_eq_iff]
      intro i
      rw [e, e, hp, hc, coord_reorder, coord_reorder]
  have h0 : (⟨F64.zero, F64.zero, F64.zero⟩ : Pt F64) = reorder σ ⟨F64.zero, F64.zero, F64.zero⟩ := by
    rw [reorder_eq_iff]; intro i; generalize hj : σ i = j; fin_cases i <;> fin_cases j <;> rfl
  unfold Utils.getCenter
  simp only
  rw [key _ _ h0, h.length_eq]
  generalize ps.foldl (fun c p => Pt.add c (pt p)) _ = c
  rw [reorder_eq_iff]
  have e : ∀ (c : Pt F64) (n : F64) (i : Fin 3), coord (⟨F64.div c.x n, F64.div c.y n, F64.div c.z n⟩ : Pt F64) i = F64.div (coord c i) n := by
    intro c n i; fin_cases i <;> rfl
  intro i
  rw [e, e, coord_reorder]

theorem outside_iff_coord (e : Extent) (p : Pt F64) :
    Utils.outside e p = true ↔ ∃ i, F64.lt (coord p i) (coord e.minp i) = true ∨ F64.gt (coord p i) (coord e.maxp i) = true := by
  unfold Utils.outside
  simp only [Bool.or_eq_true]
  constructor
  · rintro (((((h | h) | h) | h) | h) | h)
    · exact ⟨0, .inl h⟩
    · exact ⟨1, .inl h⟩
    · exact ⟨2, .inl h⟩
    · exact ⟨0, .inr h⟩
    · exact ⟨1, .inr h⟩
    · exact ⟨2, .inr h⟩
  · rintro ⟨i, h⟩
    fin_cases i
    · rcases h with h | h
      · exact .inl (.inl (.inl (.inl (.inl h))))
      · exact .inl (.inl (.inr h))
    · rcases h with h | h
      · exact .inl (.inl (.inl (.inl (.inr h))))
      · exact .inl (.inr h)
    · rcases h with h | h
      · exact .inl (.inl (.inl (.inr h)))
      · exact .inr h

/-- **C116**, cropping: if the axes of the cloud and of the box are exchanged, the same points are left. -/
theorem c116_crop (σ : Equiv.Perm (Fin 3)) {ps qs : List α} (h : List.Forall₂ (fun p q => pt q = reorder σ (pt p)) ps qs) (e : Extent) :
    List.Forall₂ (fun p q => pt q = reorder σ (pt p)) (Utils.crop ps e) (Utils.crop qs ⟨reorder σ e.minp, reorder σ e.maxp⟩) := by
  have ho : ∀ p : Pt F64, Utils.outside ⟨reorder σ e.minp, reorder σ e.maxp⟩ (reorder σ p) = Utils.outside e p := by
    intro p
    rw [Bool.eq_iff_iff, outside_iff_coord, outside_iff_coord]
    simp only [coord_reorder]
    constructor
    · rintro ⟨i, h⟩; exact ⟨_, h⟩
    · rintro ⟨i, h⟩; exact ⟨σ.symm i, by rw [Equiv.apply_symm_apply]; exact h⟩
  unfold Utils.crop
  have key : ∀ a a' : List α, AxesOf σ a a' → AxesOf σ (ps.foldl (fun q p => if Utils.outside e (pt p) then q else q ++ [p]) a)
      (qs.foldl (fun q p => if Utils.outside ⟨reorder σ e.minp, reorder σ e.maxp⟩ (pt p) then q else q ++ [p]) a') := by
    induction h with
    | nil => intro a a' ha; exact ha
    | cons hp _ ih =>
      rename_i p q _ _ _
      intro a a' ha
      refine ih _ _ ?_
      show AxesOf σ (if Utils.outside e (pt p) = true then a else a ++ [p])
        (if Utils.outside ⟨reorder σ e.minp, reorder σ e.maxp⟩ (pt q) = true then a' else a' ++ [q])
      rw [hp, ho]
      rcases Bool.eq_false_or_eq_true (Utils.outside e (pt p)) with h | h
      · rw [if_pos h, if_pos h]; exact ha
      · rw [if_neg (by rw [h]; decide), if_neg (by rw [h]; decide)]
        exact List.rel_append (R := fun p q => pt q = reorder σ (pt p)) ha (List.Forall₂.cons hp .nil)
  exact key [] [] .nil

end

/-- **C116**, quantisation: the quantised clouds differ in the order of the axes only, and one is undefined or refused exactly if the other is. -/
theorem c116_quantize (b : Build) (σ : Equiv.Perm (Fin 3)) {ps qs : List PointRecord}
    (h : List.Forall₂ (fun p q => pt q = reorder σ (pt p)) ps qs) (precision : F64) :
    (∃ ps' qs', Utils.quantize b ps precision = .ok ps' ∧ Utils.quantize b qs precision = .ok qs'
        ∧ List.Forall₂ (fun p q => pt q = reorder σ (pt p)) ps' qs')
      ∨ ((∀ l, Utils.quantize b ps precision ≠ .ok l) ∧ Utils.quantize b qs precision = Utils.quantize b ps precision) := by
  have two : ∀ x, (∃ v, Utils.quantize1 precision x = .ok v) ∨ Utils.quantize1 precision x = .ub "double out of range of int" := by
    intro x
    unfold Utils.quantize1 F64.toInt32
    split
    · split
      · exact .inl ⟨_, rfl⟩
      · exact .inr rfl
    · exact .inr rfl
  have hp : ∀ p : Pt F64, Utils.quantizePt precision (reorder σ p) = (Utils.quantizePt precision p).bind (fun p => .ok (reorder σ p)) := by
    intro p
    have e : ∀ p : Pt F64, Utils.quantizePt precision p = seq3 (fun i => Utils.quantize1 precision (coord p i)) := fun _ => rfl
    rw [e, e]
    simp only [coord_reorder]
    exact seq3_reorder (f := fun i => Utils.quantize1 precision (coord p i)) (fun i => two _) σ
  unfold Utils.quantize
  cases require b (F64.fne precision F64.zero) with
  | ok u =>
    rw [Res.ok_bind, Res.ok_bind]
    generalize hF : (fun p : PointRecord => (do
      let q ← Utils.quantizePt precision (pt p)
      Res.ok (withPt p q) : Res PointRecord)) = F
    induction h with
    | nil => exact .inl ⟨[], [], rfl, rfl, .nil⟩
    | cons h1 _ ih =>
      rename_i p q ps qs _
      have ep : F p = (Utils.quantizePt precision (pt p)).bind (fun r => .ok (withPt p r)) := by rw [← hF]; rfl
      have eq : F q = ((Utils.quantizePt precision (pt p)).bind (fun p => .ok (reorder σ p))).bind (fun r => .ok (withPt q r)) := by
        rw [← hp, ← h1, ← hF]; rfl
      rw [List.mapM_cons, List.mapM_cons, ep, eq]
      cases Utils.quantizePt precision (pt p) with
      | ok p1 =>
        rcases ih with ⟨ps', qs', e1, e2, e3⟩ | ⟨e1, e2⟩
        · rw [e1, e2]
          exact .inl ⟨_, _, rfl, rfl, List.Forall₂.cons rfl e3⟩
        · rw [e2]
          generalize List.mapM F ps = X at e1 ⊢
          cases X with
          | ok l => exact absurd rfl (e1 l)
          | _ => exact .inr ⟨fun l h => (by cases h), rfl⟩
      | _ => exact .inr ⟨fun l h => (by cases h), rfl⟩
  | _ => exact .inr ⟨fun l h => (by cases h), rfl⟩

/-- The cloud with x and y exchanged. -/
def swapXY (ps : List PointRecord) : List PointRecord := ps.map (fun p => { p with x := p.y, y := p.x })

theorem swapXY_axes (ps : List PointRecord) : AxesOf (Equiv.swap 0 1) ps (swapXY ps) := by
  unfold swapXY AxesOf
  rw [List.forall₂_map_right_iff, List.forall₂_same]
  intro p _
  rfl

/-- **C116**, tiles: if x and y of the cloud and the two tile sizes are exchanged, two points are in one tile exactly if they were before
(the numbers of the tiles differ). -/
theorem c116_tiles (ps : List PointRecord) (hne : ps ≠ []) (hf : ∀ p ∈ ps, Spec.Fin (pt p)) (sx sy : F64)
    (hx : sx.isFinite = true) (hy : sy.isFinite = true)
    (fx : FewCells sx (Extent.ofPoints ps).minp.x (Extent.ofPoints ps).maxp.x)
    (fy : FewCells sy (Extent.ofPoints ps).minp.y (Extent.ofPoints ps).maxp.y) :
    ∃ ns ms, Tile.getTileIndexes ps (Extent.ofPoints ps) sx sy = .ok ns
      ∧ Tile.getTileIndexes (swapXY ps) (Extent.ofPoints (swapXY ps)) sy sx = .ok ms
      ∧ ns.length = ps.length ∧ ms.length = ps.length
      ∧ ∀ i j, i < ps.length → j < ps.length → (ns[i]? = ns[j]? ↔ ms[i]? = ms[j]?) := by
  obtain ⟨emin, emax⟩ := extent_reorder (swapXY_axes ps)
  have exm : (Extent.ofPoints (swapXY ps)).minp.x = (Extent.ofPoints ps).minp.y := by rw [emin]; rfl
  have eym : (Extent.ofPoints (swapXY ps)).minp.y = (Extent.ofPoints ps).minp.x := by rw [emin]; rfl
  have exM : (Extent.ofPoints (swapXY ps)).maxp.x = (Extent.ofPoints ps).maxp.y := by rw [emax]; rfl
  have eyM : (Extent.ofPoints (swapXY ps)).maxp.y = (Extent.ofPoints ps).maxp.x := by rw [emax]; rfl
  obtain ⟨ns, h1, h2, h3⟩ := c44_same_tile ps hne hf sx sy hx hy fx fy
  obtain ⟨ms, k1, k2, k3⟩ := c44_same_tile (swapXY ps) (by unfold swapXY; simpa using hne)
    (by
      intro p hp
      unfold swapXY at hp
      obtain ⟨q, hq, rfl⟩ := List.mem_map.mp hp
      obtain ⟨a, b, c⟩ := hf q hq
      exact ⟨b, a, c⟩) sy sx hy hx (by rw [exm, exM]; exact fy) (by rw [eym, eyM]; exact fx)
  have hl : (swapXY ps).length = ps.length := by unfold swapXY; exact List.length_map ..
  rw [hl] at k2
  refine ⟨ns, ms, h1, k1, h2, k2, fun i j hi hj => ?_⟩
  have g : ∀ i (h : i < ps.length), (swapXY ps)[i]? = some { ps[i] with x := ps[i].y, y := ps[i].x } := by
    intro i h
    unfold swapXY
    rw [List.getElem?_map, List.getElem?_eq_getElem h]; rfl
  have A := h3 i j ps[i] ps[j] ns[i] ns[j] (List.getElem?_eq_getElem hi) (List.getElem?_eq_getElem hj) (List.getElem?_eq_getElem (h2 ▸ hi)) (List.getElem?_eq_getElem (h2 ▸ hj))
  have B := k3 i j _ _ ms[i] ms[j] (g i hi) (g j hj) (List.getElem?_eq_getElem (k2 ▸ hi)) (List.getElem?_eq_getElem (k2 ▸ hj))
  rw [exm, eym] at B
  rw [List.getElem?_eq_getElem (h2 ▸ hi), List.getElem?_eq_getElem (h2 ▸ hj), List.getElem?_eq_getElem (k2 ▸ hi), List.getElem?_eq_getElem (k2 ▸ hj),
    Option.some.injEq, Option.some.injEq, A, B]
  exact and_comm

/-- **C116**, tile size: for `n` tiles, exchanging x and y gives the same tile size. -/
theorem c116_tile_size (ps : List PointRecord) (hne : ps ≠ []) (hf : ∀ p ∈ ps, Spec.Fin (pt p)) (n : Nat)
    (hx : (Extent.ofPoints ps).maxp.x.val - (Extent.ofPoints ps).minp.x.val ≤ 2 ^ 28)
    (hy : (Extent.ofPoints ps).maxp.y.val - (Extent.ofPoints ps).minp.y.val ≤ 2 ^ 28) :
    Tile.getTileSize (Extent.ofPoints (swapXY ps)) n = Tile.getTileSize (Extent.ofPoints ps) n := by
  obtain ⟨emin, emax⟩ := extent_reorder (swapXY_axes ps)
  have exm : (Extent.ofPoints (swapXY ps)).minp.x = (Extent.ofPoints ps).minp.y := by rw [emin]; rfl
  have eym : (Extent.ofPoints (swapXY ps)).minp.y = (Extent.ofPoints ps).minp.x := by rw [emin]; rfl
  have exM : (Extent.ofPoints (swapXY ps)).maxp.x = (Extent.ofPoints ps).maxp.y := by rw [emax]; rfl
  have eyM : (Extent.ofPoints (swapXY ps)).maxp.y = (Extent.ofPoints ps).maxp.x := by rw [emax]; rfl
  obtain ⟨hmin, hmax⟩ := extent_finite ps hne hf
  have hin : ∀ p ∈ ps, Inside (Extent.ofPoints ps) (pt p) := (c15_extent_tight_partial ps hne hf).1
  obtain ⟨p0, hp0⟩ := List.exists_mem_of_ne_nil ps hne
  obtain ⟨i1, i2, i3, i4, _, _⟩ := hin p0 hp0
  obtain ⟨x1, x2, x3, x4, x5, x6, x7⟩ := Tile.enlarge hmin.1 hmax.1 (le_trans i1 i2) hx
  obtain ⟨y1, y2, y3, y4, y5, y6, y7⟩ := Tile.enlarge hmin.2.1 hmax.2.1 (le_trans i3 i4) hy
  unfold Tile.getTileSize
  rw [exm, eym, exM, eyM]
  generalize F64.add (F64.sub (Extent.ofPoints ps).maxp.x (Extent.ofPoints ps).minp.x) Tile.epsilon = dx at x4 x7 ⊢
  generalize F64.add (F64.sub (Extent.ofPoints ps).maxp.y (Extent.ofPoints ps).minp.y) Tile.epsilon = dy at y4 y7 ⊢
  dsimp only
  have hd0 : dx.fv ≠ 0 := by
    intro h0
    unfold F64.val at x7
    rw [h0, Int.cast_zero, zero_div] at x7
    norm_num at x7
  rcases lt_trichotomy dx.fv dy.fv with h | h | h
  · rw [if_pos (F64.gt_iff.mpr ⟨F64.not_nan_of_finite y4, F64.not_nan_of_finite x4, h⟩),
      if_neg (fun hc => absurd (F64.gt_iff.mp hc).2.2 (not_lt.mpr h.le))]
  · rw [F64.eq_of_fv_eq h hd0]
  · rw [if_neg (fun hc => absurd (F64.gt_iff.mp hc).2.2 (not_lt.mpr h.le)),
      if_pos (F64.gt_iff.mpr ⟨F64.not_nan_of_finite x4, F64.not_nan_of_finite y4, h⟩)]

/-- **C116**, the subsampled file: the same points are left, in the same order, with their axes exchanged. -/
theorem c116_subsampled_points (b : Build) (sh : Subsampling.Shuffle) (σ : Equiv.Perm (Fin 3)) {ps qs : List PointRecord}
    (h : List.Forall₂ (fun p q => pt q = reorder σ (pt p)) ps qs) (res : F64) (seed : Nat) {ps' : List PointRecord}
    (hok : Subsampling.subsamplePoints b sh ps res seed = .ok ps') :
    ∃ qs', Subsampling.subsamplePoints b sh qs res seed = .ok qs' ∧ List.Forall₂ (fun p q => pt q = reorder σ (pt p)) ps' qs' := by
  unfold Subsampling.subsamplePoints at hok ⊢
  rw [c116_subsample b sh σ h]
  cases hi : Subsampling.subsampleIndexes b sh ps res seed with
  | ok js =>
    rw [hi, Res.ok_bind] at hok
    rw [Res.ok_bind]
    clear hi
    induction js generalizing ps' with
    | nil =>
      rw [← Res.ok.inj hok]
      exact ⟨[], rfl, .nil⟩
    | cons j js ih =>
      rw [List.mapM_cons] at hok ⊢
      unfold Voxel.at' at hok ⊢
      rcases AxesOf.get h j with ⟨h1, h2⟩ | ⟨p, q, h1, h2, h3⟩
      · rw [h1] at hok; cases hok
      · rw [h1] at hok
        rw [h2]
        cases hr : List.mapM (fun i => Voxel.at' ps i) js with
        | ok l =>
          unfold Voxel.at' at hr
          rw [hr] at hok
          obtain ⟨l', e1, e2⟩ := ih (ps' := l) hr
          unfold Voxel.at' at e1
          rw [e1]
          rw [← Res.ok.inj hok]
          exact ⟨q :: l', rfl, List.Forall₂.cons h3 e2⟩
        | _ => unfold Voxel.at' at hr; rw [hr] at hok; cases hok
  | _ => rw [hi] at hok; cases hok

/-- Two points whose distance depends on the order of the axes. -/
def skewPoints : List (Pt F64) := [⟨num 0, num 0, num 0⟩, ⟨⟨0x3FB999999999999A⟩, ⟨0x3FB999999999999A⟩, ⟨0x3FD3333333333333⟩⟩]

/-- **C116** is false of the radius search: the squares are added in the order x, y, z, and the rounding of the first sum differs.  With
(0.1, 0.1, 0.3) and the radius 0.33166247903553997 the two points are not neighbours; if x and z are exchanged, they are. -/
theorem c116_search_prefers_an_axis :
    let turned := skewPoints.map (reorder (Equiv.swap 0 2))
    let r : F64 := ⟨0x3FD539F5433125C3⟩
    RadiusSearch.searchAll .debug (fun _ _ => 0) skewPoints r 10 ≠ RadiusSearch.searchAll .debug (fun _ _ => 0) turned r 10 := by
  decide +kernel

/-- The hypotheses are met by a cloud whose axes are rotated. -/
example : List.Forall₂ (fun p q : PointRecord => pt q = reorder ((Equiv.swap 0 1).trans (Equiv.swap 1 2)) (pt p))
    [{ x := num 1, y := num 2, z := num 3, c := 7 }, { x := num 5, y := num 8, z := num 0 }]
    [{ x := num 3, y := num 1, z := num 2 }, { x := num 0, y := num 5, z := num 8 }] := by
  refine List.Forall₂.cons ?_ (List.Forall₂.cons ?_ .nil) <;> decide +kernel

example : Subsampling.subsampleIndexes .debug (fun _ l => l) [(⟨num 1, num 2, num 3⟩ : Pt F64), ⟨num 5, num 8, num 0⟩, ⟨num 1, num 2, num 2⟩] (num 2) 0
    = .ok [0, 1] ∧ Subsampling.subsampleIndexes .debug (fun _ l => l) [(⟨num 2, num 3, num 1⟩ : Pt F64), ⟨num 8, num 0, num 5⟩, ⟨num 2, num 2, num 1⟩] (num 2) 0
    = .ok [0, 1] := by decide +kernel

example : Tile.getTileIndexes tilePoints (Extent.ofPoints tilePoints) (num 10) (num 5) = .ok [0, 1, 7]
    ∧ Tile.getTileIndexes (swapXY tilePoints) (Extent.ofPoints (swapXY tilePoints)) (num 5) (num 10) = .ok [0, 4, 7] := by decide +kernel

end Spoc.Props
