import Verif.Spec.Displaced
import Verif.Model.ExtentArea
import Verif.Model.Tile
import Verif.Model.RadiusSearch
import Verif.Proofs.ThereAndBack
import Verif.Proofs.BuildsSame
import Verif.Props.Voxel
import Verif.Props.Subsampling

/-!
# What depends only on differences of coordinates
-/

namespace Spoc

namespace F64

/-! ## operations on doubles that differ at most in the sign of a zero -/

theorem same_cases {x y : F64} (h : x.fv = y.fv) : x = y ∨ ((x = zero ∨ x = negZero) ∧ (y = zero ∨ y = negZero)) := by
  by_cases h0 : x.fv = 0
  · exact .inr ⟨zero_of_fv h0, zero_of_fv (h ▸ h0)⟩
  · exact .inl (eq_of_fv_eq h h0)

theorem isNaN_same {x y : F64} (h : x.fv = y.fv) : x.isNaN = y.isNaN := by
  rcases same_cases h with rfl | ⟨rfl | rfl, rfl | rfl⟩ <;> rfl

theorem isFinite_same {x y : F64} (h : x.fv = y.fv) : x.isFinite = y.isFinite := by
  rcases same_cases h with rfl | ⟨rfl | rfl, rfl | rfl⟩ <;> rfl

theorem lt_same {x y a b : F64} (h : x.fv = y.fv) (h' : a.fv = b.fv) : lt x a = lt y b := by
  unfold lt
  rw [isNaN_same h, isNaN_same h', h, h']

theorem feq_same {x y a b : F64} (h : x.fv = y.fv) (h' : a.fv = b.fv) : feq x a = feq y b := by
  unfold feq
  rw [isNaN_same h, isNaN_same h', h, h']

theorem toU64_same {x y : F64} (h : x.fv = y.fv) : x.toU64 = y.toU64 := by
  unfold toU64 trunc
  rw [isFinite_same h, h]

theorem div_zeros (r : F64) : (div zero r).fv = (div negZero r).fv := by
  have e : ∀ x : F64, x.fv = 0 → (div x r).fv = if r.isNaN then nan.fv else if r.isInf then 0 else if r.mag = 0 then nan.fv else 0 := by
    intro x hx
    have hm := fv_eq_zero.mp hx
    have hf := finite_of_fv_zero hx
    unfold div
    rw [not_nan_of_finite hf, isInf_eq_false_of_finite hf, Bool.false_or]
    cases hn : r.isNaN
    · cases hi : r.isInf
      · by_cases hr : r.mag = 0
        · simp [hr, hm]
        · simp only [Bool.false_eq_true, if_false, if_neg hr]
          rw [rnd_fv _ _ (Nat.pos_of_ne_zero fun e => hr (fixMag_eq_zero.mp e))]
          have : fixMag x.mag = 0 := fixMag_eq_zero.mpr hm
          rw [this]
          simp only [Nat.zero_mul, Int.natCast_zero, neg_zero, ite_self]
          exact rfv_zero (Nat.pos_of_ne_zero fun e => hr (fixMag_eq_zero.mp e))
      · simp only [Bool.false_eq_true, if_false, if_true]
        rcases mk'_zero (x.neg != r.neg) with e | e <;> rw [e] <;> decide +kernel
    · simp
  rw [e _ (by decide +kernel), e _ (by decide +kernel)]

theorem div_same {x y : F64} (h : x.fv = y.fv) (r : F64) : (div x r).fv = (div y r).fv := by
  rcases same_cases h with rfl | ⟨rfl | rfl, rfl | rfl⟩
  · rfl
  · rfl
  · exact div_zeros r
  · exact (div_zeros r).symm
  · rfl

theorem mul_self_same {x y : F64} (h : x.fv = y.fv) : mul x x = mul y y := by
  rcases same_cases h with rfl | ⟨rfl | rfl, rfl | rfl⟩ <;> rfl

theorem mul_zeros (r : F64) : (mul zero r).fv = (mul negZero r).fv := by
  have e : ∀ x : F64, x.fv = 0 → (mul x r).fv = if r.isNaN then nan.fv else if r.isInf then nan.fv else 0 := by
    intro x hx
    have hm := fv_eq_zero.mp hx
    have hf := finite_of_fv_zero hx
    unfold mul
    rw [not_nan_of_finite hf, isInf_eq_false_of_finite hf, Bool.false_or, Bool.false_or]
    cases hn : r.isNaN
    · cases hi : r.isInf
      · simp only [Bool.false_eq_true, if_false]
        rw [rnd_fv _ _ one1074_pos, hx, Int.zero_mul, rfv_zero one1074_pos]
      · simp [hm]
    · simp
  rw [e _ (by decide +kernel), e _ (by decide +kernel)]

theorem mul_comm' (x y : F64) : (mul x y).fv = (mul y x).fv := by
  unfold mul
  rw [Bool.or_comm, Bool.or_comm (x := x.isInf), Bool.or_comm (x := decide (x.mag = 0)), Int.mul_comm, bne_comm (a := x.neg)]

theorem mul_same {x y : F64} (h : x.fv = y.fv) {a b : F64} (h' : a.fv = b.fv) : (mul x a).fv = (mul y b).fv := by
  have l : ∀ {x y : F64}, x.fv = y.fv → ∀ r, (mul x r).fv = (mul y r).fv := by
    intro x y h r
    rcases same_cases h with rfl | ⟨rfl | rfl, rfl | rfl⟩
    · rfl
    · rfl
    · exact mul_zeros r
    · exact (mul_zeros r).symm
    · rfl
  rw [l h, mul_comm', l h', mul_comm']

theorem add_same {x y : F64} (h : x.fv = y.fv) {a : F64} (ha : a.isFinite = true) : (add x a).fv = (add y a).fv := by
  have k : zero.fv = 0 ∧ negZero.fv = 0 ∧ zero.isFinite = true ∧ negZero.isFinite = true := by decide +kernel
  obtain ⟨k1, k2, k3, k4⟩ := k
  rcases same_cases h with rfl | ⟨rfl | rfl, rfl | rfl⟩
  · rfl
  · rfl
  · rw [add_fv k3 ha, add_fv k4 ha, k1, k2]
  · rw [add_fv k3 ha, add_fv k4 ha, k1, k2]
  · rfl

theorem sub_same {a b c d : F64} (ha : a.isFinite = true) (hb : b.isFinite = true) (hc : c.isFinite = true) (hd : d.isFinite = true)
    (h : a.fv - b.fv = c.fv - d.fv) : (sub a b).fv = (sub c d).fv := by
  rw [sub_fv ha hb, sub_fv hc hd, h]

end F64

/-! ## two clouds that are apart by integers, in units of the smallest double -/

/-- `q` is `(D, E, F)` units of 2^-1074 away from `p`. -/
structure Off (D E F : Int) (p q : Pt F64) : Prop where
  fp : Spec.Fin p
  fq : Spec.Fin q
  x : q.x.fv = p.x.fv + D
  y : q.y.fv = p.y.fv + E
  z : q.z.fv = p.z.fv + F

theorem index1_same {p m q n : F64} (hp : p.isFinite = true) (hm : m.isFinite = true) (hq : q.isFinite = true) (hn : n.isFinite = true)
    (h : p.fv - m.fv = q.fv - n.fv) (r : F64) : Voxel.index1 p m r = Voxel.index1 q n r :=
  F64.toU64_same (F64.div_same (F64.sub_same hp hm hq hn h) r)

theorem getIndex_off {D E F : Int} {p q m n : Pt F64} (h : Off D E F p q) (h' : Off D E F m n) (r : F64) :
    Voxel.getIndex p m r = Voxel.getIndex q n r := by
  unfold Voxel.getIndex
  rw [index1_same h.fp.1 h'.fp.1 h.fq.1 h'.fq.1 (by rw [h.x, h'.x]; ring) r,
    index1_same h.fp.2.1 h'.fp.2.1 h.fq.2.1 h'.fq.2.1 (by rw [h.y, h'.y]; ring) r,
    index1_same h.fp.2.2 h'.fp.2.2 h.fq.2.2 h'.fq.2.2 (by rw [h.z, h'.z]; ring) r]

theorem distance_off {D E F : Int} {p q m n : Pt F64} (h : Off D E F p q) (h' : Off D E F m n) : Pt.distance p m = Pt.distance q n := by
  unfold Pt.distance
  simp only
  rw [F64.mul_self_same (F64.sub_same h.fp.1 h'.fp.1 h.fq.1 h'.fq.1 (by rw [h.x, h'.x]; ring)),
    F64.mul_self_same (F64.sub_same h.fp.2.1 h'.fp.2.1 h.fq.2.1 h'.fq.2.1 (by rw [h.y, h'.y]; ring)),
    F64.mul_self_same (F64.sub_same h.fp.2.2 h'.fp.2.2 h.fq.2.2 h'.fq.2.2 (by rw [h.z, h'.z]; ring))]

theorem beq_off {D E F : Int} {p q m n : Pt F64} (h : Off D E F p q) (h' : Off D E F m n) : Pt.beq p m = Pt.beq q n := by
  have k : ∀ {a b c d : F64} {D : Int}, a.isFinite = true → b.isFinite = true → c.isFinite = true → d.isFinite = true →
      c.fv = a.fv + D → d.fv = b.fv + D → F64.fne a b = F64.fne c d := by
    intro a b c d D ha hb hc hd h1 h2
    unfold F64.fne F64.feq
    rw [F64.not_nan_of_finite ha, F64.not_nan_of_finite hb, F64.not_nan_of_finite hc, F64.not_nan_of_finite hd, h1, h2]
    simp
  unfold Pt.beq
  rw [k h.fp.1 h'.fp.1 h.fq.1 h'.fq.1 h.x h'.x, k h.fp.2.1 h'.fp.2.1 h.fq.2.1 h'.fq.2.1 h.y h'.y,
    k h.fp.2.2 h'.fp.2.2 h.fq.2.2 h'.fq.2.2 h.z h'.z]

section
variable {α : Type} [HasXYZ α]

/-- Each point of `qs` is that far away from the point of `ps` with the same number. -/
abbrev CloudOff (D E F : Int) (ps qs : List α) : Prop := List.Forall₂ (fun p q => Off D E F (pt p) (pt q)) ps qs

theorem CloudOff.get {D E F : Int} {ps qs : List α} (h : CloudOff D E F ps qs) (i : Nat) :
    (ps[i]? = none ∧ qs[i]? = none) ∨ ∃ p q, ps[i]? = some p ∧ qs[i]? = some q ∧ Off D E F (pt p) (pt q) := by
  induction h generalizing i with
  | nil => exact .inl ⟨rfl, rfl⟩
  | cons h _ ih =>
    cases i with
    | zero => exact .inr ⟨_, _, rfl, rfl, h⟩
    | succ i => exact ih i

theorem CloudOff.finite {D E F : Int} {ps qs : List α} (h : CloudOff D E F ps qs) :
    (∀ p ∈ ps, Spec.Fin (pt p)) ∧ ∀ q ∈ qs, Spec.Fin (pt q) := by
  induction h with
  | nil => simp
  | cons h _ ih => exact ⟨List.forall_mem_cons.mpr ⟨h.fp, ih.1⟩, List.forall_mem_cons.mpr ⟨h.fq, ih.2⟩⟩

omit [HasXYZ α] in
theorem forall₂_of_mem {R : α → α → Prop} {ps qs : List α} (h : List.Forall₂ R ps qs) :
    (∀ p ∈ ps, ∃ q ∈ qs, R p q) ∧ ∀ q ∈ qs, ∃ p ∈ ps, R p q := by
  induction h with
  | nil => simp
  | cons h _ ih =>
    refine ⟨List.forall_mem_cons.mpr ⟨⟨_, List.mem_cons_self, h⟩, fun p hp => ?_⟩, List.forall_mem_cons.mpr ⟨⟨_, List.mem_cons_self, h⟩, fun q hq => ?_⟩⟩
    · obtain ⟨q, hq, hr⟩ := ih.1 p hp
      exact ⟨q, List.mem_cons_of_mem _ hq, hr⟩
    · obtain ⟨p, hp, hr⟩ := ih.2 q hq
      exact ⟨p, List.mem_cons_of_mem _ hp, hr⟩

/-- The boxes are as far apart as the points. -/
theorem extent_off {D E F : Int} {ps qs : List α} (hne : ps ≠ []) (a1 : ∀ p ∈ ps, ∃ q ∈ qs, Off D E F (pt p) (pt q))
    (a2 : ∀ q ∈ qs, ∃ p ∈ ps, Off D E F (pt p) (pt q)) :
    Off D E F (Extent.ofPoints ps).minp (Extent.ofPoints qs).minp ∧ Off D E F (Extent.ofPoints ps).maxp (Extent.ofPoints qs).maxp := by
  have hne' : qs ≠ [] := by
    intro e
    subst e
    obtain ⟨p, hp⟩ := List.exists_mem_of_ne_nil ps hne
    obtain ⟨q, hq, -⟩ := a1 p hp
    simp at hq
  have f1 : ∀ p ∈ ps, Spec.Fin (pt p) := fun p hp => by
    obtain ⟨q, -, h⟩ := a1 p hp
    exact h.fp
  have f2 : ∀ q ∈ qs, Spec.Fin (pt q) := fun q hq => by
    obtain ⟨p, -, h⟩ := a2 q hq
    exact h.fq
  obtain ⟨m1, m2⟩ := Props.extent_finite ps hne f1
  obtain ⟨n1, n2⟩ := Props.extent_finite qs hne' f2
  obtain ⟨i1, x1, x2, y1, y2, z1, z2⟩ := Props.c15_extent_tight_partial ps hne f1
  obtain ⟨j1, u1, u2, v1, v2, w1, w2⟩ := Props.c15_extent_tight_partial qs hne' f2
  generalize Extent.ofPoints ps = e at *
  generalize Extent.ofPoints qs = e' at *
  have low : ∀ (g : Pt F64 → F64) (G : Int), (∀ p q : Pt F64, Off D E F p q → (g q).fv = (g p).fv + G) →
      (∀ p ∈ ps, (g e.minp).fv ≤ (g (pt p)).fv) → (∀ q ∈ qs, (g e'.minp).fv ≤ (g (pt q)).fv) →
      (∃ p ∈ ps, g (pt p) = g e.minp) → (∃ q ∈ qs, g (pt q) = g e'.minp) → (g e'.minp).fv = (g e.minp).fv + G := by
    intro g G hg l1 l2 ⟨p, hp, ep⟩ ⟨q, hq, eq⟩
    obtain ⟨q', hq', r1⟩ := a1 p hp
    obtain ⟨p', hp', r2⟩ := a2 q hq
    have s1 := hg _ _ r1
    have s2 := hg _ _ r2
    have t1 := l1 p' hp'
    have t2 := l2 q' hq'
    rw [ep] at s1
    rw [eq] at s2
    omega
  have high : ∀ (g : Pt F64 → F64) (G : Int), (∀ p q : Pt F64, Off D E F p q → (g q).fv = (g p).fv + G) →
      (∀ p ∈ ps, (g (pt p)).fv ≤ (g e.maxp).fv) → (∀ q ∈ qs, (g (pt q)).fv ≤ (g e'.maxp).fv) →
      (∃ p ∈ ps, g (pt p) = g e.maxp) → (∃ q ∈ qs, g (pt q) = g e'.maxp) → (g e'.maxp).fv = (g e.maxp).fv + G := by
    intro g G hg l1 l2 ⟨p, hp, ep⟩ ⟨q, hq, eq⟩
    obtain ⟨q', hq', r1⟩ := a1 p hp
    obtain ⟨p', hp', r2⟩ := a2 q hq
    have s1 := hg _ _ r1
    have s2 := hg _ _ r2
    have t1 := l1 p' hp'
    have t2 := l2 q' hq'
    rw [ep] at s1
    rw [eq] at s2
    omega
  refine ⟨⟨m1, n1, low (·.x) D (fun _ _ h => h.x) (fun p hp => (i1 p hp).1) (fun q hq => (j1 q hq).1) x1 u1,
    low (·.y) E (fun _ _ h => h.y) (fun p hp => (i1 p hp).2.2.1) (fun q hq => (j1 q hq).2.2.1) y1 v1,
    low (·.z) F (fun _ _ h => h.z) (fun p hp => (i1 p hp).2.2.2.2.1) (fun q hq => (j1 q hq).2.2.2.2.1) z1 w1⟩,
    ⟨m2, n2, high (·.x) D (fun _ _ h => h.x) (fun p hp => (i1 p hp).2.1) (fun q hq => (j1 q hq).2.1) x2 u2,
    high (·.y) E (fun _ _ h => h.y) (fun p hp => (i1 p hp).2.2.2.1) (fun q hq => (j1 q hq).2.2.2.1) y2 v2,
    high (·.z) F (fun _ _ h => h.z) (fun p hp => (i1 p hp).2.2.2.2.2) (fun q hq => (j1 q hq).2.2.2.2.2) z2 w2⟩⟩

theorem CloudOff.extent {D E F : Int} {ps qs : List α} (h : CloudOff D E F ps qs) (hne : ps ≠ []) :
    Off D E F (Extent.ofPoints ps).minp (Extent.ofPoints qs).minp ∧ Off D E F (Extent.ofPoints ps).maxp (Extent.ofPoints qs).maxp :=
  extent_off hne (forall₂_of_mem h).1 (forall₂_of_mem h).2

omit [HasXYZ α] in
theorem mapM_forall₂ {β : Type} {f g : α → Res β} {ps qs : List α} (h : List.Forall₂ (fun p q => f p = g q) ps qs) :
    ps.mapM f = qs.mapM g := by
  induction h with
  | nil => rfl
  | cons h _ ih => rw [List.mapM_cons, List.mapM_cons, h, ih]

theorem CloudOff.indexes {D E F : Int} {ps qs : List α} (h : CloudOff D E F ps qs) (r : F64) :
    Voxel.getIndexes ps r = Voxel.getIndexes qs r := by
  by_cases hne : ps = []
  · subst hne
    cases h
    rfl
  · exact mapM_forall₂ (h.imp fun _ _ k => getIndex_off k (h.extent hne).1 r)

theorem CloudOff.at {D E F : Int} {ps qs : List α} (h : CloudOff D E F ps qs) {β : Type} {f g : α → Res β}
    (hfg : ∀ p q, Off D E F (pt p) (pt q) → f p = g q) (i : Nat) : (Voxel.at' ps i >>= f) = (Voxel.at' qs i >>= g) := by
  unfold Voxel.at'
  rcases h.get i with ⟨h1, h2⟩ | ⟨p, q, h1, h2, h3⟩
  · rw [h1, h2]
    rfl
  · rw [h1, h2]
    exact hfg p q h3

theorem CloudOff.indexesOf {D E F : Int} {ps qs : List α} (h : CloudOff D E F ps qs) (is : List Nat) (r : F64) :
    Voxel.getIndexesOf ps is r = Voxel.getIndexesOf qs is r := by
  by_cases hne : ps = []
  · subst hne
    cases h
    rfl
  · exact mapM_same fun i _ => h.at (fun _ _ k => getIndex_off k (h.extent hne).1 r) i

theorem CloudOff.loop {D E F : Int} {ps qs : List α} (h : CloudOff D E F ps qs) (b : Build) (rng : Nat → Nat → Nat) (i : Nat) (pis nis : List Nat)
    (r : F64) (m fuel : Nat) (s : RadiusSearch.Selector) (ns : List Nat) :
    RadiusSearch.neighborsLoop b rng i ps pis nis r m fuel s ns = RadiusSearch.neighborsLoop b rng i qs pis nis r m fuel s ns := by
  induction fuel generalizing s ns with
  | zero => unfold RadiusSearch.neighborsLoop; rfl
  | succ fuel ih =>
    unfold RadiusSearch.neighborsLoop
    rw [h.length_eq]
    split
    · split
      · rfl
      · simp only
        refine congrArg _ (funext fun x => ?_)
        refine congrArg _ (funext fun _ => congrArg _ (funext fun _ => congrArg _ (funext fun k => congrArg _ (funext fun l =>
          congrArg _ (funext fun _ => congrArg _ (funext fun _ => ?_))))))
        refine h.at (fun p p' hp => h.at (fun q q' hq => ?_) l) k
        rw [distance_off hp hq, ih]
    · rfl

theorem CloudOff.search {D E F : Int} {ps qs : List α} (h : CloudOff D E F ps qs) (b : Build) (rng : Nat → Nat → Nat) (pis nis : List Nat)
    (r : F64) (m : Nat) : RadiusSearch.search b rng ps pis nis r m = RadiusSearch.search b rng qs pis nis r m := by
  unfold RadiusSearch.search RadiusSearch.getNeighbors
  rw [h.indexesOf, h.indexesOf]
  simp only [h.loop]

theorem CloudOff.sameLoc {D E F : Int} {ps qs : List α} (h : CloudOff D E F ps qs) : Subsampling.sameLoc ps = Subsampling.sameLoc qs := by
  funext i j
  unfold Subsampling.sameLoc
  rcases h.get i with ⟨h1, h2⟩ | ⟨p, q, h1, h2, h3⟩ <;> rcases h.get j with ⟨k1, k2⟩ | ⟨p', q', k1, k2, k3⟩ <;> rw [h1, h2, k1, k2]
  exact beq_off h3 k3

end

theorem getTileSize_off {D E F : Int} {e e' : Extent} (h : Off D E F e.minp e'.minp) (h' : Off D E F e.maxp e'.maxp) (n : Nat) :
    Tile.getTileSize e n = Tile.getTileSize e' n := by
  have k : ∀ {x y : F64}, x.fv = y.fv → F64.add x Tile.epsilon = F64.add y Tile.epsilon := by
    intro x y h
    rcases F64.same_cases h with rfl | ⟨rfl | rfl, rfl | rfl⟩ <;> rfl
  unfold Tile.getTileSize
  rw [k (F64.sub_same h'.fp.1 h.fp.1 h'.fq.1 h.fq.1 (by rw [h.x, h'.x]; ring)),
    k (F64.sub_same h'.fp.2.1 h.fp.2.1 h'.fq.2.1 h.fq.2.1 (by rw [h.y, h'.y]; ring))]

theorem CloudOff.tiles {D E F : Int} {ps qs : List PointRecord} (h : CloudOff D E F ps qs) (hne : ps ≠ []) (sx sy : F64) :
    Tile.getTileIndexes ps (Extent.ofPoints ps) sx sy = Tile.getTileIndexes qs (Extent.ofPoints qs) sx sy := by
  obtain ⟨hmin, hmax⟩ := h.extent hne
  unfold Tile.getTileIndexes
  have h1 : Tile.getStride (Extent.ofPoints ps) sx = Tile.getStride (Extent.ofPoints qs) sx := by
    unfold Tile.getStride
    split
    · exact F64.toU64_same (F64.add_same (F64.div_same (F64.sub_same hmax.fp.1 hmin.fp.1 hmax.fq.1 hmin.fq.1 (by rw [hmin.x, hmax.x]; ring)) sx)
        (by decide))
    · rfl
  have h2 : ∀ {s m n v w : F64} {D : Int}, m.isFinite = true → n.isFinite = true → v.isFinite = true → w.isFinite = true →
      n.fv = m.fv + D → w.fv = v.fv + D → Tile.index1 s m v = Tile.index1 s n w := by
    intro s m n v w D hm hn hv hw e1 e2
    unfold Tile.index1
    split
    · exact F64.toU64_same (F64.div_same (F64.sub_same hv hm hw hn (by rw [e1, e2]; ring)) s)
    · rfl
  rw [h1]
  refine congrArg _ (funext fun st => mapM_forall₂ (h.imp fun p q k => ?_))
  rw [h2 (v := p.x) (w := q.x) hmin.fp.1 hmin.fq.1 k.fp.1 k.fq.1 hmin.x k.x, h2 (v := p.y) (w := q.y) hmin.fp.2.1 hmin.fq.2.1 k.fp.2.1 k.fq.2.1 hmin.y k.y]

/-- The same from real numbers. -/
theorem cloudOff_of_displaced {α : Type} [HasXYZ α] {dx dy dz : ℝ} {ps qs : List α}
    (h : List.Forall₂ (fun p q => Spec.Displaced dx dy dz (pt p) (pt q)) ps qs) : ∃ D E F, CloudOff D E F ps qs := by
  cases h with
  | nil => exact ⟨0, 0, 0, .nil⟩
  | @cons p q ps qs h hs =>
    have k : ∀ {d : ℝ} {a b a' b' : F64}, b.val = a.val + d → b'.val = a'.val + d → b'.fv = a'.fv + (b.fv - a.fv) := by
      intro d a b a' b' h1 h2
      have h3 : b'.val - a'.val = b.val - a.val := by linarith only [h1, h2]
      unfold F64.val at h3
      rw [← sub_div, ← sub_div, div_left_inj' F64.one1074_pos'.ne'] at h3
      have h4 : b'.fv - a'.fv = b.fv - a.fv := by exact_mod_cast h3
      omega
    have step : ∀ p' q' : α, Spec.Displaced dx dy dz (pt p') (pt q') →
        Off ((pt q).x.fv - (pt p).x.fv) ((pt q).y.fv - (pt p).y.fv) ((pt q).z.fv - (pt p).z.fv) (pt p') (pt q') :=
      fun p' q' h' => ⟨h'.1, h'.2.1, k h.2.2.1 h'.2.2.1, k h.2.2.2.1 h'.2.2.2.1, k h.2.2.2.2 h'.2.2.2.2⟩
    exact ⟨_, _, _, .cons (step _ _ h) (hs.imp step)⟩

end Spoc
