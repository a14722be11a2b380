import Verif.Spec.Scaled
import Verif.Proofs.Displaced
import Verif.Proofs.Nested

/-!
# What does not depend on the unit of length
-/

namespace Spoc

namespace F64

theorem roundMag_pow2 (d k : Nat) (h : roundMag (d * 2 ^ k) 1 < infMag) :
    fixMag (roundMag (d * 2 ^ k) 1) = fixMag (roundMag d 1) * 2 ^ k := by
  have hle : roundMag d 1 ≤ roundMag (d * 2 ^ k) 1 :=
    roundMag_mono Nat.one_pos Nat.one_pos (Nat.mul_le_mul_right _ (Nat.le_mul_of_pos_right _ (by positivity)))
  rw [roundMag_eq_raw h, roundMag_eq_raw (lt_of_le_of_lt hle h)]
  by_cases hd : d < 2 ^ 53
  · have := roundRaw_dyadic (e := 0) hd
    rw [pow_zero, Nat.mul_one] at this
    rw [roundRaw_dyadic hd, this]
  · have hd' : 2 ^ 52 ≤ d := le_trans (by norm_num) (Nat.not_lt.mp hd)
    have h1 := roundRaw_scale (d * 2 ^ k) k Nat.one_pos (by
      rw [Nat.one_mul, Nat.mul_div_cancel _ (by positivity)]
      exact hd')
    rw [h1]
    have h2 : roundRaw (d * 2 ^ k) (1 * 2 ^ k) = roundRaw d 1 := by
      apply le_antisymm
      · exact roundRaw_mono (by positivity) Nat.one_pos (by rw [Nat.one_mul, Nat.mul_one])
      · exact roundRaw_mono Nat.one_pos (by positivity) (by rw [Nat.one_mul, Nat.mul_one])
    rw [h2]

theorem rfv_pow2 (A : Int) (k : Nat) (h : roundMag (A * 2 ^ k).natAbs 1 < infMag) : rfv (A * 2 ^ k) 1 = rfv A 1 * 2 ^ k := by
  have hn : (A * 2 ^ k : Int).natAbs = A.natAbs * 2 ^ k := by rw [Int.natAbs_mul, Int.natAbs_pow]; rfl
  rw [hn] at h
  have key := roundMag_pow2 _ _ h
  have hk : (0 : Int) < 2 ^ k := by positivity
  unfold rfv
  rw [hn, key]
  by_cases hA : A < 0
  · rw [if_pos hA, if_pos (Int.mul_neg_of_neg_of_pos hA hk)]
    push_cast
    ring
  · rw [if_neg hA, if_neg (not_lt.mpr (Int.mul_nonneg (not_lt.mp hA) hk.le))]
    push_cast
    ring

/-- A quotient depends only on the ratio. -/
theorem div_ratio {x x' r r' : F64} (hx : x.isFinite = true) (hx' : x'.isFinite = true) (hr : r.isFinite = true) (hr' : r'.isFinite = true)
    (h0 : 0 < r.fv) (h0' : 0 < r'.fv) (h : x'.fv * r.fv = x.fv * r'.fv) : (div x r).fv = (div x' r').fv := by
  rw [(div_fv hx hr h0).1, (div_fv hx' hr' h0').1]
  have e1 : ((r.fv.natAbs : Nat) : Int) = r.fv := Int.natAbs_of_nonneg h0.le
  have e2 : ((r'.fv.natAbs : Nat) : Int) = r'.fv := Int.natAbs_of_nonneg h0'.le
  have p1 : 0 < r.fv.natAbs := by omega
  have p2 : 0 < r'.fv.natAbs := by omega
  have k : x.fv * (one1074 : Int) * r'.fv = x'.fv * (one1074 : Int) * r.fv := by
    rw [mul_right_comm, ← h, mul_right_comm]
  apply le_antisymm
  · apply rfv_mono p1 p2
    rw [e1, e2, k]
  · apply rfv_mono p2 p1
    rw [e1, e2, k]

theorem fv_of_val {x : F64} {y : F64} {s : ℝ} (h : y.val = s * x.val) : (y.fv : ℝ) = s * x.fv := by
  unfold val at h
  rw [← mul_div_assoc, div_left_inj' one1074_pos'.ne'] at h
  exact h

/-- A multiple by a power of two, from integers. -/
theorem val_of_fv {x y : F64} {k : Nat} (e : y.fv = x.fv * 2 ^ k) : y.val = 2 ^ k * x.val := by
  unfold val
  rw [e]
  generalize (one1074 : ℝ) = d
  push_cast
  rw [← mul_div_assoc, mul_comm]

end F64

/-- The rounded differences are in the same ratio. -/
def DiffScaled (s : ℝ) (p m q n : F64) : Prop :=
  (F64.sub p m).isFinite = true ∧ (F64.sub q n).isFinite = true ∧ ((F64.sub q n).fv : ℝ) = s * (F64.sub p m).fv

theorem diff_of_exact {s : ℝ} {p m q n : F64} (hp : p.isFinite = true) (hm : m.isFinite = true) (hq : q.isFinite = true)
    (hn : n.isFinite = true) (h1 : q.val = s * p.val) (h2 : n.val = s * m.val) (e1 : Spec.IsDouble (p.val - m.val))
    (e2 : Spec.IsDouble (q.val - n.val)) : DiffScaled s p m q n := by
  have k : ∀ {a b : F64}, a.isFinite = true → b.isFinite = true → Spec.IsDouble (a.val - b.val) →
      (F64.sub a b).isFinite = true ∧ (F64.sub a b).fv = a.fv - b.fv := by
    intro a b ha hb ⟨y, hy, e⟩
    have e' : y.fv = a.fv - b.fv := by
      unfold F64.val at e
      rw [← sub_div, div_left_inj' F64.one1074_pos'.ne'] at e
      exact_mod_cast e
    have h := F64.rfv_exact (F64.not_nan_of_finite hy) (B := 1) Nat.one_pos
    rw [Nat.cast_one, mul_one] at h
    have h1 : (F64.sub a b).fv = y.fv := by rw [F64.sub_fv ha hb, ← e', h]
    exact ⟨by rw [F64.isFinite_same h1, hy], by rw [h1, e']⟩
  obtain ⟨a1, a2⟩ := k hp hm e1
  obtain ⟨b1, b2⟩ := k hq hn e2
  refine ⟨a1, b1, ?_⟩
  rw [a2, b2]
  push_cast
  rw [F64.fv_of_val h1, F64.fv_of_val h2]
  ring

theorem diff_of_pow2 {k : ℕ} {p m q n : F64} (hp : p.isFinite = true) (hm : m.isFinite = true) (hq : q.isFinite = true)
    (hn : n.isFinite = true) (h1 : q.val = 2 ^ k * p.val) (h2 : n.val = 2 ^ k * m.val) {M : F64} (hM : M.isFinite = true)
    (hle : |q.val - n.val| ≤ M.val) : DiffScaled (2 ^ k) p m q n := by
  have i1 : q.fv = p.fv * 2 ^ k := by
    have := F64.fv_of_val h1
    rw [mul_comm] at this
    exact_mod_cast this
  have i2 : n.fv = m.fv * 2 ^ k := by
    have := F64.fv_of_val h2
    rw [mul_comm] at this
    exact_mod_cast this
  have hd : |q.fv - n.fv| ≤ |M.fv| := by
    unfold F64.val at hle
    rw [← sub_div, abs_div, abs_of_pos F64.one1074_pos', div_le_div_iff_of_pos_right F64.one1074_pos'] at hle
    have : |q.fv - n.fv| ≤ M.fv := by exact_mod_cast hle
    exact this.trans (le_abs_self _)
  have fin : (F64.sub q n).isFinite = true := by
    refine F64.finite_of_fv_le hM ?_
    rw [F64.sub_fv hq hn]
    refine F64.rfv_finite hM Nat.one_pos ?_
    simpa using hd
  have e := F64.sub_fv hq hn
  have hmag := F64.roundMag_of_finite e fin
  have hs : q.fv - n.fv = (p.fv - m.fv) * 2 ^ k := by rw [i1, i2]; ring
  rw [hs] at hmag e
  rw [F64.rfv_pow2 _ _ hmag, ← F64.sub_fv hp hm] at e
  refine ⟨F64.finite_of_fv_le fin ?_, fin, ?_⟩
  · rw [e, Int.natAbs_mul, F64.natAbs_two_pow]
    exact Nat.le_mul_of_pos_right _ (by positivity)
  · rw [e]
    push_cast
    ring

theorem div_scaled {s : ℝ} (hs : 0 < s) {p m q n r r' : F64} (h : DiffScaled s p m q n) (hr : r.isFinite = true) (hr' : r'.isFinite = true)
    (h0 : 0 < r.fv) (e : r'.val = s * r.val) : (F64.div (F64.sub p m) r).fv = (F64.div (F64.sub q n) r').fv := by
  obtain ⟨f1, f2, h⟩ := h
  have e' := F64.fv_of_val e
  have h0r : (0 : ℝ) < r.fv := by exact_mod_cast h0
  have h0' : 0 < r'.fv := by
    have : (0 : ℝ) < r'.fv := by rw [e']; exact mul_pos hs h0r
    exact_mod_cast this
  refine F64.div_ratio f1 f2 hr hr' h0 h0' ?_
  have : ((F64.sub q n).fv : ℝ) * r.fv = (F64.sub p m).fv * r'.fv := by rw [h, e']; ring
  exact_mod_cast this

section
variable {α : Type} [HasXYZ α]

/-- The same for all three coordinates. -/
structure Diff3 (s : ℝ) (p m q n : Pt F64) : Prop where
  x : DiffScaled s p.x m.x q.x n.x
  y : DiffScaled s p.y m.y q.y n.y
  z : DiffScaled s p.z m.z q.z n.z

/-- The corner of the box is scaled as the points are, and is made of coordinates of points. -/
theorem extent_scaled {s : ℝ} (hs : 0 < s) {ps qs : List α} (hne : ps ≠ []) (h : List.Forall₂ (fun p q => Spec.Scaled s (pt p) (pt q)) ps qs) :
    Spec.Scaled s (Extent.ofPoints ps).minp (Extent.ofPoints qs).minp ∧ Spec.Scaled s (Extent.ofPoints ps).maxp (Extent.ofPoints qs).maxp := by
  obtain ⟨a1, a2⟩ := forall₂_of_mem h
  have hne' : qs ≠ [] := by
    intro e
    subst e
    obtain ⟨p, hp⟩ := List.exists_mem_of_ne_nil ps hne
    obtain ⟨q, hq, -⟩ := a1 p hp
    simp at hq
  have f1 : ∀ p ∈ ps, Spec.Fin (pt p) := fun p hp => by
    obtain ⟨q, -, h⟩ := a1 p hp
    exact h.1
  have f2 : ∀ q ∈ qs, Spec.Fin (pt q) := fun q hq => by
    obtain ⟨p, -, h⟩ := a2 q hq
    exact h.2.1
  obtain ⟨m1, m2⟩ := Props.extent_finite ps hne f1
  obtain ⟨n1, n2⟩ := Props.extent_finite qs hne' f2
  obtain ⟨i1, x1, x2, y1, y2, z1, z2⟩ := Props.c15_extent_tight_partial ps hne f1
  obtain ⟨j1, u1, u2, v1, v2, w1, w2⟩ := Props.c15_extent_tight_partial qs hne' f2
  generalize Extent.ofPoints ps = e at *
  generalize Extent.ofPoints qs = e' at *
  have conv : ∀ {a b : F64}, a.fv ≤ b.fv → a.val ≤ b.val := by
    intro a b h
    unfold F64.val
    rw [div_le_div_iff_of_pos_right F64.one1074_pos']
    exact_mod_cast h
  have low : ∀ (g : Pt F64 → F64), (∀ p q : Pt F64, Spec.Scaled s p q → (g q).val = s * (g p).val) →
      (∀ p ∈ ps, (g e.minp).fv ≤ (g (pt p)).fv) → (∀ q ∈ qs, (g e'.minp).fv ≤ (g (pt q)).fv) →
      (∃ p ∈ ps, g (pt p) = g e.minp) → (∃ q ∈ qs, g (pt q) = g e'.minp) → (g e'.minp).val = s * (g e.minp).val := by
    intro g hg l1 l2 ⟨p, hp, ep⟩ ⟨q, hq, eq⟩
    obtain ⟨q', hq', r1⟩ := a1 p hp
    obtain ⟨p', hp', r2⟩ := a2 q hq
    have s1 := hg _ _ r1
    have s2 := hg _ _ r2
    have t1 := mul_le_mul_of_nonneg_left (conv (l1 p' hp')) hs.le
    have t2 := conv (l2 q' hq')
    rw [ep] at s1
    rw [eq] at s2
    linarith only [s1, s2, t1, t2]
  have high : ∀ (g : Pt F64 → F64), (∀ p q : Pt F64, Spec.Scaled s p q → (g q).val = s * (g p).val) →
      (∀ p ∈ ps, (g (pt p)).fv ≤ (g e.maxp).fv) → (∀ q ∈ qs, (g (pt q)).fv ≤ (g e'.maxp).fv) →
      (∃ p ∈ ps, g (pt p) = g e.maxp) → (∃ q ∈ qs, g (pt q) = g e'.maxp) → (g e'.maxp).val = s * (g e.maxp).val := by
    intro g hg l1 l2 ⟨p, hp, ep⟩ ⟨q, hq, eq⟩
    obtain ⟨q', hq', r1⟩ := a1 p hp
    obtain ⟨p', hp', r2⟩ := a2 q hq
    have s1 := hg _ _ r1
    have s2 := hg _ _ r2
    have t1 := mul_le_mul_of_nonneg_left (conv (l1 p' hp')) hs.le
    have t2 := conv (l2 q' hq')
    rw [ep] at s1
    rw [eq] at s2
    linarith only [s1, s2, t1, t2]
  refine ⟨⟨m1, n1, low (·.x) (fun _ _ h => h.2.2.1) (fun p hp => (i1 p hp).1) (fun q hq => (j1 q hq).1) x1 u1,
    low (·.y) (fun _ _ h => h.2.2.2.1) (fun p hp => (i1 p hp).2.2.1) (fun q hq => (j1 q hq).2.2.1) y1 v1,
    low (·.z) (fun _ _ h => h.2.2.2.2) (fun p hp => (i1 p hp).2.2.2.2.1) (fun q hq => (j1 q hq).2.2.2.2.1) z1 w1⟩,
    ⟨m2, n2, high (·.x) (fun _ _ h => h.2.2.1) (fun p hp => (i1 p hp).2.1) (fun q hq => (j1 q hq).2.1) x2 u2,
    high (·.y) (fun _ _ h => h.2.2.2.1) (fun p hp => (i1 p hp).2.2.2.1) (fun q hq => (j1 q hq).2.2.2.1) y2 v2,
    high (·.z) (fun _ _ h => h.2.2.2.2) (fun p hp => (i1 p hp).2.2.2.2.2) (fun q hq => (j1 q hq).2.2.2.2.2) z2 w2⟩⟩

/-- Points whose coordinates occur in a cloud. -/
def MadeOf (ps : List α) (m : Pt F64) : Prop :=
  (∃ p ∈ ps, (pt p).x = m.x) ∧ (∃ p ∈ ps, (pt p).y = m.y) ∧ ∃ p ∈ ps, (pt p).z = m.z

theorem madeOf_corners {ps : List α} (hne : ps ≠ []) (hf : ∀ p ∈ ps, Spec.Fin (pt p)) :
    MadeOf ps (Extent.ofPoints ps).minp ∧ MadeOf ps (Extent.ofPoints ps).maxp := by
  obtain ⟨i1, x1, x2, y1, y2, z1, z2⟩ := Props.c15_extent_tight_partial ps hne hf
  exact ⟨⟨x1, y1, z1⟩, ⟨x2, y2, z2⟩⟩

theorem madeOf_mem {ps : List α} {p : α} (h : p ∈ ps) : MadeOf ps (pt p) := ⟨⟨p, h, rfl⟩, ⟨p, h, rfl⟩, ⟨p, h, rfl⟩⟩

theorem diff3_of_faithful {s : ℝ} {ps qs : List α} (hfa : Spec.Faithful s ps qs) {p m q n : Pt F64} (hpq : Spec.Scaled s p q)
    (hmn : Spec.Scaled s m n) (h1 : MadeOf ps p) (h2 : MadeOf ps m) (h3 : MadeOf qs q) (h4 : MadeOf qs n) : Diff3 s p m q n := by
  rcases hfa with ⟨⟨k, rfl⟩, hb⟩ | ⟨hp, hq⟩
  · have bx : ∃ M : F64, M.isFinite = true ∧ |q.x.val - n.x.val| ≤ M.val := by
      obtain ⟨a, ha, ea⟩ := h3.1
      obtain ⟨b, hb', eb⟩ := h4.1
      exact ⟨_, F64.maxVal_finite, by rw [← ea, ← eb]; exact (hb a ha b hb').1⟩
    have by' : ∃ M : F64, M.isFinite = true ∧ |q.y.val - n.y.val| ≤ M.val := by
      obtain ⟨a, ha, ea⟩ := h3.2.1
      obtain ⟨b, hb', eb⟩ := h4.2.1
      exact ⟨_, F64.maxVal_finite, by rw [← ea, ← eb]; exact (hb a ha b hb').2.1⟩
    have bz : ∃ M : F64, M.isFinite = true ∧ |q.z.val - n.z.val| ≤ M.val := by
      obtain ⟨a, ha, ea⟩ := h3.2.2
      obtain ⟨b, hb', eb⟩ := h4.2.2
      exact ⟨_, F64.maxVal_finite, by rw [← ea, ← eb]; exact (hb a ha b hb').2.2⟩
    obtain ⟨Mx, fx, lx⟩ := bx
    obtain ⟨My, fy, ly⟩ := by'
    obtain ⟨Mz, fz, lz⟩ := bz
    exact ⟨diff_of_pow2 hpq.1.1 hmn.1.1 hpq.2.1.1 hmn.2.1.1 hpq.2.2.1 hmn.2.2.1 fx lx,
      diff_of_pow2 hpq.1.2.1 hmn.1.2.1 hpq.2.1.2.1 hmn.2.1.2.1 hpq.2.2.2.1 hmn.2.2.2.1 fy ly,
      diff_of_pow2 hpq.1.2.2 hmn.1.2.2 hpq.2.1.2.2 hmn.2.1.2.2 hpq.2.2.2.2 hmn.2.2.2.2 fz lz⟩
  · have dx : ∀ {rs : List α} {a b : Pt F64}, Spec.ExactDifferences rs → MadeOf rs a → MadeOf rs b → Spec.IsDouble (a.x.val - b.x.val) := by
      intro rs a b he ⟨⟨u, hu, eu⟩, _, _⟩ ⟨⟨v, hv, ev⟩, _, _⟩
      rw [← eu, ← ev]
      exact (he u hu v hv).1
    have dy : ∀ {rs : List α} {a b : Pt F64}, Spec.ExactDifferences rs → MadeOf rs a → MadeOf rs b → Spec.IsDouble (a.y.val - b.y.val) := by
      intro rs a b he ⟨_, ⟨u, hu, eu⟩, _⟩ ⟨_, ⟨v, hv, ev⟩, _⟩
      rw [← eu, ← ev]
      exact (he u hu v hv).2.1
    have dz : ∀ {rs : List α} {a b : Pt F64}, Spec.ExactDifferences rs → MadeOf rs a → MadeOf rs b → Spec.IsDouble (a.z.val - b.z.val) := by
      intro rs a b he ⟨_, _, ⟨u, hu, eu⟩⟩ ⟨_, _, ⟨v, hv, ev⟩⟩
      rw [← eu, ← ev]
      exact (he u hu v hv).2.2
    exact ⟨diff_of_exact hpq.1.1 hmn.1.1 hpq.2.1.1 hmn.2.1.1 hpq.2.2.1 hmn.2.2.1 (dx hp h1 h2) (dx hq h3 h4),
      diff_of_exact hpq.1.2.1 hmn.1.2.1 hpq.2.1.2.1 hmn.2.1.2.1 hpq.2.2.2.1 hmn.2.2.2.1 (dy hp h1 h2) (dy hq h3 h4),
      diff_of_exact hpq.1.2.2 hmn.1.2.2 hpq.2.1.2.2 hmn.2.1.2.2 hpq.2.2.2.2 hmn.2.2.2.2 (dz hp h1 h2) (dz hq h3 h4)⟩

omit [HasXYZ α] in
theorem forall₂_mem {R : α → α → Prop} {ps qs : List α} (h : List.Forall₂ R ps qs) : List.Forall₂ (fun p q => R p q ∧ p ∈ ps ∧ q ∈ qs) ps qs := by
  induction h with
  | nil => exact .nil
  | cons h _ ih =>
    exact .cons ⟨h, List.mem_cons_self, List.mem_cons_self⟩
      (ih.imp fun p q k => ⟨k.1, List.mem_cons_of_mem _ k.2.1, List.mem_cons_of_mem _ k.2.2⟩)

theorem scaled_finite {s : ℝ} {ps qs : List α} (h : List.Forall₂ (fun p q => Spec.Scaled s (pt p) (pt q)) ps qs) :
    (∀ p ∈ ps, Spec.Fin (pt p)) ∧ ∀ q ∈ qs, Spec.Fin (pt q) := by
  obtain ⟨a1, a2⟩ := forall₂_of_mem h
  exact ⟨fun p hp => by obtain ⟨q, -, k⟩ := a1 p hp; exact k.1, fun q hq => by obtain ⟨p, -, k⟩ := a2 q hq; exact k.2.1⟩

theorem indexes_scaled {s : ℝ} (hs : 0 < s) {ps qs : List α} (h : List.Forall₂ (fun p q => Spec.Scaled s (pt p) (pt q)) ps qs)
    (hfa : Spec.Faithful s ps qs) {r r' : F64} (hr : r.isFinite = true) (hr' : r'.isFinite = true) (h0 : 0 < r.fv)
    (e : r'.val = s * r.val) : Voxel.getIndexes ps r = Voxel.getIndexes qs r' := by
  by_cases hne : ps = []
  · subst hne
    cases h
    unfold Voxel.getIndexes Voxel.getIndexesIn
    rw [List.mapM_nil, List.mapM_nil]
  · have hne' : qs ≠ [] := by
      intro e
      subst e
      cases h
      exact hne rfl
    obtain ⟨fp, fq⟩ := scaled_finite h
    have hm := (extent_scaled hs hne h).1
    refine mapM_forall₂ ((forall₂_mem h).imp fun p q ⟨k, kp, kq⟩ => ?_)
    have d := diff3_of_faithful hfa k hm (madeOf_mem kp) (madeOf_corners hne fp).1 (madeOf_mem kq) (madeOf_corners hne' fq).1
    show Voxel.getIndex _ _ _ = Voxel.getIndex _ _ _
    unfold Voxel.getIndex Voxel.index1
    rw [F64.toU64_same (div_scaled hs d.x hr hr' h0 e), F64.toU64_same (div_scaled hs d.y hr hr' h0 e),
      F64.toU64_same (div_scaled hs d.z hr hr' h0 e)]

theorem sameLoc_scaled {s : ℝ} (hs : 0 < s) {ps qs : List α} (h : List.Forall₂ (fun p q => Spec.Scaled s (pt p) (pt q)) ps qs) :
    Subsampling.sameLoc ps = Subsampling.sameLoc qs := by
  have get : ∀ {ps qs : List α}, List.Forall₂ (fun p q => Spec.Scaled s (pt p) (pt q)) ps qs → ∀ i : Nat,
      (ps[i]? = none ∧ qs[i]? = none) ∨ ∃ p q, ps[i]? = some p ∧ qs[i]? = some q ∧ Spec.Scaled s (pt p) (pt q) := by
    intro ps qs h
    induction h with
    | nil => exact fun i => .inl ⟨rfl, rfl⟩
    | cons h _ ih =>
      intro i
      cases i with
      | zero => exact .inr ⟨_, _, rfl, rfl, h⟩
      | succ i => exact ih i
  have k : ∀ {a b c d : F64}, a.isFinite = true → b.isFinite = true → c.isFinite = true → d.isFinite = true →
      c.val = s * a.val → d.val = s * b.val → F64.fne a b = F64.fne c d := by
    intro a b c d ha hb hc hd h1 h2
    have h1 := F64.fv_of_val h1
    have h2 := F64.fv_of_val h2
    have : a.fv = b.fv ↔ c.fv = d.fv := by
      constructor
      · intro e
        have : (c.fv : ℝ) = d.fv := by rw [h1, h2, e]
        exact_mod_cast this
      · intro e
        have e' : (c.fv : ℝ) = d.fv := by rw [e]
        rw [h1, h2] at e'
        exact_mod_cast mul_left_cancel₀ hs.ne' e'
    unfold F64.fne F64.feq
    rw [F64.not_nan_of_finite ha, F64.not_nan_of_finite hb, F64.not_nan_of_finite hc, F64.not_nan_of_finite hd, decide_eq_decide.mpr this]
  funext i j
  unfold Subsampling.sameLoc
  rcases get h i with ⟨h1, h2⟩ | ⟨p, q, h1, h2, h3⟩ <;> rcases get h j with ⟨k1, k2⟩ | ⟨p', q', k1, k2, k3⟩ <;> rw [h1, h2, k1, k2]
  show Pt.beq _ _ = Pt.beq _ _
  unfold Pt.beq
  rw [k h3.1.1 k3.1.1 h3.2.1.1 k3.2.1.1 h3.2.2.1 k3.2.2.1, k h3.1.2.1 k3.1.2.1 h3.2.1.2.1 k3.2.1.2.1 h3.2.2.2.1 k3.2.2.2.1,
    k h3.1.2.2 k3.1.2.2 h3.2.1.2.2 k3.2.1.2.2 h3.2.2.2.2 k3.2.2.2.2]

end

theorem tiles_scaled {s : ℝ} (hs : 0 < s) {ps qs : List PointRecord} (hne : ps ≠ []) (h : List.Forall₂ (fun p q => Spec.Scaled s (pt p) (pt q)) ps qs)
    (hfa : Spec.Faithful s ps qs) {u u' v v' : F64} (hu : u.isFinite = true) (hu' : u'.isFinite = true) (hv : v.isFinite = true)
    (hv' : v'.isFinite = true) (h0u : 0 < u.fv) (h0v : 0 < v.fv) (eu : u'.val = s * u.val) (ev : v'.val = s * v.val) :
    Tile.getTileIndexes ps (Extent.ofPoints ps) u v = Tile.getTileIndexes qs (Extent.ofPoints qs) u' v' := by
  have pos : ∀ {r r' : F64}, r.isFinite = true → r'.isFinite = true → 0 < r.fv → r'.val = s * r.val →
      F64.gt r F64.zero = true ∧ F64.gt r' F64.zero = true := by
    intro r r' hr hr' h0 e
    have e' := F64.fv_of_val e
    have h0r : (0 : ℝ) < r.fv := by exact_mod_cast h0
    have h0' : 0 < r'.fv := by
      have : (0 : ℝ) < r'.fv := by rw [e']; exact mul_pos hs h0r
      exact_mod_cast this
    have z : F64.zero.fv = 0 ∧ F64.zero.isNaN = false := by decide +kernel
    exact ⟨F64.gt_iff.mpr ⟨F64.not_nan_of_finite hr, z.2, by rw [z.1]; exact h0⟩,
      F64.gt_iff.mpr ⟨F64.not_nan_of_finite hr', z.2, by rw [z.1]; exact h0'⟩⟩
  obtain ⟨gu, gu'⟩ := pos hu hu' h0u eu
  obtain ⟨gv, gv'⟩ := pos hv hv' h0v ev
  have hne' : qs ≠ [] := by
    intro e
    subst e
    cases h
    exact hne rfl
  obtain ⟨fp, fq⟩ := scaled_finite h
  obtain ⟨hm, hM⟩ := extent_scaled hs hne h
  have dM := diff3_of_faithful hfa hM hm (madeOf_corners hne fp).2 (madeOf_corners hne fp).1 (madeOf_corners hne' fq).2 (madeOf_corners hne' fq).1
  have e1 : Tile.getStride (Extent.ofPoints ps) u = Tile.getStride (Extent.ofPoints qs) u' := by
    unfold Tile.getStride
    rw [if_pos gu, if_pos gu']
    exact F64.toU64_same (F64.add_same (div_scaled hs dM.x hu hu' h0u eu) (by decide))
  unfold Tile.getTileIndexes
  rw [e1]
  refine congrArg _ (funext fun st => mapM_forall₂ ((forall₂_mem h).imp fun p q ⟨k, kp, kq⟩ => ?_))
  have d := diff3_of_faithful hfa k hm (madeOf_mem kp) (madeOf_corners hne fp).1 (madeOf_mem kq) (madeOf_corners hne' fq).1
  unfold Tile.index1
  rw [if_pos gu, if_pos gu', if_pos gv, if_pos gv']
  have a := F64.toU64_same (div_scaled hs d.x hu hu' h0u eu)
  have b := F64.toU64_same (div_scaled hs d.y hv hv' h0v ev)
  change F64.toU64 (F64.div (F64.sub p.x _) u) = F64.toU64 (F64.div (F64.sub q.x _) u') at a
  change F64.toU64 (F64.div (F64.sub p.y _) v) = F64.toU64 (F64.div (F64.sub q.y _) v') at b
  rw [a, b]

end Spoc
