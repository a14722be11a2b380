import Verif.Proofs.F64Ops
import Verif.Proofs.RadiusSearch

/-!
# Helper lemmas: the computed distance is symmetric, and the neighbour loop with a smaller maximum
-/

namespace Spoc

namespace F64

theorem mul_self_congr {x y : F64} (h : x.mag = y.mag) : mul x x = mul y y := by
  have e1 : x.isNaN = y.isNaN := by unfold isNaN; rw [h]
  have e2 : x.isInf = y.isInf := by unfold isInf; rw [h]
  have e3 : x.fv * x.fv = y.fv * y.fv := by
    rw [← Int.natAbs_mul_self' x.fv, ← Int.natAbs_mul_self' y.fv, fv_natAbs, fv_natAbs, h]
  unfold mul
  rw [e1, e2, e3, h]
  simp only [bne_self_eq_false]

theorem negate_isNaN (x : F64) : (negate x).isNaN = x.isNaN := by unfold isNaN; rw [negate_mag]
theorem negate_isInf (x : F64) : (negate x).isInf = x.isInf := by unfold isInf; rw [negate_mag]

theorem rnd_mag_neg (z z' : Bool) (A A' : Int) (B : Nat) (h : A' = -A) : (rnd z A B).mag = (rnd z' A' B).mag := by
  subst h
  unfold rnd
  by_cases h0 : A = 0
  · rw [if_pos h0, if_pos (by omega), mag_mk' _ (by norm_num), mag_mk' _ (by norm_num)]
  · rw [if_neg h0, if_neg (by omega), mag_mk' _ (roundMag_lt63 _ _), mag_mk' _ (roundMag_lt63 _ _), Int.natAbs_neg]

/-- `x - y` and `y - x` differ at most in sign. -/
theorem sub_mag_comm (x y : F64) : (sub x y).mag = (sub y x).mag := by
  unfold sub add
  rw [negate_isNaN, negate_isNaN, negate_isInf, negate_isInf, negate_neg, negate_neg, negate_fv, negate_fv]
  by_cases n1 : x.isNaN = true
  · simp [n1]
  · by_cases n2 : y.isNaN = true
    · simp [n2]
    · simp only [n1, n2, Bool.or_self, Bool.false_eq_true, if_false]
      by_cases i1 : x.isInf = true
      · by_cases i2 : y.isInf = true
        · simp only [i1, i2, if_true, Bool.true_and]
          have hx : x.mag = y.mag := by
            unfold isInf at i1 i2
            rw [of_decide_eq_true i1, of_decide_eq_true i2]
          cases x.neg <;> cases y.neg <;> simp [hx]
        · simp [i1, i2, negate_mag]
      · by_cases i2 : y.isInf = true
        · simp [i1, i2, negate_mag]
        · simp only [i1, i2, Bool.false_eq_true, if_false]
          exact rnd_mag_neg _ _ _ _ _ (by omega)

theorem sub_self_mag {x : F64} (h : x.isFinite = true) : (sub x x).mag = 0 := by
  unfold sub
  rw [add_finite h (negate_finite h), negate_fv, Int.add_right_neg]
  unfold rnd
  rw [if_pos rfl, mag_mk' _ (by norm_num)]

end F64

/-- The computed distance does not depend on the order of the two points, whatever their coordinates. -/
theorem Pt.distance_comm (p q : Pt F64) : Pt.distance p q = Pt.distance q p := by
  unfold Pt.distance
  simp only
  rw [F64.mul_self_congr (F64.sub_mag_comm p.x q.x), F64.mul_self_congr (F64.sub_mag_comm p.y q.y),
    F64.mul_self_congr (F64.sub_mag_comm p.z q.z)]

/-- The computed distance of a point with finite coordinates from itself is zero. -/
theorem Pt.distance_self {p : Pt F64} (hx : p.x.isFinite = true) (hy : p.y.isFinite = true) (hz : p.z.isFinite = true) :
    Pt.distance p p = F64.zero := by
  have e : ∀ x : F64, x.mag = 0 → F64.mul x x = F64.zero := by
    intro x hx
    rw [F64.mul_self_congr (x := x) (y := F64.zero) (by rw [hx]; rfl)]
    decide +kernel
  unfold Pt.distance
  simp only
  rw [e _ (F64.sub_self_mag hx), e _ (F64.sub_self_mag hy), e _ (F64.sub_self_mag hz)]
  decide +kernel

namespace RadiusSearch

variable {α : Type} [HasXYZ α]

/-- The loop only appends. -/
theorem loop_prefix (b : Build) (rng : Nat → Nat → Nat) (i : Nat) (points : List α) (pis nis : List Nat) (radius : F64)
    (maxN : Nat) : ∀ (fuel : Nat) (s : Selector) (nb out : List Nat),
      neighborsLoop b rng i points pis nis radius maxN fuel s nb = .ok out → nb <+: out := by
  intro fuel
  induction fuel with
  | zero =>
    intro s nb out h
    unfold neighborsLoop at h
    split at h
    · split at h
      · exact (Res.ok.inj h) ▸ List.prefix_refl _
      · simp at h
    · exact (Res.ok.inj h) ▸ List.prefix_refl _
  | succ fuel ih =>
    intro s nb out h
    unfold neighborsLoop at h
    split at h
    · split at h
      · exact (Res.ok.inj h) ▸ List.prefix_refl _
      · simp only [Res.bind_eq_ok] at h
        obtain ⟨⟨j, s'⟩, _, _, _, _, _, pi, _, nj, _, _, _, _, _, p, _, q, _, h⟩ := h
        have := ih _ _ _ h
        split at this
        · exact (List.prefix_append nb [j]).trans this
        · exact this
    · exact (Res.ok.inj h) ▸ List.prefix_refl _

/-- With a smaller maximum the loop returns the beginning of what it returns with a larger one. -/
theorem loop_take (b : Build) (rng : Nat → Nat → Nat) (i : Nat) (points : List α) (pis nis : List Nat) (radius : F64)
    (m M : Nat) (hm : m ≤ M) : ∀ (fuel : Nat) (s : Selector) (nb out : List Nat), nb.length ≤ m →
      neighborsLoop b rng i points pis nis radius M fuel s nb = .ok out →
      neighborsLoop b rng i points pis nis radius m fuel s nb = .ok (out.take m) := by
  have cut : ∀ {nb out : List Nat}, nb <+: out → nb.length = m → nb = out.take m := by
    intro nb out h e
    rw [List.prefix_iff_eq_take] at h
    rw [← e]; exact h
  intro fuel
  induction fuel with
  | zero =>
    intro s nb out hl h
    have hp := loop_prefix b rng i points pis nis radius M _ _ _ _ h
    unfold neighborsLoop at h ⊢
    split at h
    · rename_i h0
      rw [if_pos h0]
      split at h
      · rw [if_pos (by omega)]
        exact congrArg Res.ok (cut hp (by omega))
      · simp at h
    · rename_i h0
      rw [if_neg h0, ← Res.ok.inj h, List.take_of_length_le hl]
  | succ fuel ih =>
    intro s nb out hl h
    have hp := loop_prefix b rng i points pis nis radius M _ _ _ _ h
    unfold neighborsLoop at h ⊢
    split at h
    · rename_i h0
      rw [if_pos h0]
      by_cases hm' : nb.length = m
      · rw [if_pos hm']
        exact congrArg Res.ok (cut hp hm')
      · rw [if_neg hm']
        rw [if_neg (by omega)] at h
        simp only [Res.bind_eq_ok] at h ⊢
        obtain ⟨⟨j, s'⟩, a1, _, a2, _, a3, pi, a4, nj, a5, _, a6, _, a7, p, a8, q, a9, h⟩ := h
        refine ⟨⟨j, s'⟩, a1, _, a2, _, a3, pi, a4, nj, a5, _, a6, _, a7, p, a8, q, a9, ?_⟩
        apply ih _ _ _ _ h
        split
        · simp; omega
        · exact hl
    · rename_i h0
      rw [if_neg h0, ← Res.ok.inj h, List.take_of_length_le hl]

end RadiusSearch

end Spoc
