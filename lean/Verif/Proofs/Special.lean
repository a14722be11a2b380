import Verif.Spec.Special
import Verif.Proofs.Metrics
import Verif.Proofs.Voxel
import Verif.Props.Transform

/-!
# Infinities and NaN in the arithmetic, and in the commands of the transform application
-/

namespace Spoc

open Spec

namespace F64

theorem finite_or {x : F64} (h1 : x.isNaN = false) (h2 : x.isInf = false) : x.isFinite = true := by
  simp only [isNaN, isInf, isFinite, decide_eq_false_iff_not, decide_eq_true_eq] at *
  omega

theorem nan_not_finite {x : F64} (h : x.isNaN = true) : x.isFinite = false := by
  simp only [isNaN, isFinite, decide_eq_false_iff_not, decide_eq_true_eq] at *
  omega

theorem isInf_not_finite {x : F64} (h : x.isInf = true) : x.isFinite = false := by
  simp only [isInf, isFinite, decide_eq_false_iff_not, decide_eq_true_eq] at *
  omega

theorem isInf_not_nan {x : F64} (h : x.isInf = true) : x.isNaN = false := by
  simp only [isInf, isNaN, decide_eq_false_iff_not, decide_eq_true_eq] at *
  omega

theorem nan_isNaN : nan.isNaN = true := by decide +kernel

theorem inf_neg (s : Bool) : (inf s).neg = s := by cases s <;> decide +kernel

theorem add_isSum (x v : F64) : IsSum x v (add x v) := by
  constructor
  · intro h
    have : (x.isNaN || v.isNaN) = true := by simpa using h
    simp only [add, this, if_true, nan_isNaN]
  · intro hx hv hn
    simp only [add, isInf_not_nan hx, isInf_not_nan hv, hx, hv, Bool.or_self, Bool.false_eq_true, if_false, if_true, Bool.true_and]
    rw [if_pos (by simpa using hn)]
    exact nan_isNaN
  · intro hx hv hn
    simp only [add, isInf_not_nan hx, hv, hx, Bool.or_self, Bool.false_eq_true, if_false, if_true]
    rw [if_neg ?_]
    · exact ⟨hx, rfl⟩
    · intro h
      simp only [Bool.and_eq_true, bne_iff_ne, ne_eq] at h
      exact h.2 (hn h.1).symm
  · intro hv hx hn
    simp only [add, isInf_not_nan hv, hx, hv, Bool.or_self, Bool.false_eq_true, if_false, if_true, Bool.true_and]
    by_cases h : x.isInf = true
    · rw [if_pos h, if_neg (by simpa using hn h)]
      exact ⟨h, hn h⟩
    · rw [if_neg h]
      exact ⟨hv, rfl⟩
  · exact fun hx hv => add_nearest hx hv

theorem mul_isProduct (x v : F64) : IsProduct x v (mul x v) := by
  constructor
  · intro h
    have : (x.isNaN || v.isNaN) = true := by simpa using h
    simp only [mul, this, if_true, nan_isNaN]
  · intro hx hv
    rw [val_zero] at hx
    have hn : x.isNaN = false := by rw [isNaN_eq_false, hx]; exact Nat.zero_le _
    simp only [mul, hn, isInf_not_nan hv, hv, hx, Bool.or_self, Bool.false_eq_true, if_false, Bool.or_true, if_true, decide_true,
      Bool.true_or, nan_isNaN]
  · intro hx hv
    rw [val_zero] at hv
    have hn : v.isNaN = false := by rw [isNaN_eq_false, hv]; exact Nat.zero_le _
    simp only [mul, hn, isInf_not_nan hx, hv, hx, Bool.or_self, Bool.false_eq_true, if_false, Bool.or_true, if_true, decide_true,
      Bool.true_or, nan_isNaN]
  · intro h hx hv hx0 hv0
    rw [ne_eq, val_zero] at hx0 hv0
    have h' : (x.isInf || v.isInf) = true := by simpa using h
    simp only [mul, hx, hv, h', Bool.or_self, Bool.false_eq_true, if_false, if_true, hx0, hv0, decide_false]
    exact ⟨inf_isInf _, inf_neg _⟩
  · exact fun hx hv => mul_nearest hx hv

theorem add_left_not_finite {x y : F64} (h : x.isFinite = false) : (add x y).isFinite = false := by
  by_cases hn : x.isNaN = true ∨ y.isNaN = true
  · exact nan_not_finite ((add_isSum x y).nan hn)
  rw [not_or, Bool.not_eq_true, Bool.not_eq_true] at hn
  have hi : x.isInf = true := by
    by_contra hi
    rw [Bool.not_eq_true] at hi
    rw [finite_or hn.1 hi] at h
    simp at h
  by_cases ho : y.isInf = true ∧ x.neg ≠ y.neg
  · exact nan_not_finite ((add_isSum x y).opposite hi ho.1 ho.2)
  · refine isInf_not_finite ((add_isSum x y).left hi hn.2 (fun hy => ?_)).1
    by_contra hc
    exact ho ⟨hy, fun e => hc e.symm⟩

theorem add_right_not_finite {x y : F64} (h : y.isFinite = false) : (add x y).isFinite = false := by
  by_cases hn : x.isNaN = true ∨ y.isNaN = true
  · exact nan_not_finite ((add_isSum x y).nan hn)
  rw [not_or, Bool.not_eq_true, Bool.not_eq_true] at hn
  have hi : y.isInf = true := by
    by_contra hi
    rw [Bool.not_eq_true] at hi
    rw [finite_or hn.2 hi] at h
    simp at h
  by_cases ho : x.isInf = true ∧ x.neg ≠ y.neg
  · exact nan_not_finite ((add_isSum x y).opposite ho.1 hi ho.2)
  · refine isInf_not_finite ((add_isSum x y).right hi hn.1 (fun hy => ?_)).1
    by_contra hc
    exact ho ⟨hy, hc⟩

theorem negate_not_finite {x : F64} (h : x.isFinite = false) : (negate x).isFinite = false := by
  unfold isFinite at *
  rw [negate_mag]
  exact h

theorem sub_left_not_finite {x y : F64} (h : x.isFinite = false) : (sub x y).isFinite = false := add_left_not_finite h

theorem sub_right_not_finite {x y : F64} (h : y.isFinite = false) : (sub x y).isFinite = false :=
  add_right_not_finite (negate_not_finite h)

theorem mul_not_finite {x y : F64} (h : x.isFinite = false) : (mul x y).isFinite = false := by
  by_cases hn : x.isNaN = true ∨ y.isNaN = true
  · exact nan_not_finite ((mul_isProduct x y).nan hn)
  rw [not_or, Bool.not_eq_true, Bool.not_eq_true] at hn
  have hi : x.isInf = true := by
    by_contra hi
    rw [Bool.not_eq_true] at hi
    rw [finite_or hn.1 hi] at h
    simp at h
  by_cases h0 : y.val = 0
  · exact nan_not_finite ((mul_isProduct x y).inf_zero hi h0)
  · refine isInf_not_finite ((mul_isProduct x y).inf (.inl hi) hn.1 hn.2 ?_ h0).1
    rw [ne_eq, val_zero]
    have : x.mag = infMag := by simpa [isInf] using hi
    rw [this]
    decide

theorem div_not_finite {x y : F64} (h : x.isFinite = false) : (div x y).isFinite = false := by
  unfold div
  by_cases hn : (x.isNaN || y.isNaN) = true
  · rw [if_pos hn]
    decide +kernel
  rw [if_neg hn]
  rw [Bool.or_eq_true, not_or, Bool.not_eq_true, Bool.not_eq_true] at hn
  have hi : x.isInf = true := by
    by_contra hi
    rw [Bool.not_eq_true] at hi
    rw [finite_or hn.1 hi] at h
    simp at h
  rw [if_pos hi]
  split
  · decide +kernel
  · exact inf_not_finite _

end F64

namespace Transform

open AppUtils F64

/-- Coordinates that are not finite stay so. -/
structure Stay (p q : PointRecord) : Prop where
  x : p.x.isFinite = false → q.x.isFinite = false
  y : p.y.isFinite = false → q.y.isFinite = false
  z : p.z.isFinite = false → q.z.isFinite = false

theorem Stay.of_same {p q : PointRecord} (hx : q.x = p.x) (hy : q.y = p.y) (hz : q.z = p.z) : Stay p q :=
  ⟨by rw [hx]; exact id, by rw [hy]; exact id, by rw [hz]; exact id⟩

theorem copyDst_stay {name : Str} {j src : Nat} {p q : PointRecord} (h : copyDst name j src p = .ok q) : Stay p q := by
  unfold copyDst at h
  split at h
  case h_7 =>
    split at h
    · simp at h
    · simp only [Res.ok.injEq] at h
      subst h
      exact .of_same rfl rfl rfl
  all_goals
    simp only [Res.ok.injEq] at h
    subst h
    exact .of_same rfl rfl rfl

theorem replaceBody_stay {name : Str} {v1 v2 : UInt32} {j : Nat} {p q : PointRecord} (h : replaceBody name v1 v2 j p = .ok q) :
    Stay p q := by
  unfold replaceBody at h
  split at h
  case h_7 =>
    split at h
    · simp at h
    · simp only [Res.ok.injEq] at h
      subst h
      split <;> exact .of_same rfl rfl rfl
  all_goals
    simp only [Res.ok.injEq] at h
    subst h
    try split
    all_goals exact .of_same rfl rfl rfl

theorem replaceNotAssign_stay {name : Str} {j : Nat} {r : Int} {p q : PointRecord} (h : replaceNotAssign name j r p = .ok q) :
    Stay p q := by
  unfold replaceNotAssign at h
  split at h
  case h_7 =>
    split at h
    · simp only [Res.ok.injEq] at h
      subst h
      exact .of_same rfl rfl rfl
    · simp at h
  all_goals
    simp only [Res.ok.injEq] at h
    subst h
    exact .of_same rfl rfl rfl

theorem addNoise_stay (sx sy sz : F64) (d : Pt F64) (p : PointRecord) : Stay p (addNoise sx sy sz d p) := by
  unfold addNoise
  constructor <;> intro h <;> dsimp only <;> split <;> first | exact add_left_not_finite h | exact h

theorem quantizeCoord_not_finite {precision x : F64} (h : x.isFinite = false) {y : F64} : quantizeCoord precision x ≠ .ok y := by
  unfold quantizeCoord
  unfold toInt32
  rw [div_not_finite h]
  exact fun h => by cases h

theorem quantizeOp_stay {precision : F64} {n : Nat} {p q : PointRecord} (h : quantizeOp precision n p = .ok q) : Stay p q := by
  unfold quantizeOp at h
  rw [Res.bind_eq_ok] at h
  obtain ⟨x, hx, h⟩ := h
  rw [Res.bind_eq_ok] at h
  obtain ⟨y, hy, h⟩ := h
  rw [Res.bind_eq_ok] at h
  obtain ⟨z, hz, h⟩ := h
  exact ⟨fun h => absurd hx (quantizeCoord_not_finite h), fun h => absurd hy (quantizeCoord_not_finite h),
    fun h => absurd hz (quantizeCoord_not_finite h)⟩

/-- Every command except set. -/
theorem command_stay (b : Build) (env : Env) (seed ef : Nat) (c : Command) (op : Op) (hset : c.name ≠ "set")
    (hop : parseCommand b env seed ef c = .ok op) (n : Nat) (p q : PointRecord) (hq : op n p = .ok q) : Stay p q := by
  unfold parseCommand at hop
  extract_lets num z0 at hop
  have hnum : ∀ k op, num k = .ok op → ∃ v, op = k v := fun k op h => Props.num_ok h
  clear_value num z0
  by_cases hn : c.name = "add-x"
  · rw [if_pos hn] at hop
    obtain ⟨v, rfl⟩ := hnum _ _ hop
    simp only [addXOp, Res.ok.injEq] at hq
    rw [← hq]
    exact ⟨add_left_not_finite, id, id⟩
  rw [if_neg hn] at hop
  by_cases hn : c.name = "add-y"
  · rw [if_pos hn] at hop
    obtain ⟨v, rfl⟩ := hnum _ _ hop
    simp only [addYOp, Res.ok.injEq] at hq
    rw [← hq]
    exact ⟨id, add_left_not_finite, id⟩
  rw [if_neg hn] at hop
  by_cases hn : c.name = "add-z"
  · rw [if_pos hn] at hop
    obtain ⟨v, rfl⟩ := hnum _ _ hop
    simp only [addZOp, Res.ok.injEq] at hq
    rw [← hq]
    exact ⟨id, id, add_left_not_finite⟩
  rw [if_neg hn] at hop
  by_cases hn : c.name = "copy-field"
  · rw [if_pos hn] at hop
    rw [Res.bind_eq_ok] at hop
    obtain ⟨⟨t1, r1⟩, -, hop⟩ := hop
    dsimp only at hop
    rw [Res.bind_eq_ok] at hop
    obtain ⟨⟨t2, r2⟩, -, hop⟩ := hop
    dsimp only at hop
    unfold copyFieldOp at hop
    split at hop
    · simp at hop
    split at hop
    · simp at hop
    simp only [Res.ok.injEq] at hop
    rw [← hop] at hq
    rw [Res.bind_eq_ok] at hq
    obtain ⟨src, -, hq⟩ := hq
    exact copyDst_stay hq
  rw [if_neg hn] at hop
  by_cases hn : c.name = "gaussian-noise"
  · rw [if_pos hn] at hop
    obtain ⟨v, rfl⟩ := hnum _ _ hop
    simp only [gaussianOp, Res.ok.injEq] at hq
    rw [← hq]
    exact addNoise_stay _ _ _ _ _
  rw [if_neg hn] at hop
  by_cases hn : c.name = "gaussian-noise-x"
  · rw [if_pos hn] at hop
    obtain ⟨v, rfl⟩ := hnum _ _ hop
    simp only [gaussianOp, Res.ok.injEq] at hq
    rw [← hq]
    exact addNoise_stay _ _ _ _ _
  rw [if_neg hn] at hop
  by_cases hn : c.name = "gaussian-noise-y"
  · rw [if_pos hn] at hop
    obtain ⟨v, rfl⟩ := hnum _ _ hop
    simp only [gaussianOp, Res.ok.injEq] at hq
    rw [← hq]
    exact addNoise_stay _ _ _ _ _
  rw [if_neg hn] at hop
  by_cases hn : c.name = "gaussian-noise-z"
  · rw [if_pos hn] at hop
    obtain ⟨v, rfl⟩ := hnum _ _ hop
    simp only [gaussianOp, Res.ok.injEq] at hq
    rw [← hq]
    exact addNoise_stay _ _ _ _ _
  rw [if_neg hn] at hop
  by_cases hn : c.name = "quantize-xyz"
  · rw [if_pos hn] at hop
    obtain ⟨v, rfl⟩ := hnum _ _ hop
    exact quantizeOp_stay hq
  rw [if_neg hn] at hop
  by_cases hn : c.name = "replace"
  · rw [if_pos hn] at hop
    rw [Res.bind_eq_ok] at hop
    obtain ⟨⟨t1, r1⟩, -, hop⟩ := hop
    dsimp only at hop
    rw [Res.bind_eq_ok] at hop
    obtain ⟨⟨t2, r2⟩, -, hop⟩ := hop
    dsimp only at hop
    rw [Res.bind_eq_ok] at hop
    obtain ⟨⟨t3, r3⟩, -, hop⟩ := hop
    dsimp only at hop
    unfold replaceOp at hop
    split at hop
    · simp at hop
    simp only [Res.ok.injEq] at hop
    rw [← hop] at hq
    exact replaceBody_stay hq
  rw [if_neg hn] at hop
  by_cases hn : c.name = "replace-not"
  · rw [if_pos hn] at hop
    rw [Res.bind_eq_ok] at hop
    obtain ⟨⟨t1, r1⟩, -, hop⟩ := hop
    dsimp only at hop
    rw [Res.bind_eq_ok] at hop
    obtain ⟨⟨t2, r2⟩, -, hop⟩ := hop
    dsimp only at hop
    unfold replaceNotOp at hop
    split at hop
    · simp at hop
    split at hop
    · simp at hop
    simp only [Res.ok.injEq] at hop
    rw [← hop] at hq
    rw [Res.bind_eq_ok] at hq
    obtain ⟨r, -, hq⟩ := hq
    split at hq
    · exact replaceNotAssign_stay hq
    · simp only [Res.ok.injEq] at hq
      rw [← hq]
      exact .of_same rfl rfl rfl
  rw [if_neg hn] at hop
  by_cases hn : c.name = "rotate-x"
  · rw [if_pos hn] at hop
    obtain ⟨v, rfl⟩ := hnum _ _ hop
    simp only [rotateXOp, Res.ok.injEq] at hq
    rw [← hq]
    exact ⟨id, fun h => sub_left_not_finite (mul_not_finite h), fun h => add_right_not_finite (mul_not_finite h)⟩
  rw [if_neg hn] at hop
  by_cases hn : c.name = "rotate-y"
  · rw [if_pos hn] at hop
    obtain ⟨v, rfl⟩ := hnum _ _ hop
    simp only [rotateYOp, Res.ok.injEq] at hq
    rw [← hq]
    exact ⟨fun h => sub_left_not_finite (mul_not_finite h), id, fun h => add_right_not_finite (mul_not_finite h)⟩
  rw [if_neg hn] at hop
  by_cases hn : c.name = "rotate-z"
  · rw [if_pos hn] at hop
    obtain ⟨v, rfl⟩ := hnum _ _ hop
    simp only [rotateZOp, Res.ok.injEq] at hq
    rw [← hq]
    exact ⟨fun h => sub_left_not_finite (mul_not_finite h), fun h => add_right_not_finite (mul_not_finite h), id⟩
  rw [if_neg hn] at hop
  by_cases hn : c.name = "scale-x"
  · rw [if_pos hn] at hop
    obtain ⟨v, rfl⟩ := hnum _ _ hop
    simp only [scaleXOp, Res.ok.injEq] at hq
    rw [← hq]
    exact ⟨mul_not_finite, id, id⟩
  rw [if_neg hn] at hop
  by_cases hn : c.name = "scale-y"
  · rw [if_pos hn] at hop
    obtain ⟨v, rfl⟩ := hnum _ _ hop
    simp only [scaleYOp, Res.ok.injEq] at hq
    rw [← hq]
    exact ⟨id, mul_not_finite, id⟩
  rw [if_neg hn] at hop
  by_cases hn : c.name = "scale-z"
  · rw [if_pos hn] at hop
    obtain ⟨v, rfl⟩ := hnum _ _ hop
    simp only [scaleZOp, Res.ok.injEq] at hq
    rw [← hq]
    exact ⟨id, id, mul_not_finite⟩
  rw [if_neg hn] at hop
  rw [if_neg hset] at hop
  by_cases hn : c.name = "uniform-noise"
  · rw [if_pos hn] at hop
    obtain ⟨v, rfl⟩ := hnum _ _ hop
    simp only [uniformOp, Res.ok.injEq] at hq
    rw [← hq]
    exact addNoise_stay _ _ _ _ _
  rw [if_neg hn] at hop
  by_cases hn : c.name = "uniform-noise-x"
  · rw [if_pos hn] at hop
    obtain ⟨v, rfl⟩ := hnum _ _ hop
    simp only [uniformOp, Res.ok.injEq] at hq
    rw [← hq]
    exact addNoise_stay _ _ _ _ _
  rw [if_neg hn] at hop
  by_cases hn : c.name = "uniform-noise-y"
  · rw [if_pos hn] at hop
    obtain ⟨v, rfl⟩ := hnum _ _ hop
    simp only [uniformOp, Res.ok.injEq] at hq
    rw [← hq]
    exact addNoise_stay _ _ _ _ _
  rw [if_neg hn] at hop
  by_cases hn : c.name = "uniform-noise-z"
  · rw [if_pos hn] at hop
    obtain ⟨v, rfl⟩ := hnum _ _ hop
    simp only [uniformOp, Res.ok.injEq] at hq
    rw [← hq]
    exact addNoise_stay _ _ _ _ _
  rw [if_neg hn] at hop
  simp at hop

end Transform

end Spoc
