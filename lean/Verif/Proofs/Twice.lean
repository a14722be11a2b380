import Verif.Proofs.ThereAndBack
import Verif.Props.ToolPoints
import Verif.Props.CommandOrder
import Verif.Props.FilterSteps

/-!
# Doing something again
-/

namespace Spoc.Twice

open Spec Props

/-! ## Taking away the minimum -/

section Min
open F64

/-- Taking away positive zero. -/
theorem sub_zero' {x : F64} (hx : x.isNaN = false) : sub x zero = x := by
  have hzn : (negate zero).neg = true := by decide
  have hzN : (negate zero).isNaN = false := by decide
  have hzI : (negate zero).isInf = false := by decide
  have hzf : (negate zero).isFinite = true := by decide
  have hz0 : (negate zero).fv = 0 := by rw [negate_fv, zero_fv, neg_zero]
  by_cases hi : x.isInf = true
  · unfold sub add
    simp only [hx, hzN, hi, hzI, Bool.or_false, Bool.false_and, Bool.false_eq_true, if_false, if_true]
  · have hf : x.isFinite = true := by
      rw [isFinite_iff]
      have h1 := isNaN_eq_false.mp hx
      have h2 : x.mag ≠ infMag := by
        intro h
        exact hi (by unfold isInf; exact decide_eq_true h)
      omega
    by_cases h0 : x.fv = 0
    · unfold sub
      rw [add_finite hf hzf, hzn, hz0, h0, Bool.and_true, add_zero]
      unfold rnd
      rw [if_pos rfl]
      conv_rhs => rw [← mk'_eta x, fv_eq_zero.mp h0]
    · have e : (sub x zero).fv = x.fv := by
        rw [sub_fv hf (by decide), zero_fv, Int.sub_zero]
        have := rfv_exact hx (B := 1) (by norm_num)
        rwa [Nat.cast_one, mul_one] at this
      exact eq_of_fv_eq e (by rw [e]; exact h0)

/-- A difference that is negative zero. -/
theorem sub_negZero {x m : F64} (hx : x.isFinite = true) (hm : m.isFinite = true) (h : sub x m = negZero) : m = zero := by
  have h0 : negZero.fv = 0 := fv_eq_zero.mpr (by decide)
  have hn : negZero.neg = true := by decide
  unfold sub at h
  rw [add_finite hx (negate_finite hm)] at h
  unfold rnd at h
  split at h
  · rename_i h1
    have h2 := congrArg F64.neg h
    rw [neg_mk' _ (by norm_num), hn, Bool.and_eq_true, negate_neg, Bool.not_eq_true'] at h2
    rw [negate_fv] at h1
    obtain ⟨h2, h3⟩ := h2
    have hxn : x.fv ≤ 0 := by unfold fv; rw [h2]; simp
    have hmp : 0 ≤ m.fv := by unfold fv; rw [h3]; simp
    have hm0 : m.fv = 0 := by omega
    rcases zero_of_fv hm0 with e | e
    · exact e
    · rw [e, hn] at h3
      exact absurd h3 (by decide)
  · rename_i h1
    have h2 := congrArg F64.mag h
    rw [mag_mk' _ (roundMag_lt63 _ _)] at h2
    have h3 : negZero.mag = 0 := by decide
    rw [h3] at h2
    have h4 : fixMag 1 ≤ (x.fv + (negate m).fv).natAbs := by
      have : fixMag 1 = 1 := by decide
      omega
    have h5 := le_roundMag (m := 1) (A := (x.fv + (negate m).fv).natAbs) (B := 1) (by norm_num) (by decide) (by rw [mul_one]; exact h4)
    omega

/-- The smallest of the numbers. -/
def least (a : F64) (l : List F64) : F64 := l.foldl (fun m x => stdMin x m) a

theorem least_spec (l : List F64) (a : F64) (ha : a.isNaN = false) (hl : ∀ x ∈ l, x.isNaN = false) :
    (least a l).isNaN = false ∧ (least a l).fv ≤ a.fv ∧ (∀ x ∈ l, (least a l).fv ≤ x.fv) ∧ (least a l = a ∨ least a l ∈ l) := by
  induction l generalizing a with
  | nil => exact ⟨ha, le_refl _, by simp, .inl rfl⟩
  | cons x l ih =>
    have hx := hl x (by simp)
    have hm : (stdMin x a).isNaN = false ∧ (stdMin x a).fv ≤ a.fv ∧ (stdMin x a).fv ≤ x.fv ∧ (stdMin x a = a ∨ stdMin x a = x) := by
      unfold stdMin
      split
      · rename_i h
        exact ⟨ha, le_refl _, (lt_iff.mp h).2.2.le, .inl rfl⟩
      · rename_i h
        rw [Bool.not_eq_true, lt_eq_false ha hx] at h
        exact ⟨hx, h, le_refl _, .inr rfl⟩
    obtain ⟨i1, i2, i3, i4⟩ := ih (stdMin x a) hm.1 (fun y hy => hl y (by simp [hy]))
    change (least (stdMin x a) l).isNaN = false ∧ (least (stdMin x a) l).fv ≤ a.fv ∧ (∀ y ∈ x :: l, (least (stdMin x a) l).fv ≤ y.fv)
      ∧ (least (stdMin x a) l = a ∨ least (stdMin x a) l ∈ x :: l)
    refine ⟨i1, i2.trans hm.2.1, ?_, ?_⟩
    · intro y hy
      rcases List.mem_cons.mp hy with rfl | hy
      · exact i2.trans hm.2.2.1
      · exact i3 y hy
    · rcases i4 with e | e
      · rcases hm.2.2.2 with e' | e'
        · exact .inl (e.trans e')
        · exact .inr (by rw [e, e']; simp)
      · exact .inr (by simp [e])

/-- Taking the minimum away a second time changes nothing. -/
theorem least_twice (l : List F64) (hl : ∀ x ∈ l, x.isFinite = true) (x : F64) (hx : x ∈ l) :
    sub (sub x (least maxVal l)) (least maxVal (l.map (fun y => sub y (least maxVal l)))) = sub x (least maxVal l) := by
  have hM : maxVal.isFinite = true := by decide
  have hMn : maxVal.isNaN = false := by decide
  obtain ⟨m1, m2, m3, m4⟩ := least_spec l maxVal hMn (fun y hy => not_nan_of_finite (hl y hy))
  have hmf : (least maxVal l).isFinite = true := by
    rcases m4 with e | e
    · rw [e]; exact hM
    · exact hl _ e
  generalize hm : least maxVal l = m at *
  have hnan : ∀ y ∈ l, (sub y m).isNaN = false := fun y hy => sub_not_nan (hl y hy) hmf
  by_cases h0 : m = zero
  · have e : l.map (fun y => sub y m) = l := by
      rw [List.map_congr_left (g := id) (fun y hy => by rw [h0]; exact sub_zero' (not_nan_of_finite (hl y hy))), List.map_id]
    rw [e, hm, h0, sub_zero' (by rw [← h0]; exact hnan x hx)]
  · obtain ⟨n1, n2, n3, n4⟩ := least_spec (l.map (fun y => sub y m)) maxVal hMn (by
      intro z hz
      obtain ⟨y, hy, rfl⟩ := List.mem_map.mp hz
      exact hnan y hy)
    have hmem : ∃ y ∈ l, y.fv = m.fv := by
      rcases m4 with e | e
      · refine ⟨x, hx, le_antisymm ?_ (m3 x hx)⟩
        rw [e]
        have h1 : x.mag ≤ maxVal.mag := by
          have h2 := isFinite_iff.mp (hl x hx)
          have h3 : maxVal.mag = infMag - 1 := by decide
          omega
        have h4 : maxVal.fv = fixMag maxVal.mag := by
          unfold fv
          rw [if_neg (by decide)]
        rw [h4]
        have h5 : (fixMag x.mag : Int) ≤ fixMag maxVal.mag := by exact_mod_cast fixMag_le_iff.mpr h1
        have h6 := fv_natAbs x
        omega
      · exact ⟨m, e, rfl⟩
    obtain ⟨y, hy, ey⟩ := hmem
    have hs : ∀ z ∈ l, 0 ≤ (sub z m).fv := by
      intro z hz
      rw [sub_fv (hl z hz) hmf]
      exact rfv_nonneg (by have := m3 z hz; omega)
    have hy0 : (sub y m).fv = 0 := by rw [sub_fv (hl y hy) hmf, ey, Int.sub_self, rfv_zero (by norm_num)]
    have hle := n3 _ (List.mem_map_of_mem hy)
    rw [hy0] at hle
    have key : least maxVal (l.map (fun y => sub y m)) = zero := by
      rcases n4 with e | e
      · rw [e] at hle
        have h4 : maxVal.fv = fixMag maxVal.mag := by
          unfold fv
          rw [if_neg (by decide)]
        have h7 : 0 < fixMag maxVal.mag := by
          rw [Nat.pos_iff_ne_zero, Ne, fixMag_eq_zero]
          decide
        omega
      · obtain ⟨z, hz, e⟩ := List.mem_map.mp e
        rw [← e] at hle ⊢
        rcases zero_of_fv (le_antisymm hle (hs z hz)) with e' | e'
        · exact e'
        · exact absurd (sub_negZero (hl z hz) hmf e') h0
    rw [key, sub_zero' (hnan x hx)]

end Min

theorem ofPoints_least {α : Type} [HasXYZ α] (ps : List α) :
    (Extent.ofPoints ps).minp.x = least F64.maxVal (ps.map fun q => (pt q).x)
      ∧ (Extent.ofPoints ps).minp.y = least F64.maxVal (ps.map fun q => (pt q).y)
      ∧ (Extent.ofPoints ps).minp.z = least F64.maxVal (ps.map fun q => (pt q).z) := by
  have key : ∀ (ps : List α) (e : Extent),
      (ps.foldl (fun e p => Extent.grow e (pt p)) e).minp.x = least e.minp.x (ps.map fun q => (pt q).x)
      ∧ (ps.foldl (fun e p => Extent.grow e (pt p)) e).minp.y = least e.minp.y (ps.map fun q => (pt q).y)
      ∧ (ps.foldl (fun e p => Extent.grow e (pt p)) e).minp.z = least e.minp.z (ps.map fun q => (pt q).z) := by
    intro ps
    induction ps with
    | nil => exact fun e => ⟨rfl, rfl, rfl⟩
    | cons q ps ih => exact fun e => ih (Extent.grow e (pt q))
  exact key ps Extent.initial

/-- The point with the corner taken away. -/
def movedBy (m : Pt F64) (zFlag : Bool) (p : PointRecord) : PointRecord :=
  { p with x := F64.sub p.x m.x, y := F64.sub p.y m.y, z := if zFlag then F64.sub p.z m.z else p.z }

theorem subtractMin_eq (b : Build) (f : SpocFile) (hu : Uniform f.prs) (zFlag : Bool) :
    Tool.subtractMin b f zFlag = .ok { f with prs := f.prs.map (movedBy (Extent.ofPoints f.prs).minp zFlag) } := by
  unfold Tool.subtractMin
  rw [Tool.uniform_valid hu, require_true, Res.ok_bind]
  simp only []
  exact Tool.setRecords_ok (Tool.allSame_map hu (fun p q h => h))

theorem moved_x (m : Pt F64) (zFlag : Bool) (p : PointRecord) : (pt (movedBy m zFlag p)).x = F64.sub (pt p).x m.x := rfl
theorem moved_y (m : Pt F64) (zFlag : Bool) (p : PointRecord) : (pt (movedBy m zFlag p)).y = F64.sub (pt p).y m.y := rfl
theorem moved_z (m : Pt F64) (p : PointRecord) : (pt (movedBy m true p)).z = F64.sub (pt p).z m.z := rfl

theorem moved_again (m m' : Pt F64) (zFlag : Bool) (p : PointRecord) :
    movedBy m' zFlag (movedBy m zFlag p) = { p with x := F64.sub (F64.sub p.x m.x) m'.x, y := F64.sub (F64.sub p.y m.y) m'.y,
                                                    z := if zFlag then F64.sub (F64.sub p.z m.z) m'.z else p.z } := by
  unfold movedBy
  cases zFlag
  · simp only [Bool.false_eq_true, if_false]
  · simp only [if_true]

/-- Subtracting the minimum a second time changes nothing. -/
theorem subtractMin_twice (b : Build) (f g : SpocFile) (hu : Uniform f.prs) (zFlag : Bool)
    (hf : ∀ q ∈ f.prs, q.x.isFinite = true ∧ q.y.isFinite = true ∧ (zFlag = true → q.z.isFinite = true))
    (h : Tool.subtractMin b f zFlag = .ok g) : Tool.subtractMin b g zFlag = .ok g := by
  have hu' : Uniform g.prs := by
    rw [subtractMin_eq b f hu zFlag] at h
    rw [← Res.ok.inj h]
    intro p hp q hq
    obtain ⟨p', hp', rfl⟩ := List.mem_map.mp hp
    obtain ⟨q', hq', rfl⟩ := List.mem_map.mp hq
    exact hu p' hp' q' hq'
  rw [subtractMin_eq b g hu' zFlag]
  rw [subtractMin_eq b f hu zFlag] at h
  have hg := Res.ok.inj h
  obtain ⟨e1, e2, e3⟩ := ofPoints_least f.prs
  obtain ⟨d1, d2, d3⟩ := ofPoints_least g.prs
  have hgp : g.prs = f.prs.map (movedBy (Extent.ofPoints f.prs).minp zFlag) := by rw [← hg]
  generalize (Extent.ofPoints g.prs).minp = m' at *
  generalize (Extent.ofPoints f.prs).minp = m at *
  have kx : ∀ p ∈ f.prs, F64.sub (F64.sub p.x m.x) m'.x = F64.sub p.x m.x := by
    intro p hp
    have h1 : (g.prs.map fun q => (pt q).x) = (f.prs.map fun q => (pt q).x).map (fun y => F64.sub y m.x) := by
      rw [hgp, List.map_map, List.map_map]
      exact List.map_congr_left fun q _ => moved_x m zFlag q
    rw [d1, h1, e1]
    exact least_twice (f.prs.map fun q => (pt q).x) (by
      intro x hx
      obtain ⟨q, hq, rfl⟩ := List.mem_map.mp hx
      exact (hf q hq).1) p.x (List.mem_map.mpr ⟨p, hp, rfl⟩)
  have ky : ∀ p ∈ f.prs, F64.sub (F64.sub p.y m.y) m'.y = F64.sub p.y m.y := by
    intro p hp
    have h1 : (g.prs.map fun q => (pt q).y) = (f.prs.map fun q => (pt q).y).map (fun y => F64.sub y m.y) := by
      rw [hgp, List.map_map, List.map_map]
      exact List.map_congr_left fun q _ => moved_y m zFlag q
    rw [d2, h1, e2]
    exact least_twice (f.prs.map fun q => (pt q).y) (by
      intro x hx
      obtain ⟨q, hq, rfl⟩ := List.mem_map.mp hx
      exact (hf q hq).2.1) p.y (List.mem_map.mpr ⟨p, hp, rfl⟩)
  have kz : zFlag = true → ∀ p ∈ f.prs, F64.sub (F64.sub p.z m.z) m'.z = F64.sub p.z m.z := by
    intro hz p hp
    have h1 : (g.prs.map fun q => (pt q).z) = (f.prs.map fun q => (pt q).z).map (fun y => F64.sub y m.z) := by
      rw [hgp, List.map_map, List.map_map, hz]
      exact List.map_congr_left fun q _ => moved_z m q
    rw [d3, h1, e3]
    exact least_twice (f.prs.map fun q => (pt q).z) (by
      intro x hx
      obtain ⟨q, hq, rfl⟩ := List.mem_map.mp hx
      exact (hf q hq).2.2 hz) p.z (List.mem_map.mpr ⟨p, hp, rfl⟩)
  have hp : g.prs.map (movedBy m' zFlag) = g.prs := by
    conv_rhs => rw [← List.map_id g.prs]
    refine List.map_congr_left ?_
    rw [hgp]
    intro p' hp'
    obtain ⟨p, hp, rfl⟩ := List.mem_map.mp hp'
    rw [id, moved_again, kx p hp, ky p hp]
    unfold movedBy
    cases zFlag with
    | false => simp only [Bool.false_eq_true, if_false]
    | true => rw [if_pos rfl, if_pos rfl, kz rfl p hp]
  rw [hp]

/-! ## Transform commands -/

open Transform AppUtils Text

/-- The operation looks at other fields than it changes, or it changes nothing the second time. -/
def Stable (R W : List Field) (op : Op) : Prop :=
  Local R W op ∧ ((∀ f ∈ R, f ∉ W) ∨ ((∃ f, R = [f] ∧ W = [f]) ∧ ∀ n p m, op n p = .ok m → op n m = .ok m))

/-- A point with a mixture of old and new values leads to the same values. -/
theorem stable_same {R W : List Field} {op : Op} (h : Stable R W op) {n : Nat} {p m p' : PointRecord} (hm : op n p = .ok m)
    (hl : p'.extra.length = p.extra.length) (hR : ∀ f ∈ R, f.get p' = f.get p ∨ f.get p' = f.get m) :
    ∃ m', op n p' = .ok m' ∧ SameExcept W p' m' ∧ ∀ f ∈ W, f.get m' = f.get m := by
  have key : (∀ f ∈ R, f.get p' = f.get p) ∨ ((∀ f ∈ R, f.get p' = f.get m) ∧ op n m = .ok m) := by
    rcases h.2 with hd | ⟨⟨f, rfl, rfl⟩, hi⟩
    · left
      intro f hf
      rcases hR f hf with e | e
      · exact e
      · rw [e, (h.1.frame n p m hm).2 f (hd f hf)]
    · rcases hR f (by simp) with e | e
      · exact .inl (by simpa using e)
      · exact .inr ⟨by simpa using e, hi n p m hm⟩
  rcases key with hk | ⟨hk, hi⟩
  · obtain ⟨m', h1, h2⟩ := h.1.same n p m p' hm hl hk
    exact ⟨m', h1, h.1.frame n p' m' h1, h2⟩
  · obtain ⟨m', h1, h2⟩ := h.1.same n m m p' hi (hl.trans (h.1.frame n p m hm).1.symm) hk
    exact ⟨m', h1, h.1.frame n p' m' h1, h2⟩

/-- The operations with the fields that they look at and change. -/
abbrev Plan := List (List Field × List Field × Op)

/-- No operation looks at a field that a later one changes. -/
def Ordered (l : Plan) : Prop := l.Pairwise (fun a b => ∀ f ∈ b.2.1, f ∉ a.1)

theorem plan_frame (l : Plan) (hl : ∀ a ∈ l, Stable a.1 a.2.1 a.2.2) (n : Nat) (p q : PointRecord)
    (h : applyOps n (l.map (·.2.2)) p = .ok q) : SameExcept (l.flatMap (·.2.1)) p q := by
  induction l generalizing p with
  | nil =>
    obtain rfl := Res.ok.inj h
    exact same_refl _ _
  | cons a l ih =>
    rw [List.map_cons] at h
    simp only [applyOps, Res.bind_eq_ok] at h
    obtain ⟨m, hm, h⟩ := h
    have h1 := (hl a (by simp)).1.frame n p m hm
    have h2 := ih (fun b hb => hl b (by simp [hb])) m h
    refine ⟨h2.1.trans h1.1, fun f hf => ?_⟩
    rw [List.flatMap_cons, List.mem_append, not_or] at hf
    exact (h2.2 f hf.2).trans (h1.2 f hf.1)

/-- A point that has, in every field, the value from before or after leads to the same point. -/
theorem plan_same (l : Plan) (hl : ∀ a ∈ l, Stable a.1 a.2.1 a.2.2) (ho : Ordered l) (n : Nat) (p q p' : PointRecord)
    (h : applyOps n (l.map (·.2.2)) p = .ok q) (hx : p'.extra.length = p.extra.length) (hp : ∀ f : Field, f.get p' = f.get p ∨ f.get p' = f.get q) :
    applyOps n (l.map (·.2.2)) p' = .ok q := by
  induction l generalizing p p' with
  | nil =>
    obtain rfl := Res.ok.inj h
    have e : p' = p := eq_of_get (fun f => by rcases hp f with e | e <;> exact e)
    rw [e]
    rfl
  | cons a l ih =>
    have hf := plan_frame (a :: l) hl n p q h
    rw [List.map_cons] at h ⊢
    simp only [applyOps, Res.bind_eq_ok] at h ⊢
    obtain ⟨m, hm, h⟩ := h
    have ho := List.pairwise_cons.mp ho
    have hl' : ∀ b ∈ l, Stable b.1 b.2.1 b.2.2 := fun b hb => hl b (by simp [hb])
    have h2 := plan_frame l hl' n m q h
    have h1 := (hl a (by simp)).1.frame n p m hm
    obtain ⟨m', g1, g2, g3⟩ := stable_same (hl a (by simp)) hm hx (fun f hf => by
      rcases hp f with e | e
      · exact .inl e
      · refine .inr (e.trans (h2.2 f ?_))
        rw [List.mem_flatMap]
        rintro ⟨b, hb, hfb⟩
        exact ho.1 b hb f hfb hf)
    refine ⟨m', g1, ih hl' ho.2 m m' h (by rw [g2.1, hx, h1.1]) (fun f => ?_)⟩
    by_cases hW : f ∈ a.2.1
    · exact .inl (g3 f hW)
    · rw [g2.2 f hW, h1.2 f hW]
      exact hp f

theorem plan_again (l : Plan) (hl : ∀ a ∈ l, Stable a.1 a.2.1 a.2.2) (ho : Ordered l) (n : Nat) (p q : PointRecord)
    (h : applyOps n (l.map (·.2.2)) p = .ok q) : applyOps n (l.map (·.2.2)) q = .ok q :=
  plan_same l hl ho n p q q h (plan_frame l hl n p q h).1 (fun _ => .inr rfl)

theorem replace_again (t : Str) (v1 v2 : UInt32) (j : Nat) (p m : PointRecord) (h : replaceBody t v1 v2 j p = .ok m) :
    replaceBody t v1 v2 j m = .ok m := by
  unfold replaceBody at h ⊢
  split at h
  case h_7 =>
    split at h
    · simp at h
    · rename_i v hv
      obtain ⟨hlt, -⟩ := List.getElem?_eq_some_iff.mp hv
      obtain rfl := Res.ok.inj h
      by_cases e : v.toNat = v1.toNat
      · rw [if_pos e]
        simp only [List.getElem?_set_self hlt]
        split <;> simp
      · rw [if_neg e, hv]
        simp only [if_neg e]
  case h_8 => exact rfl
  all_goals
    obtain rfl := Res.ok.inj h
    split
    · simp
    · rename_i e
      simp

theorem replaceNot_again {t : Str} {f : Field} (h : Selects t f) (hf : f ∉ wrongFields) (ef : Nat) (vs : List UInt32) {op : Op}
    (hop : replaceNotOp t vs ef = .ok op) (n : Nat) (p m : PointRecord) (hm : op n p = .ok m) : op n m = .ok m := by
  obtain ⟨hc, -, w, hw, -⟩ := replaceNot_spec h hf ef vs op hop n p m hm
  unfold replaceNotOp at hop
  rw [isXYZ_iff h, hc] at hop
  simp only [Bool.false_eq_true, if_false] at hop
  split at hop
  · simp at hop
  obtain rfl := Res.ok.inj hop
  have hm0 := hm
  simp only [replaceNotLoop_spec h hc ef p vs.dropLast w hw, Res.ok_bind] at hm
  split at hm
  · cases h with
    | e h1 h2 =>
      rename_i t k
      simp only [replaceNotAssign, h1, h2] at hm
      split at hm
      · rename_i hlt
        obtain rfl := Res.ok.inj hm
        have hg : (Field.e k).get { p with extra := p.extra.set k (UInt64.ofInt (toInt (vs.getLastD 0))) }
            = some (UInt64.ofInt (toInt (vs.getLastD 0))).toNat := by
          simp [Field.get, List.getElem?_set_self hlt]
        simp only [replaceNotLoop_spec (.e h1 h2) hc ef _ vs.dropLast _ hg, Res.ok_bind]
        split
        · simp [replaceNotAssign, h1, h2, hlt]
        · rfl
      · simp at hm
    | c =>
      simp only [replaceNotAssign, label, List.headD_cons] at hm
      obtain rfl := Res.ok.inj hm
      have hg : Field.c.get { p with c := UInt32.ofInt (toInt (vs.getLastD 0)) } = some (UInt32.ofInt (toInt (vs.getLastD 0))).toNat := rfl
      simp only [replaceNotLoop_spec .c hc ef _ vs.dropLast _ hg, Res.ok_bind]
      split
      · simp [replaceNotAssign, label]
      · rfl
    | x => simp [Field.isCoord] at hc
    | y => simp [Field.isCoord] at hc
    | z => simp [Field.isCoord] at hc
    | _ => simp [wrongFields] at hf
  · obtain rfl := Res.ok.inj hm
    exact hm0

/-- The commands that give fields values. -/
def assigning : List String := ["set", "replace", "replace-not", "copy-field"]

theorem stable_command (b : Build) (env : Env) (seed ef : Nat) (c : Transform.Command) (op : Op) (hc : c.name ∈ assigning)
    (hop : parseCommand b env seed ef c = .ok op)
    (hwrong : c.name = "replace-not" → ∀ f ∈ wrongFields, ¬ Named c.name c.params [f])
    (hcopy : c.name = "copy-field" → ∀ R W, Uses c.name c.params R → Named c.name c.params W → ∀ f ∈ R, f ∉ W) :
    ∃ R W, Uses c.name c.params R ∧ Named c.name c.params W ∧ Stable R W op := by
  obtain ⟨R, W, hu, hn, hloc⟩ := local_command b env seed ef c op hop hwrong
  refine ⟨R, W, hu, hn, hloc, ?_⟩
  simp only [assigning, List.mem_cons, List.not_mem_nil, or_false] at hc
  have hboth : c.name ∈ ["replace", "replace-not"] → ∃ f, R = [f] ∧ W = [f] := fun h =>
    ⟨_, uses_first (by simp at h ⊢; tauto) hu, named_first (by simp at h ⊢; tauto) hn⟩
  rcases hc with hc | hc | hc | hc
  · left
    obtain ⟨name, params⟩ := c
    simp only at hc hu hn
    subst hc
    rw [uses_set hu]
    simp
  · right
    refine ⟨hboth (by simp [hc]), ?_⟩
    unfold parseCommand at hop
    simp (decide := true) only [hc, if_true, if_false] at hop
    rw [Res.bind_eq_ok] at hop
    obtain ⟨⟨t1, r1⟩, h1, hop⟩ := hop
    simp only at hop
    rw [Res.bind_eq_ok] at hop
    obtain ⟨⟨v1, r2⟩, _, hop⟩ := hop
    simp only at hop
    rw [Res.bind_eq_ok] at hop
    obtain ⟨⟨v2, r3⟩, _, hop⟩ := hop
    simp only [replaceOp] at hop
    split at hop
    · simp at hop
    · obtain rfl := Res.ok.inj hop
      exact fun n p m h => replace_again _ _ _ _ p m h
  · right
    refine ⟨hboth (by simp [hc]), ?_⟩
    unfold parseCommand at hop
    simp (decide := true) only [hc, if_true, if_false] at hop
    rw [Res.bind_eq_ok] at hop
    obtain ⟨⟨t1, r1⟩, h1, hop⟩ := hop
    simp only at hop
    rw [Res.bind_eq_ok] at hop
    obtain ⟨⟨vs, r2⟩, _, hop⟩ := hop
    obtain ⟨rest1, f1, ht1, hr1, hd1, hs1⟩ := consumeFieldName_ok h1
    have hnm : Named c.name c.params [f1] := .first (by rw [hc]; simp) ht1 hd1
    exact replaceNot_again hs1 (fun hw => hwrong hc f1 hw hnm) ef vs hop
  · exact .inl (hcopy hc R W hu hn)

theorem plan_of (b : Build) (env : Env) (seed ef : Nat) (cs : List Transform.Command) (ops : List Op)
    (hops : cs.mapM (parseCommand b env seed ef) = .ok ops) (hc : ∀ c ∈ cs, c.name ∈ assigning)
    (hwrong : ∀ c ∈ cs, c.name = "replace-not" → ∀ f ∈ wrongFields, ¬ Named c.name c.params [f])
    (hcopy : ∀ c ∈ cs, c.name = "copy-field" → ∀ R W, Uses c.name c.params R → Named c.name c.params W → ∀ f ∈ R, f ∉ W)
    (hord : cs.Pairwise (fun c d => ∀ R W, Uses c.name c.params R → Named d.name d.params W → ∀ f ∈ W, f ∉ R)) :
    ∃ l : Plan, l.map (·.2.2) = ops ∧ Ordered l ∧ ∀ a ∈ l, Stable a.1 a.2.1 a.2.2 := by
  have key : ∀ (cs : List Transform.Command) (ops : List Op), List.Forall₂ (fun c op => parseCommand b env seed ef c = .ok op) cs ops →
      (∀ c ∈ cs, c.name ∈ assigning) →
      (∀ c ∈ cs, c.name = "replace-not" → ∀ f ∈ wrongFields, ¬ Named c.name c.params [f]) →
      (∀ c ∈ cs, c.name = "copy-field" → ∀ R W, Uses c.name c.params R → Named c.name c.params W → ∀ f ∈ R, f ∉ W) →
      ∃ l : Plan, l.map (·.2.2) = ops
        ∧ List.Forall₂ (fun c (a : List Field × List Field × Op) => Uses c.name c.params a.1 ∧ Named c.name c.params a.2.1 ∧ Stable a.1 a.2.1 a.2.2)
          cs l := by
    intro cs ops h
    induction h with
    | nil => exact fun _ _ _ => ⟨[], rfl, .nil⟩
    | cons h _ ih =>
      intro h1 h2 h3
      obtain ⟨l, e, hl⟩ := ih (fun c hc => h1 c (by simp [hc])) (fun c hc => h2 c (by simp [hc])) (fun c hc => h3 c (by simp [hc]))
      obtain ⟨R, W, a1, a2, a3⟩ := stable_command b env seed ef _ _ (h1 _ (by simp)) h (h2 _ (by simp)) (h3 _ (by simp))
      exact ⟨(R, W, _) :: l, by rw [List.map_cons, e], .cons ⟨a1, a2, a3⟩ hl⟩
  obtain ⟨l, e, hl⟩ := key cs ops (mapM_eq_ok.mp hops) hc hwrong hcopy
  refine ⟨l, e, ?_, fun a ha => ?_⟩
  · clear hops hc hwrong hcopy e key
    unfold Ordered
    induction hl with
    | nil => exact .nil
    | @cons c a cs l h hl ih =>
      obtain ⟨h1, h2⟩ := List.pairwise_cons.mp hord
      refine List.pairwise_cons.mpr ⟨fun a' ha' f hf => ?_, ih h2⟩
      obtain ⟨d, hd, e⟩ : ∃ d ∈ cs, Named d.name d.params a'.2.1 := by
        clear ih hord h1 h2
        induction hl with
        | nil => simp at ha'
        | cons h' _ ih =>
          rcases List.mem_cons.mp ha' with rfl | ha'
          · exact ⟨_, by simp, h'.2.1⟩
          · obtain ⟨d, hd, e⟩ := ih ha'
            exact ⟨d, by simp [hd], e⟩
      exact h1 d hd _ _ h.1 e f hf
  · clear hops hc hwrong hcopy e key hord
    induction hl with
    | nil => simp at ha
    | cons h' _ ih =>
      rcases List.mem_cons.mp ha with rfl | ha
      · exact h'.2.2
      · exact ih ha

/-! ## Setting a field from a text -/

section SetField
open Tool

theorem setInt_again {b : Build} {name : Str} {j : Nat} {v : UInt64} {p q : PointRecord} (h : setInt b name j v p = .ok q) :
    q.extra.length = p.extra.length ∧ (isExtraField name = true → j < q.extra.length ∧ setInt b name j v q = .ok q)
      ∧ (isExtraField name = false → ∀ j', setInt b name j' v q = .ok q) := by
  unfold setInt at h ⊢
  unfold isExtraField
  split at h
  case h_7 hh =>
    simp only [hh, decide_true] at h ⊢
    obtain ⟨_, h1, h⟩ := Res.bind_eq_ok.mp h
    obtain ⟨_, h2, h⟩ := Res.bind_eq_ok.mp h
    split at h
    · rename_i hlt
      obtain rfl := Res.ok.inj h
      refine ⟨by simp, fun _ => ⟨by simpa using hlt, ?_⟩, fun hf => by simp at hf⟩
      simp [hlt]
    · simp at h
  case h_8 =>
    obtain rfl := Res.ok.inj h
    exact ⟨rfl, fun hf => by simp_all, fun _ _ => rfl⟩
  all_goals
    rename_i hh
    obtain rfl := Res.ok.inj h
    exact ⟨rfl, fun hf => by simp [hh] at hf, fun _ _ => rfl⟩

theorem forall₂_zip_again {α β : Type} {R R' : α × β → α → Prop} (A : List α) (vs : List β) (ps : List α)
    (h : List.Forall₂ R (A.zip vs) ps) (hR : ∀ p v q, R (p, v) q → p ∈ A → q ∈ ps → R' (q, v) q) : List.Forall₂ R' (ps.zip vs) ps := by
  induction A generalizing vs ps with
  | nil => cases h; exact .nil
  | cons a A ih =>
    cases vs with
    | nil => cases h; exact .nil
    | cons v vs =>
      rw [List.zip_cons_cons] at h
      cases h with
      | cons h1 h2 =>
        exact .cons (hR _ _ _ h1 (by simp) (by simp)) (ih _ _ h2 (fun p v q h hp hq => hR p v q h (by simp [hp]) (by simp [hq])))

theorem readValues_length {α : Type} (read : TextIn → α × TextIn) (n : Nat) (s : TextIn) (vs : List α) (h : readValues read n s = .ok vs) :
    vs.length = n := by
  induction n generalizing s vs with
  | zero =>
    obtain rfl := Res.ok.inj h
    rfl
  | succ n ih =>
    simp only [readValues] at h
    split at h
    · simp at h
    · obtain ⟨ws, h1, h⟩ := Res.bind_eq_ok.mp h
      obtain rfl := Res.ok.inj h
      rw [List.length_cons, ih _ _ h1]

theorem addExtra_length (f : SpocFile) (name : Str) : (addExtra f name).length = f.prs.length := by
  unfold addExtra
  dsimp only
  split <;> simp

theorem addExtra_plain (f : SpocFile) {name : Str} (h : isExtraField name = false) : addExtra f name = f.prs := by
  simp [addExtra, h]

/-- Setting the field to the same values again changes nothing. -/
theorem setField_twice (b : Build) (f g : SpocFile) (text : TextIn) (name : Str) (h : setField b f text name = .ok g) :
    setField b g text name = .ok g := by
  unfold setField at h
  obtain ⟨_, -, h⟩ := Res.bind_eq_ok.mp h
  obtain ⟨_, hgood, h⟩ := Res.bind_eq_ok.mp h
  obtain ⟨_, hname, h⟩ := Res.bind_eq_ok.mp h
  dsimp only at h
  have split : ∃ ps : List PointRecord, (if isFloatField name = true then
      (readValues (fun s => s.readDouble F64.zero) f.prs.length text).bind
        (fun vs => .ok (((addExtra f name).zip vs).map fun pv => setDouble name pv.2 pv.1))
    else (readValues (fun s => s.readU64 0) f.prs.length text).bind
        (fun vs => ((addExtra f name).zip vs).mapM fun pv => setInt b name (Tool.extraIndex f name) pv.2 pv.1)) = .ok ps
      ∧ f.cloneEmpty.setPointRecords ps = .ok g := by
    split at h
    · rename_i hfl
      obtain ⟨vs, h1, h2⟩ := Res.bind_eq_ok.mp h
      obtain ⟨ps, h3, h4⟩ := Res.bind_eq_ok.mp h2
      refine ⟨ps, ?_, h4⟩
      rw [if_pos hfl, h1]
      exact h3
    · rename_i hfl
      obtain ⟨vs, h1, h2⟩ := Res.bind_eq_ok.mp h
      obtain ⟨ps, h3, h4⟩ := Res.bind_eq_ok.mp h2
      refine ⟨ps, ?_, h4⟩
      rw [if_neg hfl, h1]
      exact h3
  clear h
  obtain ⟨ps, hps, h⟩ := split
  unfold SpocFile.setPointRecords at h
  split at h
  · simp at h
  rename_i hv
  have hv' : allSameSizeExtra ps = true := by simpa using hv
  obtain rfl := Res.ok.inj h
  have e : ({ f.cloneEmpty with prs := ps } : SpocFile).isValid = true := hv'
  unfold setField
  rw [e, require_true, Res.ok_bind, hgood, Res.ok_bind, hname, Res.ok_bind]
  dsimp only
  have hfin : (({ f.cloneEmpty with prs := ps } : SpocFile).cloneEmpty.setPointRecords ps) = .ok { f.cloneEmpty with prs := ps } := by
    unfold SpocFile.setPointRecords
    rw [hv']
    rfl
  split at hps
  · rename_i hfl
    obtain ⟨vs, h1, h2⟩ := Res.bind_eq_ok.mp hps
    obtain rfl := Res.ok.inj h2
    have hx : isExtraField name = false := by
      unfold isFloatField at hfl
      unfold isExtraField
      rw [decide_eq_true_eq] at hfl
      rcases hfl with e | e | e <;> rw [e] <;> decide
    have hlen : (((addExtra f name).zip vs).map fun pv => setDouble name pv.2 pv.1).length = f.prs.length := by
      rw [List.length_map, List.length_zip, addExtra_length, readValues_length _ _ _ _ h1, Nat.min_self]
    rw [hlen, if_pos hfl, h1, Res.ok_bind, addExtra_plain _ hx, Res.ok_bind]
    have hagain : ∀ v p, setDouble name v (setDouble name v p) = setDouble name v p := by
      intro v p
      unfold setDouble
      split <;> first | rfl | simp_all
    have key : ((((addExtra f name).zip vs).map fun pv => setDouble name pv.2 pv.1).zip vs).map (fun pv => setDouble name pv.2 pv.1)
        = ((addExtra f name).zip vs).map fun pv => setDouble name pv.2 pv.1 := by
      generalize addExtra f name = A
      clear * - hagain
      induction A generalizing vs with
      | nil => rfl
      | cons a A ih =>
        cases vs with
        | nil => rfl
        | cons v vs => simp only [List.zip_cons_cons, List.map_cons, hagain, ih]
    rw [key, hfin]
  · rename_i hfl
    obtain ⟨vs, h1, h2⟩ := Res.bind_eq_ok.mp hps
    have h3 := mapM_eq_ok.mp h2
    have hlen : ps.length = f.prs.length := by
      rw [← h3.length_eq, List.length_zip, addExtra_length, readValues_length _ _ _ _ h1, Nat.min_self]
    have hi : ∀ x y : SpocFile, isExtraField name = true → Tool.extraIndex x name = Tool.extraIndex y name := by
      intro x y hx
      unfold Tool.extraIndex
      rw [if_pos hx, if_pos hx]
    have hadd : addExtra { f.cloneEmpty with prs := ps } name = ps := by
      by_cases hx : isExtraField name = true
      · unfold addExtra
        dsimp only
        split
        · rename_i hc
          cases hq : ps with
          | nil => rfl
          | cons q qs =>
            exfalso
            rw [hq] at h3 hc
            obtain ⟨_, h4⟩ := hc
            rw [hi _ f hx] at h4
            obtain ⟨_, _, h5, -⟩ := List.forall₂_cons_right_iff.mp h3
            have h6 := ((setInt_again h5).2.1 hx).1
            have h7 : q.extra.length ≤ Tool.extraIndex f name := h4
            omega
        · rfl
      · exact addExtra_plain _ (by simpa using hx)
    rw [hlen, if_neg hfl, h1, Res.ok_bind, hadd]
    have key : (ps.zip vs).mapM (fun pv => setInt b name (Tool.extraIndex { f.cloneEmpty with prs := ps } name) pv.2 pv.1) = .ok ps := by
      rw [mapM_eq_ok]
      refine forall₂_zip_again _ _ _ h3 (fun p v q h _ _ => ?_)
      have h6 := setInt_again h
      by_cases hx : isExtraField name = true
      · rw [hi _ f hx]
        exact (h6.2.1 hx).2
      · exact h6.2.2 (by simpa using hx) _
    rw [key, Res.ok_bind, hfin]

end SetField

/-- Resizing the extra fields again changes nothing. -/
theorem resizeExtra_twice (b : Build) (f g : SpocFile) (n : Int) (hu : Uniform f.prs) (h : Tool.resizeExtra b f n = .ok g) :
    Tool.resizeExtra b g n = .ok g := by
  unfold Tool.resizeExtra at h
  rw [Tool.uniform_valid hu, require_true, Res.ok_bind] at h
  obtain ⟨_, hn, h⟩ := Res.bind_eq_ok.mp h
  rw [Tool.copy_ok hu, Res.ok_bind] at h
  obtain rfl := Res.ok.inj h
  have hl : ∀ q ∈ (f.resizeExtraFields (Tool.sizeT n)).prs, q.extra.length = Tool.sizeT n := by
    intro q hq
    obtain ⟨p, _, rfl⟩ := List.mem_map.mp hq
    exact (Tool.resized _ p).size
  have hu' : Uniform (f.resizeExtraFields (Tool.sizeT n)).prs := fun p hp q hq => by rw [hl p hp, hl q hq]
  unfold Tool.resizeExtra
  rw [Tool.uniform_valid hu', require_true, Res.ok_bind, hn, Res.ok_bind, Tool.copy_ok hu', Res.ok_bind]
  congr 1
  have e : ∀ (k : SpocFile) (m : Nat), (∀ q ∈ k.prs, q.extra.length = m) → k.resizeExtraFields m = k := by
    intro k m hk
    unfold SpocFile.resizeExtraFields
    have : k.prs.map (fun q => { q with extra := SpocFile.resizeExtra m q.extra }) = k.prs := by
      conv_rhs => rw [← List.map_id k.prs]
      refine List.map_congr_left fun q hq => ?_
      have h1 := Tool.resize_get (n := m) (e := q.extra) (by rw [hk q hq])
      rw [h1, hk q hq, Nat.sub_self, List.replicate_zero, List.append_nil]
      rfl
    exact congrArg (fun l => { k with prs := l }) this
  exact e _ _ hl

/-! ## Filtering -/

section Filter
open Subsampling

/-- Nothing is removed from points in different places. -/
theorem unique_again (b : Build) (sh : Shuffle) (hsh : sh.Lawful) (ps qs rs : List PointRecord) (seed : Nat)
    (h : uniqueXyzPoints b sh ps seed = .ok qs) (hr : rs.Sublist qs) : uniqueXyzPoints b sh rs 0 = .ok rs := by
  obtain ⟨ks, h1, h2, h3, h4, -⟩ := c26_unique b sh hsh ps seed
  obtain ⟨qs', hq, hf⟩ := mapM_at ps ks h3
  have hu : uniqueXyzPoints b sh ps seed = .ok qs' := by unfold uniqueXyzPoints; rw [h1, Res.ok_bind]; exact hq
  rw [h] at hu
  obtain rfl := Res.ok.inj hu
  have hpw : qs.Pairwise (fun p q => Pt.beq (pt p) (pt q) = false) := by
    rw [List.pairwise_iff_getElem]
    intro i j hi hj hij
    have hik : i < ks.length := by rw [hf.length_eq]; exact hi
    have hjk : j < ks.length := by rw [hf.length_eq]; exact hj
    have e1 := forall₂_get hf hik hi
    have e2 := forall₂_get hf hjk hj
    by_contra hc
    rw [Bool.not_eq_false] at hc
    obtain ⟨n1, n2, hs⟩ := (c14_point_equality_meaning _ _).mp hc
    have := h4 _ (List.getElem_mem hik) _ (List.getElem_mem hjk) _ _ e1 e2 n1 n2 hs
    have := h2.getElem_inj_iff.mp this
    omega
  have hpr := hpw.sublist hr
  have hidx := uniqueXyzIndexes_eq b sh hsh rs 0
  rw [order_zero, dedupe_id _ (by
    rw [List.pairwise_iff_getElem]
    intro i j hi hj hij
    rw [List.getElem_range, List.getElem_range]
    rw [List.length_range] at hi hj
    have := List.pairwise_iff_getElem.mp hpr i j hi hj hij
    unfold sameLoc
    rw [List.getElem?_eq_getElem hi, List.getElem?_eq_getElem hj]
    exact this)] at hidx
  obtain ⟨ts, ht, hft⟩ := mapM_at rs (List.range rs.length) (fun k hk => List.mem_range.mp hk)
  have e := forall₂_filterMap hft
  rw [filterMap_range] at e
  unfold uniqueXyzPoints
  rw [hidx, Res.ok_bind, ht, e]

/-- Filtering again changes nothing, if points are judged by themselves and by the points in the same place. -/
theorem filterSteps_again (b : Build) (sh : Shuffle) (hsh : sh.Lawful) (r : FilterRequest) (hres : r.resolution = none)
    (hseed : r.unique = true → r.seed = 0) (ps qs : List PointRecord) (h : FilterSteps b sh r ps qs) : FilterSteps b sh r qs qs := by
  obtain ⟨p1, p2, p3, p4, e1, e2, e3, e4, e5⟩ := h
  rw [hres] at e4
  simp only at e4
  have hsub4 : qs.Sublist p3 := by
    rw [← e4]
    split at e5
    · rw [e5]
    · rw [e5]; exact List.filter_sublist
  have hsub3 : ∀ q ∈ p3, q ∈ p2 := by
    split at e3
    · rename_i hu
      obtain ⟨ks, h1, h2, h3, h4, -⟩ := c26_unique b sh hsh p2 r.seed
      obtain ⟨qs', hq, hf⟩ := mapM_at p2 ks h3
      have hu : uniqueXyzPoints b sh p2 r.seed = .ok qs' := by unfold uniqueXyzPoints; rw [h1, Res.ok_bind]; exact hq
      rw [e3] at hu
      obtain rfl := Res.ok.inj hu
      intro q hq'
      obtain ⟨i, hi, rfl⟩ := List.mem_iff_getElem.mp hq'
      exact List.mem_of_getElem? (forall₂_get hf (by rw [hf.length_eq]; exact hi) hi)
    · rw [e3]
      exact fun q hq => hq
  have hin : ∀ q ∈ qs, q ∈ p2 := fun q hq => hsub3 q (hsub4.subset hq)
  have k2 : ∀ q ∈ qs, q.c.toNat ∉ r.remove := by
    intro q hq
    have := hin q hq
    rw [e2, List.mem_filter, decide_eq_true_eq] at this
    exact this.2
  have k1 : ∀ q ∈ qs, r.keep = [] ∨ q.c.toNat ∈ r.keep := by
    intro q hq
    have := hin q hq
    rw [e2, List.mem_filter, e1] at this
    split at this
    · rename_i hk; exact .inl hk
    · have := this.1
      rw [List.mem_filter, decide_eq_true_eq] at this
      exact .inr this.2
  refine ⟨qs, qs, qs, qs, ?_, ?_, ?_, ?_, ?_⟩
  · split
    · rfl
    · rename_i hk
      rw [List.filter_eq_self.mpr]
      intro q hq
      rcases k1 q hq with e | e
      · exact absurd e hk
      · exact decide_eq_true e
  · rw [List.filter_eq_self.mpr]
    exact fun q hq => decide_eq_true (k2 q hq)
  · split
    · rename_i hu
      rw [if_pos hu] at e3
      rw [hseed hu] at e3 ⊢
      exact unique_again b sh hsh p2 p3 qs 0 e3 hsub4
    · rfl
  · rw [hres]
  · split
    · rfl
    · rename_i c v hc
      rw [hc] at e5
      simp only at e5
      rw [List.filter_eq_self.mpr]
      intro q hq
      rw [e5, List.mem_filter] at hq
      exact hq.2

end Filter

end Spoc.Twice
