import Verif.Model.Viewer
import Verif.Proofs.Rotation
import Verif.Proofs.ResList
import Verif.Proofs.Tile

/-!
# Lemmas about the viewer
-/

namespace Spoc

open Spec F64

namespace Viewer

theorem npLess_fold (l : List F64) : ∀ m, m.isFinite = true → (∀ a ∈ l, a.isFinite = true) →
    (l.foldl npLess m).isFinite = true ∧ l.foldl npLess m ∈ m :: l ∧ ∀ a ∈ m :: l, (l.foldl npLess m).fv ≤ a.fv := by
  induction l with
  | nil => intro m hm _; exact ⟨hm, by simp, by simp⟩
  | cons b l ih =>
    intro m hm hl
    have hb := hl b (by simp)
    rw [List.foldl_cons]
    have e : npLess m b = if F64.lt b m then b else m := by
      unfold npLess
      rw [if_neg (by rw [not_nan_of_finite hm]; simp), if_neg (by rw [not_nan_of_finite hb]; simp)]
    rw [e]
    have hl' : ∀ a ∈ l, a.isFinite = true := fun a ha => hl a (by simp [ha])
    split
    · rename_i h
      have h' := (lt_iff.mp h).2.2
      obtain ⟨i1, i2, i3⟩ := ih b hb hl'
      refine ⟨i1, List.mem_cons_of_mem _ i2, ?_⟩
      intro a ha
      rcases List.mem_cons.mp ha with rfl | ha
      · exact le_trans (i3 b (by simp)) h'.le
      · exact i3 a ha
    · rename_i h
      have h' := (lt_eq_false (not_nan_of_finite hb) (not_nan_of_finite hm)).mp (by simpa using h)
      obtain ⟨i1, i2, i3⟩ := ih m hm hl'
      refine ⟨i1, ?_, ?_⟩
      · rcases List.mem_cons.mp i2 with e | i2
        · rw [e]; simp
        · simp [i2]
      · intro a ha
        rcases List.mem_cons.mp ha with rfl | ha
        · exact i3 _ (by simp)
        · rcases List.mem_cons.mp ha with rfl | ha
          · exact le_trans (i3 m (by simp)) h'
          · exact i3 a (by simp [ha])

theorem npMore_fold (l : List F64) : ∀ m, m.isFinite = true → (∀ a ∈ l, a.isFinite = true) →
    (l.foldl npMore m).isFinite = true ∧ l.foldl npMore m ∈ m :: l ∧ ∀ a ∈ m :: l, a.fv ≤ (l.foldl npMore m).fv := by
  induction l with
  | nil => intro m hm _; exact ⟨hm, by simp, by simp⟩
  | cons b l ih =>
    intro m hm hl
    have hb := hl b (by simp)
    rw [List.foldl_cons]
    have e : npMore m b = if F64.lt m b then b else m := by
      unfold npMore
      rw [if_neg (by rw [not_nan_of_finite hm]; simp), if_neg (by rw [not_nan_of_finite hb]; simp)]
    rw [e]
    have hl' : ∀ a ∈ l, a.isFinite = true := fun a ha => hl a (by simp [ha])
    split
    · rename_i h
      have h' := (lt_iff.mp h).2.2
      obtain ⟨i1, i2, i3⟩ := ih b hb hl'
      refine ⟨i1, List.mem_cons_of_mem _ i2, ?_⟩
      intro a ha
      rcases List.mem_cons.mp ha with rfl | ha
      · exact le_trans h'.le (i3 b (by simp))
      · exact i3 a ha
    · rename_i h
      have h' := (lt_eq_false (not_nan_of_finite hm) (not_nan_of_finite hb)).mp (by simpa using h)
      obtain ⟨i1, i2, i3⟩ := ih m hm hl'
      refine ⟨i1, ?_, ?_⟩
      · rcases List.mem_cons.mp i2 with e | i2
        · rw [e]; simp
        · simp [i2]
      · intro a ha
        rcases List.mem_cons.mp ha with rfl | ha
        · exact i3 _ (by simp)
        · rcases List.mem_cons.mp ha with rfl | ha
          · exact le_trans h' (i3 m (by simp))
          · exact i3 a (by simp [ha])

/-- The quotient that becomes the index, for nine colors. -/
def quotient (lo hi a : F64) : F64 := F64.div (F64.mul (F64.sub a lo) (F64.ofInt 8)) (F64.sub hi lo)

theorem eight_times {w : F64} (hw : w.isFinite = true) (hb : |w.val| ≤ 2 ^ 999) :
    (F64.mul w (F64.ofInt 8)).isFinite = true ∧ (F64.mul w (F64.ofInt 8)).fv = 8 * w.fv := by
  have h8 : (8 : Int).natAbs < 2 ^ 53 := by decide
  have f : (F64.mul w (F64.ofInt 8)).isFinite = true := by
    apply mul_finite_of hw (ofInt_finite h8) two1002_finite
    rw [ofInt_val h8, two1002_val, abs_mul, abs_of_pos (show (0:ℝ) < ((8 : Int) : ℝ) by norm_num),
      abs_of_pos (show (0:ℝ) < 2 ^ 1002 by positivity)]
    have e : (2 : ℝ) ^ 1002 = 2 ^ 999 * 8 := by rw [show (1002 : Nat) = 999 + 3 from rfl, pow_add]; norm_num
    rw [e]
    push_cast
    exact mul_le_mul_of_nonneg_right hb (by norm_num)
  refine ⟨f, ?_⟩
  have e1 : (F64.mul w (F64.ofInt 8)).fv = rfv (w.fv * 8) 1 := by
    rw [mul_fv hw (ofInt_finite h8), ofInt_fv h8]
    have := Utils.rfv_scale (w.fv * 8) (B := 1) (c := one1074) (by norm_num) one1074_pos
    rw [Nat.one_mul] at this
    rw [← mul_assoc, this]
  obtain ⟨m, e, hm, hm53⟩ := Utils.fv_dyadic w
  have e2 : w.fv * 8 = m * 2 ^ (e + 3) := by rw [hm, pow_add]; ring
  rw [e1, e2]
  have hval : |w.val| * 8 ≤ |two1002.val| := by
    rw [two1002_val, abs_of_pos (show (0:ℝ) < 2 ^ 1002 by positivity)]
    have e : (2 : ℝ) ^ 1002 = 2 ^ 999 * 8 := by rw [show (1002 : Nat) = 999 + 3 from rfl, pow_add]; norm_num
    rw [e]
    exact mul_le_mul_of_nonneg_right hb (by norm_num)
  rw [rfv_dyadic two1002_finite hm53]
  · rw [pow_add, hm]; ring
  · rw [abs_val, abs_val, div_mul_eq_mul_div, div_le_div_iff_of_pos_right one1074_pos'] at hval
    have h2 : |w.fv| * 8 ≤ |two1002.fv| := by exact_mod_cast hval
    rw [Int.abs_eq_natAbs, Int.abs_eq_natAbs] at h2
    have h3 : w.fv.natAbs * 8 ≤ two1002.fv.natAbs := by exact_mod_cast h2
    have h4 : w.fv.natAbs * 8 = m.natAbs * 2 ^ (e + 3) := by
      rw [hm, Int.natAbs_mul, Int.natAbs_pow, pow_add, mul_assoc]; rfl
    rwa [← h4]

theorem difference {lo a : F64} (hlo : lo.isFinite = true) (ha : a.isFinite = true) (b1 : |lo.val| ≤ 2 ^ 997) (b2 : |a.val| ≤ 2 ^ 997) :
    (F64.sub a lo).isFinite = true ∧ |(F64.sub a lo).val| ≤ 2 ^ 999
      ∧ 2 ^ 53 * |(F64.sub a lo).val - (a.val - lo.val)| ≤ |a.val - lo.val| := by
  have e8 : (2 : ℝ) ^ 998 = 2 ^ 997 * 2 := by rw [show (998 : Nat) = 997 + 1 from rfl, pow_succ]
  have e9 : (2 : ℝ) ^ 999 = 2 ^ 997 * 4 := by rw [show (999 : Nat) = 997 + 2 from rfl, pow_add]; norm_num
  have e12 : (2 : ℝ) ^ 1002 = 2 ^ 997 * 32 := by rw [show (1002 : Nat) = 997 + 5 from rfl, pow_add]; norm_num
  have hP : (0 : ℝ) < 2 ^ 997 := by positivity
  have d1 : |a.val - lo.val| ≤ 2 ^ 997 * 2 := by
    have := abs_sub a.val lo.val
    clear e8 e9 e12
    generalize (2 : ℝ) ^ 997 = P at *
    linarith
  have f : (F64.sub a lo).isFinite = true := by
    apply sub_finite_of ha hlo two1002_finite
    rw [two1002_val, abs_of_pos (show (0:ℝ) < 2 ^ 1002 by positivity), e12]
    clear e8 e9 e12
    generalize (2 : ℝ) ^ 997 = P at *
    linarith
  have v := sub_val ha hlo f
  refine ⟨f, ?_, v⟩
  rw [e9]
  clear e8 e9 e12
  generalize (2 : ℝ) ^ 997 = P at *
  have t : |(F64.sub a lo).val| ≤ |(F64.sub a lo).val - (a.val - lo.val)| + |a.val - lo.val| := by
    have := abs_add_le ((F64.sub a lo).val - (a.val - lo.val)) (a.val - lo.val)
    simpa using this
  have : |(F64.sub a lo).val - (a.val - lo.val)| ≤ |a.val - lo.val| := by
    have := abs_nonneg ((F64.sub a lo).val - (a.val - lo.val))
    linarith
  linarith

structure Between (lo hi a : F64) : Prop where
  flo : lo.isFinite = true
  fhi : hi.isFinite = true
  fa : a.isFinite = true
  blo : |lo.val| ≤ 2 ^ 997
  bhi : |hi.val| ≤ 2 ^ 997
  ba : |a.val| ≤ 2 ^ 997
  lt : lo.fv < hi.fv
  above : lo.fv ≤ a.fv
  below : a.fv ≤ hi.fv

theorem Between.span_pos {lo hi a : F64} (h : Between lo hi a) : 0 < (F64.sub hi lo).fv := by
  obtain ⟨f, -, v⟩ := difference h.flo h.fhi h.blo h.bhi
  rw [← val_pos]
  have hd : 0 < hi.val - lo.val := by
    have := val_lt_iff.mpr h.lt
    linarith
  rw [abs_of_pos hd] at v
  by_contra hc
  have : (F64.sub hi lo).val ≤ 0 := not_lt.mp hc
  rw [abs_of_nonpos (by linarith)] at v
  linarith

theorem Between.fv {lo hi a : F64} (h : Between lo hi a) :
    0 ≤ (F64.sub a lo).fv ∧ (F64.sub a lo).fv ≤ (F64.sub hi lo).fv := by
  rw [sub_fv h.fa h.flo, sub_fv h.fhi h.flo]
  have := h.above
  have := h.below
  exact ⟨rfv_nonneg (by omega), rfv_mono (by norm_num) (by norm_num) (by push_cast; omega)⟩

theorem Between.quotient_fv {lo hi a : F64} (h : Between lo hi a) :
    (quotient lo hi a).fv = rfv (8 * (F64.sub a lo).fv * one1074) (F64.sub hi lo).fv.natAbs := by
  obtain ⟨f1, b1, -⟩ := difference h.flo h.fa h.blo h.ba
  obtain ⟨f2, -, -⟩ := difference h.flo h.fhi h.blo h.bhi
  obtain ⟨f3, e3⟩ := eight_times f1 b1
  unfold quotient
  rw [(div_fv f3 f2 h.span_pos).1, e3]

theorem Between.quotient_range {lo hi a : F64} (h : Between lo hi a) :
    0 ≤ (quotient lo hi a).fv ∧ (quotient lo hi a).fv ≤ 8 * one1074 := by
  have h8 : (8 : Int).natAbs < 2 ^ 53 := by decide
  have sp := h.span_pos
  obtain ⟨g1, g2⟩ := h.fv
  rw [h.quotient_fv]
  constructor
  · exact rfv_nonneg (mul_nonneg (by omega) (Int.natCast_nonneg _))
  · have := rfv_le (y := F64.ofInt 8) (not_nan_of_finite (ofInt_finite h8)) (A := 8 * (F64.sub a lo).fv * one1074)
      (B := (F64.sub hi lo).fv.natAbs) (by omega) (by
        rw [ofInt_fv h8]
        have e : ((F64.sub hi lo).fv.natAbs : Int) = (F64.sub hi lo).fv := by omega
        rw [e]
        have hU : (0 : Int) ≤ one1074 := Int.natCast_nonneg _
        generalize (one1074 : Int) = U at *
        generalize (F64.sub hi lo).fv = D at *
        generalize (F64.sub a lo).fv = W at *
        nlinarith [mul_le_mul_of_nonneg_right g2 hU])
    rwa [ofInt_fv h8] at this

theorem Between.quotient_top {lo hi a : F64} (h : Between lo hi a) (e : a.fv = hi.fv) : (quotient lo hi a).fv = 8 * one1074 := by
  have h8 : (8 : Int).natAbs < 2 ^ 53 := by decide
  have sp := h.span_pos
  apply le_antisymm h.quotient_range.2
  rw [h.quotient_fv]
  have := le_rfv (y := F64.ofInt 8) (not_nan_of_finite (ofInt_finite h8)) (A := 8 * (F64.sub a lo).fv * one1074)
    (B := (F64.sub hi lo).fv.natAbs) (by omega) (by
      rw [ofInt_fv h8]
      have e' : ((F64.sub hi lo).fv.natAbs : Int) = (F64.sub hi lo).fv := by omega
      rw [e', sub_fv h.fa h.flo, sub_fv h.fhi h.flo, e]
      generalize (one1074 : Int) = U
      apply le_of_eq
      ring)
  rwa [ofInt_fv h8] at this

theorem Between.quotient_bottom {lo hi a : F64} (h : Between lo hi a) (e : a.fv = lo.fv) : (quotient lo hi a).fv = 0 := by
  have sp := h.span_pos
  rw [h.quotient_fv, sub_fv h.fa h.flo, e, sub_self, rfv_zero (by norm_num), mul_zero, zero_mul, rfv_zero (by omega)]

theorem quotient_mono {lo hi a c : F64} (h : Between lo hi a) (h' : Between lo hi c) (hac : a.fv ≤ c.fv) :
    (quotient lo hi a).fv ≤ (quotient lo hi c).fv := by
  have sp := h.span_pos
  rw [h.quotient_fv, h'.quotient_fv]
  apply rfv_mono (by omega) (by omega)
  have e : (F64.sub a lo).fv ≤ (F64.sub c lo).fv := by
    rw [sub_fv h.fa h.flo, sub_fv h'.fa h.flo]
    exact rfv_mono (by norm_num) (by norm_num) (by push_cast; omega)
  apply mul_le_mul_of_nonneg_right _ (Int.natCast_nonneg _)
  apply mul_le_mul_of_nonneg_right _ (Int.natCast_nonneg _)
  omega

theorem Between.finite {lo hi a : F64} (h : Between lo hi a) : (quotient lo hi a).isFinite = true :=
  Tile.finite_of_le_int (k := 8) (by decide) h.quotient_range.1 h.quotient_range.2

theorem Between.accurate {lo hi a : F64} (h : Between lo hi a) :
    |(quotient lo hi a).val - 8 * ((a.val - lo.val) / (hi.val - lo.val))| ≤ 1 / 2 ^ 47 := by
  obtain ⟨f1, b1, v1⟩ := difference h.flo h.fa h.blo h.ba
  obtain ⟨f2, -, v2⟩ := difference h.flo h.fhi h.blo h.bhi
  obtain ⟨f3, e3⟩ := eight_times f1 b1
  have sp := h.span_pos
  have dv := div_val f3 f2 sp h.finite
  have e4 : (F64.mul (F64.sub a lo) (F64.ofInt 8)).val = 8 * (F64.sub a lo).val := by
    unfold F64.val; rw [e3]; push_cast; ring
  rw [e4] at dv
  change 2 ^ 53 * |(quotient lo hi a).val - _| ≤ _ at dv
  have hw0 : 0 ≤ (F64.sub a lo).val := val_nonneg.mpr h.fv.1
  have hwd : (F64.sub a lo).val ≤ (F64.sub hi lo).val := val_le_iff.mpr h.fv.2
  have hd0 : 0 < (F64.sub hi lo).val := val_pos.mpr sp
  have ha : lo.val ≤ a.val := val_le_iff.mpr h.above
  have hb : a.val ≤ hi.val := val_le_iff.mpr h.below
  have hc : lo.val < hi.val := val_lt_iff.mpr h.lt
  have tiny : (2 : ℝ) ^ 52 / (one1074 : ℝ) ≤ 1 := by
    rw [div_le_one one1074_pos']
    have := le_one1074 52 (by norm_num)
    exact_mod_cast this
  generalize (quotient lo hi a).val = q at *
  generalize (F64.sub a lo).val = w at *
  generalize (F64.sub hi lo).val = d at *
  obtain ⟨n, hn⟩ : ∃ n, n = a.val - lo.val := ⟨_, rfl⟩
  obtain ⟨D, hD⟩ : ∃ D, D = hi.val - lo.val := ⟨_, rfl⟩
  rw [← hn] at v1
  rw [← hD] at v2
  rw [← hn, ← hD]
  have hn0 : 0 ≤ n := by linarith
  have hnD : n ≤ D := by linarith
  have hD0 : 0 < D := by linarith
  rw [abs_of_nonneg hn0] at v1
  rw [abs_of_pos hD0] at v2
  -- the quotient of the rounded differences
  have hwd1 : w / d ≤ 1 := (div_le_one hd0).mpr hwd
  have hwd0 : 0 ≤ w / d := div_nonneg hw0 hd0.le
  have hdD : D ≤ 2 * d := by
    have := neg_abs_le (d - D)
    have : 2 ^ 53 * (D - d) ≤ D := by nlinarith [abs_nonneg (d - D)]
    linarith
  have key : |w / d - n / D| ≤ 1 / 2 ^ 51 := by
    have e : w / d - n / D = ((w - n) * D - n * (d - D)) / (d * D) := by field_simp; ring
    rw [e, abs_div, abs_of_pos (mul_pos hd0 hD0), div_le_iff₀ (mul_pos hd0 hD0)]
    have t : |(w - n) * D - n * (d - D)| ≤ |w - n| * D + n * |d - D| := by
      have := abs_sub ((w - n) * D) (n * (d - D))
      rwa [abs_mul, abs_mul, abs_of_pos hD0, abs_of_nonneg hn0] at this
    have t1 : 2 ^ 53 * (|w - n| * D) ≤ n * D := by nlinarith
    have t2 : 2 ^ 53 * (n * |d - D|) ≤ n * D := by nlinarith
    have t3 : n * D ≤ 2 * d * D := by nlinarith
    have : 2 ^ 53 * |(w - n) * D - n * (d - D)| ≤ 2 ^ 2 * (d * D) := by linarith
    have e2 : (1 : ℝ) / 2 ^ 51 * (d * D) = 2 ^ 2 * (d * D) / 2 ^ 53 := by ring
    rw [e2, le_div_iff₀ (by norm_num)]
    linarith
  have e5 : 8 * w / d = 8 * (w / d) := by ring
  rw [e5] at dv
  rw [abs_of_nonneg (show (0:ℝ) ≤ 8 * (w / d) by linarith)] at dv
  have s : q - 8 * (n / D) = (q - 8 * (w / d)) + 8 * (w / d - n / D) := by ring
  rw [s]
  refine le_trans (abs_add_le _ _) ?_
  rw [abs_mul, abs_of_pos (show (0:ℝ) < 8 by norm_num)]
  have u1 : |q - 8 * (w / d)| ≤ 9 / 2 ^ 53 := by
    rw [le_div_iff₀ (by norm_num)]
    linarith
  have : (9 : ℝ) / 2 ^ 53 + 8 * (1 / 2 ^ 51) ≤ 1 / 2 ^ 47 := by norm_num
  linarith

end Viewer

end Spoc
