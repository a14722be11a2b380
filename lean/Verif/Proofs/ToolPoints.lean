import Verif.Spec.ToolPoints
import Verif.Proofs.Nearest
import Verif.Proofs.Quantize
import Verif.Proofs.Rotation
import Verif.Proofs.Tool

/-!
# Lemmas about the tool commands that change extra fields, coordinates and classes
-/

namespace Spoc.F64

open Spec

/-- Rounding gives a nearest double. -/
theorem rnd_nearest (z : Bool) (A : Int) {B : Nat} (hB : 0 < B) : Nearest (rnd z A B) ((A : ℝ) / B / (one1074 : ℝ)) := by
  refine ⟨rnd_not_nan _ _ _, ?_⟩
  intro y hy
  have hy' := isNaN_eq_false.mp hy
  have hU := one1074_pos'
  have h := roundMag_nearest A.natAbs hB hy'
  have h : ((|(fixMag (roundMag A.natAbs B) : ℚ) - (A.natAbs : ℚ) / B| : ℚ) : ℝ) ≤ ((|(fixMag y.mag : ℚ) - (A.natAbs : ℚ) / B| : ℚ) : ℝ) :=
    Rat.cast_le.mpr h
  rw [Rat.cast_abs, Rat.cast_abs] at h
  have hr : (rnd z A B).val = (if decide (A < 0) then -1 else 1) * ((fixMag (roundMag A.natAbs B) : ℝ) / (one1074 : ℝ)) := by
    unfold val
    rw [rnd_fv z A hB, rfv]
    generalize fixMag (roundMag A.natAbs B) = n
    generalize (one1074 : ℝ) = U
    by_cases hA : A < 0
    · simp [hA, neg_div]
    · simp [hA]
  have hA : (A : ℝ) / B / (one1074 : ℝ) = (if decide (A < 0) then -1 else 1) * ((A.natAbs : ℝ) / B / (one1074 : ℝ)) := by
    generalize (one1074 : ℝ) = U
    have e : (A : ℝ) = (if decide (A < 0) then -1 else 1) * (A.natAbs : ℝ) := by
      by_cases hA : A < 0
      · have : A = - (A.natAbs : Int) := by omega
        simp only [hA, decide_true, if_true]
        conv_lhs => rw [this]
        rw [Int.cast_neg, Int.cast_natCast, neg_one_mul]
      · have : A = (A.natAbs : Int) := by omega
        simp only [hA, decide_false, Bool.false_eq_true, if_false, one_mul]
        conv_lhs => rw [this]
        rfl
    conv_lhs => rw [e]
    ring
  rw [hr, hA, val_eq y]
  refine Text.abs_sign (Text.val_nonneg _) (div_nonneg (div_nonneg (Nat.cast_nonneg _) (Nat.cast_nonneg _)) hU.le) ?_
  generalize roundMag A.natAbs B = r at *
  generalize (one1074 : ℝ) = U at *
  rw [← sub_div, ← sub_div, abs_div, abs_div]
  refine div_le_div_of_nonneg_right ?_ (abs_nonneg _)
  simpa using h

theorem add_nearest {x y : F64} (hx : x.isFinite = true) (hy : y.isFinite = true) : Nearest (add x y) (x.val + y.val) := by
  rw [add_finite hx hy]
  have := rnd_nearest (x.neg && y.neg) (x.fv + y.fv) (B := 1) (by norm_num)
  have e : ((x.fv + y.fv : Int) : ℝ) / (1 : ℕ) / (one1074 : ℝ) = x.val + y.val := by
    unfold val
    generalize (one1074 : ℝ) = U
    push_cast
    ring
  rwa [e] at this

theorem sub_nearest {x y : F64} (hx : x.isFinite = true) (hy : y.isFinite = true) : Nearest (sub x y) (x.val - y.val) := by
  have := add_nearest hx (negate_finite hy)
  rw [negate_val, ← sub_eq_add_neg] at this
  exact this

theorem div_nearest {x y : F64} (hx : x.isFinite = true) (hy : y.isFinite = true) (hpos : 0 < y.fv) :
    Nearest (div x y) (x.val / y.val) := by
  obtain ⟨e, hn⟩ := div_fv hx hy hpos
  have hB : 0 < y.fv.natAbs := by omega
  have h := rnd_nearest false (x.fv * one1074) hB
  have hv : (rnd false (x.fv * one1074) y.fv.natAbs).val = (div x y).val := by
    unfold val; rw [e, rnd_fv _ _ hB]
  have e2 : ((x.fv * one1074 : Int) : ℝ) / (y.fv.natAbs : ℕ) / (one1074 : ℝ) = x.val / y.val := by
    have hy' : (y.fv.natAbs : ℝ) = (y.fv : ℝ) := by
      have : (y.fv.natAbs : Int) = y.fv := by omega
      rw [← Int.cast_natCast, this]
    unfold val
    have hU := one1074_pos'
    have hY : (0 : ℝ) < (y.fv : ℝ) := by exact_mod_cast hpos
    rw [hy', Int.cast_mul, Int.cast_natCast]
    generalize (one1074 : ℝ) = U at *
    field_simp
  rw [e2] at h
  refine ⟨hn, fun z hz => ?_⟩
  rw [← hv]
  exact h.2 z hz

/-- A double nearest to a small integer is equal to it. -/
theorem val_of_nearest_int {y : F64} {n : Int} (hn : n.natAbs < 2 ^ 53) (h : Nearest y (n : ℝ)) : y.val = n := by
  have := h.2 (ofInt n) (not_nan_of_finite (ofInt_finite hn))
  rw [ofInt_val hn, sub_self, abs_zero] at this
  exact sub_eq_zero.mp (abs_nonpos_iff.mp this)

theorem add_int {x y : F64} {m n : Int} (hx : x.isFinite = true) (hy : y.isFinite = true) (ex : x.val = m) (ey : y.val = n)
    (h : (m + n).natAbs < 2 ^ 53) : (add x y).isFinite = true ∧ (add x y).val = (m + n : Int) := by
  have h1 := add_nearest hx hy
  rw [ex, ey, ← Int.cast_add] at h1
  have h2 := val_of_nearest_int h h1
  refine ⟨finite_of_val_le (ofInt_finite h) ?_, h2⟩
  rw [h2, ofInt_val h]

theorem sub_int {x y : F64} {m n : Int} (hx : x.isFinite = true) (hy : y.isFinite = true) (ex : x.val = m) (ey : y.val = n)
    (h : (m - n).natAbs < 2 ^ 53) : (sub x y).isFinite = true ∧ (sub x y).val = (m - n : Int) := by
  have h1 := sub_nearest hx hy
  rw [ex, ey, ← Int.cast_sub] at h1
  have h2 := val_of_nearest_int h h1
  refine ⟨finite_of_val_le (ofInt_finite h) ?_, h2⟩
  rw [h2, ofInt_val h]

end Spoc.F64

namespace Spoc.Tool

open Spec

theorem stoi_show {n : Nat} (hn : n < 2 ^ 31) : Text.stoi (Text.showNat n) = some ((n : Int), (Text.showNat n).length) := by
  have := Text.stoi_showNat hn Text.noDigit_nil
  rwa [List.append_nil] at this

theorem stoi_show_neg {n : Nat} (hn : n < 2 ^ 31) :
    Text.stoi ('-' :: Text.showNat n) = some (-(n : Int), (Text.showNat n).length + 1) := by
  have h : Text.IsNumber ('-' :: Text.showNat n) [] ['-'] (Text.showNat n) [] :=
    ⟨by simp, by simp, Or.inr (Or.inr rfl), Text.showNat_digits n, Text.showNat_ne n, Text.noDigit_nil⟩
  unfold Text.stoi
  rw [Text.scanInt_of h, Text.decVal_showNat]
  simp only [if_true, List.length_nil, List.length_singleton]
  rw [if_pos (by constructor <;> omega)]
  congr 2
  omega

theorem uniform_valid {f : SpocFile} (hu : Uniform f.prs) : f.isValid = true := (Props.uniform_iff f).mp hu

theorem copy_ok {f : SpocFile} (hu : Uniform f.prs) : f.copy = .ok f := by
  unfold SpocFile.copy SpocFile.new
  have := uniform_valid hu
  unfold SpocFile.isValid at this
  rw [this]
  rfl

theorem setRecords_ok {f : SpocFile} {ps : List PointRecord} (h : allSameSizeExtra ps = true) :
    f.cloneEmpty.setPointRecords ps = .ok { f with prs := ps } := by
  unfold SpocFile.setPointRecords
  rw [h]
  rfl

/-- The sum of doubles from left to right. -/
def sum (xs : List F64) : F64 := xs.foldl F64.add F64.zero

theorem sumOf_eq (c : PointRecord → F64) (ps : List PointRecord) : sumOf c ps = sum (ps.map c) := by
  unfold sumOf sum
  rw [List.foldl_map]

theorem sum_abs_le {xs : List F64} {B : ℝ} (h : ∀ x ∈ xs, |x.val| ≤ B) : |(xs.map F64.val).sum| ≤ xs.length * B := by
  induction xs with
  | nil => simp
  | cons x xs ih =>
    simp only [List.map_cons, List.sum_cons, List.length_cons]
    have h1 := h x (by simp)
    have h2 := ih (fun y hy => h y (by simp [hy]))
    have h3 := abs_add_le x.val (xs.map F64.val).sum
    push_cast
    linarith

theorem zero_val : F64.zero.val = 0 := by
  unfold F64.val; rw [F64.zero_fv, Int.cast_zero, zero_div]

/-- The error of a sum of `n` numbers of magnitude at most `B`. -/
theorem sum_err (xs : List F64) {B T : ℝ} (hT : F64.two1002.val = 4 * T) (hf : ∀ x ∈ xs, x.isFinite = true) (h : ∀ x ∈ xs, |x.val| ≤ B)
    (hB : 0 ≤ B) (hn : xs.length < 2 ^ 53) (hs : xs.length * B ≤ T) :
    (sum xs).isFinite = true ∧ 2 ^ 53 * |(sum xs).val - (xs.map F64.val).sum| ≤ (xs.length : ℝ) ^ 2 * B := by
  induction xs using List.reverseRecOn with
  | nil =>
    refine ⟨by decide, ?_⟩
    have : (sum []).val = 0 := zero_val
    simp [this]
  | append_singleton xs x ih =>
    simp only [List.length_append, List.length_singleton] at hn hs
    push_cast at hs
    have hnB : (0 : ℝ) ≤ xs.length * B := mul_nonneg (Nat.cast_nonneg _) hB
    obtain ⟨h1, h2⟩ := ih (fun y hy => hf y (by simp [hy])) (fun y hy => h y (by simp [hy])) (by omega) (by linarith)
    have hxf := hf x (by simp)
    have hx := h x (by simp)
    have hS := sum_abs_le (xs := xs) (B := B) (fun y hy => h y (by simp [hy]))
    have e1 : sum (xs ++ [x]) = F64.add (sum xs) x := by unfold sum; rw [List.foldl_append]; rfl
    have e2 : ((xs ++ [x]).map F64.val).sum = (xs.map F64.val).sum + x.val := by simp
    rw [e1, e2]
    set S := (sum xs).val
    set R := (xs.map F64.val).sum
    have hn' : (xs.length : ℝ) + 1 ≤ 2 ^ 53 := by
      have : xs.length + 1 ≤ 2 ^ 53 := by omega
      exact_mod_cast this
    have hn0 : (0 : ℝ) ≤ xs.length := Nat.cast_nonneg _
    simp only [List.length_append, List.length_singleton]
    push_cast
    generalize (xs.length : ℝ) = n at *
    -- the partial sum is at most twice the bound
    have hsq : n ^ 2 * B ≤ 2 ^ 53 * (n * B) := by
      have : n * (n * B) ≤ 2 ^ 53 * (n * B) := mul_le_mul_of_nonneg_right (by linarith) hnB
      calc n ^ 2 * B = n * (n * B) := by ring
        _ ≤ _ := this
    have hd : |S - R| ≤ n * B := by
      have : 2 ^ 53 * |S - R| ≤ 2 ^ 53 * (n * B) := h2.trans hsq
      linarith
    have hSb : |S| ≤ 2 * (n * B) := by
      have := abs_add_le (S - R) R
      rw [sub_add_cancel] at this
      linarith
    have hSx : |S + x.val| ≤ 4 * T := by
      have := abs_add_le S x.val
      linarith
    have hfin := F64.add_finite_of h1 hxf F64.two1002_finite (by
      rw [hT, abs_of_nonneg (by linarith [abs_nonneg (S + x.val)] : (0 : ℝ) ≤ 4 * T)]; exact hSx)
    refine ⟨hfin, ?_⟩
    have h3 := F64.add_val h1 hxf hfin
    have h4 : |S + x.val| ≤ (n + 1) * B + |S - R| := by
      have := abs_add_le (S - R) (R + x.val)
      have h5 := abs_add_le R x.val
      rw [show S - R + (R + x.val) = S + x.val by ring] at this
      linarith
    have h5 : |(F64.add (sum xs) x).val - (R + x.val)| ≤ |(F64.add (sum xs) x).val - (S + x.val)| + |S - R| := by
      have := abs_add_le ((F64.add (sum xs) x).val - (S + x.val)) (S - R)
      rwa [show (F64.add (sum xs) x).val - (S + x.val) + (S - R) = (F64.add (sum xs) x).val - (R + x.val) by ring] at this
    have e3 : (n + 1) ^ 2 * B = n ^ 2 * B + (n + 1) * B + n * B := by ring
    rw [e3]
    linarith

/-- Sums of small integers are exact. -/
theorem sum_int (xs : List F64) (ks : List Int) {K : Nat} (hK : ∀ k ∈ ks, k.natAbs ≤ K) (hf : ∀ x ∈ xs, x.isFinite = true)
    (h : xs.map F64.val = ks.map (fun k : Int => (k : ℝ))) (hs : xs.length * K < 2 ^ 53) :
    (sum xs).isFinite = true ∧ (sum xs).val = (ks.sum : Int) ∧ ks.sum.natAbs ≤ xs.length * K := by
  induction xs using List.reverseRecOn generalizing ks with
  | nil =>
    have : ks = [] := by simpa using h.symm
    subst this
    exact ⟨by decide, by rw [show sum [] = F64.zero from rfl, zero_val]; simp, by simp⟩
  | append_singleton xs x ih =>
    rcases List.eq_nil_or_concat ks with rfl | ⟨ks, k, rfl⟩
    · simp at h
    · rw [List.concat_eq_append] at *
      simp only [List.map_append, List.map_cons, List.map_nil] at h
      have hl := congrArg List.length h
      simp only [List.length_append, List.length_map, List.length_singleton] at hl
      obtain ⟨ha, hb⟩ := List.append_inj h (by simp; omega)
      have hxv : x.val = k := by simpa using hb
      simp only [List.length_append, List.length_singleton] at hs ⊢
      have hk := hK k (by simp)
      rw [Nat.add_mul, Nat.one_mul] at hs ⊢
      obtain ⟨h1, h2, h3⟩ := ih ks (fun j hj => hK j (by simp [hj])) (fun y hy => hf y (by simp [hy])) ha (by omega)
      have e1 : sum (xs ++ [x]) = F64.add (sum xs) x := by unfold sum; rw [List.foldl_append]; rfl
      have e2 : (ks ++ [k]).sum = ks.sum + k := by simp
      rw [e1, e2]
      have hab : (ks.sum + k).natAbs ≤ xs.length * K + K := by omega
      obtain ⟨g1, g2⟩ := F64.add_int h1 (hf x (by simp)) h2 hxv (by omega)
      exact ⟨g1, g2, hab⟩

theorem smallest_val : (⟨1⟩ : F64).val = 1 / (F64.one1074 : ℝ) := by
  have : (⟨1⟩ : F64).fv = 1 := by decide +kernel
  unfold F64.val
  rw [this, Int.cast_one]

theorem mean_sum_sub {xs ys : List F64} {c E : ℝ} (h : List.Forall₂ (fun x y => |y.val - (x.val - c)| ≤ E) xs ys) :
    |(ys.map F64.val).sum - ((xs.map F64.val).sum - xs.length * c)| ≤ xs.length * E := by
  induction h with
  | nil => simp
  | @cons x y xs ys h1 _ ih =>
    simp only [List.map_cons, List.sum_cons, List.length_cons]
    push_cast
    have := abs_add_le (y.val - (x.val - c)) ((ys.map F64.val).sum - ((xs.map F64.val).sum - xs.length * c))
    rw [show y.val - (x.val - c) + ((ys.map F64.val).sum - ((xs.map F64.val).sum - xs.length * c))
      = y.val + (ys.map F64.val).sum - (x.val + (xs.map F64.val).sum - (xs.length + 1) * c) by ring] at this
    linarith

theorem allSame_map {ps : List PointRecord} (hu : Uniform ps) {h : PointRecord → PointRecord}
    (hh : ∀ p q, p.extra.length = q.extra.length → (h p).extra.length = (h q).extra.length) : allSameSizeExtra (ps.map h) = true := by
  rw [Props.allSame_uniform]
  intro p hp q hq
  obtain ⟨p', hp', rfl⟩ := List.mem_map.mp hp
  obtain ⟨q', hq', rfl⟩ := List.mem_map.mp hq
  exact hh _ _ (hu p' hp' q' hq')

theorem forall₂_mapped {α β : Type} {R : α → β → Prop} {h : α → β} {l : List α} (hr : ∀ a ∈ l, R a (h a)) :
    List.Forall₂ R l (l.map h) := by
  induction l with
  | nil => exact .nil
  | cons a l ih => exact .cons (hr a (by simp)) (ih (fun b hb => hr b (by simp [hb])))

theorem sameExcept_shift (zFlag : Bool) (p : PointRecord) (a b c : F64) :
    SameExcept (shiftedFields zFlag) p { p with x := a, y := b, z := if zFlag then c else p.z } := by
  refine ⟨rfl, ?_⟩
  intro fld hfld
  cases zFlag <;> cases fld <;> simp [shiftedFields, Field.get] at hfld ⊢

theorem resized (n : Nat) (p : PointRecord) : Resized n p { p with extra := SpocFile.resizeExtra n p.extra } := by
  have hlen : (SpocFile.resizeExtra n p.extra).length = n := by
    unfold SpocFile.resizeExtra; simp; omega
  refine ⟨hlen, ?_, ?_, ?_⟩
  · intro k hk hp
    simp only [Field.get, SpocFile.resizeExtra]
    rw [List.getElem?_append_left (by simp; omega), List.getElem?_take_of_lt hk]
  · intro k hk hp
    simp only [Field.get, SpocFile.resizeExtra]
    rw [List.getElem?_append_right (by simp; omega), List.getElem?_replicate_of_lt (by simp; omega)]
    rfl
  · intro h hh
    cases h <;> first | rfl | simp [Field.isExtra] at hh

theorem resize_back {n m : Nat} {e : List UInt64} (hm : e.length = m) (h : m ≤ n) :
    SpocFile.resizeExtra m (SpocFile.resizeExtra n e) = e := by
  subst hm
  rw [resize_get h]
  unfold SpocFile.resizeExtra
  simp

end Spoc.Tool
