import Verif.Proofs.ToolPoints
import Verif.Props.Tool
import Verif.Props.Subsampling

/-!
# C49-C53: the tool commands resize-extra, subtract-min, recenter and upsample-classifications
-/

namespace Spoc.Props

open Spec Text AppUtils Tool

/-! ## C49 -/

/-- **C49**: the leading extra fields are kept, new ones are zero, and nothing else is changed. -/
theorem c49_resize (b : Build) (f : SpocFile) (hu : Uniform f.prs) (n : Nat) (hn : n < 2 ^ 31) :
    ∃ g, resizeExtra b f n = .ok g ∧ SameApart f g ∧ List.Forall₂ (Resized n) f.prs g.prs := by
  refine ⟨f.resizeExtraFields n, ?_, ⟨rfl, rfl, rfl, rfl⟩, ?_⟩
  · unfold Tool.resizeExtra
    rw [uniform_valid hu, require_true, Res.ok_bind, decide_eq_true (by omega), require_true, Res.ok_bind]
    have hs : sizeT (n : Int) = n := by unfold sizeT; omega
    rw [copy_ok hu, Res.ok_bind, hs]
  · exact forall₂_mapped (fun p _ => resized n p)

/-- Records with the same extra fields, and the same other fields, are equal: what `c49_resize` says determines the result. -/
theorem resized_unique {n : Nat} {p q q' : PointRecord} (h : Resized n p q) (h' : Resized n p q') : q' = q := by
  apply eq_of_get
  intro fld
  by_cases he : fld.isExtra = true
  · obtain ⟨k, rfl⟩ : ∃ k, fld = .e k := by cases fld <;> simp_all [Field.isExtra]
    by_cases hk : k < n
    · by_cases hp : k < p.extra.length
      · rw [h.kept k hk hp, h'.kept k hk hp]
      · rw [h.filled k hk (by omega), h'.filled k hk (by omega)]
    · have e1 : q.extra[k]? = none := List.getElem?_eq_none (by rw [h.size]; omega)
      have e2 : q'.extra[k]? = none := List.getElem?_eq_none (by rw [h'.size]; omega)
      simp only [Field.get, e1, e2]
  · rw [h.same fld (by simpa using he), h'.same fld (by simpa using he)]

/-- **C49**: growing and shrinking back restores the file. -/
theorem c49_restore (b : Build) (f g : SpocFile) (m n : Nat) (hm : ∀ p ∈ f.prs, p.extra.length = m) (hmn : m ≤ n) (hn : n < 2 ^ 31)
    (h : resizeExtra b f n = .ok g) : resizeExtra b g m = .ok f := by
  have hu : Uniform f.prs := fun p hp q hq => by rw [hm p hp, hm q hq]
  obtain ⟨g', h1, h2, h3⟩ := c49_resize b f hu n hn
  rw [h] at h1
  obtain rfl := Res.ok.inj h1
  have hg : ∀ q ∈ g.prs, q.extra.length = n := by
    intro q hq
    obtain ⟨i, hi, rfl⟩ := List.mem_iff_getElem.mp hq
    exact (forall₂_get h3 (by rw [h3.length_eq]; exact hi) hi).size
  obtain ⟨k, h4, h5, h6⟩ := c49_resize b g (fun p hp q hq => by rw [hg p hp, hg q hq]) m (by omega)
  rw [h4]
  congr 1
  obtain ⟨a1, a2, a3, a4⟩ := h2
  obtain ⟨b1, b2, b3, b4⟩ := h5
  have hp : k.prs = f.prs := by
    apply List.ext_getElem
    · rw [← h6.length_eq, ← h3.length_eq]
    · intro i hi hi'
      have r1 := forall₂_get h3 hi' (by rw [← h3.length_eq]; exact hi')
      have r2 := forall₂_get h6 (by rw [h6.length_eq]; exact hi) hi
      have hpl := hm _ (List.getElem_mem hi')
      refine resized_unique ?_ ?_ (n := m) (p := g.prs[i]'(by rw [← h3.length_eq]; exact hi'))
      · refine ⟨hpl, fun j hj hj' => (r1.kept j (by omega) (by omega)).symm, fun j hj hj' => ?_, fun fld hfld => (r1.same fld hfld).symm⟩
        rw [r1.size] at hj'
        omega
      · exact r2
  cases f; cases g; cases k
  simp_all

/-- **C49** for the application: for a size from 0 to 255 the file that is written is the resized one; other sizes are rejected. -/
theorem c49_app (b : Build) (zl : Zlib) (files : Files) (input s : IStream) (f : SpocFile) (hr : Io.readFile b zl input = .ok (f, s))
    (hu : Uniform f.prs) (n : Nat) :
    (n ≤ 255 → ∃ g, main b zl files [("resize-extra", showNat n)] input = .ok (.file (Io.writeFile b zl g))
        ∧ SameApart f g ∧ List.Forall₂ (Resized n) f.prs g.prs)
      ∧ (255 < n → n < 2 ^ 31 → main b zl files [("resize-extra", showNat n)] input
          = .throw "The number of extra fields must be < 256")
      ∧ (0 < n → n < 2 ^ 31 → main b zl files [("resize-extra", '-' :: showNat n)] input
          = .throw "The number of extra fields must be >= 0") := by
  have hfo : Apps.fileOf (Io.readFile b zl input) = .ok f := by rw [hr]; rfl
  have ha : ∀ t, getArgs [("resize-extra", t)] {} = .ok { command := { name := "resize-extra", params := t } } := fun t => rfl
  have hm : ∀ t, main b zl files [("resize-extra", t)] input
      = (run b zl files { command := { name := "resize-extra", params := t } } f >>= fun g => .ok (.file (Io.writeFile b zl g))) := by
    intro t
    unfold main
    rw [ha t]
    simp only [Res.ok_bind, hfo]
    rw [if_neg (by simp), if_neg (by simp), if_neg (by simp), if_neg (by simp)]
  have hrun : ∀ t, run b zl files { command := { name := "resize-extra", params := t } } f =
      match stoi t with
      | none => .throw "stoi"
      | some (n, _) =>
        if n < 0 then .throw "The number of extra fields must be >= 0"
        else if n > 255 then .throw "The number of extra fields must be < 256"
        else resizeExtra b f n := by
    intro t
    unfold run
    rw [if_neg (by simp), if_neg (by simp), if_pos rfl]
    rfl
  refine ⟨fun h => ?_, fun h1 h2 => ?_, fun h1 h2 => ?_⟩
  · obtain ⟨g, h1, h2, h3⟩ := c49_resize b f hu n (by omega)
    refine ⟨g, ?_, h2, h3⟩
    rw [hm, hrun, stoi_show (by omega)]
    simp only
    rw [if_neg (by omega), if_neg (by omega), h1]
    rfl
  · rw [hm, hrun, stoi_show h2]
    simp only
    rw [if_neg (by omega), if_pos (by omega)]
    rfl
  · rw [hm, hrun, stoi_show_neg h2]
    simp only
    rw [if_pos (by omega)]
    rfl

example : Uniform exampleFile.prs ∧ exampleFile.prs.length = 2 ∧ (∀ p ∈ exampleFile.prs, p.extra.length = 3) :=
  ⟨exampleFile_writable.uniform, rfl, by decide⟩

/-! ## C50 -/

theorem c50_one (f : SpocFile) (c : PointRecord → F64) (m : F64) (hf : ∀ p ∈ f.prs, (c p).isFinite = true) (hm : IsMin c m f.prs)
    (h : PointRecord → PointRecord) (hc : ∀ p, c (h p) = F64.sub (c p) m) :
    ShiftedBy c m f.prs (f.prs.map h) ∧ FromZero c (f.prs.map h) ∧ OrderKept c f.prs (f.prs.map h) := by
  obtain ⟨⟨p0, hp0, e0⟩, hle⟩ := hm
  have hmf : m.isFinite = true := by rw [← e0]; exact hf p0 hp0
  have hsub : ∀ p ∈ f.prs, (F64.sub (c p) m).fv = F64.rfv ((c p).fv - m.fv) 1 := fun p hp => F64.sub_fv (hf p hp) hmf
  have hnan : ∀ p ∈ f.prs, (F64.sub (c p) m).isNaN = false := fun p hp => F64.sub_not_nan (hf p hp) hmf
  have z0 : F64.zero.isNaN = false := by decide
  refine ⟨?_, ⟨⟨h p0, List.mem_map_of_mem hp0, ?_⟩, ?_⟩, ?_⟩
  · refine forall₂_mapped (fun p hp => ?_)
    rw [hc]
    exact F64.sub_nearest (hf p hp) hmf
  · rw [F64.feq_iff, hc]
    refine ⟨hnan p0 hp0, z0, ?_⟩
    rw [hsub p0 hp0, e0, Int.sub_self, F64.rfv_zero (by norm_num), F64.zero_fv]
  · intro q hq
    obtain ⟨p, hp, rfl⟩ := List.mem_map.mp hq
    rw [F64.le_iff, hc]
    refine ⟨z0, hnan p hp, ?_⟩
    rw [hsub p hp, F64.zero_fv]
    have := (F64.le_iff.mp (hle p hp)).2.2
    exact F64.rfv_nonneg (by omega)
  · intro i j p p' q q' hp hp' hq hq' hpp
    rw [List.getElem?_map, hp] at hq
    rw [List.getElem?_map, hp'] at hq'
    simp only [Option.map_some, Option.some.injEq] at hq hq'
    have m1 := List.mem_of_getElem? hp
    have m2 := List.mem_of_getElem? hp'
    rw [← hq, ← hq', F64.le_iff, hc, hc]
    refine ⟨hnan p m1, hnan p' m2, ?_⟩
    rw [hsub p m1, hsub p' m2]
    have := (F64.le_iff.mp hpp).2.2
    exact F64.rfv_mono (by norm_num) (by norm_num) (by omega)

/-- **C50**: after subtract-min the smallest x and y (and z if requested) are exactly zero, none is negative, the order is kept, every new
value is the exact difference to the old minimum rounded to a nearest double, and all other fields are unchanged.  (Points in different places
can end up in the same place because of rounding, see `c50_ties`; and the result can be infinite, see `c50_infinite`.) -/
theorem c50_subtract_min (b : Build) (f : SpocFile) (hu : Uniform f.prs) (hne : f.prs ≠ []) (hf : ∀ p ∈ f.prs, Spec.Fin (pt p))
    (zFlag : Bool) :
    ∃ g mx my mz, subtractMin b f zFlag = .ok g ∧ SameApart f g ∧ List.Forall₂ (SameExcept (shiftedFields zFlag)) f.prs g.prs
      ∧ (IsMin (·.x) mx f.prs ∧ ShiftedBy (·.x) mx f.prs g.prs ∧ FromZero (·.x) g.prs ∧ OrderKept (·.x) f.prs g.prs)
      ∧ (IsMin (·.y) my f.prs ∧ ShiftedBy (·.y) my f.prs g.prs ∧ FromZero (·.y) g.prs ∧ OrderKept (·.y) f.prs g.prs)
      ∧ (zFlag = true → IsMin (·.z) mz f.prs ∧ ShiftedBy (·.z) mz f.prs g.prs ∧ FromZero (·.z) g.prs
          ∧ OrderKept (·.z) f.prs g.prs) := by
  obtain ⟨hin, ⟨p1, m1, e1⟩, _, ⟨p3, m3, e3⟩, _, ⟨p5, m5, e5⟩, _⟩ := c15_extent_tight_partial f.prs hne hf
  obtain ⟨hmin, _⟩ := extent_finite f.prs hne hf
  set e := Extent.ofPoints f.prs with he
  have ix : IsMin (·.x) e.minp.x f.prs := ⟨⟨p1, m1, e1⟩, fun p hp => F64.le_iff.mpr
    ⟨F64.not_nan_of_finite hmin.1, F64.not_nan_of_finite (hf p hp).1, (hin p hp).1⟩⟩
  have iy : IsMin (·.y) e.minp.y f.prs := ⟨⟨p3, m3, e3⟩, fun p hp => F64.le_iff.mpr
    ⟨F64.not_nan_of_finite hmin.2.1, F64.not_nan_of_finite (hf p hp).2.1, (hin p hp).2.2.1⟩⟩
  have iz : IsMin (·.z) e.minp.z f.prs := ⟨⟨p5, m5, e5⟩, fun p hp => F64.le_iff.mpr
    ⟨F64.not_nan_of_finite hmin.2.2, F64.not_nan_of_finite (hf p hp).2.2, (hin p hp).2.2.2.2.1⟩⟩
  let h : PointRecord → PointRecord := fun p =>
    { p with x := F64.sub p.x e.minp.x, y := F64.sub p.y e.minp.y, z := if zFlag then F64.sub p.z e.minp.z else p.z }
  refine ⟨{ f with prs := f.prs.map h }, e.minp.x, e.minp.y, e.minp.z, ?_, ?_, ?_, ⟨ix, c50_one f (·.x) _ (fun p hp => (hf p hp).1) ix _ ?_⟩,
    ⟨iy, c50_one f (·.y) _ (fun p hp => (hf p hp).2.1) iy _ ?_⟩, fun hz => ⟨iz, c50_one f (·.z) _ (fun p hp => (hf p hp).2.2) iz h ?_⟩⟩
  · unfold subtractMin
    rw [uniform_valid hu, require_true, Res.ok_bind]
    simp only []
    exact setRecords_ok (allSame_map hu (fun p q h => h))
  · exact ⟨rfl, rfl, rfl, rfl⟩
  · exact forall₂_mapped (fun p _ => sameExcept_shift zFlag p _ _ _)
  · intro p; rfl
  · intro p; rfl
  · intro p; simp only [h, hz, if_true]

/-- Two points. -/
def twoPoints : SpocFile := { SpocFile.empty with prs := [{ x := num 3, y := num (-5), z := num 7 }, { x := num 1, y := num 2, z := num 9 }] }

theorem twoPoints_uniform : Uniform twoPoints.prs := by unfold Uniform; decide +kernel

example : Uniform twoPoints.prs ∧ twoPoints.prs ≠ [] ∧ (∀ p ∈ twoPoints.prs, Spec.Fin (pt p)) :=
  ⟨twoPoints_uniform, by decide +kernel, by unfold Spec.Fin; decide +kernel⟩

/-- Rounding can move points in different places to the same place: 0 and 1/2 beside -2^60. -/
theorem c50_ties (b : Build) :
    let xs : List F64 := [num (-2 ^ 60), num 0, ⟨0x3FE0000000000000⟩]
    subtractMin b { SpocFile.empty with prs := xs.map pointX } false
      = .ok { SpocFile.empty with prs := [num 0, num (2 ^ 60), num (2 ^ 60)].map pointX } := by
  cases b <;> decide +kernel

/-- The difference of finite coordinates can be too large for a double. -/
theorem c50_infinite (b : Build) :
    subtractMin b { SpocFile.empty with prs := [F64.maxVal, F64.lowest].map pointX } false
      = .ok { SpocFile.empty with prs := [F64.inf false, num 0].map pointX } := by
  cases b <;> decide +kernel

/-! ## C51 -/

/-- Recentering one coordinate: the offset is near the mean, and the new mean near zero. -/
theorem c51_one (ps : List PointRecord) (c : PointRecord → F64) (h : PointRecord → PointRecord) (hne : ps ≠ []) (hn : ps.length < 2 ^ 53)
    (hf : ∀ p ∈ ps, (c p).isFinite = true) {B : ℝ} (hB : 0 ≤ B) (hb : ∀ p ∈ ps, |(c p).val| ≤ B) (hs : ps.length * B ≤ 2 ^ 998)
    (hc : ∀ p, c (h p) = F64.sub (c p) (meanOf (sumOf c ps) ps.length)) :
    (meanOf (sumOf c ps) ps.length).isFinite = true
      ∧ |(meanOf (sumOf c ps) ps.length).val - mean c ps| ≤ (ps.length + 2) * B / 2 ^ 53 + (⟨1⟩ : F64).val
      ∧ ShiftedBy c (meanOf (sumOf c ps) ps.length) ps (ps.map h)
      ∧ |mean c (ps.map h)| ≤ (ps.length + 6) * B / 2 ^ 53 + (⟨1⟩ : F64).val := by
  have hlen : ps.length ≠ 0 := by simpa using hne
  have hT : F64.two1002.val = 16 * 2 ^ 998 := by
    have : (1000 : Nat) = 2 + 998 := rfl
    rw [Affine.two1002_eq, this, pow_add]
    norm_num only
    ring
  have h998 : (1 : ℝ) ≤ 2 ^ 998 := one_le_pow₀ (by norm_num)
  generalize (2 : ℝ) ^ 998 = T at *
  have hfx : ∀ x ∈ ps.map c, x.isFinite = true := by
    intro x hx; obtain ⟨p, hp, rfl⟩ := List.mem_map.mp hx; exact hf p hp
  have hbx : ∀ x ∈ ps.map c, |x.val| ≤ B := by
    intro x hx; obtain ⟨p, hp, rfl⟩ := List.mem_map.mp hx; exact hb p hp
  obtain ⟨s1, s2⟩ := sum_err (ps.map c) (T := 4 * T) (by rw [hT]; ring) hfx hbx hB (by simpa using hn)
    (by rw [List.length_map]; linarith)
  have s3 := sum_abs_le hbx
  rw [List.length_map] at s2 s3
  have en : (F64.ofNat ps.length).val = ps.length := by
    unfold F64.ofNat
    rw [F64.ofInt_val (by omega), Int.cast_natCast]
  have fn : (F64.ofNat ps.length).isFinite = true := F64.ofInt_finite (by omega)
  have pn : 0 < (F64.ofNat ps.length).fv := by
    unfold F64.ofNat
    rw [F64.ofInt_fv (by omega)]
    exact mul_pos (by omega) (by exact_mod_cast F64.one1074_pos)
  have em : meanOf (sumOf c ps) ps.length = F64.div (sum (ps.map c)) (F64.ofNat ps.length) := by
    unfold meanOf
    rw [if_neg hlen, sumOf_eq]
  have emean : mean c ps = ((ps.map c).map F64.val).sum / ps.length := by
    unfold mean; rw [List.map_map]; rfl
  have hη : (⟨1⟩ : F64).val = 1 / (F64.one1074 : ℝ) := smallest_val
  have hη0 : 0 < (⟨1⟩ : F64).val := by rw [hη]; exact one_div_pos.mpr F64.one1074_pos'
  have hη1 : (⟨1⟩ : F64).val ≤ 1 := by rw [hη]; exact Affine.tiny_le_one
  have hN1 : (1 : ℝ) ≤ ps.length := by exact_mod_cast Nat.one_le_iff_ne_zero.mpr hlen
  have hN2 : (ps.length : ℝ) ≤ 2 ^ 53 := by exact_mod_cast hn.le
  have hquot : |(sum (ps.map c)).val / ps.length - ((ps.map c).map F64.val).sum / ps.length| ≤ ps.length * B / 2 ^ 53 := by
    rw [← sub_div, abs_div, abs_of_pos (by linarith : (0 : ℝ) < ps.length), div_le_div_iff₀ (by linarith) (by norm_num)]
    calc _ = 2 ^ 53 * |(sum (ps.map c)).val - ((ps.map c).map F64.val).sum| := by ring
      _ ≤ _ := s2
      _ = _ := by ring
  have hmean : |((ps.map c).map F64.val).sum / ps.length| ≤ B := by
    rw [abs_div, abs_of_pos (by linarith : (0 : ℝ) < ps.length), div_le_iff₀ (by linarith)]
    linarith
  have hq2 : |(sum (ps.map c)).val / ps.length| ≤ 2 * B := by
    have h1 : ps.length * B / 2 ^ 53 ≤ B := by
      rw [div_le_iff₀ (by norm_num), mul_comm]
      exact mul_le_mul_of_nonneg_left hN2 hB
    have := abs_add_le ((sum (ps.map c)).val / ps.length - ((ps.map c).map F64.val).sum / ps.length)
      (((ps.map c).map F64.val).sum / ps.length)
    rw [sub_add_cancel] at this
    linarith
  have hB1000 : B ≤ T := by
    have : 1 * B ≤ ps.length * B := mul_le_mul_of_nonneg_right hN1 hB
    linarith
  have hcf : (F64.div (sum (ps.map c)) (F64.ofNat ps.length)).isFinite = true := by
    refine F64.div_finite_of s1 fn pn F64.two1002_finite ?_
    rw [en, hT, abs_of_nonneg (by linarith : (0 : ℝ) ≤ 16 * T)]
    linarith
  have hdiv := F64.div_val s1 fn pn hcf
  rw [en] at hdiv
  rw [em, emean]
  have hη2 : (2 : ℝ) ^ 52 / (F64.one1074 : ℝ) = 2 ^ 52 * (⟨1⟩ : F64).val := by rw [hη]; ring
  rw [hη2] at hdiv
  set m := F64.div (sum (ps.map c)) (F64.ofNat ps.length) with hm
  have hpow : (0 : ℝ) < 2 ^ 53 := by norm_num
  -- the offset
  have hoff : |m.val - ((ps.map c).map F64.val).sum / ps.length| ≤ (ps.length + 2) * B / 2 ^ 53 + (⟨1⟩ : F64).val / 2 := by
    have h1 : |m.val - (sum (ps.map c)).val / ps.length| ≤ (2 * B) / 2 ^ 53 + (⟨1⟩ : F64).val / 2 := by
      have : |m.val - (sum (ps.map c)).val / ps.length| ≤ (2 * B + 2 ^ 52 * (⟨1⟩ : F64).val) / 2 ^ 53 := by
        rw [le_div_iff₀ hpow]
        linarith
      calc _ ≤ _ := this
        _ = _ := by ring
    have h2 := abs_add_le (m.val - (sum (ps.map c)).val / ps.length)
      ((sum (ps.map c)).val / ps.length - ((ps.map c).map F64.val).sum / ps.length)
    rw [sub_add_sub_cancel] at h2
    calc _ ≤ _ := h2
      _ ≤ ((2 * B) / 2 ^ 53 + (⟨1⟩ : F64).val / 2) + ps.length * B / 2 ^ 53 := add_le_add h1 hquot
      _ = _ := by ring
  have hmb : |m.val| ≤ 3 * B + (⟨1⟩ : F64).val := by
    have h1 : |m.val - (sum (ps.map c)).val / ps.length| ≤ B + (⟨1⟩ : F64).val := by
      have : 2 ^ 53 * |m.val - (sum (ps.map c)).val / ps.length| ≤ 2 ^ 53 * (B + (⟨1⟩ : F64).val) := by
        linarith
      linarith
    have h2 := abs_add_le (m.val - (sum (ps.map c)).val / ps.length) ((sum (ps.map c)).val / ps.length)
    rw [sub_add_cancel] at h2
    linarith
  have hshift : ∀ p ∈ ps, |(c (h p)).val - ((c p).val - m.val)| ≤ (4 * B + (⟨1⟩ : F64).val) / 2 ^ 53 := by
    intro p hp
    rw [hc, em]
    have h1 : |(c p).val - m.val| ≤ 4 * B + (⟨1⟩ : F64).val := by
      have h2 := abs_sub (c p).val m.val
      have := hb p hp
      linarith
    have hfin := F64.sub_finite_of (hf p hp) hcf F64.two1002_finite (by
      rw [hT, abs_of_nonneg (by linarith : (0 : ℝ) ≤ 16 * T)]
      linarith)
    have h3 := F64.sub_val (hf p hp) hcf hfin
    rw [le_div_iff₀ hpow]
    linarith
  refine ⟨hcf, by linarith, ?_, ?_⟩
  · refine forall₂_mapped (fun p hp => ?_)
    rw [hc, em]
    exact F64.sub_nearest (hf p hp) hcf
  · have h1 : List.Forall₂ (fun x y : F64 => |y.val - (x.val - m.val)| ≤ (4 * B + (⟨1⟩ : F64).val) / 2 ^ 53) (ps.map c)
        ((ps.map h).map c) := by
      rw [List.forall₂_map_left_iff, List.forall₂_map_right_iff]
      exact forall₂_mapped hshift
    have h2 := mean_sum_sub h1
    have e : mean c (ps.map h) = (((ps.map h).map c).map F64.val).sum / ps.length := by
      simp only [mean, List.map_map, List.length_map, Function.comp_def]
    rw [e, abs_div, abs_of_pos (by linarith : (0 : ℝ) < ps.length), div_le_iff₀ (by linarith)]
    rw [List.length_map] at h2
    set R := ((ps.map c).map F64.val).sum
    set Q := (((ps.map h).map c).map F64.val).sum
    have h3 : |R - ps.length * m.val| ≤ ps.length * ((ps.length + 2) * B / 2 ^ 53 + (⟨1⟩ : F64).val / 2) := by
      have : R - ps.length * m.val = - (ps.length * (m.val - R / ps.length)) := by
        field_simp
        ring
      rw [this, abs_neg, abs_mul, abs_of_pos (by linarith : (0 : ℝ) < ps.length)]
      exact mul_le_mul_of_nonneg_left hoff (by linarith)
    have h4 := abs_add_le (Q - (R - ps.length * m.val)) (R - ps.length * m.val)
    rw [sub_add_cancel] at h4
    have h5 : (⟨1⟩ : F64).val / 2 ^ 53 ≤ (⟨1⟩ : F64).val / 2 := by
      apply div_le_div_of_nonneg_left hη0.le (by norm_num) (by norm_num)
    calc |Q| ≤ ps.length * ((4 * B + (⟨1⟩ : F64).val) / 2 ^ 53)
          + ps.length * ((ps.length + 2) * B / 2 ^ 53 + (⟨1⟩ : F64).val / 2) := by linarith
      _ = ps.length * ((ps.length + 6) * B / 2 ^ 53 + ((⟨1⟩ : F64).val / 2 ^ 53 + (⟨1⟩ : F64).val / 2)) := by ring
      _ ≤ ps.length * ((ps.length + 6) * B / 2 ^ 53 + (⟨1⟩ : F64).val) := by
        apply mul_le_mul_of_nonneg_left _ (by linarith)
        linarith
      _ = _ := by ring

/-- A recentered record. -/
def centred (f : SpocFile) (zFlag : Bool) (p : PointRecord) : PointRecord :=
  { p with
    x := F64.sub p.x (meanOf (sumOf (·.x) f.prs) f.prs.length)
    y := F64.sub p.y (meanOf (sumOf (·.y) f.prs) f.prs.length)
    z := if zFlag then F64.sub p.z (meanOf (sumOf (·.z) f.prs) f.prs.length) else p.z }

theorem recenter_eq (b : Build) (f : SpocFile) (hu : Uniform f.prs) (zFlag : Bool) :
    recenter b f zFlag = .ok { f with prs := f.prs.map (centred f zFlag) } := by
  unfold recenter
  rw [uniform_valid hu, require_true, Res.ok_bind]
  have e : f.prs.map (centred f zFlag) = f.prs.map (fun p => { p with
      x := F64.sub p.x (meanOf (sumOf (·.x) f.prs) f.prs.length)
      y := F64.sub p.y (meanOf (sumOf (·.y) f.prs) f.prs.length)
      z := if zFlag then F64.sub p.z (meanOf (if zFlag then sumOf (·.z) f.prs else F64.zero) f.prs.length) else p.z }) := by
    refine List.map_congr_left (fun p _ => ?_)
    unfold centred
    cases zFlag <;> simp only [Bool.false_eq_true, if_false, if_true]
  rw [e]
  exact setRecords_ok (allSame_map hu (fun p q h => h))

/-- The bound for the mean after recentering `n` values of magnitude at most `B`: `n + 6` units of rounding, and the smallest
positive double. -/
noncomputable def meanBound (n : Nat) (B : ℝ) : ℝ := (n + 6) * B / 2 ^ 53 + (⟨1⟩ : F64).val

/-- **C51** (partial: up to rounding, and for values whose number times magnitude stays below 2^998; the mean is not exactly zero in
general, see `c51_not_zero`, and the result is useless if the sum overflows, see `c51_overflow`).  All points are shifted by the same offset
(each new value is the exact difference rounded to a nearest double), the offset is the mean up to a bound, the new mean is zero up
to that bound, and all other fields are unchanged. -/
theorem c51_recenter_partial (b : Build) (f : SpocFile) (hu : Uniform f.prs) (hne : f.prs ≠ []) (hn : f.prs.length < 2 ^ 53)
    (hf : ∀ p ∈ f.prs, Spec.Fin (pt p)) (zFlag : Bool) (B : ℝ) (hB : 0 ≤ B)
    (hb : ∀ p ∈ f.prs, |p.x.val| ≤ B ∧ |p.y.val| ≤ B ∧ |p.z.val| ≤ B) (hs : f.prs.length * B ≤ 2 ^ 998) :
    ∃ g mx my mz, recenter b f zFlag = .ok g ∧ SameApart f g ∧ List.Forall₂ (SameExcept (shiftedFields zFlag)) f.prs g.prs
      ∧ (ShiftedBy (·.x) mx f.prs g.prs ∧ |mx.val - mean (·.x) f.prs| ≤ meanBound f.prs.length B
          ∧ |mean (·.x) g.prs| ≤ meanBound f.prs.length B)
      ∧ (ShiftedBy (·.y) my f.prs g.prs ∧ |my.val - mean (·.y) f.prs| ≤ meanBound f.prs.length B
          ∧ |mean (·.y) g.prs| ≤ meanBound f.prs.length B)
      ∧ (zFlag = true → ShiftedBy (·.z) mz f.prs g.prs ∧ |mz.val - mean (·.z) f.prs| ≤ meanBound f.prs.length B
          ∧ |mean (·.z) g.prs| ≤ meanBound f.prs.length B) := by
  have hw : ((f.prs.length : ℝ) + 2) * B / 2 ^ 53 + (⟨1⟩ : F64).val ≤ meanBound f.prs.length B := by
    unfold meanBound
    generalize (⟨1⟩ : F64).val = w
    have : ((f.prs.length : ℝ) + 2) * B / 2 ^ 53 ≤ (f.prs.length + 6) * B / 2 ^ 53 :=
      div_le_div_of_nonneg_right (mul_le_mul_of_nonneg_right (by linarith) hB) (by norm_num)
    exact add_le_add this le_rfl
  refine ⟨_, meanOf (sumOf (·.x) f.prs) f.prs.length, meanOf (sumOf (·.y) f.prs) f.prs.length,
    meanOf (sumOf (·.z) f.prs) f.prs.length, recenter_eq b f hu zFlag, ⟨rfl, rfl, rfl, rfl⟩,
    forall₂_mapped (fun p _ => sameExcept_shift zFlag p _ _ _), ?_, ?_, ?_⟩
  · obtain ⟨_, h1, h2, h3⟩ := c51_one f.prs (·.x) (centred f zFlag) hne hn (fun p hp => (hf p hp).1) hB (fun p hp => (hb p hp).1) hs (fun p => rfl)
    exact ⟨h2, h1.trans hw, h3⟩
  · obtain ⟨_, h1, h2, h3⟩ := c51_one f.prs (·.y) (centred f zFlag) hne hn (fun p hp => (hf p hp).2.1) hB (fun p hp => (hb p hp).2.1) hs (fun p => rfl)
    exact ⟨h2, h1.trans hw, h3⟩
  · rintro rfl
    obtain ⟨_, h1, h2, h3⟩ := c51_one f.prs (·.z) (centred f true) hne hn (fun p hp => (hf p hp).2.2) hB (fun p hp => (hb p hp).2.2) hs (fun p => rfl)
    exact ⟨h2, h1.trans hw, h3⟩

theorem c51_exact_one (ps : List PointRecord) (c : PointRecord → F64) (h : PointRecord → PointRecord) (hne : ps ≠ [])
    (hf : ∀ p ∈ ps, (c p).isFinite = true) (k : PointRecord → Int) (hk : ∀ p ∈ ps, (c p).val = k p) {K : Nat} (hK : 0 < K)
    (hb : ∀ p ∈ ps, (k p).natAbs ≤ K) (hs : 2 * (ps.length * K) < 2 ^ 53) {m : Int} (hm : (ps.map k).sum = m * ps.length)
    (hc : ∀ p, c (h p) = F64.sub (c p) (meanOf (sumOf c ps) ps.length)) :
    (∀ p ∈ ps, (c (h p)).val = (c p).val - m) ∧ mean c ps = m ∧ mean c (ps.map h) = 0 := by
  have hlen : 0 < ps.length := List.length_pos_iff.mpr hne
  have hl2 : ps.length ≤ ps.length * K := Nat.le_mul_of_pos_right _ hK
  have hN : (ps.length : ℝ) ≠ 0 := by exact_mod_cast hlen.ne'
  obtain ⟨s1, s2, s3⟩ := sum_int (ps.map c) (ps.map k) (K := K) (by
      intro j hj; obtain ⟨p, hp, rfl⟩ := List.mem_map.mp hj; exact hb p hp)
    (by intro x hx; obtain ⟨p, hp, rfl⟩ := List.mem_map.mp hx; exact hf p hp)
    (by rw [List.map_map, List.map_map]; exact List.map_congr_left (fun p hp => hk p hp))
    (by rw [List.length_map]; omega)
  rw [List.length_map] at s3
  have hm2 : m.natAbs ≤ K := by
    have h1 : (m * ps.length).natAbs = m.natAbs * ps.length := by rw [Int.natAbs_mul, Int.natAbs_natCast]
    rw [hm, h1, Nat.mul_comm] at s3
    exact Nat.le_of_mul_le_mul_left s3 hlen
  have hKn : K ≤ ps.length * K := Nat.le_mul_of_pos_left _ hlen
  have en : (F64.ofNat ps.length).val = ps.length := by
    unfold F64.ofNat
    rw [F64.ofInt_val (by omega), Int.cast_natCast]
  have fn : (F64.ofNat ps.length).isFinite = true := F64.ofInt_finite (by omega)
  have pn : 0 < (F64.ofNat ps.length).fv := by
    unfold F64.ofNat
    rw [F64.ofInt_fv (by omega)]
    exact mul_pos (by omega) (by exact_mod_cast F64.one1074_pos)
  have em : meanOf (sumOf c ps) ps.length = F64.div (sum (ps.map c)) (F64.ofNat ps.length) := by
    unfold meanOf
    rw [if_neg hlen.ne', sumOf_eq]
  have hdiv := F64.div_nearest s1 fn pn
  rw [s2, en, hm, Int.cast_mul, Int.cast_natCast, mul_div_assoc, div_self hN, mul_one] at hdiv
  have hv := F64.val_of_nearest_int (by omega) hdiv
  have hfin : (F64.div (sum (ps.map c)) (F64.ofNat ps.length)).isFinite = true := by
    refine F64.finite_of_val_le (F64.ofInt_finite (n := m) (by omega)) ?_
    rw [hv, F64.ofInt_val (by omega)]
  have hshift : ∀ p ∈ ps, (c (h p)).val = (c p).val - m := by
    intro p hp
    have := hb p hp
    rw [hc, em, (F64.sub_int (hf p hp) hfin (hk p hp) hv (by omega)).2, hk p hp]
    push_cast
    rfl
  have hmean : (ps.map (fun p => (c p).val)).sum = m * ps.length := by
    have : ps.map (fun p => (c p).val) = (ps.map k).map (fun j : Int => (j : ℝ)) := by
      rw [List.map_map]; exact List.map_congr_left (fun p hp => hk p hp)
    rw [this, ← Int.cast_list_sum, hm]
    push_cast
    rfl
  refine ⟨hshift, ?_, ?_⟩
  · unfold mean
    rw [hmean, mul_div_assoc, div_self hN, mul_one]
  · have hsum : ∀ l : List PointRecord, (∀ p ∈ l, (c (h p)).val = (c p).val - m) →
        (l.map (fun p => (c (h p)).val)).sum = (l.map (fun p => (c p).val)).sum - m * l.length := by
      intro l
      induction l with
      | nil => simp
      | cons p l ih =>
        intro hl
        have h1 := ih (fun q hq => hl q (by simp [hq]))
        simp only [List.map_cons, List.sum_cons, List.length_cons]
        rw [h1, hl p (by simp)]
        push_cast
        ring
    unfold mean
    rw [List.map_map]
    have : (fun p => (c p).val) ∘ h = fun p => (c (h p)).val := rfl
    rw [this, hsum ps hshift, hmean, sub_self, zero_div]

/-- **C51** (partial: integer coordinates with an integer mean, the number of points times the largest magnitude below 2^52).  Then the
new mean is exactly zero and the shift is exact. -/
theorem c51_exact_partial (b : Build) (f : SpocFile) (hu : Uniform f.prs) (hne : f.prs ≠ []) (hf : ∀ p ∈ f.prs, Spec.Fin (pt p))
    (zFlag : Bool) (kx ky kz : PointRecord → Int) (hk : ∀ p ∈ f.prs, p.x.val = kx p ∧ p.y.val = ky p ∧ p.z.val = kz p) (K : Nat) (hK : 0 < K)
    (hb : ∀ p ∈ f.prs, (kx p).natAbs ≤ K ∧ (ky p).natAbs ≤ K ∧ (kz p).natAbs ≤ K) (hs : 2 * (f.prs.length * K) < 2 ^ 53)
    (mx my mz : Int) (hmx : (f.prs.map kx).sum = mx * f.prs.length) (hmy : (f.prs.map ky).sum = my * f.prs.length)
    (hmz : (f.prs.map kz).sum = mz * f.prs.length) :
    ∃ g, recenter b f zFlag = .ok g ∧ SameApart f g ∧ List.Forall₂ (SameExcept (shiftedFields zFlag)) f.prs g.prs
      ∧ List.Forall₂ (fun p q => q.x.val = p.x.val - (mx : ℝ) ∧ q.y.val = p.y.val - (my : ℝ) ∧ (zFlag = true → q.z.val = p.z.val - (mz : ℝ))) f.prs g.prs
      ∧ mean (·.x) g.prs = 0 ∧ mean (·.y) g.prs = 0 ∧ (zFlag = true → mean (·.z) g.prs = 0) := by
  have ex := fun (h : PointRecord → PointRecord) (hc : ∀ p, (h p).x = F64.sub p.x (meanOf (sumOf (·.x) f.prs) f.prs.length)) =>
    c51_exact_one f.prs (·.x) h hne (fun p hp => (hf p hp).1) kx (fun p hp => (hk p hp).1) hK (fun p hp => (hb p hp).1) hs hmx hc
  have ey := fun (h : PointRecord → PointRecord) (hc : ∀ p, (h p).y = F64.sub p.y (meanOf (sumOf (·.y) f.prs) f.prs.length)) =>
    c51_exact_one f.prs (·.y) h hne (fun p hp => (hf p hp).2.1) ky (fun p hp => (hk p hp).2.1) hK (fun p hp => (hb p hp).2.1) hs hmy hc
  have ez := fun (h : PointRecord → PointRecord) (hc : ∀ p, (h p).z = F64.sub p.z (meanOf (sumOf (·.z) f.prs) f.prs.length)) =>
    c51_exact_one f.prs (·.z) h hne (fun p hp => (hf p hp).2.2) kz (fun p hp => (hk p hp).2.2) hK (fun p hp => (hb p hp).2.2) hs hmz hc
  refine ⟨_, recenter_eq b f hu zFlag, ⟨rfl, rfl, rfl, rfl⟩, forall₂_mapped (fun p _ => sameExcept_shift zFlag p _ _ _),
    forall₂_mapped (fun p hp => ⟨(ex (centred f zFlag) (fun p => rfl)).1 p hp, (ey (centred f zFlag) (fun p => rfl)).1 p hp, ?_⟩), (ex (centred f zFlag) (fun p => rfl)).2.2,
    (ey (centred f zFlag) (fun p => rfl)).2.2, ?_⟩
  · rintro rfl
    exact (ez (centred f true) (fun p => rfl)).1 p hp
  · rintro rfl
    exact (ez (centred f true) (fun p => rfl)).2.2

/-- A file for which all of the hypotheses hold: x is 3 and 1, y is -5 and 3, z is 7 and 9. -/
def evenPoints : SpocFile := { SpocFile.empty with prs := [{ x := num 3, y := num (-5), z := num 7 }, { x := num 1, y := num 3, z := num 9 }] }

theorem num_val {n : Int} (h : n.natAbs < 2 ^ 53) : (num n).val = n := F64.ofInt_val h

example : Uniform evenPoints.prs ∧ evenPoints.prs ≠ [] ∧ (∀ p ∈ evenPoints.prs, Spec.Fin (pt p))
    ∧ (∀ p ∈ evenPoints.prs, |p.x.val| ≤ 9 ∧ |p.y.val| ≤ 9 ∧ |p.z.val| ≤ 9) ∧ (evenPoints.prs.length * 9 : ℝ) ≤ 2 ^ 998 := by
  refine ⟨by unfold Uniform; decide +kernel, by decide +kernel, by unfold Spec.Fin; decide +kernel, ?_, ?_⟩
  · intro p hp
    simp only [evenPoints, List.mem_cons, List.not_mem_nil, or_false] at hp
    rcases hp with rfl | rfl <;> simp only [] <;> rw [num_val (by decide), num_val (by decide), num_val (by decide)] <;>
      norm_num [abs_le]
  · have : (2 : ℝ) ^ 5 ≤ 2 ^ 998 := pow_le_pow_right₀ (by norm_num) (by norm_num)
    refine le_trans ?_ this
    simp only [evenPoints]
    norm_num

example : ∃ kx ky kz : PointRecord → Int, (∀ p ∈ evenPoints.prs, p.x.val = kx p ∧ p.y.val = ky p ∧ p.z.val = kz p)
    ∧ (∀ p ∈ evenPoints.prs, (kx p).natAbs ≤ 9 ∧ (ky p).natAbs ≤ 9 ∧ (kz p).natAbs ≤ 9) ∧ 2 * (evenPoints.prs.length * 9) < 2 ^ 53
    ∧ (evenPoints.prs.map kx).sum = 2 * evenPoints.prs.length ∧ (evenPoints.prs.map ky).sum = -1 * evenPoints.prs.length
    ∧ (evenPoints.prs.map kz).sum = 8 * evenPoints.prs.length := by
  refine ⟨fun p => p.x.trunc, fun p => p.y.trunc, fun p => p.z.trunc, ?_, by decide +kernel, by decide, by decide +kernel, by decide +kernel,
    by decide +kernel⟩
  have t : ∀ n : Int, n.natAbs < 10 → (num n).trunc = n → (num n).val = ((num n).trunc : Int) := by
    intro n hn h
    rw [h, num_val (by omega)]
  intro p hp
  simp only [evenPoints, List.mem_cons, List.not_mem_nil, or_false] at hp
  rcases hp with rfl | rfl
  · dsimp only
    exact ⟨t 3 (by decide) (by decide +kernel), t (-5) (by decide) (by decide +kernel), t 7 (by decide) (by decide +kernel)⟩
  · dsimp only
    exact ⟨t 1 (by decide) (by decide +kernel), t 3 (by decide) (by decide +kernel), t 9 (by decide) (by decide +kernel)⟩

/-- **C51, negation**: the mean is not zero in general: for x = 0, 0 and 1 it is positive afterwards. -/
theorem c51_not_zero (b : Build) :
    ∃ g, recenter b { SpocFile.empty with prs := [num 0, num 0, num 1].map pointX } false = .ok g ∧ 0 < mean (·.x) g.prs := by
  refine ⟨{ SpocFile.empty with prs := [⟨0xBFD5555555555555⟩, ⟨0xBFD5555555555555⟩, ⟨0x3FE5555555555556⟩].map pointX }, ?_, ?_⟩
  · cases b <;> decide +kernel
  · have h : 0 < (⟨0xBFD5555555555555⟩ : F64).fv + ((⟨0xBFD5555555555555⟩ : F64).fv + (⟨0x3FE5555555555556⟩ : F64).fv) := by decide +kernel
    unfold mean
    simp only [List.map_cons, List.map_nil, pointX, List.sum_cons, List.sum_nil, add_zero, F64.val]
    rw [← add_div, ← add_div]
    have h' : (0 : ℝ) < ((⟨0xBFD5555555555555⟩ : F64).fv : ℝ) + (((⟨0xBFD5555555555555⟩ : F64).fv : ℝ) + ((⟨0x3FE5555555555556⟩ : F64).fv : ℝ)) := by
      rw [← Int.cast_add, ← Int.cast_add]
      exact Int.cast_pos.mpr h
    have hl : (0 : ℝ) < ((pointX ⟨0xBFD5555555555555⟩ :: pointX ⟨0xBFD5555555555555⟩ :: [pointX ⟨0x3FE5555555555556⟩]).length : ℕ) :=
      Nat.cast_pos.mpr (Nat.succ_pos _)
    exact div_pos (div_pos h' F64.one1074_pos') hl

/-- **C51, negation**: two points with the largest finite x are moved to minus infinity. -/
theorem c51_overflow (b : Build) :
    recenter b { SpocFile.empty with prs := [F64.maxVal, F64.maxVal].map pointX } false
      = .ok { SpocFile.empty with prs := [F64.inf true, F64.inf true].map pointX } := by
  cases b <;> decide +kernel

/-- C50 and C51 for the application: the file that is written is the one that the functions above return. -/
theorem c50_c51_app (b : Build) (zl : Zlib) (files : Files) (input s : IStream) (f : SpocFile) (hr : Io.readFile b zl input = .ok (f, s)) :
    (main b zl files [("subtract-min-xy", [])] input = (subtractMin b f false >>= fun g => .ok (.file (Io.writeFile b zl g))))
      ∧ (main b zl files [("subtract-min-xyz", [])] input = (subtractMin b f true >>= fun g => .ok (.file (Io.writeFile b zl g))))
      ∧ (main b zl files [("recenter-xy", [])] input = (recenter b f false >>= fun g => .ok (.file (Io.writeFile b zl g))))
      ∧ (main b zl files [("recenter-xyz", [])] input = (recenter b f true >>= fun g => .ok (.file (Io.writeFile b zl g)))) := by
  have hfo : Apps.fileOf (Io.readFile b zl input) = .ok f := by rw [hr]; rfl
  refine ⟨?_, ?_, ?_, ?_⟩
  all_goals
    unfold main
    simp only [getArgs, setCommand, commandNames]
    simp [hfo, run]

end Spoc.Props
