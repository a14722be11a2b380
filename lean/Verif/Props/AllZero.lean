import Verif.Model.AllZero
import Verif.Props.Format
import Verif.Props.Apps

/-!
# C88: columns without information
-/

namespace Spoc.Props

open Spec Spec.Format Io FormatProofs PointRecord

theorem not_any_iff {α : Type} (l : List α) (p : α → Prop) [DecidablePred p] :
    (!l.any (fun a => decide (¬ p a))) = true ↔ ∀ a ∈ l, p a := by
  rw [Bool.not_eq_true', List.any_eq_false]
  simp

/-- **C88**: each test is true exactly if the field is zero in every record. -/
theorem c88_decides (prs : List PointRecord) :
    (hasAllZeroC prs = true ↔ ∀ q ∈ prs, q.c = 0) ∧ (hasAllZeroP prs = true ↔ ∀ q ∈ prs, q.p = 0)
      ∧ (hasAllZeroI prs = true ↔ ∀ q ∈ prs, q.i = 0) ∧ (hasAllZeroR prs = true ↔ ∀ q ∈ prs, q.r = 0)
      ∧ (hasAllZeroG prs = true ↔ ∀ q ∈ prs, q.g = 0) ∧ (hasAllZeroB prs = true ↔ ∀ q ∈ prs, q.b = 0)
      ∧ (hasAllZeroRgb prs = true ↔ ∀ q ∈ prs, q.r = 0 ∧ q.g = 0 ∧ q.b = 0) := by
  have hr := not_any_iff prs (fun q => q.r = 0)
  have hg := not_any_iff prs (fun q => q.g = 0)
  have hb := not_any_iff prs (fun q => q.b = 0)
  refine ⟨not_any_iff prs (fun q => q.c = 0), not_any_iff prs (fun q => q.p = 0), not_any_iff prs (fun q => q.i = 0), hr, hg, hb, ?_⟩
  unfold hasAllZeroRgb
  rw [Bool.and_eq_true, Bool.and_eq_true]
  constructor
  · rintro ⟨⟨h1, h2⟩, h3⟩ q hq
    exact ⟨hr.mp h1 q hq, hg.mp h2 q hq, hb.mp h3 q hq⟩
  · intro h
    exact ⟨⟨hr.mpr (fun q hq => (h q hq).1), hg.mpr (fun q hq => (h q hq).2.1)⟩, hb.mpr (fun q hq => (h q hq).2.2)⟩

/-- **C88** for an extra field that every record has. -/
theorem c88_extra (n : Nat) (prs : List PointRecord) (hn : ∀ q ∈ prs, n < q.extra.length) :
    ∃ a, hasAllZeroExtra n prs = .ok a ∧ (a = true ↔ ∀ q ∈ prs, q.extra[n]? = some 0) := by
  have key : ∃ a, anyExtra n prs = .ok a ∧ (a = false ↔ ∀ q ∈ prs, q.extra[n]? = some 0) := by
    induction prs with
    | nil => exact ⟨false, rfl, by simp⟩
    | cons q prs ih =>
      obtain ⟨a, h1, h2⟩ := ih (fun p hp => hn p (by simp [hp]))
      have e := List.getElem?_eq_getElem (hn q (by simp))
      unfold anyExtra
      rw [e]
      dsimp only
      by_cases h : q.extra[n]'(hn q (by simp)) = 0
      · rw [if_neg (by simpa using h)]
        refine ⟨a, h1, ?_⟩
        rw [h2]
        simp only [List.mem_cons, forall_eq_or_imp, e, h, true_and]
      · rw [if_pos h]
        refine ⟨true, rfl, ?_⟩
        simp only [List.mem_cons, forall_eq_or_imp, e, Option.some.injEq, h, false_and, reduceCtorEq]
  obtain ⟨a, h1, h2⟩ := key
  refine ⟨!a, ?_, by simpa using h2⟩
  unfold hasAllZeroExtra
  rw [h1]
  rfl

/-- **C88, negation**: the test of an extra field reads behind the end of a record that does not have it. -/
theorem c88_extra_undefined : hasAllZeroExtra 5 [{ extra := [0] }] = .ub "vector index out of range" := by decide

/-- **C88**: in a compressed file a column costs no more than its length exactly if the test is true (`c88_decides`, `c88_extra`; for
coordinates, if they are zeros of either sign). -/
theorem c88_costs_nothing (b : Build) (z : Zlib) (hz : z.Correct) (f : SpocFile) (hf : Writable f) (hc : f.compressed = true)
    (hfit : FitsZlib z f.prs.length) (extra : Nat) (hx : ∀ q ∈ f.prs, q.extra.length = extra) (h0 : f.prs = [] → extra = 0) :
    ∃ bx bY bz bc bp bi br bg bb bes,
      writeFile b z f = ⟨Format.compressed f.wkt extra f.prs.length 1 ([bx, bY, bz, bc, bp, bi, br, bg, bb] ++ bes), .ok ()⟩
      ∧ (bx = [] ↔ OnlyZeros f.prs (·.x)) ∧ (bY = [] ↔ OnlyZeros f.prs (·.y)) ∧ (bz = [] ↔ OnlyZeros f.prs (·.z))
      ∧ (bc = [] ↔ hasAllZeroC f.prs = true) ∧ (bp = [] ↔ hasAllZeroP f.prs = true) ∧ (bi = [] ↔ hasAllZeroI f.prs = true)
      ∧ (br = [] ↔ hasAllZeroR f.prs = true) ∧ (bg = [] ↔ hasAllZeroG f.prs = true) ∧ (bb = [] ↔ hasAllZeroB f.prs = true)
      ∧ bes.length = extra ∧ ∀ n be, bes[n]? = some be → (be = [] ↔ hasAllZeroExtra n f.prs = .ok true) := by
  obtain ⟨bs, h1, h2⟩ := c87_writes_compressed b z hz f hf hc hfit extra hx h0
  have cc : ∀ {t : DataType} {g : PointRecord → Nat} {bl : Bytes} {Q : Prop}, t ≠ .double →
      ((bl = [] ↔ ∀ v ∈ f.prs.map g, v = 0 ∨ (t = .double ∧ v = 2 ^ 63)) ∧ Q) → (bl = [] ↔ ∀ q ∈ f.prs, g q = 0) := by
    rintro t g bl Q ht ⟨h, _⟩
    rw [h]
    simp [ht]
  have dd : ∀ {g : PointRecord → F64} {bl : Bytes} {Q : Prop},
      ((bl = [] ↔ ∀ v ∈ f.prs.map (fun q => (g q).bits.toNat), v = 0 ∨ (DataType.double = .double ∧ v = 2 ^ 63)) ∧ Q) →
        (bl = [] ↔ OnlyZeros f.prs g) := by
    rintro g bl Q ⟨h, _⟩
    rw [h]
    unfold OnlyZeros
    simp only [List.mem_map, forall_exists_index, and_imp, forall_apply_eq_imp_iff₂, true_and]
    refine forall₂_congr fun q _ => or_congr ?_ ?_
    · rw [show (0 : Nat) = (0 : UInt64).toNat from rfl, UInt64.toNat_inj]
      exact ⟨fun e => by cases hq : g q; rw [hq] at e; simp only at e; rw [e]; rfl, fun e => by rw [e]; rfl⟩
    · rw [show (2 ^ 63 : Nat) = (0x8000000000000000 : UInt64).toNat from by decide, UInt64.toNat_inj]
      exact ⟨fun e => by cases hq : g q; rw [hq] at e; simp only at e; rw [e]; rfl, fun e => by rw [e]; rfl⟩
  unfold columns at h2
  rw [columns_extra] at h2
  generalize hR : (fun (col : DataType × List Nat) (block : Bytes) =>
    (block = [] ↔ ∀ v ∈ col.2, v = 0 ∨ (col.1 = .double ∧ v = 2 ^ 63))
      ∧ (block ≠ [] → z.inflate block = { output := columnBytes col, error := false })) = R at h2
  simp only [List.cons_append, List.nil_append, List.forall₂_cons_left_iff] at h2
  obtain ⟨b1, _, s1, ⟨b2, _, s2, ⟨b3, _, s3, ⟨b4, _, s4, ⟨b5, _, s5, ⟨b6, _, s6, ⟨b7, _, s7, ⟨b8, _, s8, ⟨b9, bs', s9, hbs, rfl⟩, rfl⟩,
    rfl⟩, rfl⟩, rfl⟩, rfl⟩, rfl⟩, rfl⟩, rfl⟩ := h2
  rw [List.forall₂_map_left_iff] at hbs
  subst hR
  obtain ⟨d1, d2, d3, d4, d5, d6, _⟩ := c88_decides f.prs
  refine ⟨b1, b2, b3, b4, b5, b6, b7, b8, b9, bs', h1, dd s1, dd s2, dd s3, ?_, ?_, ?_, ?_, ?_, ?_, ?_, ?_⟩
  · rw [d1, cc (by simp) s4]; simp [← UInt32.toNat_inj]
  · rw [d2, cc (by simp) s5]; simp [← UInt32.toNat_inj]
  · rw [d3, cc (by simp) s6]; simp [← UInt16.toNat_inj]
  · rw [d4, cc (by simp) s7]; simp [← UInt16.toNat_inj]
  · rw [d5, cc (by simp) s8]; simp [← UInt16.toNat_inj]
  · rw [d6, cc (by simp) s9]; simp [← UInt16.toNat_inj]
  · rw [← hbs.length_eq]; simp [extraCols]
  · intro n be hbe
    have hl : n < extra := by
      have := (List.getElem?_eq_some_iff.mp hbe).1
      rw [← hbs.length_eq] at this
      simpa [extraCols] using this
    obtain ⟨a, e1, e2⟩ := c88_extra n f.prs (fun q hq => by rw [hx q hq]; exact hl)
    have hg := List.forall₂_iff_get.mp hbs
    have hb := (List.getElem?_eq_some_iff.mp hbe)
    have h3 := hg.2 n (by simpa [extraCols] using hl) hb.1
    simp only [List.get_eq_getElem, hb.2, extraCols, List.getElem_map, List.getElem_range] at h3
    rw [cc (by simp) h3, e1, Res.ok.injEq, e2]
    refine forall₂_congr fun q hq => ?_
    have hq' : n < q.extra.length := by rw [hx q hq]; exact hl
    simp [List.getD, List.getElem?_eq_getElem hq', ← UInt64.toNat_inj]

/-- A file for which the hypotheses hold; its class is stored, its green is not. -/
example : let f : SpocFile := { exampleFile with compressed := true }
    Writable f ∧ hasAllZeroC f.prs = false ∧ hasAllZeroG f.prs = true ∧ hasAllZeroExtra 0 f.prs = .ok false :=
  ⟨writable_flag exampleFile_writable true, by decide, by decide, by decide⟩

end Spoc.Props
