import Verif.Props.ToolPoints
import Verif.Model.Utils

/-!
# C86: the center of a cloud is its mean
-/

namespace Spoc.Props

open Spec

section
variable {α : Type} [HasXYZ α]

/-- The exact mean of one coordinate of a cloud. -/
noncomputable def coordMean (c : Pt F64 → F64) (ps : List α) : ℝ := (ps.map (fun p => (c (pt p)).val)).sum / ps.length

theorem foldl_center (ps : List α) (c : Pt F64) :
    ps.foldl (fun c p => Pt.add c (pt p)) c
      = ⟨ps.foldl (fun s p => F64.add s (pt p).x) c.x, ps.foldl (fun s p => F64.add s (pt p).y) c.y,
          ps.foldl (fun s p => F64.add s (pt p).z) c.z⟩ := by
  induction ps generalizing c with
  | nil => rfl
  | cons p ps ih => rw [List.foldl_cons, ih]; rfl

/-- A record at a place. -/
def recordAt (p : Pt F64) : PointRecord := { x := p.x, y := p.y, z := p.z }

theorem sumOf_recordAt (g : Pt F64 → F64) (c : PointRecord → F64) (hc : ∀ p, c (recordAt p) = g p) (ps : List α) (s : F64) :
    ps.foldl (fun s p => F64.add s (g (pt p))) s = (ps.map (fun p => recordAt (pt p))).foldl (fun s p => F64.add s (c p)) s := by
  induction ps generalizing s with
  | nil => rfl
  | cons p ps ih => rw [List.map_cons, List.foldl_cons, List.foldl_cons, ih, hc]

theorem center_coord (g : Pt F64 → F64) (c : PointRecord → F64) (hc : ∀ p, c (recordAt p) = g p) (ps : List α) (hne : ps ≠ []) :
    F64.div (ps.foldl (fun s p => F64.add s (g (pt p))) F64.zero) (F64.ofNat ps.length)
        = Tool.meanOf (Tool.sumOf c (ps.map (fun p => recordAt (pt p)))) (ps.map (fun p => recordAt (pt p))).length
      ∧ mean c (ps.map (fun p => recordAt (pt p))) = coordMean g ps := by
  constructor
  · unfold Tool.meanOf Tool.sumOf
    rw [← sumOf_recordAt g c hc, List.length_map, if_neg (by simpa using hne)]
  · unfold mean coordMean
    rw [List.map_map, List.length_map]
    congr 2
    exact List.map_congr_left (fun p _ => by rw [Function.comp_apply, hc])

theorem center_one (g : Pt F64 → F64) (c : PointRecord → F64) (hc : ∀ p, c (recordAt p) = g p)
    (h : F64 → PointRecord → PointRecord) (hh : ∀ d p, c (h d p) = F64.sub (c p) d)
    (ps : List α) (hne : ps ≠ []) (hn : ps.length < 2 ^ 53)
    (hf : ∀ p ∈ ps, (g (pt p)).isFinite = true) {B : ℝ} (hB : 0 ≤ B) (hb : ∀ p ∈ ps, |(g (pt p)).val| ≤ B) (hs : ps.length * B ≤ 2 ^ 998) :
    (F64.div (ps.foldl (fun s p => F64.add s (g (pt p))) F64.zero) (F64.ofNat ps.length)).isFinite = true
      ∧ |(F64.div (ps.foldl (fun s p => F64.add s (g (pt p))) F64.zero) (F64.ofNat ps.length)).val - coordMean g ps|
          ≤ (ps.length + 2) * B / 2 ^ 53 + (⟨1⟩ : F64).val := by
  obtain ⟨e1, e2⟩ := center_coord g c hc ps hne
  rw [e1, ← e2]
  have hl : (ps.map (fun p => recordAt (pt p))).length = ps.length := List.length_map _
  obtain ⟨h1, h2, _⟩ := c51_one (ps.map (fun p => recordAt (pt p))) c (h _) (by simpa using hne) (by rw [hl]; exact hn)
    (by intro p hp; obtain ⟨q, hq, rfl⟩ := List.mem_map.mp hp; rw [hc]; exact hf q hq) hB
    (by intro p hp; obtain ⟨q, hq, rfl⟩ := List.mem_map.mp hp; rw [hc]; exact hb q hq) (by rw [hl]; exact hs) (hh _)
  refine ⟨h1, ?_⟩
  rw [hl] at h2 ⊢
  exact h2

/-- **C86** (partial: up to rounding, and for values whose number times magnitude stays below 2^998; see `c86_outside`,
`c86_overflow` and `c86_empty`): the center is the mean of the points in each coordinate. -/
theorem c86_center_partial (ps : List α) (hne : ps ≠ []) (hn : ps.length < 2 ^ 53) (hf : ∀ p ∈ ps, Spec.Fin (pt p))
    (B : ℝ) (hB : 0 ≤ B) (hb : ∀ p ∈ ps, |(pt p).x.val| ≤ B ∧ |(pt p).y.val| ≤ B ∧ |(pt p).z.val| ≤ B)
    (hs : ps.length * B ≤ 2 ^ 998) :
    Spec.Fin (Utils.getCenter ps)
      ∧ |(Utils.getCenter ps).x.val - coordMean (·.x) ps| ≤ (ps.length + 2) * B / 2 ^ 53 + (⟨1⟩ : F64).val
      ∧ |(Utils.getCenter ps).y.val - coordMean (·.y) ps| ≤ (ps.length + 2) * B / 2 ^ 53 + (⟨1⟩ : F64).val
      ∧ |(Utils.getCenter ps).z.val - coordMean (·.z) ps| ≤ (ps.length + 2) * B / 2 ^ 53 + (⟨1⟩ : F64).val := by
  have ex := center_one (·.x) (·.x) (fun _ => rfl) (fun d p => { p with x := F64.sub p.x d }) (fun _ _ => rfl) ps hne hn
    (fun p hp => (hf p hp).1) hB (fun p hp => (hb p hp).1) hs
  have ey := center_one (·.y) (·.y) (fun _ => rfl) (fun d p => { p with y := F64.sub p.y d }) (fun _ _ => rfl) ps hne hn
    (fun p hp => (hf p hp).2.1) hB (fun p hp => (hb p hp).2.1) hs
  have ez := center_one (·.z) (·.z) (fun _ => rfl) (fun d p => { p with z := F64.sub p.z d }) (fun _ _ => rfl) ps hne hn
    (fun p hp => (hf p hp).2.2) hB (fun p hp => (hb p hp).2.2) hs
  have e : Utils.getCenter ps = ⟨F64.div (ps.foldl (fun s p => F64.add s (pt p).x) F64.zero) (F64.ofNat ps.length),
      F64.div (ps.foldl (fun s p => F64.add s (pt p).y) F64.zero) (F64.ofNat ps.length),
      F64.div (ps.foldl (fun s p => F64.add s (pt p).z) F64.zero) (F64.ofNat ps.length)⟩ := by
    unfold Utils.getCenter
    rw [foldl_center]
  rw [e]
  exact ⟨⟨ex.1, ey.1, ez.1⟩, ex.2, ey.2, ez.2⟩

end

/-- A cloud for which the hypotheses hold. -/
example : let ps : List PointRecord := evenPoints.prs
    ps ≠ [] ∧ (∀ p ∈ ps, Spec.Fin (pt p)) ∧ Utils.getCenter ps = ⟨num 2, num (-1), num 8⟩ := by
  refine ⟨by decide +kernel, by unfold Spec.Fin; decide +kernel, by decide +kernel⟩

/-- **C86, negation**: the center of three points at the same place is not that place (x = 0.1): it lies outside of the
extent of the cloud. -/
theorem c86_outside :
    let p : Pt F64 := ⟨⟨0x3FB999999999999A⟩, num 0, num 0⟩
    F64.lt p.x (Utils.getCenter [p, p, p]).x = true ∧ (Extent.ofPoints [p, p, p]).maxp = p
      ∧ Utils.crop [Utils.getCenter [p, p, p]] (Extent.ofPoints [p, p, p]) = [] := by decide +kernel

/-- **C86, negation**: if the sum overflows, the center of finite points is infinite. -/
theorem c86_overflow :
    Utils.getCenter [(⟨F64.maxVal, num 0, num 0⟩ : Pt F64), ⟨F64.maxVal, num 0, num 0⟩] = ⟨F64.inf false, num 0, num 0⟩ := by
  decide +kernel

/-- **C86, negation**: the center of no points is not a number. -/
theorem c86_empty {α : Type} [HasXYZ α] :
    (Utils.getCenter ([] : List α)).x.isNaN = true ∧ (Utils.getCenter ([] : List α)).y.isNaN = true
      ∧ (Utils.getCenter ([] : List α)).z.isNaN = true := by
  have e : (Utils.getCenter ([] : List α)) = Utils.getCenter ([] : List (Pt F64)) := rfl
  rw [e]
  decide +kernel

end Spoc.Props
