import Verif.Model.Header
import Verif.Proofs.Geometry

/-!
# Properties of records, points, extents and cropping (C14, C15, C16, C18, C19, C20)
-/

namespace Spoc.Props

open Spec

/-! ## C14 equality and hashing -/

theorem beq_iff (a b : PointRecord) : a.beq b = true ↔
    (F64.feq b.x a.x = true ∧ F64.feq b.y a.y = true ∧ F64.feq b.z a.z = true)
      ∧ b.c = a.c ∧ b.p = a.p ∧ b.i = a.i ∧ b.r = a.r ∧ b.g = a.g ∧ b.b = a.b ∧ b.extra = a.extra := by
  simp only [PointRecord.beq, Bool.and_eq_true, decide_eq_true_eq, and_assoc]

theorem pt_beq_iff (a b : Pt F64) : a.beq b = true ↔
    F64.feq a.x b.x = true ∧ F64.feq a.y b.y = true ∧ F64.feq a.z b.z = true := by
  unfold Pt.beq F64.fne
  cases F64.feq a.x b.x <;> cases F64.feq a.y b.y <;> cases F64.feq a.z b.z <;> simp

/-- C14: equality of records means numerically equal coordinates without NaN and identical
integer fields. -/
theorem c14_equality_meaning (a b : PointRecord) : a.beq b = true ↔
    NoNaNRecord a ∧ NoNaNRecord b ∧ SamePlace (pt a) (pt b)
      ∧ a.c = b.c ∧ a.p = b.p ∧ a.i = b.i ∧ a.r = b.r ∧ a.g = b.g ∧ a.b = b.b ∧ a.extra = b.extra := by
  rw [beq_iff]
  simp only [F64.feq_iff, NoNaNRecord, NoNaN, SamePlace, pt]
  constructor
  · rintro ⟨⟨⟨a1, a2, a3⟩, ⟨b1, b2, b3⟩, ⟨c1, c2, c3⟩⟩, h1, h2, h3, h4, h5, h6, h7⟩
    exact ⟨⟨a2, b2, c2⟩, ⟨a1, b1, c1⟩, ⟨a3.symm, b3.symm, c3.symm⟩, h1.symm, h2.symm, h3.symm, h4.symm,
      h5.symm, h6.symm, h7.symm⟩
  · rintro ⟨⟨a2, b2, c2⟩, ⟨a1, b1, c1⟩, ⟨a3, b3, c3⟩, h1, h2, h3, h4, h5, h6, h7⟩
    exact ⟨⟨⟨a1, a2, a3.symm⟩, ⟨b1, b2, b3.symm⟩, ⟨c1, c2, c3.symm⟩⟩, h1.symm, h2.symm, h3.symm, h4.symm,
      h5.symm, h6.symm, h7.symm⟩

/-- C14: the same for points. -/
theorem c14_point_equality_meaning (a b : Pt F64) : a.beq b = true ↔
    NoNaN a ∧ NoNaN b ∧ SamePlace a b := by
  rw [pt_beq_iff]
  simp only [F64.feq_iff, NoNaN, SamePlace]
  tauto

/-- C14: `!=` is the negation of `==`; `==` is symmetric and transitive, and reflexive exactly on
records without NaN. -/
theorem c14_equivalence :
    (∀ a b : PointRecord, a.bne b = !(a.beq b))
      ∧ (∀ a b : PointRecord, a.beq b = b.beq a)
      ∧ (∀ a b c : PointRecord, a.beq b = true → b.beq c = true → a.beq c = true)
      ∧ (∀ a : PointRecord, a.beq a = true ↔ NoNaNRecord a) := by
  refine ⟨fun _ _ => rfl, fun a b => ?_, fun a b c h1 h2 => ?_, fun a => ?_⟩
  · rw [Bool.eq_iff_iff, c14_equality_meaning, c14_equality_meaning]
    unfold SamePlace
    constructor <;> (rintro ⟨h1, h2, ⟨e1, e2, e3⟩, h⟩; exact ⟨h2, h1, ⟨e1.symm, e2.symm, e3.symm⟩, by simp_all⟩)
  · rw [c14_equality_meaning] at *
    obtain ⟨a1, _, ⟨e1, e2, e3⟩, h⟩ := h1
    obtain ⟨_, a2, ⟨f1, f2, f3⟩, h'⟩ := h2
    exact ⟨a1, a2, ⟨e1.trans f1, e2.trans f2, e3.trans f3⟩, by simp_all⟩
  · rw [c14_equality_meaning]; simp [SamePlace]

/-- C14: the same for points. -/
theorem c14_point_equivalence :
    (∀ a b : Pt F64, a.bne b = !(a.beq b))
      ∧ (∀ a b : Pt F64, a.beq b = b.beq a)
      ∧ (∀ a b c : Pt F64, a.beq b = true → b.beq c = true → a.beq c = true)
      ∧ (∀ a : Pt F64, a.beq a = true ↔ NoNaN a) := by
  refine ⟨fun _ _ => rfl, fun a b => ?_, fun a b c h1 h2 => ?_, fun a => ?_⟩
  · rw [Bool.eq_iff_iff, c14_point_equality_meaning, c14_point_equality_meaning]
    unfold SamePlace
    constructor <;> (rintro ⟨h1, h2, ⟨e1, e2, e3⟩⟩; exact ⟨h2, h1, ⟨e1.symm, e2.symm, e3.symm⟩⟩)
  · rw [c14_point_equality_meaning] at *
    obtain ⟨a1, _, ⟨e1, e2, e3⟩⟩ := h1
    obtain ⟨_, a2, ⟨f1, f2, f3⟩⟩ := h2
    exact ⟨a1, a2, ⟨e1.trans f1, e2.trans f2, e3.trans f3⟩⟩
  · rw [c14_point_equality_meaning]; simp [SamePlace]

/-- C14: two headers (with signatures of four bytes) compare equal exactly if they are the same. -/
theorem c14_header_equality (a b : Header) (ha : a.signature.length = 4) (hb : b.signature.length = 4) : a.beq b = true ↔ a = b := by
  obtain ⟨sa, ma, mia, wa, ea, ta, ca⟩ := a
  obtain ⟨sb, mb, mib, wb, eb, tb, cb⟩ := b
  dsimp only at ha hb
  match sa, ha, sb, hb with
  | [a0, a1, a2, a3], _, [b0, b1, b2, b3], _ =>
    constructor
    · intro h
      unfold Header.beq at h
      simp only [ne_eq, ite_not] at h
      repeat' split at h
      all_goals first
        | (simp at h; done)
        | skip
      rename_i h0 h1 h2 h3 h4 h5 h6 h7 h8 h9
      simp only [List.getElem?_cons_zero, List.getElem?_cons_succ, Option.some.injEq] at h0 h1 h2 h3
      subst h0 h1 h2 h3 h4 h5 h6 h7 h8 h9
      rfl
    · intro h
      rw [h]
      simp [Header.beq]

example : ({ signature := [0x53, 0x50, 0x4F, 0x43], major := 0, minor := 1, wkt := [], extraFields := 0, totalPoints := 0, compressed := 1 } : Header).signature.length
    = 4 := rfl

/-- C14: the same for extents; equality of extents is symmetric and transitive, and reflexive exactly on extents without NaN. -/
theorem c14_extent_equality :
    (∀ a b : Extent, a.beq b = true ↔ NoNaN a.minp ∧ NoNaN a.maxp ∧ NoNaN b.minp ∧ NoNaN b.maxp
        ∧ SamePlace a.minp b.minp ∧ SamePlace a.maxp b.maxp)
      ∧ (∀ a b : Extent, a.beq b = b.beq a)
      ∧ (∀ a b c : Extent, a.beq b = true → b.beq c = true → a.beq c = true)
      ∧ (∀ a : Extent, a.beq a = true ↔ NoNaN a.minp ∧ NoNaN a.maxp) := by
  have key : ∀ a b : Extent, a.beq b = true ↔ NoNaN a.minp ∧ NoNaN a.maxp ∧ NoNaN b.minp ∧ NoNaN b.maxp
      ∧ SamePlace a.minp b.minp ∧ SamePlace a.maxp b.maxp := by
    intro a b
    unfold Extent.beq
    rw [Bool.and_eq_true, c14_point_equality_meaning, c14_point_equality_meaning]
    tauto
  refine ⟨key, fun a b => ?_, fun a b c h1 h2 => ?_, fun a => ?_⟩
  · rw [Bool.eq_iff_iff, key, key]
    unfold SamePlace
    constructor <;>
      (rintro ⟨h1, h2, h3, h4, ⟨e1, e2, e3⟩, ⟨f1, f2, f3⟩⟩
       exact ⟨h3, h4, h1, h2, ⟨e1.symm, e2.symm, e3.symm⟩, ⟨f1.symm, f2.symm, f3.symm⟩⟩)
  · rw [key]
    obtain ⟨h1, h2', _, _, ⟨e1, e2, e3⟩, ⟨f1, f2, f3⟩⟩ := (key a b).mp h1
    obtain ⟨_, _, h3, h4, ⟨e1', e2', e3'⟩, ⟨f1', f2', f3'⟩⟩ := (key b c).mp h2
    exact ⟨h1, h2', h3, h4, ⟨e1.trans e1', e2.trans e2', e3.trans e3'⟩, ⟨f1.trans f1', f2.trans f2', f3.trans f3'⟩⟩
  · rw [key]
    exact ⟨fun h => ⟨h.1, h.2.1⟩, fun h => ⟨h.1, h.2, h.1, h.2, ⟨rfl, rfl, rfl⟩, ⟨rfl, rfl, rfl⟩⟩⟩

/-- Extents with the same minimum and different maxima are different; a zero and a negative zero are not. -/
example : Extent.beq ⟨⟨F64.zero, F64.zero, F64.zero⟩, ⟨F64.one, F64.one, F64.one⟩⟩ ⟨⟨F64.zero, F64.zero, F64.zero⟩, ⟨F64.one, F64.one, F64.zero⟩⟩ = false
    ∧ Extent.beq ⟨⟨F64.zero, F64.zero, F64.zero⟩, ⟨F64.one, F64.one, F64.one⟩⟩ ⟨⟨F64.negZero, F64.zero, F64.zero⟩, ⟨F64.one, F64.one, F64.one⟩⟩ = true := by
  decide +kernel

/-- C14: equal records have equal hashes, for every standard library whose `std::hash<double>`
respects `==` (so 0.0 and -0.0 too). -/
theorem c14_hash (h : StdHash) (hl : h.Lawful) (a b : PointRecord) (e : a.beq b = true) :
    a.hash h = b.hash h := by
  rw [beq_iff] at e
  obtain ⟨⟨e1, e2, e3⟩, f1, f2, f3, f4, f5, f6, f7⟩ := e
  unfold PointRecord.hash
  rw [hl _ _ e1, hl _ _ e2, hl _ _ e3, f1, f2, f3, f4, f5, f6, f7]

/-- C14: equal points have equal hashes. -/
theorem c14_point_hash (h : StdHash) (hl : h.Lawful) (a b : Pt F64) (e : a.beq b = true) :
    a.hash h = b.hash h := by
  rw [pt_beq_iff] at e
  unfold Pt.hash
  rw [hl _ _ e.1, hl _ _ e.2.1, hl _ _ e.2.2]

/-- A lawful standard hash (libstdc++ maps both zeros to 0). -/
def exampleHash : StdHash where
  f64 x := if x.mag = 0 then 0 else x.bits
  u16 x := x.toUInt64
  u32 x := x.toUInt64
  u64 x := x

theorem exampleHash_lawful : exampleHash.Lawful := by
  intro a b h
  have := (F64.feq_iff.mp h).2.2
  simp only [exampleHash]
  by_cases h0 : a.fv = 0
  · have ha := F64.fv_eq_zero.mp h0
    have hb := F64.fv_eq_zero.mp (this ▸ h0)
    simp [ha, hb]
  · have e := F64.eq_of_fv_eq this h0
    simp [e]

/-- Two different records that compare equal: the signs of zero differ. -/
example : let a : PointRecord := { x := F64.zero, c := 3, extra := [7] }
    let b : PointRecord := { x := F64.negZero, c := 3, extra := [7] }
    a ≠ b ∧ a.beq b = true ∧ a.hash exampleHash = b.hash exampleHash := by decide +kernel

/-! ## C15 extent -/

section
variable {α : Type} [HasXYZ α]

/-- C15: the extent of a cloud without NaN bounds every point. -/
theorem c15_extent_bounds (ps : List α) (hn : ∀ p ∈ ps, NoNaN (pt p)) :
    ∀ p ∈ ps, Inside (Extent.ofPoints ps) (pt p) := by
  intro p hp
  rw [Extent.ofPoints_eq]
  have key : ∀ f : α → F64, (∀ p ∈ ps, (f p).isNaN = false) →
      (F64.foldMin F64.maxVal (ps.map f)).fv ≤ (f p).fv
        ∧ (f p).fv ≤ (F64.foldMax F64.lowest (ps.map f)).fv := by
    intro f hf
    have hf' : ∀ x ∈ ps.map f, x.isNaN = false := by
      intro x hx; obtain ⟨q, hq, rfl⟩ := List.mem_map.mp hx; exact hf q hq
    have hm : (f p).fv ∈ (ps.map f).map F64.fv :=
      List.mem_map.mpr ⟨f p, List.mem_map.mpr ⟨p, hp, rfl⟩, rfl⟩
    rw [(F64.foldMin_int _ hf').2, (F64.foldMax_int _ hf').2]
    exact ⟨(foldl_min_le _ _).2 _ hm, (foldl_max_ge _ _).2 _ hm⟩
  have hx := key (fun p => (pt p).x) (fun q hq => (hn q hq).1)
  have hy := key (fun p => (pt p).y) (fun q hq => (hn q hq).2.1)
  have hz := key (fun p => (pt p).z) (fun q hq => (hn q hq).2.2)
  exact ⟨hx.1, hx.2, hy.1, hy.2, hz.1, hz.2⟩

/-- C15 (partial: finite coordinates; the full statement says "any double coordinates"): the extent of a
non-empty cloud bounds every point and each of its six faces is attained, bit for bit,
by some point.  For NaN and infinite coordinates the statement is false, see `c15_nan` and `c15_infinite`. -/
theorem c15_extent_tight_partial (ps : List α) (hne : ps ≠ []) (hf : ∀ p ∈ ps, Spec.Fin (pt p)) :
    let e := Extent.ofPoints ps
    (∀ p ∈ ps, Inside e (pt p))
      ∧ (∃ p ∈ ps, (pt p).x = e.minp.x) ∧ (∃ p ∈ ps, (pt p).x = e.maxp.x)
      ∧ (∃ p ∈ ps, (pt p).y = e.minp.y) ∧ (∃ p ∈ ps, (pt p).y = e.maxp.y)
      ∧ (∃ p ∈ ps, (pt p).z = e.minp.z) ∧ (∃ p ∈ ps, (pt p).z = e.maxp.z) := by
  have hn : ∀ p ∈ ps, NoNaN (pt p) := fun p hp =>
    ⟨F64.not_nan_of_finite (hf p hp).1, F64.not_nan_of_finite (hf p hp).2.1,
      F64.not_nan_of_finite (hf p hp).2.2⟩
  refine ⟨c15_extent_bounds ps hn, ?_⟩
  rw [Extent.ofPoints_eq]
  have key : ∀ f : α → F64, (∀ p ∈ ps, (f p).isFinite = true) →
      (∃ p ∈ ps, f p = F64.foldMin F64.maxVal (ps.map f))
        ∧ (∃ p ∈ ps, f p = F64.foldMax F64.lowest (ps.map f)) := by
    intro f hf
    have hf' : ∀ x ∈ ps.map f, x.isFinite = true := by
      intro x hx; obtain ⟨q, hq, rfl⟩ := List.mem_map.mp hx; exact hf q hq
    have hne' : ps.map f ≠ [] := by simpa using hne
    exact ⟨List.mem_map.mp (F64.foldMin_attained _ hne' hf'), List.mem_map.mp (F64.foldMax_attained _ hne' hf')⟩
  have hx := key (fun p => (pt p).x) (fun q hq => (hf q hq).1)
  have hy := key (fun p => (pt p).y) (fun q hq => (hf q hq).2.1)
  have hz := key (fun p => (pt p).z) (fun q hq => (hf q hq).2.2)
  exact ⟨hx.1, hx.2, hy.1, hy.2, hz.1, hz.2⟩

end

/-- A double with a small integer value. -/
def num (n : Int) : F64 := F64.ofInt n

example : let ps : List (Pt F64) := [⟨num 3, num (-1), F64.zero⟩, ⟨num 2, num 5, F64.negZero⟩]
    ps ≠ [] ∧ ∀ p ∈ ps, Spec.Fin p := by unfold Spec.Fin; decide +kernel

/-- C15 is false with NaN: the point before a NaN is forgotten. -/
theorem c15_nan :
    let ps : List (Pt F64) := [⟨num 5, num 0, num 0⟩, ⟨F64.nan, num 0, num 0⟩, ⟨num 7, num 0, num 0⟩]
    ¬ ∀ p ∈ ps, p.x.isNaN = false → Inside (Extent.ofPoints ps) p := by decide +kernel

/-- C15 is false with infinities: a face is not attained. -/
theorem c15_infinite :
    let ps : List (Pt F64) := [⟨F64.inf false, num 0, num 0⟩]
    ¬ ∃ p ∈ ps, p.x = (Extent.ofPoints ps).minp.x := by decide +kernel

/-! ## C16 extents combine -/

section
variable {α : Type} [HasXYZ α]

theorem ofPoints_fv (ps : List α) (hn : ∀ p ∈ ps, NoNaN (pt p)) :
    let e := Extent.ofPoints ps
    NoNaN e.minp ∧ NoNaN e.maxp
      ∧ e.minp.x.fv = (ps.map fun p => (pt p).x.fv).foldl min F64.maxVal.fv
      ∧ e.minp.y.fv = (ps.map fun p => (pt p).y.fv).foldl min F64.maxVal.fv
      ∧ e.minp.z.fv = (ps.map fun p => (pt p).z.fv).foldl min F64.maxVal.fv
      ∧ e.maxp.x.fv = (ps.map fun p => (pt p).x.fv).foldl max F64.lowest.fv
      ∧ e.maxp.y.fv = (ps.map fun p => (pt p).y.fv).foldl max F64.lowest.fv
      ∧ e.maxp.z.fv = (ps.map fun p => (pt p).z.fv).foldl max F64.lowest.fv := by
  intro e
  have he : e = Extent.ofPoints ps := rfl
  rw [Extent.ofPoints_eq] at he
  have key : ∀ f : α → F64, (∀ p ∈ ps, (f p).isNaN = false) →
      ((F64.foldMin F64.maxVal (ps.map f)).isNaN = false
        ∧ (F64.foldMin F64.maxVal (ps.map f)).fv = (ps.map fun p => (f p).fv).foldl min F64.maxVal.fv)
        ∧ ((F64.foldMax F64.lowest (ps.map f)).isNaN = false
          ∧ (F64.foldMax F64.lowest (ps.map f)).fv = (ps.map fun p => (f p).fv).foldl max F64.lowest.fv) := by
    intro f hf
    have hf' : ∀ x ∈ ps.map f, x.isNaN = false := by
      intro x hx; obtain ⟨q, hq, rfl⟩ := List.mem_map.mp hx; exact hf q hq
    have h1 := F64.foldMin_int _ hf'
    have h2 := F64.foldMax_int _ hf'
    rw [List.map_map] at h1 h2
    exact ⟨h1, h2⟩
  have hx := key (fun p => (pt p).x) (fun q hq => (hn q hq).1)
  have hy := key (fun p => (pt p).y) (fun q hq => (hn q hq).2.1)
  have hz := key (fun p => (pt p).z) (fun q hq => (hn q hq).2.2)
  rw [he]
  exact ⟨⟨hx.1.1, hy.1.1, hz.1.1⟩, ⟨hx.2.1, hy.2.1, hz.2.1⟩, hx.1.2, hy.1.2, hz.1.2, hx.2.2, hy.2.2, hz.2.2⟩

/-- C16: the total of the extents of two clouds is the extent of the concatenated cloud
(empty clouds included), and it does not depend on the order of the two clouds. -/
theorem c16_total_extent (ps qs : List α) (hp : ∀ p ∈ ps, NoNaN (pt p)) (hq : ∀ p ∈ qs, NoNaN (pt p)) :
    SameBox (Extent.total (Extent.ofPoints ps) (Extent.ofPoints qs)) (Extent.ofPoints (ps ++ qs))
      ∧ SameBox (Extent.total (Extent.ofPoints ps) (Extent.ofPoints qs))
          (Extent.total (Extent.ofPoints qs) (Extent.ofPoints ps)) := by
  obtain ⟨a1, a2, a3, a4, a5, a6, a7, a8⟩ := ofPoints_fv ps hp
  obtain ⟨b1, b2, b3, b4, b5, b6, b7, b8⟩ := ofPoints_fv qs hq
  obtain ⟨c1, c2, c3, c4, c5, c6, c7, c8⟩ := ofPoints_fv (ps ++ qs) (by
    intro p h; rcases List.mem_append.mp h with h | h
    · exact hp p h
    · exact hq p h)
  simp only [List.map_append, foldl_min_append, foldl_max_append] at c3 c4 c5 c6 c7 c8
  unfold SameBox Extent.total
  simp only [(F64.stdMin_fv a1.1 b1.1).2, (F64.stdMin_fv a1.2.1 b1.2.1).2, (F64.stdMin_fv a1.2.2 b1.2.2).2,
    (F64.stdMax_fv a2.1 b2.1).2, (F64.stdMax_fv a2.2.1 b2.2.1).2, (F64.stdMax_fv a2.2.2 b2.2.2).2,
    (F64.stdMin_fv b1.1 a1.1).2, (F64.stdMin_fv b1.2.1 a1.2.1).2, (F64.stdMin_fv b1.2.2 a1.2.2).2,
    (F64.stdMax_fv b2.1 a2.1).2, (F64.stdMax_fv b2.2.1 a2.2.1).2, (F64.stdMax_fv b2.2.2 a2.2.2).2]
  constructor
  · rw [c3, c4, c5, c6, c7, c8, a3, a4, a5, a6, a7, a8, b3, b4, b5, b6, b7, b8]
    exact ⟨rfl, rfl, rfl, rfl, rfl, rfl⟩
  · refine ⟨min_comm _ _, min_comm _ _, min_comm _ _, max_comm _ _, max_comm _ _, max_comm _ _⟩

/-- C16: the extent does not depend on the order of the points. -/
theorem c16_order_independent (ps qs : List α) (hperm : ps.Perm qs) (hp : ∀ p ∈ ps, NoNaN (pt p)) :
    SameBox (Extent.ofPoints ps) (Extent.ofPoints qs) := by
  obtain ⟨_, _, a3, a4, a5, a6, a7, a8⟩ := ofPoints_fv ps hp
  obtain ⟨_, _, b3, b4, b5, b6, b7, b8⟩ := ofPoints_fv qs (fun p h => hp p (hperm.mem_iff.mpr h))
  refine ⟨?_, ?_, ?_, ?_, ?_, ?_⟩
  · rw [a3, b3]; exact foldl_min_perm (hperm.map _)
  · rw [a4, b4]; exact foldl_min_perm (hperm.map _)
  · rw [a5, b5]; exact foldl_min_perm (hperm.map _)
  · rw [a6, b6]; exact foldl_max_perm (hperm.map _)
  · rw [a7, b7]; exact foldl_max_perm (hperm.map _)
  · rw [a8, b8]; exact foldl_max_perm (hperm.map _)

end

example : let ps : List (Pt F64) := [⟨num 3, num (-1), F64.zero⟩]
    let qs : List (Pt F64) := [⟨num 2, num 5, F64.negZero⟩, ⟨num 1, num 7, num 8⟩]
    (∀ p ∈ ps, NoNaN p) ∧ (∀ p ∈ qs, NoNaN p) ∧ (ps ++ qs).Perm (qs ++ ps) :=
  ⟨by unfold NoNaN; decide +kernel, by unfold NoNaN; decide +kernel, List.perm_append_comm⟩

/-- C16 with a NaN depends on the order of the points. -/
theorem c16_nan_order :
    let a : Pt F64 := ⟨num 5, num 0, num 0⟩
    let b : Pt F64 := ⟨F64.nan, num 0, num 0⟩
    ¬ SameBox (Extent.ofPoints [a, b, ⟨num 7, num 0, num 0⟩])
      (Extent.ofPoints [b, a, ⟨num 7, num 0, num 0⟩]) := by
  unfold SameBox; decide +kernel

/-! ## C18 cropping -/

section
variable {α : Type} [HasXYZ α]

theorem crop_eq_filter (ps : List α) (e : Extent) :
    Utils.crop ps e = ps.filter (fun p => !Utils.outside e (pt p)) := by
  unfold Utils.crop
  suffices h : ∀ acc : List α,
      ps.foldl (fun q p => if Utils.outside e (pt p) then q else q ++ [p]) acc
        = acc ++ ps.filter (fun p => !Utils.outside e (pt p)) by simpa using h []
  induction ps with
  | nil => simp
  | cons p ps ih =>
    intro acc
    simp only [List.foldl_cons, ih, List.filter_cons]
    cases Utils.outside e (pt p) <;> simp

theorem outside_iff {e : Extent} {p : Pt F64} (he : NoNaN e.minp ∧ NoNaN e.maxp) (hp : NoNaN p) :
    Utils.outside e p = false ↔ Inside e p := by
  obtain ⟨⟨m1, m2, m3⟩, ⟨n1, n2, n3⟩⟩ := he
  obtain ⟨p1, p2, p3⟩ := hp
  unfold Utils.outside Inside F64.gt
  simp only [Bool.or_eq_false_iff, F64.lt_eq_false, *]
  tauto

/-- C18 (partial: no NaN): cropping returns, in order, exactly the points in the closed box.  With a NaN
coordinate a point is kept although it is in no box, see `c18_nan_kept`. -/
theorem c18_crop_partial (ps : List α) (e : Extent) (he : NoNaN e.minp ∧ NoNaN e.maxp)
    (hp : ∀ p ∈ ps, NoNaN (pt p)) :
    Utils.crop ps e = ps.filter (fun p => decide (Inside e (pt p))) := by
  rw [crop_eq_filter]
  apply List.filter_congr
  intro p h
  have := outside_iff he (hp p h)
  by_cases hi : Inside e (pt p)
  · simp [hi, this.mpr hi]
  · have : Utils.outside e (pt p) = true := by
      by_contra hc; exact hi (this.mp (by simpa using hc))
    simp [hi, this]

/-- C18: cropping twice is cropping once, whatever the coordinates; nothing is reordered or invented. -/
theorem c18_idempotent (ps : List α) (e : Extent) :
    Utils.crop (Utils.crop ps e) e = Utils.crop ps e ∧ (Utils.crop ps e).Sublist ps := by
  simp only [crop_eq_filter, List.filter_filter, Bool.and_self]
  exact ⟨trivial, List.filter_sublist⟩

/-- C18 (partial: no NaN): cropping a cloud to its own extent changes nothing.  False with NaN,
see `c18_own_extent_nan`. -/
theorem c18_own_extent_partial (ps : List α) (hp : ∀ p ∈ ps, NoNaN (pt p)) :
    Utils.crop ps (Extent.ofPoints ps) = ps := by
  obtain ⟨h1, h2, _⟩ := ofPoints_fv ps hp
  rw [c18_crop_partial ps _ ⟨h1, h2⟩ hp, List.filter_eq_self]
  intro p h
  simpa using c15_extent_bounds ps hp p h

end

example : let ps : List (Pt F64) := [⟨num 3, num (-1), F64.zero⟩, ⟨num 2, num 5, F64.inf true⟩]
    (∀ p ∈ ps, NoNaN p) ∧ NoNaN (Extent.mk ⟨num 0, num 0, num 0⟩ ⟨num 9, num 9, num 9⟩).minp
      ∧ Utils.crop ps ⟨⟨num 0, num 0, F64.lowest⟩, ⟨num 9, num 9, num 9⟩⟩ = [] := by
  unfold NoNaN; decide +kernel

/-- C18 is false for NaN: a point whose x is NaN survives cropping. -/
theorem c18_nan_kept :
    let p : Pt F64 := ⟨F64.nan, num 0, num 0⟩
    let e : Extent := ⟨⟨num 0, num 0, num 0⟩, ⟨num 1, num 1, num 1⟩⟩
    Utils.crop [p] e = [p] ∧ F64.le e.minp.x p.x = false ∧ F64.le p.x e.maxp.x = false := by decide +kernel

/-- C18 is false for NaN: cropping to the own extent loses a point whose coordinates are all finite. -/
theorem c18_own_extent_nan :
    let ps : List (Pt F64) := [⟨num 5, num 0, num 0⟩, ⟨F64.nan, num 0, num 0⟩, ⟨num 7, num 0, num 0⟩]
    ps.head? = some ⟨num 5, num 0, num 0⟩ ∧
    ⟨num 5, num 0, num 0⟩ ∉ Utils.crop ps (Extent.ofPoints ps) := by decide +kernel

/-! ## C19 order -/

theorem lt_iff_lex {a b : Pt F64} (ha : NoNaN a) (hb : NoNaN b) : Pt.lt a b = true ↔ LexLt a b := by
  obtain ⟨a1, a2, a3⟩ := ha
  obtain ⟨b1, b2, b3⟩ := hb
  unfold Pt.lt LexLt F64.gt
  simp only [F64.lt, a1, a2, a3, b1, b2, b3, Bool.not_false, Bool.true_and, decide_eq_true_eq]
  repeat' split
  all_goals simp
  all_goals omega

/-- C19: `operator<` on points without NaN is the numerical lexicographic order; it is a strict weak
order whose incomparability is equality. -/
theorem c19_strict_weak_order (a b c : Pt F64) (ha : NoNaN a) (hb : NoNaN b) (hc : NoNaN c) :
    (Pt.lt a b = true ↔ LexLt a b)
      ∧ Pt.lt a a = false
      ∧ (Pt.lt a b = true → Pt.lt b a = false)
      ∧ (Pt.lt a b = true → Pt.lt b c = true → Pt.lt a c = true)
      ∧ ((Pt.lt a b = false ∧ Pt.lt b a = false) ↔ a.beq b = true)
      ∧ (Pt.lt a b = false → Pt.lt b a = false → Pt.lt b c = false → Pt.lt c b = false →
          Pt.lt a c = false ∧ Pt.lt c a = false) := by
  simp only [← Bool.not_eq_true, lt_iff_lex ha ha, lt_iff_lex ha hb, lt_iff_lex hb ha, lt_iff_lex hb hc,
    lt_iff_lex hc hb, lt_iff_lex ha hc, lt_iff_lex hc ha, c14_point_equality_meaning]
  unfold LexLt SamePlace
  refine ⟨trivial, by omega, by omega, by omega, ?_, by omega⟩
  constructor
  · intro h; exact ⟨ha, hb, by omega⟩
  · rintro ⟨_, _, h⟩; omega

example : NoNaN ⟨num 1, num 2, num 3⟩ ∧ Pt.lt ⟨num 1, num 2, num 3⟩ ⟨num 1, num 2, num 4⟩ = true := by
  unfold NoNaN; decide +kernel

/-- C19 needs the NaN condition: with NaN, incomparability is not transitive. -/
theorem c19_nan :
    let a : Pt F64 := ⟨num 1, num 0, num 0⟩
    let n : Pt F64 := ⟨F64.nan, num 0, num 0⟩
    let b : Pt F64 := ⟨num 2, num 0, num 0⟩
    Pt.lt a n = false ∧ Pt.lt n a = false ∧ Pt.lt n b = false ∧ Pt.lt b n = false ∧ Pt.lt a b = true := by
  decide +kernel

/-! ## C20 byte encodings -/

theorem bits_toNat_lt (x : F64) : x.bits.toNat < 256 ^ 8 := x.bits.toNat_lt

theorem ofLe_bits (u : UInt64) : UInt64.ofNat (ofLe (leBytes 8 u.toNat)) = u := by
  rw [ofLe_leBytes_of_lt u.toNat_lt]; exact UInt64.ofNat_toNat

theorem encode_eq (p : Pt F64) :
    Pt.encode p = leBytes 8 p.x.bits.toNat ++ (leBytes 8 p.y.bits.toNat ++ leBytes 8 p.z.bits.toNat) := by
  simp [Pt.encode, Pt.appendDouble]

/-- C20: an encoded point has 24 bytes and decodes to itself, bit for bit. -/
theorem c20_point (p : Pt F64) : (Pt.encode p).length = 24 ∧ Pt.decode (Pt.encode p) = .ok p := by
  have hl : (Pt.encode p).length = 24 := by simp [encode_eq]
  refine ⟨hl, ?_⟩
  unfold Pt.decode Pt.bytesToDouble
  rw [hl]
  have d0 : (Pt.encode p).take 8 = leBytes 8 p.x.bits.toNat := by
    rw [encode_eq]; exact List.take_left' (by simp)
  have d1 : ((Pt.encode p).drop 8).take 8 = leBytes 8 p.y.bits.toNat := by
    rw [encode_eq, List.drop_left' (by simp)]; exact List.take_left' (by simp)
  have d2 : ((Pt.encode p).drop 16).take 8 = leBytes 8 p.z.bits.toNat := by
    rw [encode_eq, ← List.append_assoc, List.drop_left' (by simp)]; exact List.take_of_length_le (by simp)
  simp [d0, d1, d2, ofLe_bits]

/-- C20: an encoded extent decodes to itself. -/
theorem c20_extent (e : Extent) : Extent.decode (Extent.encode e) = .ok e := by
  simp [Extent.decode, Extent.encode, (c20_point _).2]

theorem mem_length (p : Pt UInt64) : p.mem.length = 24 := by simp [Pt.mem]

theorem ofMem_mem (p : Pt UInt64) (rest : Bytes) : Pt.ofMem (p.mem ++ rest) = p := by
  have d0 : (p.mem ++ rest).take 8 = leBytes 8 p.x.toNat := by
    simp only [Pt.mem, List.append_assoc]; exact List.take_left' (by simp)
  have d1 : ((p.mem ++ rest).drop 8).take 8 = leBytes 8 p.y.toNat := by
    simp only [Pt.mem, List.append_assoc]
    rw [List.drop_left' (by simp)]; exact List.take_left' (by simp)
  have d2 : ((p.mem ++ rest).drop 16).take 8 = leBytes 8 p.z.toNat := by
    simp only [Pt.mem]
    rw [List.append_assoc, List.drop_left' (by simp)]; exact List.take_left' (by simp)
  simp [Pt.ofMem, d0, d1, d2, ofLe_bits]

theorem pointsOfMem_encode (ps : List (Pt UInt64)) :
    Pt.pointsOfMem ps.length (Pt.encodePoints ps) = ps := by
  induction ps with
  | nil => rfl
  | cons p ps ih =>
    simp only [List.length_cons, Pt.pointsOfMem, Pt.encodePoints, List.flatMap_cons, ofMem_mem]
    rw [List.drop_left' (mem_length p)]
    exact congrArg _ ih

theorem encodePoints_length (ps : List (Pt UInt64)) : (Pt.encodePoints ps).length = 24 * ps.length := by
  induction ps with
  | nil => rfl
  | cons p ps ih =>
    simp only [Pt.encodePoints, List.flatMap_cons, List.length_append, mem_length, List.length_cons] at *
    omega

/-- C20: an encoded vector of points decodes to itself in either build type. -/
theorem c20_points (b : Build) (ps : List (Pt UInt64)) :
    Pt.decodePoints b (Pt.encodePoints ps) = .ok ps := by
  unfold Pt.decodePoints
  have h : (Pt.encodePoints ps).length / 24 = ps.length := by rw [encodePoints_length]; omega
  rw [h, pointsOfMem_encode]
  simp [encodePoints_length]

/-- C20: decoding too few bytes as a point reads behind the end of the vector. -/
theorem c20_short_ub (bytes : Bytes) (h : bytes.length < 24) :
    ∃ why, Pt.decode bytes = .ub why := by
  unfold Pt.decode Pt.bytesToDouble
  have : ¬ (16 + 8 ≤ bytes.length) := by omega
  by_cases h0 : 0 + 8 ≤ bytes.length <;> by_cases h1 : 8 + 8 ≤ bytes.length <;>
    simp only [h0, h1, this, if_true, if_false, Res.ok_bind, Res.ub_bind] <;> exact ⟨_, rfl⟩

end Spoc.Props
