import Verif.Model.Diff
import Verif.Spec.Diff
import Verif.Proofs.Apps
import Verif.Proofs.ResList
import Mathlib.Tactic.IntervalCases
import Verif.Proofs.Geometry
import Verif.Props.Geometry

/-!
# Lemmas about the diff application
-/

namespace Spoc.Diff

open Spec Text

theorem eqDoubles_iff (xs ys : List F64) : eqDoubles xs ys = true ↔ List.Forall₂ (fun x y => F64.feq x y = true) xs ys := by
  induction xs generalizing ys with
  | nil => cases ys <;> simp [eqDoubles]
  | cons x xs ih => cases ys <;> simp [eqDoubles, ih]

theorem eqColumn_iff (field : PointRecord → F64) (ps qs : List PointRecord) :
    eqDoubles (column field ps) (column field qs) = true
      ↔ List.Forall₂ (fun a b => F64.feq (field a) (field b) = true) ps qs := by
  unfold column
  rw [eqDoubles_iff, List.forall₂_map_left_iff, List.forall₂_map_right_iff]

theorem column_iff {α : Type} (field : PointRecord → α) (ps qs : List PointRecord) :
    column field ps = column field qs ↔ List.Forall₂ (fun a b => field a = field b) ps qs := by
  unfold column
  rw [← List.forall₂_eq_eq_eq, List.forall₂_map_left_iff, List.forall₂_map_right_iff]

theorem forall₂_and {α β : Type} {R S : α → β → Prop} {l : List α} {m : List β} :
    List.Forall₂ (fun a b => R a b ∧ S a b) l m ↔ List.Forall₂ R l m ∧ List.Forall₂ S l m := by
  induction l generalizing m with
  | nil => cases m <;> simp
  | cons a l ih =>
    cases m with
    | nil => simp
    | cons b m => simp only [List.forall₂_cons, ih]; tauto

theorem getExtra_eq (b : Build) (k : Nat) (ps : List PointRecord) (h : ∀ p ∈ ps, k < p.extra.length) :
    getExtra b k ps = .ok (column (fun p => p.extra.getD k 0) ps) := by
  unfold getExtra column
  rw [mapM_eq_ok, List.forall₂_map_right_iff, List.forall₂_same]
  intro p hp
  have hk := h p hp
  have : cassert b (decide (k < p.extra.length)) = .ok () := by cases b <;> simp [cassert, hk]
  rw [this]
  simp only [Res.ok_bind]
  rw [List.getElem?_eq_getElem hk, List.getD_eq_getElem?_getD, List.getElem?_eq_getElem hk]
  rfl

theorem eqExtras_eq (b : Build) (ps qs : List PointRecord) (n : Nat) (hp : ∀ p ∈ ps, n ≤ p.extra.length)
    (hq : ∀ p ∈ qs, n ≤ p.extra.length) :
    eqExtras b ps qs n = .ok (decide (∀ k < n, column (fun p => p.extra.getD k 0) ps = column (fun p => p.extra.getD k 0) qs)) := by
  unfold eqExtras
  induction n with
  | zero => simp
  | succ n ih =>
    rw [List.range_succ, List.foldlM_append, ih (fun p h => (Nat.le_succ n).trans (hp p h)) (fun p h => (Nat.le_succ n).trans (hq p h)),
      Res.ok_bind]
    simp only [List.foldlM_cons, List.foldlM_nil]
    rw [getExtra_eq b n ps (fun p h => hp p h), getExtra_eq b n qs (fun p h => hq p h)]
    simp only [Res.ok_bind, Res.pure_def]
    congr 1
    rw [Bool.eq_iff_iff]
    simp only [Bool.and_eq_true, decide_eq_true_eq]
    constructor
    · rintro ⟨h1, h2⟩ k hk
      rcases Nat.lt_succ_iff_lt_or_eq.mp hk with h | rfl
      · exact h1 k h
      · exact h2
    · intro h
      exact ⟨fun k hk => h k (by omega), h n (by omega)⟩

theorem extraFieldsSize_eq (ps : List PointRecord) : extraFieldsSize ps = extraCount ps := by
  cases ps <;> rfl

theorem uniform_count {ps : List PointRecord} (h : Uniform ps) : ∀ p ∈ ps, p.extra.length = extraCount ps := by
  intro p hp
  cases ps with
  | nil => simp at hp
  | cons q ps => exact h p hp q (by simp)

theorem extras_iff {ps qs : List PointRecord} (hp : Uniform ps) (hq : Uniform qs) (hl : ps.length = qs.length)
    (hc : extraCount ps = extraCount qs) :
    (∀ k < extraCount ps, column (fun p => p.extra.getD k 0) ps = column (fun p => p.extra.getD k 0) qs)
      ↔ List.Forall₂ (fun a b => a.extra = b.extra) ps qs := by
  simp only [column_iff]
  simp only [List.forall₂_iff_get]
  constructor
  · intro h
    refine ⟨hl, fun i h1 h2 => ?_⟩
    have l1 := uniform_count hp _ (List.getElem_mem h1)
    have l2 := uniform_count hq _ (List.getElem_mem h2)
    apply List.ext_getElem
    · simp only [List.get_eq_getElem]; rw [l1, l2, hc]
    · intro k k1 k2
      have := (h k (by simp only [List.get_eq_getElem] at k1; rw [l1] at k1; exact k1)).2 i h1 h2
      rw [List.getD_eq_getElem?_getD, List.getD_eq_getElem?_getD, List.getElem?_eq_getElem k1, List.getElem?_eq_getElem k2] at this
      exact this
  · rintro ⟨_, h⟩ k _
    exact ⟨hl, fun i h1 h2 => by rw [h i h1 h2]⟩

theorem sameRecord_iff (a b : PointRecord) : SameRecord a b ↔
    F64.feq a.x b.x = true ∧ F64.feq a.y b.y = true ∧ F64.feq a.z b.z = true ∧ a.c = b.c ∧ a.p = b.p ∧ a.i = b.i ∧ a.r = b.r
      ∧ a.g = b.g ∧ a.b = b.b ∧ a.extra = b.extra := by
  simp only [SameRecord, F64.feq_iff, NoNaNRecord, NoNaN, SamePlace, pt]
  tauto

/-- The comparison of the data decides whether the records are the same. -/
theorem eqData_eq (b : Build) (ps qs : List PointRecord) (hp : Uniform ps) (hq : Uniform qs) :
    ∃ r, eqData b ps qs = .ok r ∧ (r = true ↔ List.Forall₂ SameRecord ps qs) := by
  have hs : List.Forall₂ SameRecord ps qs ↔
      List.Forall₂ (fun a b => F64.feq a.x b.x = true) ps qs ∧ List.Forall₂ (fun a b => F64.feq a.y b.y = true) ps qs
      ∧ List.Forall₂ (fun a b => F64.feq a.z b.z = true) ps qs ∧ List.Forall₂ (fun a b => a.c = b.c) ps qs
      ∧ List.Forall₂ (fun a b => a.p = b.p) ps qs ∧ List.Forall₂ (fun a b => a.i = b.i) ps qs
      ∧ List.Forall₂ (fun a b => a.r = b.r) ps qs ∧ List.Forall₂ (fun a b => a.g = b.g) ps qs
      ∧ List.Forall₂ (fun a b => a.b = b.b) ps qs ∧ List.Forall₂ (fun a b => a.extra = b.extra) ps qs := by
    have : SameRecord = fun a b => F64.feq a.x b.x = true ∧ F64.feq a.y b.y = true ∧ F64.feq a.z b.z = true ∧ a.c = b.c ∧ a.p = b.p
        ∧ a.i = b.i ∧ a.r = b.r ∧ a.g = b.g ∧ a.b = b.b ∧ a.extra = b.extra := by
      funext a b; exact propext (sameRecord_iff a b)
    rw [this]
    simp only [forall₂_and]
  unfold eqData
  simp only [ne_eq, Bool.not_eq_true', ← Bool.not_eq_true]
  by_cases h1 : eqDoubles (column (·.x) ps) (column (·.x) qs) = true
  swap
  · rw [if_pos h1]; rw [eqColumn_iff] at h1; exact ⟨_, rfl, by rw [hs]; simp [h1]⟩
  rw [if_neg (not_not.mpr h1)]
  rw [eqColumn_iff] at h1
  by_cases h2 : eqDoubles (column (·.y) ps) (column (·.y) qs) = true
  swap
  · rw [if_pos h2]; rw [eqColumn_iff] at h2; exact ⟨_, rfl, by rw [hs]; simp [h2]⟩
  rw [if_neg (not_not.mpr h2)]
  rw [eqColumn_iff] at h2
  by_cases h3 : eqDoubles (column (·.z) ps) (column (·.z) qs) = true
  swap
  · rw [if_pos h3]; rw [eqColumn_iff] at h3; exact ⟨_, rfl, by rw [hs]; simp [h3]⟩
  rw [if_neg (not_not.mpr h3)]
  rw [eqColumn_iff] at h3
  by_cases h4 : column (·.c) ps = column (·.c) qs
  swap
  · rw [if_pos h4]; rw [column_iff] at h4; exact ⟨_, rfl, by rw [hs]; simp [h4]⟩
  rw [if_neg (not_not.mpr h4)]
  rw [column_iff] at h4
  by_cases h5 : column (·.p) ps = column (·.p) qs
  swap
  · rw [if_pos h5]; rw [column_iff] at h5; exact ⟨_, rfl, by rw [hs]; simp [h5]⟩
  rw [if_neg (not_not.mpr h5)]
  rw [column_iff] at h5
  by_cases h6 : column (·.i) ps = column (·.i) qs
  swap
  · rw [if_pos h6]; rw [column_iff] at h6; exact ⟨_, rfl, by rw [hs]; simp [h6]⟩
  rw [if_neg (not_not.mpr h6)]
  rw [column_iff] at h6
  by_cases h7 : column (·.r) ps = column (·.r) qs
  swap
  · rw [if_pos h7]; rw [column_iff] at h7; exact ⟨_, rfl, by rw [hs]; simp [h7]⟩
  rw [if_neg (not_not.mpr h7)]
  rw [column_iff] at h7
  by_cases h8 : column (·.g) ps = column (·.g) qs
  swap
  · rw [if_pos h8]; rw [column_iff] at h8; exact ⟨_, rfl, by rw [hs]; simp [h8]⟩
  rw [if_neg (not_not.mpr h8)]
  rw [column_iff] at h8
  by_cases h9 : column (·.b) ps = column (·.b) qs
  swap
  · rw [if_pos h9]; rw [column_iff] at h9; exact ⟨_, rfl, by rw [hs]; simp [h9]⟩
  rw [if_neg (not_not.mpr h9)]
  rw [column_iff] at h9
  rw [extraFieldsSize_eq, extraFieldsSize_eq]
  by_cases h10 : extraCount ps = extraCount qs
  swap
  · rw [if_pos h10]
    refine ⟨_, rfl, ?_⟩
    simp only [Bool.false_eq_true, false_iff]
    intro hall
    apply h10
    cases hall with
    | nil => rfl
    | cons h _ => exact congrArg List.length ((sameRecord_iff _ _).mp h).2.2.2.2.2.2.2.2.2
  rw [if_neg (not_not.mpr h10)]
  rw [eqExtras_eq b ps qs _ (fun p h => (uniform_count hp p h).ge) (fun p h => by rw [h10]; exact (uniform_count hq p h).ge)]
  refine ⟨_, rfl, ?_⟩
  rw [decide_eq_true_eq, extras_iff hp hq h9.length_eq h10, hs]
  tauto

/-- The comparison of the headers decides whether the headers are the same. -/
theorem eqHeaders_eq (f g : SpocFile) (wf : f.wkt.length ≤ 65535) (wg : g.wkt.length ≤ 65535)
    (ef : extraCount f.prs < 256) (eg : extraCount g.prs < 256) (nf : f.prs.length < 2 ^ 64) (ng : g.prs.length < 2 ^ 64) :
    ∃ r, eqHeaders f g = .ok r ∧ (r = true ↔ SameHeader f g) := by
  have key : ∀ f : SpocFile, f.wkt.length ≤ 65535 → f.getHeader = .ok
      { signature := Header.sig, major := f.major, minor := f.minor, wkt := f.wkt, extraFields := UInt8.ofNat (extraCount f.prs)
        totalPoints := UInt64.ofNat f.prs.length, compressed := if f.compressed then 1 else 0 } := by
    intro f hf
    unfold SpocFile.getHeader Header.new
    rw [if_neg (by omega)]
    have : f.extraFields = extraCount f.prs := by
      unfold SpocFile.extraFields extraCount
      cases f.prs <;> rfl
    rw [this]
  unfold eqHeaders
  rw [key f wf, key g wg]
  simp only [Res.ok_bind]
  refine ⟨_, rfl, ?_⟩
  have e1 : UInt8.ofNat (extraCount f.prs) = UInt8.ofNat (extraCount g.prs) ↔ extraCount f.prs = extraCount g.prs := by
    rw [← UInt8.toNat_inj, UInt8.toNat_ofNat', UInt8.toNat_ofNat', Nat.mod_eq_of_lt ef, Nat.mod_eq_of_lt eg]
  have e2 : UInt64.ofNat f.prs.length = UInt64.ofNat g.prs.length ↔ f.prs.length = g.prs.length := by
    rw [← UInt64.toNat_inj, UInt64.toNat_ofNat', UInt64.toNat_ofNat', Nat.mod_eq_of_lt nf, Nat.mod_eq_of_lt ng]
  have e3 : (if f.compressed = true then (1 : UInt8) else 0) = (if g.compressed = true then 1 else 0)
      ↔ f.compressed = g.compressed := by
    cases f.compressed <;> cases g.compressed <;> simp
  unfold Header.bne SameHeader
  simp only [ne_eq, not_true_eq_false, if_false, e1, e2, e3]
  split_ifs <;> simp <;> tauto

/-! ## Fields -/

/-- Both files have the field that a character names, or it is not an extra field. -/
def HasField (name : Char) (ps qs : List PointRecord) : Prop :=
  isDigit name = true → decVal [name] < extraCount ps ∧ decVal [name] < extraCount qs

def letters : List Char := ['x', 'y', 'z', 'c', 'p', 'i', 'r', 'g', 'b']
def digits : List Char := ['0', '1', '2', '3', '4', '5', '6', '7', '8', '9']

theorem fieldNames_cases {c : Char} (h : c ∈ fieldNames) :
    (c ∈ letters ∧ isDigit c = false) ∨ (c ∈ digits ∧ isDigit c = true) := by
  have key : ∀ c ∈ fieldNames, (c ∈ letters ∧ isDigit c = false) ∨ (c ∈ digits ∧ isDigit c = true) := by decide
  exact key c h

theorem eqField_unknown (b : Build) (ps qs : List PointRecord) {c : Char} (h : c ∉ fieldNames) :
    eqField b ps qs c = .throw "Unknown field specifier: " := by
  have hd : isDigit c = true → c ∈ digits := by
    intro hc
    simp only [isDigit, Bool.and_eq_true, decide_eq_true_eq] at hc
    have h1 : 48 ≤ c.toNat := hc.1
    have h2 : c.toNat ≤ 57 := hc.2
    have : c = Char.ofNat c.toNat := (Char.ofNat_toNat c).symm
    generalize c.toNat = n at this h1 h2
    interval_cases n <;> subst this <;> decide
  have hx : ∀ d ∈ fieldNames, c ≠ d := fun d hd e => h (e ▸ hd)
  unfold eqField
  rw [if_neg (hx 'x' (by decide)), if_neg (hx 'y' (by decide)), if_neg (hx 'z' (by decide)), if_neg (hx 'c' (by decide)),
    if_neg (hx 'p' (by decide)), if_neg (hx 'i' (by decide)), if_neg (hx 'r' (by decide)), if_neg (hx 'g' (by decide)),
    if_neg (hx 'b' (by decide)), if_neg]
  intro hc
  have := hd hc
  refine h ?_
  have key : ∀ c ∈ digits, c ∈ fieldNames := by decide
  exact key c this

theorem getD_iff {a b : PointRecord} {k : Nat} (ha : k < a.extra.length) (hb : k < b.extra.length) :
    a.extra.getD k 0 = b.extra.getD k 0 ↔ a.extra[k]? = b.extra[k]? := by
  rw [List.getD_eq_getElem?_getD, List.getD_eq_getElem?_getD, List.getElem?_eq_getElem ha, List.getElem?_eq_getElem hb]
  simp

/-- A known field: the comparison decides whether the field is the same, provided both files have it. -/
theorem eqField_eq (b : Build) (ps qs : List PointRecord) (hp : Uniform ps) (hq : Uniform qs) {c : Char} (h : c ∈ fieldNames) :
    ∃ r, eqField b ps qs c = .ok r ∧ (HasField c ps qs → (r = true ↔ List.Forall₂ (SameField c) ps qs))
      ∧ (¬ HasField c ps qs → r = true) := by
  rcases fieldNames_cases h with ⟨hc, hnd⟩ | ⟨hc, hd⟩
  · have hh : HasField c ps qs := fun hd => by rw [hnd] at hd; simp at hd
    simp only [letters, List.mem_cons, List.not_mem_nil, or_false] at hc
    have goal : ∀ r : Bool, eqField b ps qs c = .ok r → (r = true ↔ List.Forall₂ (SameField c) ps qs) →
        ∃ r, eqField b ps qs c = .ok r ∧ (HasField c ps qs → (r = true ↔ List.Forall₂ (SameField c) ps qs))
          ∧ (¬ HasField c ps qs → r = true) := fun r h1 h2 => ⟨r, h1, fun _ => h2, fun hn => absurd hh hn⟩
    have dbl : ∀ (field : PointRecord → F64), (∀ a b, SameField c a b ↔ F64.feq (field a) (field b) = true) →
        (eqDoubles (column field ps) (column field qs) = true ↔ List.Forall₂ (SameField c) ps qs) := by
      intro field hf
      rw [eqColumn_iff]
      have : SameField c = fun a b => F64.feq (field a) (field b) = true := by
        funext a b; exact propext (hf a b)
      rw [this]
    have int : ∀ {α : Type} [DecidableEq α] (field : PointRecord → α), (∀ a b, SameField c a b ↔ field a = field b) →
        (decide (column field ps = column field qs) = true ↔ List.Forall₂ (SameField c) ps qs) := by
      intro α _ field hf
      rw [decide_eq_true_eq, column_iff]
      have : SameField c = fun a b => field a = field b := by
        funext a b; exact propext (hf a b)
      rw [this]
    rcases hc with rfl | rfl | rfl | rfl | rfl | rfl | rfl | rfl | rfl
    · exact goal _ rfl (dbl (·.x) (fun a b => F64.feq_iff.symm))
    · exact goal _ rfl (dbl (·.y) (fun a b => F64.feq_iff.symm))
    · exact goal _ rfl (dbl (·.z) (fun a b => F64.feq_iff.symm))
    · exact goal _ rfl (int (·.c) (fun a b => Iff.rfl))
    · exact goal _ rfl (int (·.p) (fun a b => Iff.rfl))
    · exact goal _ rfl (int (·.i) (fun a b => Iff.rfl))
    · exact goal _ rfl (int (·.r) (fun a b => Iff.rfl))
    · exact goal _ rfl (int (·.g) (fun a b => Iff.rfl))
    · exact goal _ rfl (int (·.b) (fun a b => Iff.rfl))
  · have e : eqField b ps qs c = if decVal [c] < extraFieldsSize ps ∧ decVal [c] < extraFieldsSize qs then (do
        let v ← getExtra b (decVal [c]) ps
        let w ← getExtra b (decVal [c]) qs
        .ok (decide (v = w))) else .ok true := by
      have key : ∀ c ∈ digits, ∀ d ∈ letters, c ≠ d := by decide
      have hx := key c hc
      unfold eqField
      rw [if_neg (hx 'x' (by decide)), if_neg (hx 'y' (by decide)), if_neg (hx 'z' (by decide)), if_neg (hx 'c' (by decide)),
        if_neg (hx 'p' (by decide)), if_neg (hx 'i' (by decide)), if_neg (hx 'r' (by decide)), if_neg (hx 'g' (by decide)),
        if_neg (hx 'b' (by decide)), if_pos hd]
    rw [e, extraFieldsSize_eq, extraFieldsSize_eq]
    by_cases hh : decVal [c] < extraCount ps ∧ decVal [c] < extraCount qs
    · rw [if_pos hh, getExtra_eq b _ ps (fun p hm => by rw [uniform_count hp p hm]; exact hh.1),
        getExtra_eq b _ qs (fun p hm => by rw [uniform_count hq p hm]; exact hh.2)]
      simp only [Res.ok_bind]
      refine ⟨_, rfl, fun _ => ?_, fun hn => absurd (fun _ => hh) hn⟩
      rw [decide_eq_true_eq, column_iff]
      have hs : ∀ a b : PointRecord, SameField c a b ↔ a.extra[decVal [c]]? = b.extra[decVal [c]]? := by
        intro a b
        simp only [digits, List.mem_cons, List.not_mem_nil, or_false] at hc
        rcases hc with rfl | rfl | rfl | rfl | rfl | rfl | rfl | rfl | rfl | rfl <;> exact Iff.rfl
      simp only [List.forall₂_iff_get]
      constructor
      · rintro ⟨hl, h2⟩
        refine ⟨hl, fun i h1 h3 => ?_⟩
        rw [hs]
        refine (getD_iff ?_ ?_).mp (h2 i h1 h3)
        · rw [uniform_count hp _ (List.get_mem ps ⟨i, h1⟩)]; exact hh.1
        · rw [uniform_count hq _ (List.get_mem qs ⟨i, h3⟩)]; exact hh.2
      · rintro ⟨hl, h2⟩
        refine ⟨hl, fun i h1 h3 => ?_⟩
        refine (getD_iff ?_ ?_).mpr ((hs _ _).mp (h2 i h1 h3))
        · rw [uniform_count hp _ (List.get_mem ps ⟨i, h1⟩)]; exact hh.1
        · rw [uniform_count hq _ (List.get_mem qs ⟨i, h3⟩)]; exact hh.2
    · rw [if_neg hh]
      exact ⟨true, rfl, fun h => absurd (h hd) hh, fun _ => rfl⟩

end Spoc.Diff
