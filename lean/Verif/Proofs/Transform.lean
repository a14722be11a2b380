import Verif.Model.Transform
import Verif.Spec.Transform
import Verif.Props.Fields
import Verif.Props.Apps

/-!
# Helper lemmas for the transform application
-/

namespace Spoc.Props

open Spoc Spec Text AppUtils

theorem alnum_iff (c : Char) : isAlnum c = true ↔ LetterOrDigit c := by
  simp only [isAlnum, isAlpha, isDigit, LetterOrDigit, Bool.or_eq_true, Bool.and_eq_true, decide_eq_true_eq,
    Char.le_def, UInt32.le_iff_toNat_le, Char.toNat]
  constructor
  · rintro (h | h | h)
    · exact Or.inr (Or.inr h)
    · exact Or.inr (Or.inl h)
    · exact Or.inl h
  · rintro (h | h | h)
    · exact Or.inr (Or.inr h)
    · exact Or.inr (Or.inl h)
    · exact Or.inl h

theorem digit_iff (c : Char) : isDigit c = true ↔ Digit c := by
  simp only [isDigit, Digit, Bool.and_eq_true, decide_eq_true_eq, Char.le_def, UInt32.le_iff_toNat_le,
    Char.toNat]
  exact Iff.rfl

theorem token_takeWhile (s : Str) : Token s (s.takeWhile isAlnum) (s.dropWhile isAlnum) :=
  ⟨List.takeWhile_append_dropWhile.symm, fun _ hc => (alnum_iff _).mp (mem_takeWhile hc),
    fun c hc h => by
      have := head_dropWhile hc
      rw [(alnum_iff c).mpr h] at this
      simp at this⟩

theorem token_unique {s t rest : Str} (h : Token s t rest) :
    t = s.takeWhile isAlnum ∧ rest = s.dropWhile isAlnum := by
  have h1 : ∀ a ∈ t, isAlnum a = true := fun a ha => (alnum_iff a).mpr (h.all a ha)
  have h2 : ∀ a, rest.head? = some a → isAlnum a = false := fun a ha => by
    cases hb : isAlnum a with
    | false => rfl
    | true => exact absurd ((alnum_iff a).mp hb) (h.max a ha)
  rw [h.eq]
  exact ⟨(takeWhile_append_stop h1 h2).symm, (dropWhile_append_stop h1 h2).symm⟩

/-- The word selects the field in the switch statements of the application. -/
inductive Selects : Str → Field → Prop
  | x : Selects ['x'] .x
  | y : Selects ['y'] .y
  | z : Selects ['z'] .z
  | c : Selects ['c'] .c
  | p : Selects ['p'] .p
  | i : Selects ['i'] .i
  | r : Selects ['r'] .r
  | g : Selects ['g'] .g
  | b : Selects ['b'] .b
  | e {t : Str} {n : Nat} : Transform.label t = 'e' → (∀ ef, Transform.extraIndex t ef = n) → Selects t (.e n)

theorem extraIndex_eq {t : Str} {n : Nat} (h : getExtraIndex t = n) (hn : n < 2 ^ 31)
    (he : isExtraField t = true) (ef : Nat) : Transform.extraIndex t ef = n := by
  unfold Transform.extraIndex
  rw [if_pos he, h]
  simp only [UInt64.ofInt]
  rw [UInt64.toNat_ofNat']
  omega

/-- An accepted word denotes a field, and the switch statements select that field. -/
theorem accepted_denotes {t : Str} (ht : ∀ a ∈ t, isAlnum a = true) (h : checkFieldName t = true) :
    ∃ f, Denotes t f ∧ Selects t f := by
  rcases (c61_names_partial t ht).mp h with ⟨f, hf, rfl⟩ | ⟨ds, rest, rfl, hne, hd, hst, hlt, hidx⟩
  · refine ⟨f, Or.inl rfl, ?_⟩
    cases f with
    | e n => simp [Field.isExtra] at hf
    | _ => constructor
  · refine ⟨.e (Nat.ofDigitChars 10 ds 0), Or.inr ⟨ds, rest, rfl, rfl, hne, fun c hc => (digit_iff c).mp (hd c hc),
      fun c hc hdc => ?_⟩, Selects.e rfl (extraIndex_eq hidx hlt rfl)⟩
    have := hst c hc
    rw [(digit_iff c).mpr hdc] at this
    simp at this

/-- The name of a field is accepted and selects the field. -/
theorem selects_name (f : Field) (hf : ∀ n, f = .e n → n < 2 ^ 31) : Selects f.name f := by
  cases f with
  | e n =>
    have := (c61_field_names_accepted (.e n) hf).2 n rfl
    exact Selects.e rfl (extraIndex_eq this (hf n rfl) rfl)
  | _ => constructor

theorem name_alnum (f : Field) : ∀ a ∈ f.name, isAlnum a = true := by
  cases f with
  | e n =>
    intro a ha
    simp only [Field.name, List.mem_cons] at ha
    rcases ha with rfl | ha
    · decide
    · exact digit_alnum (showNat_digits n a ha)
  | _ => simp only [Field.name, List.mem_singleton, forall_eq]; decide

/-- Reading a field name in front of a separator. -/
theorem consumeFieldName_name (b : Build) (f : Field) (hf : ∀ n, f = .e n → n < 2 ^ 31) (sep : Char)
    (hsep : isAlnum sep = false) (rest : Str) :
    consumeFieldName b (f.name ++ sep :: rest) = .ok (f.name, rest) := by
  have hne : (f.name ++ sep :: rest).isEmpty = false := by simp
  have hstop : ∀ a, (sep :: rest).head? = some a → isAlnum a = false := by
    intro a ha
    simp only [List.head?_cons, Option.some.injEq] at ha
    rw [← ha]; exact hsep
  unfold consumeFieldName
  rw [hne, Bool.not_false, cassert_true, Res.ok_bind]
  simp only [takeWhile_append_stop (name_alnum f) hstop, dropWhile_append_stop (name_alnum f) hstop]
  rw [(c61_field_names_accepted f hf).1]
  rfl

theorem consumeFieldName_ok {b : Build} {s t r : Str} (h : consumeFieldName b s = .ok (t, r)) :
    ∃ rest f, Token s t rest ∧ r = rest.drop 1 ∧ Denotes t f ∧ Selects t f := by
  unfold consumeFieldName at h
  rw [Res.bind_eq_ok] at h
  obtain ⟨_, _, h⟩ := h
  simp only at h
  split at h
  · simp at h
  · rename_i hc
    simp only [Res.ok.injEq, Prod.mk.injEq] at h
    have hc' : checkFieldName (s.takeWhile isAlnum) = true := by simpa using hc
    obtain ⟨f, hd, hs⟩ := accepted_denotes (fun a ha => mem_takeWhile ha) hc'
    exact ⟨s.dropWhile isAlnum, f, by rw [← h.1]; exact token_takeWhile s, h.2.symm, by rw [← h.1]; exact hd,
      by rw [← h.1]; exact hs⟩

theorem consumeInt_showNat {n : Nat} (hn : n < 2 ^ 31) {sep : Char} (hs : isDigit sep = false) (rest : Str) :
    consumeInt (showNat n ++ sep :: rest) = .ok (UInt32.ofNat n, rest) := by
  unfold consumeInt
  rw [stoi_showNat hn (noDigit_cons hs)]
  simp only [Res.ok.injEq, Prod.mk.injEq]
  refine ⟨?_, by simp [List.drop_append]⟩
  simp only [UInt32.ofInt]
  congr 1
  omega

theorem consumeInt_showNat_end {n : Nat} (hn : n < 2 ^ 31) :
    consumeInt (showNat n) = .ok (UInt32.ofNat n, []) := by
  unfold consumeInt
  have := stoi_showNat hn noDigit_nil
  rw [List.append_nil] at this
  rw [this]
  simp only [Res.ok.injEq, Prod.mk.injEq]
  refine ⟨?_, by simp⟩
  simp only [UInt32.ofInt]
  congr 1
  omega

/-! ### Frame lemmas -/

theorem same_refl (fs : List Field) (p : PointRecord) : SameExcept fs p p := ⟨rfl, fun _ _ => rfl⟩

theorem same_mono {fs gs : List Field} (h : ∀ f ∈ fs, f ∈ gs) {p q : PointRecord} (hs : SameExcept fs p q) :
    SameExcept gs p q := ⟨hs.1, fun f hf => hs.2 f (fun h' => hf (h f h'))⟩

theorem same_xyz (fs : List Field) (p : PointRecord) (x y z : F64) (hx : .x ∈ fs ∨ x = p.x)
    (hy : .y ∈ fs ∨ y = p.y) (hz : .z ∈ fs ∨ z = p.z) :
    SameExcept fs p { p with x := x, y := y, z := z } := by
  refine ⟨rfl, fun f hf => ?_⟩
  cases f with
  | x => rcases hx with h | h; exact absurd h hf; simp [Field.get, h]
  | y => rcases hy with h | h; exact absurd h hf; simp [Field.get, h]
  | z => rcases hz with h | h; exact absurd h hf; simp [Field.get, h]
  | _ => rfl

/-- Setting an extra field. -/
theorem same_extra (p : PointRecord) (n : Nat) (v : UInt64) :
    SameExcept [.e n] p { p with extra := p.extra.set n v } := by
  refine ⟨by simp, fun f hf => ?_⟩
  cases f with
  | e m =>
    have : n ≠ m := fun h => hf (by simp [h])
    simp only [Field.get]
    rw [List.getElem?_set_ne this]
  | _ => rfl

theorem same_plain {f : Field} {p q : PointRecord} (hx : f = .x ∨ q.x = p.x) (hy : f = .y ∨ q.y = p.y)
    (hz : f = .z ∨ q.z = p.z) (hc : f = .c ∨ q.c = p.c) (hp : f = .p ∨ q.p = p.p) (hi : f = .i ∨ q.i = p.i)
    (hr : f = .r ∨ q.r = p.r) (hg : f = .g ∨ q.g = p.g) (hb : f = .b ∨ q.b = p.b) (he : q.extra = p.extra) :
    SameExcept [f] p q := by
  refine ⟨by rw [he], fun k hk => ?_⟩
  have hne : f ≠ k := fun h => hk (by simp [h])
  cases k with
  | x => rcases hx with h | h; exact absurd h hne; simp [Field.get, h]
  | y => rcases hy with h | h; exact absurd h hne; simp [Field.get, h]
  | z => rcases hz with h | h; exact absurd h hne; simp [Field.get, h]
  | c => rcases hc with h | h; exact absurd h hne; simp [Field.get, h]
  | p => rcases hp with h | h; exact absurd h hne; simp [Field.get, h]
  | i => rcases hi with h | h; exact absurd h hne; simp [Field.get, h]
  | r => rcases hr with h | h; exact absurd h hne; simp [Field.get, h]
  | g => rcases hg with h | h; exact absurd h hne; simp [Field.get, h]
  | b => rcases hb with h | h; exact absurd h hne; simp [Field.get, h]
  | e n => simp [Field.get, he]

theorem get_set_extra {p : PointRecord} {n : Nat} (h : n < p.extra.length) (v : UInt64) :
    (Field.e n).get { p with extra := p.extra.set n v } = some v.toNat := by
  simp [Field.get, h]

/-- What assigning an integer to the selected field does. -/
theorem copyDst_spec {t : Str} {f : Field} (h : Selects t f) (hf : f.isCoord = false) (ef src : Nat)
    (p q : PointRecord) (hq : Transform.copyDst t (Transform.extraIndex t ef) src p = .ok q) :
    SameExcept [f] p q ∧ f.get q = some (src % 2 ^ f.width) := by
  cases h with
  | x => simp [Field.isCoord] at hf
  | y => simp [Field.isCoord] at hf
  | z => simp [Field.isCoord] at hf
  | e h1 h2 =>
    simp only [Transform.copyDst, h1, h2] at hq
    split at hq
    · simp at hq
    · simp only [Res.ok.injEq] at hq
      rw [← hq]
      refine ⟨same_extra _ _ _, ?_⟩
      rw [get_set_extra (by omega)]
      rfl
  | _ =>
    simp only [Transform.copyDst, Transform.label, List.headD_cons, Res.ok.injEq] at hq
    rw [← hq]
    exact ⟨by apply same_plain <;> simp, by simp [Field.get, Field.width]⟩

/-- The value that the copy command reads. -/
theorem copySrc_spec {t : Str} {f : Field} (h : Selects t f) (hf : f.isCoord = false) (ef : Nat)
    (p : PointRecord) (v : Nat) :
    Transform.copySrc t (Transform.extraIndex t ef) p = .ok v ↔ f.get p = some v := by
  cases h with
  | x => simp [Field.isCoord] at hf
  | y => simp [Field.isCoord] at hf
  | z => simp [Field.isCoord] at hf
  | e h1 h2 =>
    simp only [Transform.copySrc, h1, h2, Field.get]
    split <;> simp [*]
  | _ => simp [Transform.copySrc, Transform.label, Field.get]

theorem isXYZ_iff {t : Str} {f : Field} (h : Selects t f) : Transform.isXYZ t = f.isCoord := by
  cases h with
  | e h1 h2 => simp [Transform.isXYZ, h1, Field.isCoord]
  | _ => rfl

/-- What the replace command does to a record. -/
theorem replaceBody_spec {t : Str} {f : Field} (h : Selects t f) (hf : f.isCoord = false) (ef : Nat)
    (v1 v2 : UInt32) (p q : PointRecord)
    (hq : Transform.replaceBody t v1 v2 (Transform.extraIndex t ef) p = .ok q) :
    SameExcept [f] p q ∧ (f.get p = some v1.toNat → f.get q = some (v2.toNat % 2 ^ f.width)) ∧
      (f.get p ≠ some v1.toNat → q = p) := by
  cases h with
  | x => simp [Field.isCoord] at hf
  | y => simp [Field.isCoord] at hf
  | z => simp [Field.isCoord] at hf
  | e h1 h2 =>
    simp only [Transform.replaceBody, h1, h2] at hq
    split at hq
    · simp at hq
    · rename_i v hv
      have hlt := (List.getElem?_eq_some_iff.mp hv).1
      simp only [Res.ok.injEq] at hq
      simp only [Field.get, hv, Option.map_some, ne_eq, Option.some.injEq]
      rw [← hq]
      split
      · rename_i he
        refine ⟨same_extra _ _ _, fun _ => ?_, fun hne => absurd he hne⟩
        have := v2.toNat_lt
        simp only [Field.width, List.getElem?_set_self hlt, Option.map_some]
        rfl
      · rename_i he
        exact ⟨same_refl _ _, fun h' => absurd h' he, fun _ => rfl⟩
  | _ =>
    simp only [Transform.replaceBody, Transform.label, List.headD_cons, Res.ok.injEq] at hq
    rw [← hq]
    simp only [Field.get, Option.some.injEq, ne_eq]
    split
    · rename_i he
      exact ⟨by apply same_plain <;> simp, fun _ => by simp [Field.width], fun hne => absurd he hne⟩
    · rename_i he
      exact ⟨same_refl _ _, fun h' => absurd h' he, fun _ => rfl⟩

/-- The replace command fails only if the extra field does not exist. -/
theorem replaceBody_defined {t : Str} {f : Field} (h : Selects t f) (hf : f.isCoord = false) (ef : Nat)
    (v1 v2 : UInt32) (p : PointRecord) (hg : (f.get p).isSome) :
    ∃ q, Transform.replaceBody t v1 v2 (Transform.extraIndex t ef) p = .ok q := by
  cases h with
  | x => simp [Field.isCoord] at hf
  | y => simp [Field.isCoord] at hf
  | z => simp [Field.isCoord] at hf
  | e h1 h2 =>
    simp only [Field.get, Option.isSome_map] at hg
    obtain ⟨v, hv⟩ := Option.isSome_iff_exists.mp hg
    simp only [Transform.replaceBody, h1, h2, hv]
    exact ⟨_, rfl⟩
  | _ => exact ⟨_, rfl⟩

theorem hasValue_spec {t : Str} {f : Field} (h : Selects t f) (hf : f.isCoord = false) (ef : Nat)
    (p : PointRecord) (v : UInt32) (r : Bool) :
    Transform.hasValue t (Transform.extraIndex t ef) p v = .ok r ↔
      ∃ w, f.get p = some w ∧ r = decide (w = v.toNat) := by
  cases h with
  | x => simp [Field.isCoord] at hf
  | y => simp [Field.isCoord] at hf
  | z => simp [Field.isCoord] at hf
  | e h1 h2 =>
    simp only [Transform.hasValue, h1, h2, Field.get]
    split <;> simp [*, eq_comm]
  | _ => simp [Transform.hasValue, Transform.label, Field.get, eq_comm]

/-- The loop of replace-not: is the value none of those listed? -/
theorem replaceNotLoop_spec {t : Str} {f : Field} (h : Selects t f) (hf : f.isCoord = false) (ef : Nat)
    (p : PointRecord) (vs : List UInt32) (w : Nat) (hw : f.get p = some w) :
    Transform.replaceNotLoop t (Transform.extraIndex t ef) p vs = .ok (decide (w ∉ vs.map UInt32.toNat)) := by
  induction vs with
  | nil => simp [Transform.replaceNotLoop]
  | cons v vs ih =>
    simp only [Transform.replaceNotLoop]
    rw [(hasValue_spec h hf ef p v (decide (w = v.toNat))).mpr ⟨w, hw, rfl⟩]
    simp only [Res.ok_bind, decide_eq_true_eq]
    split
    · rename_i he; simp [he]
    · rename_i he
      rw [ih]
      simp [he]

theorem replaceNotLoop_ok {t : Str} {f : Field} (h : Selects t f) (hf : f.isCoord = false) (ef : Nat)
    (p : PointRecord) (v : UInt32) (vs : List UInt32) (r : Bool)
    (hr : Transform.replaceNotLoop t (Transform.extraIndex t ef) p (v :: vs) = .ok r) :
    ∃ w, f.get p = some w ∧ r = decide (w ∉ (v :: vs).map UInt32.toNat) := by
  have h0 := hr
  simp only [Transform.replaceNotLoop] at hr
  rw [Res.bind_eq_ok] at hr
  obtain ⟨a, ha, _⟩ := hr
  obtain ⟨w, hw, _⟩ := (hasValue_spec h hf ef p v a).mp ha
  rw [replaceNotLoop_spec h hf ef p (v :: vs) w hw, Res.ok.injEq] at h0
  exact ⟨w, hw, h0.symm⟩

/-! ### The loop over the points -/

open Transform

/-- The records that `k` successive reads deliver. -/
def readRecords (ef : Nat) : Nat → IStream → List PointRecord
  | 0, _ => []
  | k + 1, s => (PointRecord.read s ef).1 :: readRecords ef k (PointRecord.read s ef).2

theorem readRecords_length (ef k : Nat) (s : IStream) : (readRecords ef k s).length = k := by
  induction k generalizing s with
  | zero => rfl
  | succ k ih => simp [readRecords, ih]

theorem readRecords_bytes (ef : Nat) (recs : List PointRecord) (hrec : ∀ q ∈ recs, q.extra.length = ef)
    (tl : Bytes) : readRecords ef recs.length { rest := recs.flatMap PointRecord.bytes ++ tl } = recs := by
  induction recs with
  | nil => rfl
  | cons q qs ih =>
    have hq : q.extra.length = ef := hrec q (by simp)
    simp only [List.length_cons, readRecords, List.flatMap_cons, List.append_assoc]
    have := PointRecord.read_bytes q (qs.flatMap PointRecord.bytes ++ tl)
    rw [hq] at this
    rw [this, ih (fun p hp => hrec p (by simp [hp]))]

theorem extraOf_length (n : Nat) (bs : Bytes) : (PointRecord.extraOf n bs).length = n := by
  induction n generalizing bs with
  | zero => rfl
  | succ n ih => simp [PointRecord.extraOf, ih]

theorem read_extra_length (ef : Nat) (s : IStream) : (PointRecord.read s ef).1.extra.length = ef := by
  unfold PointRecord.read
  simp only
  split
  · simp [PointRecord.ofFixed]
  · rename_i h
    simp only [PointRecord.blank, List.length_replicate, ne_eq, not_not] at h
    simp [PointRecord.ofFixed, h]

theorem readRecords_extra (ef k : Nat) (s : IStream) : ∀ q ∈ readRecords ef k s, q.extra.length = ef := by
  induction k generalizing s with
  | zero => simp [readRecords]
  | succ k ih =>
    intro q hq
    simp only [readRecords, List.mem_cons] at hq
    rcases hq with rfl | hq
    · exact read_extra_length ef s
    · exact ih _ q hq

/-- The operations applied to a list of points, the first of which has number `n`. -/
def applyAll (ops : List Op) : Nat → List PointRecord → Res (List PointRecord)
  | _, [] => .ok []
  | n, p :: ps => do
    let q ← applyOps n ops p
    let qs ← applyAll ops (n + 1) ps
    .ok (q :: qs)

theorem out_ok {α : Type} {o : Out α} {bs : Bytes} {a : α} : o = ⟨bs, .ok a⟩ ↔ o.bytes = bs ∧ o.res = .ok a := by
  cases o; simp

theorem lift_bind_ok {α β : Type} {r : Res α} {f : α → Out β} {b : β} {bs : Bytes} :
    (Out.lift r >>= f) = ⟨bs, .ok b⟩ ↔ ∃ a, r = .ok a ∧ f a = ⟨bs, .ok b⟩ := by
  cases r with
  | ok a => rw [Out.lift_ok_bind]; simp
  | throw e => simp
  | ub e => simp [Out.lift, Bind.bind, Out.bind]
  | abort => simp [Out.lift, Bind.bind, Out.bind]
  | hang => simp [Out.lift, Bind.bind, Out.bind]

theorem pointLoop_ok (ops : List Op) (ef k n : Nat) (s : IStream) (bs : Bytes) :
    pointLoop ops ef k n s = ⟨bs, .ok ()⟩ ↔
      ∃ qs, applyAll ops n (readRecords ef k s) = .ok qs ∧ bs = qs.flatMap PointRecord.bytes := by
  induction k generalizing n s bs with
  | zero =>
    simp only [pointLoop, Out.pure_def, Out.ret, Out.mk.injEq, and_true, readRecords, applyAll, Res.ok.injEq,
      exists_eq_left', List.flatMap_nil]
    exact eq_comm
  | succ k ih =>
    simp only [pointLoop, readRecords, applyAll]
    rw [lift_bind_ok]
    constructor
    · rintro ⟨q, hq, h⟩
      simp only [PointRecord.write_eq, Out.mk_ok_bind] at h
      simp only [Out.mk.injEq] at h
      obtain ⟨qs, h1, h2⟩ := (ih (n + 1) (PointRecord.read s ef).2
        (pointLoop ops ef k (n + 1) (PointRecord.read s ef).2).bytes).mp (out_ok.mpr ⟨rfl, h.2⟩)
      refine ⟨q :: qs, by rw [hq, h1]; rfl, ?_⟩
      rw [← h.1, h2]; simp
    · rintro ⟨qs, h1, h2⟩
      rw [Res.bind_eq_ok] at h1
      obtain ⟨q, hq, h1⟩ := h1
      rw [Res.bind_eq_ok] at h1
      obtain ⟨qs', hqs, h1⟩ := h1
      simp only [Res.ok.injEq] at h1
      refine ⟨q, hq, ?_⟩
      have := (ih (n + 1) (PointRecord.read s ef).2 (qs'.flatMap PointRecord.bytes)).mpr ⟨qs', hqs, rfl⟩
      simp only [PointRecord.write_eq, Out.mk_ok_bind, this]
      rw [h2, ← h1]; simp

theorem applyAll_ok (ops : List Op) (n : Nat) (ps qs : List PointRecord) :
    applyAll ops n ps = .ok qs ↔ qs.length = ps.length ∧
      ∀ (i : Nat) (p : PointRecord), ps[i]? = some p → ∃ q, qs[i]? = some q ∧ applyOps (n + i) ops p = .ok q := by
  induction ps generalizing n qs with
  | nil =>
    simp only [applyAll, Res.ok.injEq, List.length_nil, List.getElem?_nil, reduceCtorEq, false_imp_iff,
      implies_true, and_true, List.length_eq_zero_iff]
    exact eq_comm
  | cons p ps ih =>
    simp only [applyAll]
    constructor
    · intro h
      rw [Res.bind_eq_ok] at h
      obtain ⟨q, hq, h⟩ := h
      rw [Res.bind_eq_ok] at h
      obtain ⟨qs', hqs, h⟩ := h
      simp only [Res.ok.injEq] at h
      rw [← h]
      obtain ⟨hl, hall⟩ := (ih (n + 1) qs').mp hqs
      refine ⟨by simp [hl], fun i p' hi => ?_⟩
      cases i with
      | zero =>
        simp only [List.getElem?_cons_zero, Option.some.injEq] at hi ⊢
        exact ⟨q, rfl, by rw [← hi]; exact hq⟩
      | succ i =>
        simp only [List.getElem?_cons_succ] at hi ⊢
        obtain ⟨q', h1, h2⟩ := hall i p' hi
        exact ⟨q', h1, by rw [show n + (i + 1) = n + 1 + i by omega]; exact h2⟩
    · rintro ⟨hl, hall⟩
      cases qs with
      | nil => simp at hl
      | cons q qs' =>
        obtain ⟨q0, h1, h2⟩ := hall 0 p rfl
        simp only [List.getElem?_cons_zero, Option.some.injEq] at h1
        rw [← h1] at h2
        rw [show applyOps n ops p = .ok q from h2, Res.ok_bind]
        rw [(ih (n + 1) qs').mpr ⟨by simpa using hl, fun i p' hi => ?_⟩]
        · rfl
        · obtain ⟨q', h3, h4⟩ := hall (i + 1) p' (by simpa using hi)
          exact ⟨q', by simpa using h3, by rw [show n + 1 + i = n + (i + 1) by omega]; exact h4⟩

theorem applyOps_append (n : Nat) (o1 o2 : List Op) (p : PointRecord) :
    applyOps n (o1 ++ o2) p = (applyOps n o1 p >>= applyOps n o2) := by
  induction o1 generalizing p with
  | nil => rfl
  | cons o os ih =>
    simp only [List.cons_append, applyOps]
    rw [bind_assoc]
    congr 1
    funext q
    exact ih q

theorem applyOps_eq_fold (n : Nat) (ops : List Op) (p : PointRecord) :
    applyOps n ops p = ops.foldlM (fun q op => op n q) p := by
  induction ops generalizing p with
  | nil => rfl
  | cons o os ih =>
    simp only [applyOps, List.foldlM_cons]
    congr 1
    funext q
    exact ih q

theorem applyAll_append (o1 o2 : List Op) (n : Nat) (ps qs : List PointRecord) :
    applyAll (o1 ++ o2) n ps = .ok qs ↔ ∃ ms, applyAll o1 n ps = .ok ms ∧ applyAll o2 n ms = .ok qs := by
  induction ps generalizing n qs with
  | nil => simp [applyAll]
  | cons p ps ih =>
    simp only [applyAll, applyOps_append]
    constructor
    · intro h
      rw [Res.bind_eq_ok] at h
      obtain ⟨q, hq, h⟩ := h
      rw [Res.bind_eq_ok] at hq h
      obtain ⟨m, hm, hq⟩ := hq
      obtain ⟨qs', hqs, h⟩ := h
      obtain ⟨ms, h1, h2⟩ := (ih (n + 1) qs').mp hqs
      exact ⟨m :: ms, by rw [hm, h1]; rfl, by simp only [applyAll]; rw [hq, h2]; exact h⟩
    · rintro ⟨ms, h1, h2⟩
      rw [Res.bind_eq_ok] at h1
      obtain ⟨m, hm, h1⟩ := h1
      rw [Res.bind_eq_ok] at h1
      obtain ⟨ms', hms, h1⟩ := h1
      simp only [Res.ok.injEq] at h1
      rw [← h1] at h2
      simp only [applyAll] at h2
      rw [Res.bind_eq_ok] at h2
      obtain ⟨q, hq, h2⟩ := h2
      rw [Res.bind_eq_ok] at h2
      obtain ⟨qs', hqs, h2⟩ := h2
      rw [hm, Res.ok_bind, hq, Res.ok_bind, (ih (n + 1) qs').mpr ⟨ms', hms, hqs⟩]
      exact h2

theorem read_signature {s s' : IStream} {h : Header} (hr : Header.read s = .ok (h, s')) :
    h.signature = Header.sig := by
  rcases Header.read_general s with ⟨h', s'', h1, _, h3, _⟩ | ⟨e, h1⟩
  · rw [hr] at h1
    simp only [Res.ok.injEq, Prod.mk.injEq] at h1
    rw [← h1.1] at h3
    have hlen : h.signature.length = 4 := by
      unfold Header.read at hr
      simp only at hr
      split at hr
      · simp at hr
      split at hr
      · simp at hr
      split at hr
      · simp at hr
      simp only [Res.ok.injEq, Prod.mk.injEq] at hr
      rw [← hr.1]
      simp only [IStream.readInto_length]
      rfl
    rw [← h3, ← hlen, List.take_length]
  · rw [hr] at h1; simp at h1

/-- A header that was read can be written and read again. -/
theorem read_reread {s s' : IStream} {h : Header} (hr : Header.read s = .ok (h, s')) (tl : Bytes) :
    h.write = ⟨h.bytes, .ok ()⟩ ∧ Header.read { rest := h.bytes ++ tl } = .ok (h, { rest := tl }) := by
  have hs := read_signature hr
  rcases Header.read_general s with ⟨h', s'', h1, h2, h3, h4, h5⟩ | ⟨e, h1⟩
  · rw [hr] at h1
    simp only [Res.ok.injEq, Prod.mk.injEq] at h1
    rw [← h1.1] at h2 h3 h4 h5
    exact ⟨Header.write_ok ((Header.checkSignature_iff h).mpr h3), Header.read_bytes hs h4 h5 h2 tl⟩
  · rw [hr] at h1; simp at h1

theorem header_valid {h : Header} (hs : h.signature = Header.sig) (hw : h.wkt.length ≤ 0xFFFF) :
    h.isValid = true := by
  unfold Header.isValid
  rw [(Header.checkSignature_iff h).mpr (by rw [hs]; rfl)]
  simp only [Bool.not_true, Bool.false_eq_true, if_false]
  rw [if_neg (by omega)]

/-- When and with what result the application succeeds. -/
theorem apply_ok (b : Build) (env : Env) (s : IStream) (cs : List Command) (seed : Nat) (bs : Bytes) :
    Transform.apply b env s cs seed = ⟨bs, .ok ()⟩ ↔
      (b = .debug → s.good = true) ∧ ∃ h s' ops qs, Header.read s = .ok (h, s') ∧ h.compressed = 0 ∧
        cs.mapM (parseCommand b env seed h.extraFields.toNat) = .ok ops ∧
        applyAll ops 0 (readRecords h.extraFields.toNat h.totalPoints.toNat s') = .ok qs ∧
        bs = h.bytes ++ qs.flatMap PointRecord.bytes := by
  have hreq : ∀ c u, require b c = .ok u ↔ (b = .debug → c = true) := by
    intro c u
    cases b <;> cases c <;> simp [require]
  unfold Transform.apply readHeaderUncompressed
  simp only [lift_bind_ok, hreq, exists_const]
  refine and_congr_right (fun hg => ?_)
  constructor
  · rintro ⟨⟨h, s'⟩, hrd, hval, hrest⟩
    rw [Res.bind_eq_ok] at hrd
    obtain ⟨_, _, hrd⟩ := hrd
    rw [Res.bind_eq_ok] at hrd
    obtain ⟨⟨h0, s0⟩, hr0, hrd⟩ := hrd
    simp only at hrd
    split at hrd
    · simp at hrd
    · rename_i hc
      rw [Res.bind_eq_ok] at hrd
      obtain ⟨_, _, hrd⟩ := hrd
      simp only [Res.ok.injEq, Prod.mk.injEq] at hrd
      obtain ⟨rfl, rfl⟩ := hrd
      simp only [ne_eq, not_not] at hc
      simp only [(read_reread hr0 []).1, Out.mk_ok_bind, Out.mk.injEq] at hrest
      obtain ⟨ops, hops, hl⟩ := lift_bind_ok.mp (out_ok.mpr ⟨rfl, hrest.2⟩)
      obtain ⟨qs, h1, h2⟩ := (pointLoop_ok _ _ _ _ _ _).mp hl
      exact ⟨h0, s0, ops, qs, hr0, hc, hops, h1, by rw [← hrest.1, h2]⟩
  · rintro ⟨h, s', ops, qs, hr, hc, hops, hall, rfl⟩
    have hv : h.isValid = true := by
      rcases Header.read_general s with ⟨h', s'', h1, h2, _⟩ | ⟨e, h1⟩
      · rw [hr] at h1
        simp only [Res.ok.injEq, Prod.mk.injEq] at h1
        rw [← h1.1] at h2
        exact header_valid (read_signature hr) h2
      · rw [hr] at h1; simp at h1
    refine ⟨(h, s'), ?_, fun _ => hv, ?_⟩
    · rw [(hreq s.good ()).mpr hg, Res.ok_bind, hr, Res.ok_bind]
      simp [hc, hv]
    · have := (pointLoop_ok ops h.extraFields.toNat h.totalPoints.toNat 0 s' _).mpr ⟨qs, hall, rfl⟩
      simp only [(read_reread hr []).1, Out.mk_ok_bind, hops, Out.lift_ok_bind, this]

end Spoc.Props
