import Verif.Model.Tool
import Verif.Spec.Tool
import Verif.Proofs.Nearest
import Verif.Proofs.Transform
import Verif.Proofs.Filter
import Verif.Props.Fields
import Verif.Props.File

/-!
# Lemmas about the tool application
-/

namespace Spoc.Text

open Spec

/-- The sentry skips white space. -/
theorem sentry_skip {ws w : Str} {c : Char} (hw : ∀ a ∈ ws, isSpace a = true) (hc : isSpace c = false) :
    TextIn.sentry { rest := ws ++ c :: w } = (true, { rest := c :: w }) := by
  have hd : (ws ++ c :: w).dropWhile isSpace = c :: w := by
    refine dropWhile_append_stop hw ?_
    intro a ha
    simp only [List.head?_cons, Option.some.injEq] at ha
    rw [← ha]; exact hc
  unfold TextIn.sentry TextIn.good
  simp only [Bool.not_false, Bool.and_true, Bool.not_true, Bool.false_eq_true, if_false, hd, List.isEmpty_cons]

theorem intText_cons {n : IntNumeral} (h : n.Ok) : ∃ c t, n.text = c :: t ∧ isSpace c = false := by
  obtain ⟨d, r, hd⟩ : ∃ d r, n.ds = d :: r := by
    cases hd : n.ds with
    | nil => exact absurd hd h.ne
    | cons d r => exact ⟨d, r, rfl⟩
  unfold IntNumeral.text
  rcases h.sg with e | e | e
  · exact ⟨d, r, by rw [e, hd]; rfl, digit_not_space (h.ds d (by rw [hd]; simp))⟩
  · exact ⟨'+', n.ds, by rw [e]; rfl, by decide⟩
  · exact ⟨'-', n.ds, by rw [e]; rfl, by decide⟩

theorem ofInt_natCast (n : Nat) : UInt64.ofInt (n : Int) = UInt64.ofNat n := by
  apply UInt64.toNat_inj.mp
  simp only [UInt64.ofInt]
  rw [UInt64.toNat_ofNat', UInt64.toNat_ofNat']
  omega

/-- Reading an integer, after white space. -/
theorem readU64_numeral {n : IntNumeral} (h : n.Ok) {ws r : Str} (hw : ∀ c ∈ ws, isSpace c = true) (hr : Stops r) (old : UInt64) :
    TextIn.readU64 { rest := ws ++ (n.text ++ r) } old
      = (UInt64.ofInt n.value, { rest := r, eof := r.isEmpty, fail := false }) := by
  obtain ⟨c, t, ht, hc⟩ := intText_cons h
  have hs : TextIn.sentry { rest := ws ++ (n.text ++ r) } = (true, { rest := n.text ++ r }) := by
    rw [ht]; exact sentry_skip hw hc
  have hsign : sign (n.text ++ r) = (decide (n.sg = ['-']), n.sg.length, n.ds ++ r) := by
    unfold IntNumeral.text
    rw [List.append_assoc]
    refine sign_eq h.sg ?_
    intro a ha
    cases hd : n.ds with
    | nil => exact absurd hd h.ne
    | cons d l =>
      rw [hd] at ha
      simp only [List.cons_append, List.head?_cons, Option.some.injEq] at ha
      have := h.ds d (by rw [hd]; simp)
      rw [ha] at this
      constructor
      · rintro rfl; exact absurd this (by decide)
      · rintro rfl; exact absurd this (by decide)
  unfold TextIn.readU64
  rw [hs]
  simp only [Bool.not_true, Bool.false_eq_true, if_false, hsign]
  rw [takeWhile_append_stop h.ds (stops_noDigit hr), dropWhile_append_stop h.ds (stops_noDigit hr)]
  have he : n.ds.isEmpty = false := by
    cases hd : n.ds with
    | nil => exact absurd hd h.ne
    | cons d l => rfl
  rw [he, if_neg (by simp), if_neg (Nat.not_le.mpr h.fits)]
  congr 1
  unfold IntNumeral.value
  by_cases hn : n.sg = ['-']
  · simp only [hn, decide_true, if_true]
    rw [UInt64.ofInt_neg, ofInt_natCast]
  · simp only [hn, decide_false, Bool.false_eq_true, if_false]
    rw [ofInt_natCast]

end Spoc.Text

namespace Spoc.Tool

open Spec Text AppUtils

theorem stops_sep {s r : Str} (h : IsSep s) : Stops (s ++ r) := by
  intro c hc
  cases hs : s with
  | nil => exact absurd hs h.1
  | cons d l =>
    rw [hs] at hc
    simp only [List.cons_append, List.head?_cons, Option.some.injEq] at hc
    rw [← hc]; exact h.2 d (by rw [hs]; simp)

theorem sep_ne {s r : Str} (h : IsSep s) : (s ++ r).isEmpty = false := by
  cases hs : s with
  | nil => exact absurd hs h.1
  | cons d l => rfl

/-- Reading words with separators after them: `read` reads each word `w` as `val w`. -/
theorem readValues_words {α : Type} {read : TextIn → α × TextIn} {val : Str → α} {items : List (Str × Str)} (hsep : ∀ i ∈ items, IsSep i.2)
    (hread : ∀ i ∈ items, ∀ ws r, (∀ c ∈ ws, isSpace c = true) → Stops r →
      read { rest := ws ++ (i.1 ++ r) } = (val i.1, { rest := r, eof := r.isEmpty, fail := false }))
    {lead : Str} (hlead : ∀ c ∈ lead, isSpace c = true) (tail : Str) :
    ∃ lead', (∀ c ∈ lead', isSpace c = true) ∧ ∀ k,
      readValues read (items.length + k) { rest := lead ++ (wordsText items ++ tail) }
        = (do let vs ← readValues read k { rest := lead' ++ tail }
              .ok (items.map (fun i => val i.1) ++ vs)) := by
  induction items generalizing lead with
  | nil =>
    refine ⟨lead, hlead, fun k => ?_⟩
    simp only [List.length_nil, Nat.zero_add, wordsText, List.map_nil, List.flatten_nil, List.nil_append]
    cases readValues read k { rest := lead ++ tail } <;> rfl
  | cons i items ih =>
    have hi := hsep i (by simp)
    obtain ⟨lead', h1, h2⟩ := ih (fun j hj => hsep j (by simp [hj])) (fun j hj => hread j (by simp [hj])) (lead := i.2) hi.2
    refine ⟨lead', h1, fun k => ?_⟩
    rw [List.length_cons, Nat.add_right_comm]
    have e : lead ++ (wordsText (i :: items) ++ tail) = lead ++ (i.1 ++ (i.2 ++ (wordsText items ++ tail))) := by
      simp [wordsText]
    rw [e]
    rw [readValues]
    rw [hread i (by simp) lead _ hlead (stops_sep hi)]
    simp only [sep_ne hi, Bool.false_eq_true, if_false]
    rw [h2 k]
    cases readValues read k { rest := lead' ++ tail } <;> rfl

theorem readValues_all {α : Type} {read : TextIn → α × TextIn} {val : Str → α} {items : List (Str × Str)} (hsep : ∀ i ∈ items, IsSep i.2)
    (hread : ∀ i ∈ items, ∀ ws r, (∀ c ∈ ws, isSpace c = true) → Stops r →
      read { rest := ws ++ (i.1 ++ r) } = (val i.1, { rest := r, eof := r.isEmpty, fail := false }))
    {lead : Str} (hlead : ∀ c ∈ lead, isSpace c = true) (tail : Str) :
    readValues read items.length { rest := lead ++ (wordsText items ++ tail) } = .ok (items.map (fun i => val i.1)) := by
  obtain ⟨l, -, h⟩ := readValues_words hsep hread hlead tail
  have := h 0
  rw [Nat.add_zero] at this
  rw [this]
  simp [readValues]

/-! ## Setting a field -/

theorem extraIndex_name (f : SpocFile) {n : Nat} (hn : n < 2 ^ 31) : extraIndex f (Field.e n).name = n := by
  unfold extraIndex
  have : isExtraField (Field.e n).name = true := rfl
  rw [if_pos this, (Props.c61_field_names_accepted (.e n) (fun m hm => by simp only [Field.e.injEq] at hm; omega)).2 n rfl]
  unfold sizeT
  omega

theorem resize_get {n : Nat} {e : List UInt64} (h : e.length ≤ n) : SpocFile.resizeExtra n e = e ++ List.replicate (n - e.length) 0 := by
  unfold SpocFile.resizeExtra
  rw [List.take_of_length_le h]

/-- What happens to the extra fields of a record. -/
def withExtra (m n : Nat) (p : PointRecord) : PointRecord :=
  if m ≤ n then { p with extra := SpocFile.resizeExtra (n + 1) p.extra } else p

/-- The record with missing extra fields added for the field. -/
def padRecord (m : Nat) (fld : Field) (p : PointRecord) : PointRecord :=
  match fld with
  | .e n => withExtra m n p
  | _ => p

theorem addExtra_eq (f : SpocFile) {fld : Field} (hidx : ∀ n, fld = .e n → n < 2 ^ 31) :
    addExtra f fld.name = f.prs.map (padRecord f.extraFields fld) := by
  unfold addExtra padRecord
  cases fld with
  | e n =>
    have hn := hidx n rfl
    have : isExtraField (Field.e n).name = true := rfl
    rw [extraIndex_name f hn, this]
    simp only [true_and]
    unfold withExtra
    by_cases h : f.extraFields ≤ n
    · simp only [h, if_true]
      rw [Nat.mod_eq_of_lt (by omega)]
    · simp [h]
  | _ =>
    rw [if_neg]
    · simp
    · rintro ⟨h, -⟩
      exact absurd h (by simp only [Field.name]; decide)

theorem uniform_extra {f : SpocFile} (h : Uniform f.prs) {p : PointRecord} (hp : p ∈ f.prs) : f.extraFields = p.extra.length := by
  unfold SpocFile.extraFields
  cases hf : f.prs with
  | nil => rw [hf] at hp; simp at hp
  | cons q l => exact h q (by rw [hf]; simp) p hp

theorem withExtra_extra {m n : Nat} {p : PointRecord} (h : m = p.extra.length) :
    (withExtra m n p).extra = p.extra ++ List.replicate (n + 1 - p.extra.length) 0 := by
  unfold withExtra
  split
  · exact resize_get (by omega)
  · rename_i hmn
    have : n + 1 - p.extra.length = 0 := by omega
    rw [this]; simp

/-- Setting an integer field of a record. -/
theorem setInt_spec (b : Build) {fld : Field} (hc : fld.isCoord = false) {m : Nat} {p : PointRecord} (hm : m = p.extra.length)
    (v : UInt64) {j : Nat} (hj : ∀ n, fld = .e n → j = n) :
    ∃ q, setInt b fld.name j v (padRecord m fld p) = .ok q
      ∧ SetTo fld (v.toNat % 2 ^ fld.width) p q := by
  cases fld with
  | x => simp [Field.isCoord] at hc
  | y => simp [Field.isCoord] at hc
  | z => simp [Field.isCoord] at hc
  | e n =>
    have hj := hj n rfl
    subst hj
    have hx := withExtra_extra (n := j) hm
    have hlen : (withExtra m j p).extra.length = max p.extra.length (j + 1) := by
      rw [hx]; simp only [List.length_append, List.length_replicate]; omega
    have hlt : j < (withExtra m j p).extra.length := by rw [hlen]; omega
    refine ⟨{ withExtra m j p with extra := (withExtra m j p).extra.set j v }, ?_, ?_, ?_, ?_, ?_⟩
    · have he : isExtraField ('e' :: Nat.toDigits 10 j) = true := rfl
      unfold setInt padRecord
      simp only [Field.name, List.head?_cons, hlt, he, decide_true, cassert_true, Res.ok_bind, if_true]
    · simp only [Field.get, Field.width]
      rw [List.getElem?_set_self hlt, Option.map_some, Nat.mod_eq_of_lt v.toNat_lt]
    · simp only [List.length_set, hlen, Field.needs]
    · intro h hg hgp
      cases h with
      | e k =>
        have hk : k ≠ j := fun h => hg (by rw [h])
        simp only [Field.get] at hgp ⊢
        rw [List.getElem?_set_ne (Ne.symm hk), hx]
        have : k < p.extra.length := by
          by_contra hc
          rw [List.getElem?_eq_none (by omega)] at hgp
          simp at hgp
        rw [List.getElem?_append_left this]
      | _ => simp only [Field.get, withExtra]; split <;> rfl
    · intro k hk h1 h2
      have hk : k ≠ j := fun h => hk (by rw [h])
      simp only [List.length_set] at h2
      simp only [Field.get]
      rw [List.getElem?_set_ne (Ne.symm hk), hx, List.getElem?_append_right h1]
      rw [List.getElem?_replicate_of_lt (by rw [hlen] at h2; omega)]
      rfl
  | _ =>
    refine ⟨_, rfl, ?_, ?_, ?_, ?_⟩
    · simp [Field.get, Field.width, toU32, toU16]
    · simp [Field.needs, padRecord]
    · intro h hg hgp
      cases h <;> first | rfl | exact absurd rfl hg
    · intro k _ h1 h2
      simp only [padRecord] at h2
      omega

/-- Setting a coordinate of a record. -/
theorem setDouble_spec {fld : Field} (hc : fld.isCoord = true) (v : F64) (p : PointRecord) :
    SetTo fld v.bits.toNat p (setDouble fld.name v p) := by
  cases fld with
  | x => ?_ | y => ?_ | z => ?_
  | _ => simp [Field.isCoord] at hc
  all_goals
    refine ⟨rfl, by simp [Field.needs, Field.name, setDouble], ?_, ?_⟩
    · intro h hg hgp
      cases h <;> first | rfl | exact absurd rfl hg
    · intro k _ h1 h2
      simp only [Field.name, setDouble, List.head?_cons] at h2
      omega

/-- A setting of a field is a relation that determines the result. -/
theorem SetTo.unique {fld : Field} {v : Nat} {p q q' : PointRecord} (h : SetTo fld v p q) (h' : SetTo fld v p q') : q' = q := by
  apply eq_of_get
  intro h2
  by_cases hg : h2 = fld
  · rw [hg, h.value, h'.value]
  · by_cases hgp : h2.get p = none
    · cases h2 with
      | e k =>
        simp only [Field.get, Option.map_eq_none_iff, List.getElem?_eq_none_iff] at hgp
        by_cases hk : k < max p.extra.length fld.needs
        · rw [h.zero k hg hgp (by rw [h.size]; exact hk), h'.zero k hg hgp (by rw [h'.size]; exact hk)]
        · simp only [Field.get]
          rw [List.getElem?_eq_none (by rw [h'.size]; omega), List.getElem?_eq_none (by rw [h.size]; omega)]
      | _ => simp [Field.get] at hgp
    · rw [h.same h2 hg hgp, h'.same h2 hg hgp]

/-- Setting a field to the value it has. -/
theorem SetTo.refl {fld : Field} {v : Nat} {p : PointRecord} (h : fld.get p = some v) : SetTo fld v p p := by
  refine ⟨h, ?_, fun _ _ _ => rfl, fun k _ h1 h2 => by omega⟩
  cases fld with
  | e n =>
    simp only [Field.get, Option.map_eq_some_iff] at h
    obtain ⟨a, ha, -⟩ := h
    have := (List.getElem?_eq_some_iff.mp ha).1
    simp only [Field.needs]
    omega
  | _ => simp [Field.needs]

theorem uniform_setTo {fld : Field} {ps qs : List PointRecord} {vs : List Nat} (hu : Uniform ps)
    (h : List.Forall₂ (fun pv q => SetTo fld pv.2 pv.1 q) (ps.zip vs) qs) : Uniform qs := by
  intro p hp q hq
  obtain ⟨i, hi, rfl⟩ := List.mem_iff_getElem.mp hp
  obtain ⟨j, hj, rfl⟩ := List.mem_iff_getElem.mp hq
  have hl := h.length_eq
  have h1 := (List.forall₂_iff_get.mp h).2 i (by omega) hi
  have h2 := (List.forall₂_iff_get.mp h).2 j (by omega) hj
  have e1 := h1.size
  have e2 := h2.size
  simp only [List.get_eq_getElem, List.getElem_zip] at e1 e2
  rw [e1, e2, hu _ (List.getElem_mem _) _ (List.getElem_mem _)]

theorem finish {f : SpocFile} {qs : List PointRecord} (hu : Uniform qs) :
    f.cloneEmpty.setPointRecords qs = .ok { f with prs := qs } := by
  unfold SpocFile.setPointRecords
  rw [(Props.allSame_uniform qs).mpr hu]
  rfl

theorem setField_start {b : Build} {f : SpocFile} {fld : Field} {text : TextIn} (hu : Uniform f.prs) (hidx : ∀ n, fld = .e n → n < 2 ^ 31)
    (hg : text.good = true) :
    setField b f text fld.name = (do
      let ps ← if isFloatField fld.name then do
          let vs ← readValues (fun s => s.readDouble F64.zero) f.prs.length text
          .ok (((addExtra f fld.name).zip vs).map (fun pv => setDouble fld.name pv.2 pv.1))
        else do
          let vs ← readValues (fun s => s.readU64 0) f.prs.length text
          ((addExtra f fld.name).zip vs).mapM (fun pv => setInt b fld.name (extraIndex f fld.name) pv.2 pv.1)
      f.cloneEmpty.setPointRecords ps) := by
  unfold setField
  rw [(Props.uniform_iff f).mp hu, hg, (Props.c61_field_names_accepted fld hidx).1]
  simp only [require_true, Res.ok_bind]

theorem isFloat_iff (fld : Field) : isFloatField fld.name = fld.isCoord := by
  cases fld with
  | e n => simp [isFloatField, Field.name, Field.isCoord]
  | _ => decide

theorem forall₂_zip {α β γ : Type} {R : α → β → γ → Prop} {l : List α} {m : List β} {r : List γ}
    (h : List.Forall₂ (fun ab c => R ab.1 ab.2 c) (l.zip m) r) {δ : Type} (g : β → δ) {S : α → δ → γ → Prop}
    (hS : ∀ a b c, a ∈ l → R a b c → S a (g b) c) : List.Forall₂ (fun ab c => S ab.1 ab.2 c) (l.zip (m.map g)) r := by
  induction l generalizing m r with
  | nil => simp only [List.zip_nil_left] at h ⊢; cases h; exact .nil
  | cons a l ih =>
    cases m with
    | nil => simp only [List.zip_nil_right, List.map_nil] at h ⊢; cases h; exact .nil
    | cons b m =>
      simp only [List.zip_cons_cons, List.map_cons] at h ⊢
      cases h with
      | cons h1 h2 => exact .cons (hS a b _ (by simp) h1) (ih h2 (fun a' b' c' ha => hS a' b' c' (by simp [ha])))

/-- Setting an integer field of all points. -/
theorem setField_int {b : Build} {f : SpocFile} {fld : Field} {text : TextIn} {vs : List UInt64} (hu : Uniform f.prs)
    (hidx : ∀ n, fld = .e n → n < 2 ^ 31) (hc : fld.isCoord = false) (hg : text.good = true)
    (hr : readValues (fun s => s.readU64 0) f.prs.length text = .ok vs) :
    ∃ qs, setField b f text fld.name = .ok { f with prs := qs } ∧ qs.length = (f.prs.zip vs).length
      ∧ List.Forall₂ (fun pv q => SetTo fld pv.2 pv.1 q) (f.prs.zip (vs.map (fun v => v.toNat % 2 ^ fld.width))) qs := by
  have hx : ∀ n, fld = .e n → extraIndex f fld.name = n := by
    rintro n rfl
    exact extraIndex_name f (hidx n rfl)
  -- the records
  have key : ∀ (ps : List PointRecord) (ws : List UInt64), (∀ p ∈ ps, f.extraFields = p.extra.length) →
      ∃ qs, ((ps.map (padRecord f.extraFields fld)).zip ws).mapM
          (fun pv : PointRecord × UInt64 => setInt b fld.name (extraIndex f fld.name) pv.2 pv.1) = .ok qs
        ∧ List.Forall₂ (fun pv q => SetTo fld pv.2 pv.1 q) (ps.zip (ws.map (fun v => v.toNat % 2 ^ fld.width))) qs := by
    intro ps
    induction ps with
    | nil =>
      intro ws _
      exact ⟨[], by simp, by simp⟩
    | cons p ps ih =>
      intro ws hp
      cases ws with
      | nil => exact ⟨[], by simp, by simp⟩
      | cons w ws =>
        obtain ⟨qs, h1, h2⟩ := ih ws (fun q hq => hp q (by simp [hq]))
        obtain ⟨q, h3, h4⟩ := setInt_spec b hc (hp p (by simp)) w hx
        refine ⟨q :: qs, ?_, ?_⟩
        · simp only [List.map_cons, List.zip_cons_cons, List.mapM_cons]
          rw [h3, Res.ok_bind, h1]
          rfl
        · simp only [List.map_cons, List.zip_cons_cons]
          exact .cons h4 h2
  obtain ⟨qs, h1, h2⟩ := key f.prs vs (fun p hp => uniform_extra hu hp)
  refine ⟨qs, ?_, by have := h2.length_eq; simp at this ⊢; omega, h2⟩
  rw [setField_start hu hidx hg, isFloat_iff, hc]
  simp only [Bool.false_eq_true, if_false]
  rw [hr, Res.ok_bind, addExtra_eq f hidx, h1, Res.ok_bind, finish (uniform_setTo hu h2)]

/-- Setting a coordinate of all points. -/
theorem setField_coord {b : Build} {f : SpocFile} {fld : Field} {text : TextIn} {vs : List F64} (hu : Uniform f.prs)
    (hc : fld.isCoord = true) (hg : text.good = true)
    (hr : readValues (fun s => s.readDouble F64.zero) f.prs.length text = .ok vs) :
    ∃ qs, setField b f text fld.name = .ok { f with prs := qs } ∧ qs.length = (f.prs.zip vs).length
      ∧ List.Forall₂ (fun pv q => SetTo fld pv.2 pv.1 q) (f.prs.zip (vs.map (fun v => v.bits.toNat))) qs := by
  have hidx : ∀ n, fld = .e n → n < 2 ^ 31 := by rintro n rfl; simp [Field.isCoord] at hc
  have h2 : List.Forall₂ (fun pv q => SetTo fld pv.2 pv.1 q) (f.prs.zip (vs.map (fun v => v.bits.toNat)))
      ((f.prs.zip vs).map (fun pv => setDouble fld.name pv.2 pv.1)) := by
    refine forall₂_zip (R := fun p v q => q = setDouble fld.name v p) (S := fun p v q => SetTo fld v p q) ?_ _ ?_
    · rw [List.forall₂_map_right_iff, List.forall₂_same]
      exact fun _ _ => rfl
    · rintro p v q - rfl
      exact setDouble_spec hc v p
  refine ⟨_, ?_, by simp, h2⟩
  rw [setField_start hu hidx hg, isFloat_iff, hc]
  simp only [if_true]
  rw [hr]
  simp only [Res.ok_bind]
  have : addExtra f fld.name = f.prs := by
    rw [addExtra_eq f hidx]
    cases fld <;> first | exact List.map_id _ | simp [Field.isCoord] at hc
  rw [this, finish (uniform_setTo hu h2)]

/-! ## Printing a field -/

/-- The text of a field. -/
def fieldText (fld : Field) (p : PointRecord) : Str :=
  match fld with
  | .x => showDouble 16 p.x
  | .y => showDouble 16 p.y
  | .z => showDouble 16 p.z
  | _ => showNat ((fld.get p).getD 0)

theorem getField_eq (b : Build) (f : SpocFile) {fld : Field} (hidx : ∀ n, fld = .e n → n < 2 ^ 31)
    (hget : ∀ p ∈ f.prs, fld.get p ≠ none) :
    getField b f fld.name = .ok (wordsText (f.prs.map (fun p => (fieldText fld p, ['\n'])))) := by
  unfold getField
  rw [(Props.c61_field_names_accepted fld hidx).1]
  simp only [require_true, Res.ok_bind]
  have key : f.prs.mapM (showField b fld.name (extraIndex f fld.name))
      = .ok (f.prs.map (fun p => fieldText fld p ++ ['\n'])) := by
    rw [mapM_eq_ok, List.forall₂_map_right_iff, List.forall₂_same]
    intro p hp
    cases fld with
    | e n =>
      have hn := hidx n rfl
      rw [extraIndex_name f hn]
      have hg := hget p hp
      simp only [Field.get, ne_eq, Option.map_eq_none_iff, List.getElem?_eq_none_iff, Nat.not_le] at hg
      have he : isExtraField ('e' :: Nat.toDigits 10 n) = true := rfl
      unfold showField
      simp only [Field.name, List.head?_cons, he, cassert_true, Res.ok_bind, hg, decide_true]
      rw [List.getElem?_eq_getElem hg]
      simp only [fieldText, Field.get]
      rw [List.getElem?_eq_getElem hg]
      rfl
    | _ => rfl
  rw [key, Res.ok_bind]
  simp only [wordsText, List.map_map]
  rfl

theorem newline_sep : IsSep ['\n'] := ⟨by simp, by simp; decide⟩

theorem get_lt (fld : Field) {p : PointRecord} {v : Nat} (h : fld.get p = some v) : v < 2 ^ fld.width := by
  cases fld with
  | e n =>
    simp only [Field.get, Option.map_eq_some_iff] at h
    obtain ⟨a, -, rfl⟩ := h
    exact a.toNat_lt
  | _ =>
    simp only [Field.get, Option.some.injEq] at h
    rw [← h]
    first | exact UInt64.toNat_lt _ | exact UInt32.toNat_lt _ | exact UInt16.toNat_lt _

theorem width_le (fld : Field) : 2 ^ fld.width ≤ 2 ^ 64 := Nat.pow_le_pow_right (by norm_num) (by cases fld <;> simp [Field.width])

theorem showNat_ok {n : Nat} (h : n < 2 ^ 64) : IntNumeral.Ok { ds := showNat n } :=
  ⟨Or.inl rfl, showNat_ne n, showNat_digits n, by rw [decVal_showNat]; exact h⟩

theorem value_showNat (n : Nat) : IntNumeral.value { ds := showNat n } = n := by
  unfold IntNumeral.value
  rw [decVal_showNat]
  simp

/-- Setting a field of every point to the value it has. -/
theorem setTo_self {fld : Field} {ps qs : List PointRecord} {vs : List Nat} (hv : vs.map some = ps.map fld.get)
    (h : List.Forall₂ (fun pv q => SetTo fld pv.2 pv.1 q) (ps.zip vs) qs) : qs = ps := by
  induction ps generalizing vs qs with
  | nil => simp only [List.zip_nil_left] at h; cases h; rfl
  | cons p ps ih =>
    cases vs with
    | nil => simp at hv
    | cons v vs =>
      simp only [List.map_cons, List.cons.injEq] at hv
      simp only [List.zip_cons_cons] at h
      cases h with
      | cons h1 h2 => rw [ih hv.2 h2, SetTo.unique (SetTo.refl hv.1.symm) h1]

/-! ## Texts that are not numbers -/

theorem readValues_failed {α : Type} {read : TextIn → α × TextIn} {v : α} (hread : ∀ s : TextIn, s.fail = true → read s = (v, s))
    (n : Nat) {s : TextIn} (hf : s.fail = true) (he : s.eof = false) : readValues read n s = .ok (List.replicate n v) := by
  induction n with
  | zero => rfl
  | succ n ih =>
    rw [readValues, hread s hf]
    simp only [he, Bool.false_eq_true, if_false]
    rw [ih]
    rfl

theorem readU64_failed (old : UInt64) (s : TextIn) (h : s.fail = true) : s.readU64 old = (old, s) := by
  obtain ⟨r, e, fl⟩ := s
  simp only at h
  subst h
  unfold TextIn.readU64 TextIn.sentry TextIn.good
  simp

theorem readDouble_failed (old : F64) (s : TextIn) (h : s.fail = true) : s.readDouble old = (old, s) := by
  obtain ⟨r, e, fl⟩ := s
  simp only at h
  subst h
  unfold TextIn.readDouble TextIn.sentry TextIn.good
  simp

theorem readU64_empty (old : UInt64) {ws : Str} (hw : ∀ c ∈ ws, isSpace c = true) :
    TextIn.readU64 { rest := ws } old = (old, { rest := [], eof := true, fail := true }) := by
  have : ws.dropWhile isSpace = [] := by
    rw [List.dropWhile_eq_nil_iff]; exact hw
  unfold TextIn.readU64 TextIn.sentry TextIn.good
  simp [this]

theorem readDouble_empty (old : F64) {ws : Str} (hw : ∀ c ∈ ws, isSpace c = true) :
    TextIn.readDouble { rest := ws } old = (old, { rest := [], eof := true, fail := true }) := by
  have : ws.dropWhile isSpace = [] := by
    rw [List.dropWhile_eq_nil_iff]; exact hw
  unfold TextIn.readDouble TextIn.sentry TextIn.good
  simp [this]

/-- A character that cannot begin a number. -/
def NoNumber (c : Char) : Prop := isSpace c = false ∧ isDigit c = false ∧ c ≠ '+' ∧ c ≠ '-' ∧ c ≠ '.'

theorem readU64_garbage {c : Char} (h : NoNumber c) {ws r : Str} (hw : ∀ a ∈ ws, isSpace a = true) (old : UInt64) :
    TextIn.readU64 { rest := ws ++ c :: r } old = (0, { rest := c :: r, eof := false, fail := true }) := by
  obtain ⟨h1, h2, h3, h4, -⟩ := h
  have hs : sign (c :: r) = (false, 0, c :: r) := sign_eq (sg := []) (Or.inl rfl) (by
    intro a ha
    simp only [List.head?_cons, Option.some.injEq] at ha
    rw [← ha]; exact ⟨h3, h4⟩)
  unfold TextIn.readU64
  rw [sentry_skip hw h1]
  simp only [Bool.not_true, Bool.false_eq_true, if_false, hs]
  rw [List.takeWhile_cons, h2, List.dropWhile_cons, h2]
  rfl

/-- Reading stops at a letter; a sign in front of it is consumed. -/
theorem readDouble_garbage {c : Char} (h : NoNumber c) (hE : isE c = false) {ws sg r : Str} (hw : ∀ a ∈ ws, isSpace a = true)
    (hsg : Numeral.IsSign sg) (old : F64) :
    TextIn.readDouble { rest := ws ++ (sg ++ c :: r) } old = (F64.zero, { rest := c :: r, eof := false, fail := true }) := by
  obtain ⟨h1, h2, h3, h4, h5⟩ := h
  have h0 : c ≠ '0' := by rintro rfl; exact absurd h2 (by decide)
  obtain ⟨d, t, hd, hds⟩ : ∃ d t, sg ++ c :: r = d :: t ∧ isSpace d = false := by
    rcases hsg with rfl | rfl | rfl
    · exact ⟨c, r, rfl, h1⟩
    · exact ⟨'+', c :: r, rfl, by decide⟩
    · exact ⟨'-', c :: r, rfl, by decide⟩
  have hs : TextIn.sentry { rest := ws ++ (sg ++ c :: r) } = (true, { rest := sg ++ c :: r }) := by
    rw [hd]; exact sentry_skip hw hds
  have hcol : collectFloat (sg ++ c :: r) = (sg, c :: r) := by
    have hsc : signChars (sg ++ c :: r) = (sg, c :: r) := by
      rcases hsg with rfl | rfl | rfl
      · simp only [List.nil_append, signChars]
        split
        · rename_i heq; simp only [List.cons.injEq] at heq; exact absurd heq.1 h4
        · rename_i heq; simp only [List.cons.injEq] at heq; exact absurd heq.1 h3
        · rfl
      · rfl
      · rfl
    unfold collectFloat
    rw [hsc]
    simp only [List.takeWhile_cons, List.dropWhile_cons, h0, decide_false, Bool.false_eq_true, if_false, List.isEmpty_nil, if_true,
      Bool.not_true, List.nil_append]
    rw [collectLoop.eq_def]
    simp only [h2, h5, hE, Bool.false_eq_true, if_false, false_and, List.append_nil]
  have hst : (strtod sg).length = 0 := by
    rcases hsg with rfl | rfl | rfl <;> decide +kernel
  unfold TextIn.readDouble
  rw [hs]
  simp only [Bool.not_true, Bool.false_eq_true, if_false, hcol]
  rw [if_pos (Or.inl hst)]
  rfl

/-! ## Texts of numbers -/

theorem blank_stops : Stops [' '] := by intro c hc; simp at hc; rw [← hc]; decide

theorem readInts {items : List (IntNumeral × Str)} {lead : Str} (hlead : ∀ c ∈ lead, isSpace c = true)
    (hok : ∀ i ∈ items, i.1.Ok ∧ IsSep i.2) (tail : Str) :
    ∃ lead', (∀ c ∈ lead', isSpace c = true) ∧ ∀ k,
      readValues (fun s => s.readU64 0) (items.length + k) (numbersText lead (items.map (fun i => (i.1.text, i.2))) tail)
        = (do let vs ← readValues (fun s => s.readU64 0) k { rest := lead' ++ tail }
              .ok (items.map (fun i => UInt64.ofInt i.1.value) ++ vs)) := by
  obtain ⟨lead', h1, h2⟩ := readValues_words (read := fun s => s.readU64 0) (val := fun w => (TextIn.readU64 { rest := w ++ [' '] } 0).1)
    (items := items.map (fun i => (i.1.text, i.2)))
    (by
      intro i hi
      obtain ⟨j, hj, rfl⟩ := List.mem_map.mp hi
      exact (hok j hj).2)
    (by
      intro i hi ws r hw hr
      obtain ⟨j, hj, rfl⟩ := List.mem_map.mp hi
      have e2 := readU64_numeral (hok j hj).1 (ws := []) (by simp) blank_stops 0
      rw [List.nil_append] at e2
      rw [readU64_numeral (hok j hj).1 hw hr, e2])
    hlead tail
  refine ⟨lead', h1, fun k => ?_⟩
  have := h2 k
  rw [List.length_map, List.map_map] at this
  unfold numbersText
  rw [this]
  have e : List.map ((fun i : Str × Str => (TextIn.readU64 { rest := i.1 ++ [' '] } 0).1) ∘ fun i : IntNumeral × Str => (i.1.text, i.2)) items
      = items.map (fun i => UInt64.ofInt i.1.value) := by
    refine List.map_congr_left ?_
    intro j hj
    have e2 := readU64_numeral (hok j hj).1 (ws := []) (by simp) blank_stops 0
    rw [List.nil_append] at e2
    simp only [Function.comp_apply]
    rw [e2]
  rw [e]

theorem readInts_all {items : List (IntNumeral × Str)} {lead : Str} (hlead : ∀ c ∈ lead, isSpace c = true)
    (hok : ∀ i ∈ items, i.1.Ok ∧ IsSep i.2) (tail : Str) :
    readValues (fun s => s.readU64 0) items.length (numbersText lead (items.map (fun i => (i.1.text, i.2))) tail)
      = .ok (items.map (fun i => UInt64.ofInt i.1.value)) := by
  obtain ⟨l, -, h⟩ := readInts hlead hok tail
  have := h 0
  rw [Nat.add_zero] at this
  rw [this]
  simp [readValues]

/-- The value of a numeral. -/
def numeralDouble (n : Numeral) : F64 := F64.ofScaled n.negative 10 n.mantissa n.exponent

theorem readDoubles {items : List (Numeral × Str)} {lead : Str} (hlead : ∀ c ∈ lead, isSpace c = true)
    (hok : ∀ i ∈ items, i.1.Ok ∧ IsSep i.2 ∧ (numeralDouble i.1).isInf = false) (tail : Str) :
    ∃ lead', (∀ c ∈ lead', isSpace c = true) ∧ ∀ k,
      readValues (fun s => s.readDouble F64.zero) (items.length + k) (numbersText lead (items.map (fun i => (i.1.text, i.2))) tail)
        = (do let vs ← readValues (fun s => s.readDouble F64.zero) k { rest := lead' ++ tail }
              .ok (items.map (fun i => numeralDouble i.1) ++ vs)) := by
  obtain ⟨lead', h1, h2⟩ := readValues_words (read := fun s => s.readDouble F64.zero)
    (val := fun w => (TextIn.readDouble { rest := w ++ [' '] } F64.zero).1)
    (items := items.map (fun i => (i.1.text, i.2)))
    (by
      intro i hi
      obtain ⟨j, hj, rfl⟩ := List.mem_map.mp hi
      exact (hok j hj).2.1)
    (by
      intro i hi ws r hw hr
      obtain ⟨j, hj, rfl⟩ := List.mem_map.mp hi
      have e2 := readDouble_numeral (hok j hj).1 (ws := []) (by simp) blank_stops (hok j hj).2.2 F64.zero
      rw [List.nil_append] at e2
      rw [readDouble_numeral (hok j hj).1 hw hr (hok j hj).2.2, e2])
    hlead tail
  refine ⟨lead', h1, fun k => ?_⟩
  have := h2 k
  rw [List.length_map, List.map_map] at this
  unfold numbersText
  rw [this]
  have e : List.map ((fun i : Str × Str => (TextIn.readDouble { rest := i.1 ++ [' '] } F64.zero).1)
      ∘ fun i : Numeral × Str => (i.1.text, i.2)) items = items.map (fun i => numeralDouble i.1) := by
    refine List.map_congr_left ?_
    intro j hj
    have e2 := readDouble_numeral (hok j hj).1 (ws := []) (by simp) blank_stops (hok j hj).2.2 F64.zero
    rw [List.nil_append] at e2
    simp only [Function.comp_apply]
    rw [e2]
    rfl
  rw [e]

theorem readDoubles_all {items : List (Numeral × Str)} {lead : Str} (hlead : ∀ c ∈ lead, isSpace c = true)
    (hok : ∀ i ∈ items, i.1.Ok ∧ IsSep i.2 ∧ (numeralDouble i.1).isInf = false) (tail : Str) :
    readValues (fun s => s.readDouble F64.zero) items.length (numbersText lead (items.map (fun i => (i.1.text, i.2))) tail)
      = .ok (items.map (fun i => numeralDouble i.1)) := by
  obtain ⟨l, -, h⟩ := readDoubles hlead hok tail
  have := h 0
  rw [Nat.add_zero] at this
  rw [this]
  simp [readValues]

theorem numeralDouble_sign (n : Numeral) : (numeralDouble n).neg = n.negative := by
  unfold numeralDouble
  rcases Nat.eq_zero_or_pos n.mantissa with h | h
  · rw [h]
    unfold F64.ofScaled F64.rnd
    have : F64.scaledNum 10 0 n.exponent = 0 := by unfold F64.scaledNum; rw [Nat.zero_mul, Nat.zero_mul]
    rw [this, if_pos (by split <;> rfl)]
    exact F64.neg_mk' _ (by norm_num)
  · rw [ofScaled_eq _ h, F64.neg_mk' _ (F64.roundMag_lt63 _ _)]

/-- A failing read ends `set_field`. -/
theorem setField_throw {b : Build} {f : SpocFile} {fld : Field} {text : TextIn} {w : String} (hu : Uniform f.prs)
    (hidx : ∀ n, fld = .e n → n < 2 ^ 31) (hg : text.good = true)
    (h1 : fld.isCoord = true → readValues (fun s => s.readDouble F64.zero) f.prs.length text = .throw w)
    (h2 : fld.isCoord = false → readValues (fun s => s.readU64 0) f.prs.length text = .throw w) :
    setField b f text fld.name = .throw w := by
  rw [setField_start hu hidx hg, isFloat_iff]
  cases hc : fld.isCoord with
  | true => rw [if_pos rfl, h1 hc]; rfl
  | false => rw [if_neg (by simp), h2 hc]; rfl

end Spoc.Tool
