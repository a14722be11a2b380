import Verif.Proofs.Reordered

/-!
# What the code does with two clouds whose points are related one by one
-/

namespace Spoc.Related

open Spec

/-- Two computations give related results, or fail in the same way. -/
def Both {α β : Type} (R : α → β → Prop) : Res α → Res β → Prop
  | .ok a, .ok b => R a b
  | .throw e, .throw e' => e = e'
  | .ub e, .ub e' => e = e'
  | .abort, .abort => True
  | .hang, .hang => True
  | _, _ => False

theorem Both.bind {α β γ δ : Type} {R : α → β → Prop} {S : γ → δ → Prop} {r : Res α} {r' : Res β} (h : Both R r r') {k : α → Res γ}
    {k' : β → Res δ} (hk : ∀ a b, R a b → Both S (k a) (k' b)) : Both S (r >>= k) (r' >>= k') := by
  cases r <;> cases r' <;> first | exact False.elim h | exact hk _ _ h | exact h

theorem Both.mono {α β : Type} {R S : α → β → Prop} (hRS : ∀ a b, R a b → S a b) {r : Res α} {r' : Res β} (h : Both R r r') : Both S r r' := by
  cases r <;> cases r' <;> first | exact False.elim h | exact hRS _ _ h | exact h

theorem Both.prefix {α γ δ : Type} {S : γ → δ → Prop} (r : Res α) {k : α → Res γ} {k' : α → Res δ} (h : ∀ a, Both S (k a) (k' a)) :
    Both S (r >>= k) (r >>= k') := by
  cases r with
  | ok a => exact h a
  | throw e => exact rfl
  | ub e => exact rfl
  | abort => exact trivial
  | hang => exact trivial

theorem Both.foldlM {α β γ : Type} {I : α → β → Prop} {k : α → γ → Res α} {k' : β → γ → Res β} (hk : ∀ a b c, I a b → Both I (k a c) (k' b c))
    (l : List γ) {a : α} {b : β} (h : I a b) : Both I (l.foldlM k a) (l.foldlM k' b) := by
  induction l generalizing a b with
  | nil => exact h
  | cons c l ih =>
    rw [List.foldlM_cons, List.foldlM_cons]
    exact (hk a b c h).bind fun a b h => ih h

theorem Both.mapM {α β γ : Type} {R : α → β → Prop} {k : γ → Res α} {k' : γ → Res β} (hk : ∀ c, Both R (k c) (k' c)) (l : List γ) :
    Both (List.Forall₂ R) (l.mapM k) (l.mapM k') := by
  induction l with
  | nil => exact .nil
  | cons c l ih =>
    rw [List.mapM_cons, List.mapM_cons]
    exact (hk c).bind fun a b h => ih.bind fun as bs hs => .cons h hs

/-- The points of two clouds are related one by one; the rest is the same. -/
def Paired (R : PointRecord → PointRecord → Prop) (f g : SpocFile) : Prop :=
  g = { f with prs := g.prs } ∧ List.Forall₂ R f.prs g.prs ∧ Uniform f.prs ∧ Uniform g.prs

/-- The two points are at the same place, bit by bit. -/
def SameXyz (p q : PointRecord) : Prop := p.x = q.x ∧ p.y = q.y ∧ p.z = q.z

variable {R : PointRecord → PointRecord → Prop}

theorem copy_rel {f g : SpocFile} (h : Paired R f g) : Both (Paired R) f.copy g.copy := by
  rw [Tool.copy_ok h.2.2.1, Tool.copy_ok h.2.2.2]
  exact h

theorem same_pt {p q : PointRecord} (h : SameXyz p q) : pt p = pt q := by
  obtain ⟨h1, h2, h3⟩ := h
  show (⟨p.x, p.y, p.z⟩ : Pt F64) = ⟨q.x, q.y, q.z⟩
  rw [h1, h2, h3]

theorem ofPoints_same {ps qs : List PointRecord} (h : List.Forall₂ SameXyz ps qs) : Extent.ofPoints ps = Extent.ofPoints qs := by
  unfold Extent.ofPoints
  generalize Extent.initial = e
  induction h generalizing e with
  | nil => rfl
  | cons h _ ih => rw [List.foldl_cons, List.foldl_cons, same_pt h, ih]

theorem mapM_same {β : Type} {k : PointRecord → Res β} {S : PointRecord → PointRecord → Prop} (hk : ∀ p q, S p q → k p = k q)
    {ps qs : List PointRecord} (h : List.Forall₂ S ps qs) : ps.mapM k = qs.mapM k := by
  induction h with
  | nil => rfl
  | cons h _ ih => rw [List.mapM_cons, List.mapM_cons, hk _ _ h, ih]

theorem getIndexesIn_same {ps qs : List PointRecord} (h : List.Forall₂ SameXyz ps qs) (e : Extent) (r : F64) :
    Voxel.getIndexesIn ps e r = Voxel.getIndexesIn qs e r := mapM_same (fun p q h => by rw [same_pt h]) h

theorem getIndexes_same {ps qs : List PointRecord} (h : List.Forall₂ SameXyz ps qs) (r : F64) : Voxel.getIndexes ps r = Voxel.getIndexes qs r := by
  unfold Voxel.getIndexes
  rw [ofPoints_same h, getIndexesIn_same h]

theorem at_rel {ps qs : List PointRecord} (h : List.Forall₂ R ps qs) (i : Nat) :
    Both (fun p q => R p q ∧ p ∈ ps ∧ q ∈ qs) (Voxel.at' ps i) (Voxel.at' qs i) := by
  unfold Voxel.at'
  by_cases hi : i < ps.length
  · have hi' : i < qs.length := h.length_eq ▸ hi
    rw [List.getElem?_eq_getElem hi, List.getElem?_eq_getElem hi']
    exact ⟨h.get hi hi', List.getElem_mem hi, List.getElem_mem hi'⟩
  · have hi' : ¬ i < qs.length := h.length_eq ▸ hi
    rw [List.getElem?_eq_none (by omega), List.getElem?_eq_none (by omega)]
    exact rfl

theorem forall_imp {S : PointRecord → PointRecord → Prop} (hRS : ∀ p q, R p q → S p q) {ps qs : List PointRecord} (h : List.Forall₂ R ps qs) :
    List.Forall₂ S ps qs := h.imp fun _ _ h => hRS _ _ h

theorem subsampleIndexes_same (b : Build) (sh : Subsampling.Shuffle) {ps qs : List PointRecord} (h : List.Forall₂ SameXyz ps qs) (r : F64)
    (seed : Nat) : Subsampling.subsampleIndexes b sh ps r seed = Subsampling.subsampleIndexes b sh qs r seed := by
  unfold Subsampling.subsampleIndexes
  rw [getIndexes_same h, h.length_eq]

theorem uniqueXyzIndexes_same (b : Build) (sh : Subsampling.Shuffle) {ps qs : List PointRecord} (h : List.Forall₂ SameXyz ps qs) (seed : Nat) :
    Subsampling.uniqueXyzIndexes b sh ps seed = Subsampling.uniqueXyzIndexes b sh qs seed := by
  have hs : Subsampling.stepXyz b ps = Subsampling.stepXyz b qs := by
    funext a j
    unfold Subsampling.stepXyz
    rw [h.length_eq]
    refine congrArg _ (funext fun _ => ?_)
    have := at_rel h j
    cases e : Voxel.at' ps j <;> cases e' : Voxel.at' qs j <;> rw [e, e'] at this <;>
      first | exact False.elim this | skip
    · simp only [Res.ok_bind, same_pt this.1]
    · exact congrArg _ (this : _ = _)
    · exact congrArg _ (this : _ = _)
  unfold Subsampling.uniqueXyzIndexes
  rw [hs, h.length_eq]

/-! ## filter -/

theorem stage_rel (on : Bool) {step : SpocFile → Res SpocFile} (h : on = true → ∀ f g, Paired R f g → Both (Paired R) (step f) (step g))
    {f g : SpocFile} (hl : Paired R f g) : Both (Paired R) (Filter.stage on step f) (Filter.stage on step g) := by
  unfold Filter.stage
  cases on
  · exact hl
  · exact (h rfl f g hl).bind fun _ _ h => copy_rel h

theorem filter_rel {keep : PointRecord → Bool} (hk : ∀ p q, R p q → keep p = keep q) {ps qs : List PointRecord} (h : List.Forall₂ R ps qs) :
    List.Forall₂ R (ps.filter keep) (qs.filter keep) := by
  induction h with
  | nil => exact .nil
  | @cons p q _ _ h _ ih =>
    rw [List.filter_cons, List.filter_cons, hk p q h]
    split
    · exact .cons h ih
    · exact ih

theorem select_rel {keep : PointRecord → Bool} (hk : ∀ p q, R p q → keep p = keep q) {f g : SpocFile} (h : Paired R f g) :
    Both (Paired R) (Filter.select f keep) (Filter.select g keep) := by
  rw [Filter.select_eq keep f h.2.2.1, Filter.select_eq keep g h.2.2.2]
  exact ⟨by rw [h.1], filter_rel hk h.2.1, Filter.uniform_sublist h.2.2.1 List.filter_sublist,
    Filter.uniform_sublist h.2.2.2 List.filter_sublist⟩

theorem valueOf_same {s : Str} {v : PointRecord → F64} (h : Filter.valueOf s = .ok v) {p q : PointRecord} (hs : SameXyz p q) : v p = v q := by
  unfold Filter.valueOf at h
  split at h
  · cases h; exact hs.1
  · split at h
    · cases h; exact hs.2.1
    · split at h
      · cases h; exact hs.2.2
      · cases h

theorem removeCoords_rel (hR : ∀ p q, R p q → SameXyz p q) (stod : AppUtils.Stod) (op : Str) {f g : SpocFile} (h : Paired R f g) :
    Both (Paired R) (Filter.removeCoords stod f op) (Filter.removeCoords stod g op) := by
  unfold Filter.removeCoords
  split
  · next a r t _ =>
    cases hv : Filter.valueOf a with
    | ok v =>
      refine .prefix (Filter.compareOf r) fun cmp => ?_
      split
      · exact rfl
      · exact select_rel (fun p q h => by rw [valueOf_same hv (hR p q h)]) h
    | throw e => exact rfl
    | ub e => exact rfl
    | abort => exact trivial
    | hang => exact trivial
  · exact rfl

/-- What the loops of unique-xyz preserve. -/
def Part (R : PointRecord → PointRecord → Prop) (f f' g g' : SpocFile) : Prop :=
  g = { f with prs := g.prs } ∧ g' = { f' with prs := g'.prs } ∧ List.Forall₂ R g.prs g'.prs ∧ (∀ p ∈ g.prs, p ∈ f.prs) ∧ ∀ p ∈ g'.prs, p ∈ f'.prs

theorem pushBack_ok {ps : List PointRecord} (hu : Uniform ps) {g : SpocFile} (hg : ∀ p ∈ g.prs, p ∈ ps) {p : PointRecord} (hp : p ∈ ps) :
    g.pushBack p = .ok { g with prs := g.prs ++ [p] } := by
  unfold SpocFile.pushBack
  cases e : g.prs with
  | nil => rfl
  | cons q l =>
    simp only
    rw [if_neg (not_not.mpr (hu p hp q (hg q (by simp [e]))))]

theorem uniqueXyz_rel (hR : ∀ p q, R p q → SameXyz p q) (b : Build) (sh : Subsampling.Shuffle) (seed : Nat) {f g : SpocFile} (h : Paired R f g) :
    Both (Paired R) (Filter.uniqueXyz b sh f seed) (Filter.uniqueXyz b sh g seed) := by
  unfold Filter.uniqueXyz
  rw [uniqueXyzIndexes_same b sh (forall_imp hR h.2.1)]
  refine .prefix _ fun is => ?_
  have key : Both (Part R f g) (is.foldlM (fun g i => do
      let p ← Voxel.at' f.prs i
      g.pushBack p) f.cloneEmpty) (is.foldlM (fun g' i => do
      let p ← Voxel.at' g.prs i
      g'.pushBack p) g.cloneEmpty) := by
    refine .foldlM (fun a a' i hI => (at_rel h.2.1 i).bind fun p q ⟨hpq, hp, hq⟩ => ?_) is
      ⟨rfl, rfl, .nil, (fun _ h => by cases h), (fun _ h => by cases h)⟩
    obtain ⟨i1, i2, i3, i4, i5⟩ := hI
    rw [pushBack_ok h.2.2.1 i4 hp, pushBack_ok h.2.2.2 i5 hq]
    refine ⟨by rw [i1], by rw [i2], List.rel_append i3 (.cons hpq .nil), ?_, ?_⟩
    · intro p' hp'
      rcases List.mem_append.mp hp' with h | h
      · exact i4 p' h
      · rw [List.mem_singleton.mp h]; exact hp
    · intro p' hp'
      rcases List.mem_append.mp hp' with h | h
      · exact i5 p' h
      · rw [List.mem_singleton.mp h]; exact hq
  refine key.mono fun a a' ⟨i1, i2, i3, i4, i5⟩ => ?_
  refine ⟨?_, i3, fun p hp q hq => h.2.2.1 p (i4 p hp) q (i4 q hq), fun p hp q hq => h.2.2.2 p (i5 p hp) q (i5 q hq)⟩
  rw [i2, i1, h.1]

theorem subsampleFile_rel (hR : ∀ p q, R p q → SameXyz p q) (b : Build) (sh : Subsampling.Shuffle) (res : F64) (seed : Nat) {f g : SpocFile}
    (h : Paired R f g) : Both (Paired R) (Filter.subsampleFile b sh f res seed) (Filter.subsampleFile b sh g res seed) := by
  have key : Both (List.Forall₂ fun p q => R p q ∧ p ∈ f.prs ∧ q ∈ g.prs) (Subsampling.subsamplePoints b sh f.prs res seed)
      (Subsampling.subsamplePoints b sh g.prs res seed) := by
    unfold Subsampling.subsamplePoints
    rw [subsampleIndexes_same b sh (forall_imp hR h.2.1)]
    exact .prefix _ fun is => .mapM (at_rel h.2.1) is
  unfold Filter.subsampleFile
  refine key.bind fun ps qs hpq => ?_
  have u1 : Uniform ps := fun p hp q hq => by
    obtain ⟨i, hi, rfl⟩ := List.getElem_of_mem hp
    obtain ⟨j, hj, rfl⟩ := List.getElem_of_mem hq
    exact h.2.2.1 _ (hpq.get hi (hpq.length_eq ▸ hi)).2.1 _ (hpq.get hj (hpq.length_eq ▸ hj)).2.1
  have u2 : Uniform qs := fun p hp q hq => by
    obtain ⟨i, hi, rfl⟩ := List.getElem_of_mem hp
    obtain ⟨j, hj, rfl⟩ := List.getElem_of_mem hq
    exact h.2.2.2 _ (hpq.get (hpq.length_eq ▸ hi) hi).2.2 _ (hpq.get (hpq.length_eq ▸ hj) hj).2.2
  rw [Tool.setRecords_ok (Tool.uniform_valid (f := { f with prs := ps }) u1), Tool.setRecords_ok (Tool.uniform_valid (f := { g with prs := qs }) u2)]
  exact ⟨by rw [h.1], hpq.imp fun _ _ h => h.1, u1, u2⟩

theorem process_rel (b : Build) (sh : Subsampling.Shuffle) (a : Filter.Args)
    (hc : a.keepClasses ≠ [] ∨ a.removeClasses ≠ [] → ∀ p q, R p q → p.c = q.c)
    (hR : a.uniqueXyz = true ∨ F64.gt a.subsample F64.zero = true ∨ a.removeCoords ≠ [] → ∀ p q, R p q → SameXyz p q) {f g : SpocFile}
    (h : Paired R f g) : Both (Paired R) (Filter.process b sh a f) (Filter.process b sh a g) := by
  unfold Filter.process
  refine (stage_rel _ (fun on f g h => select_rel (fun p q e => ?_) h) h).bind fun f g h => ?_
  · rw [hc (.inl (by simpa using on)) p q e]
  refine (stage_rel _ (fun on f g h => select_rel (fun p q e => ?_) h) h).bind fun f g h => ?_
  · rw [hc (.inr (by simpa using on)) p q e]
  refine (stage_rel _ (fun on f g h => uniqueXyz_rel (hR (.inl on)) b sh _ h) h).bind fun f g h => ?_
  refine (stage_rel _ (fun on f g h => subsampleFile_rel (hR (.inr (.inl on))) b sh _ _ h) h).bind fun f g h => ?_
  exact stage_rel _ (fun on f g h => removeCoords_rel (hR (.inr (.inr (by simpa using on)))) _ _ h) h

theorem getArgs_classes (os : List (String × Str)) (a : Filter.Args) {a' : Filter.Args} (h : Filter.getArgs os a = .ok a') :
    ((∀ o ∈ os, o.1 ≠ "keep-class") → a'.keepClasses = a.keepClasses) ∧ ((∀ o ∈ os, o.1 ≠ "remove-class") → a'.removeClasses = a.removeClasses)
      ∧ ((∀ o ∈ os, o.1 ≠ "remove-coords") → a'.removeCoords = a.removeCoords) := by
  induction os generalizing a with
  | nil => cases h; exact ⟨fun _ => rfl, fun _ => rfl, fun _ => rfl⟩
  | cons o os ih =>
    obtain ⟨name, arg⟩ := o
    obtain ⟨a1, h1, h⟩ := Res.bind_eq_ok.mp h
    have key : (name ≠ "keep-class" → a1.keepClasses = a.keepClasses) ∧ (name ≠ "remove-class" → a1.removeClasses = a.removeClasses)
        ∧ (name ≠ "remove-coords" → a1.removeCoords = a.removeCoords) := by
      unfold Filter.dispatch at h1
      repeat' split at h1
      all_goals first
        | (cases h1; done)
        | (cases h1; exact ⟨fun h => by first | rfl | contradiction, fun h => by first | rfl | contradiction,
            fun h => by first | rfl | contradiction⟩)
    split at h
    · cases h
      exact ⟨fun h => key.1 (h (name, arg) (by simp)), fun h => key.2.1 (h (name, arg) (by simp)),
        fun h => key.2.2 (h (name, arg) (by simp))⟩
    · obtain ⟨k1, k2, k3⟩ := ih a1 h
      exact ⟨fun h => (k1 fun o ho => h o (by simp [ho])).trans (key.1 (h (name, arg) (by simp))),
        fun h => (k2 fun o ho => h o (by simp [ho])).trans (key.2.1 (h (name, arg) (by simp))),
        fun h => (k3 fun o ho => h o (by simp [ho])).trans (key.2.2 (h (name, arg) (by simp)))⟩

/-! ## tool -/

theorem sumOf_same {field : PointRecord → F64} (hk : ∀ p q, R p q → field p = field q) {ps qs : List PointRecord} (h : List.Forall₂ R ps qs) :
    Tool.sumOf field ps = Tool.sumOf field qs := by
  unfold Tool.sumOf
  generalize F64.zero = s
  induction h generalizing s with
  | nil => rfl
  | cons h _ ih => rw [List.foldl_cons, List.foldl_cons, hk _ _ h, ih]

/-! ## transform -/

open Transform Props

/-- The two points have the same attributes: everything but the place. -/
def SameRest (p q : PointRecord) : Prop :=
  p.c = q.c ∧ p.p = q.p ∧ p.i = q.i ∧ p.r = q.r ∧ p.g = q.g ∧ p.b = q.b ∧ p.extra = q.extra

/-- For points at the same place, the two operations give points at the same place; and likewise for the attributes, if `E`. -/
def Keep (E : Prop) (op op' : Op) : Prop := ∀ n p q p' q', op n p = .ok p' → op' n q = .ok q' →
  (SameXyz p q → SameXyz p' q') ∧ (E → SameRest p q → SameRest p' q')

/-- The two results, if there are any, are such operations. -/
structure Keeps (E : Prop) (r r' : Res Op) : Prop where
  keep : ∀ op op', r = .ok op → r' = .ok op' → Keep E op op'

variable {E : Prop}

theorem Keeps.num {stod : AppUtils.Stod} {s : Str} {k : F64 → Op} (h : ∀ v, Keep E (k v) (k v)) :
    Keeps E (do let (v, _) ← AppUtils.consumeDouble stod s; .ok (k v)) (do let (v, _) ← AppUtils.consumeDouble stod s; .ok (k v)) := by
  constructor
  intro op op' e e'
  obtain ⟨⟨v, _⟩, h1, e⟩ := Res.bind_eq_ok.mp e
  obtain ⟨⟨v', _⟩, h1', e'⟩ := Res.bind_eq_ok.mp e'
  obtain ⟨rfl, -⟩ := Prod.mk.inj (Res.ok.inj (h1.symm.trans h1'))
  cases e
  cases e'
  exact h v

/-- An operation that changes the place in a way that depends on the place only. -/
theorem keep_place {k : Nat → F64 → F64 → F64 → Res (F64 × F64 × F64)} {op : Op}
    (h : ∀ n p, op n p = (k n p.x p.y p.z).bind fun t => .ok { p with x := t.1, y := t.2.1, z := t.2.2 }) : Keep E op op := by
  intro n p q p' q' e e'
  rw [h] at e e'
  obtain ⟨t, h1, e⟩ := Res.bind_eq_ok.mp e
  obtain ⟨t', h1', e'⟩ := Res.bind_eq_ok.mp e'
  cases e
  cases e'
  refine ⟨fun hs => ?_, fun _ hs => hs⟩
  rw [hs.1, hs.2.1, hs.2.2, h1'] at h1
  cases h1
  exact ⟨rfl, rfl, rfl⟩

/-- Operations that leave the place alone and look at the attributes only. -/
theorem keep_rest {op op' : Op} (h1 : ∀ n p p', op n p = .ok p' → SameXyz p p') (h1' : ∀ n p p', op' n p = .ok p' → SameXyz p p')
    (h2 : E → ∀ n p q p' q', SameRest p q → op n p = .ok p' → op' n q = .ok q' → SameRest p' q') : Keep E op op' := by
  intro n p q p' q' e e'
  refine ⟨fun hs => ?_, fun hE hs => h2 hE n p q p' q' hs e e'⟩
  have a := h1 n p p' e
  have b := h1' n q q' e'
  exact ⟨a.1.symm.trans (hs.1.trans b.1), a.2.1.symm.trans (hs.2.1.trans b.2.1), a.2.2.symm.trans (hs.2.2.trans b.2.2)⟩

theorem keep_quantize (v : F64) : Keep E (quantizeOp v) (quantizeOp v) :=
  keep_place (k := fun _ x y z => do
    let x ← quantizeCoord v x
    let y ← quantizeCoord v y
    let z ← quantizeCoord v z
    .ok (x, y, z)) fun n p => by
      unfold quantizeOp
      cases quantizeCoord v p.x <;> try rfl
      cases quantizeCoord v p.y <;> try rfl
      cases quantizeCoord v p.z <;> rfl

theorem copyDst_place {t : Str} {j n : Nat} {p p' : PointRecord} (h : copyDst t j n p = .ok p') : SameXyz p p' := by
  unfold copyDst at h
  split at h <;> first | (cases h; exact ⟨rfl, rfl, rfl⟩) | skip
  split at h
  · cases h
  · cases h; exact ⟨rfl, rfl, rfl⟩

theorem copySrc_rest {t : Str} {j : Nat} {p q : PointRecord} (h : SameRest p q) : copySrc t j p = copySrc t j q := by
  obtain ⟨h1, h2, h3, h4, h5, h6, h7⟩ := h
  unfold copySrc
  rw [h1, h2, h3, h4, h5, h6, h7]

theorem copyDst_rest {t : Str} {j n : Nat} {p q p' q' : PointRecord} (hs : SameRest p q) (h : copyDst t j n p = .ok p')
    (h' : copyDst t j n q = .ok q') : SameRest p' q' := by
  obtain ⟨h1, h2, h3, h4, h5, h6, h7⟩ := hs
  unfold copyDst at h h'
  generalize label t = l at h h'
  split at h
  case h_7 =>
    simp only at h h'
    split at h
    · cases h
    · split at h'
      · cases h'
      · cases h; cases h'; exact ⟨h1, h2, h3, h4, h5, h6, by simp [h7]⟩
  case h_8 => split at h' <;> first | contradiction | (cases h; cases h'; exact ⟨h1, h2, h3, h4, h5, h6, h7⟩)
  all_goals
    simp only at h'
    cases h; cases h'
    exact ⟨by simp [*], by simp [*], by simp [*], by simp [*], by simp [*], by simp [*], by simp [*]⟩

theorem keep_copy {t1 t2 : Str} {ef ef' : Nat} : Keeps (ef = ef') (copyFieldOp t1 t2 ef) (copyFieldOp t1 t2 ef') := by
  constructor
  intro op op' e e'
  unfold copyFieldOp at e e'
  by_cases c1 : isXYZ t1 = true
  · rw [if_pos c1] at e; cases e
  · by_cases c2 : isXYZ t2 = true
    · rw [if_neg c1, if_pos c2] at e; cases e
    · rw [if_neg c1, if_neg c2] at e e'
      cases e
      cases e'
      · · refine keep_rest ?_ ?_ ?_
          · intro n p p' h
            obtain ⟨src, -, h⟩ := Res.bind_eq_ok.mp h
            exact copyDst_place h
          · intro n p p' h
            obtain ⟨src, -, h⟩ := Res.bind_eq_ok.mp h
            exact copyDst_place h
          · rintro rfl n p q p' q' hs h h'
            obtain ⟨src, k, h⟩ := Res.bind_eq_ok.mp h
            obtain ⟨src', k', h'⟩ := Res.bind_eq_ok.mp h'
            rw [copySrc_rest hs, k'] at k
            cases k
            exact copyDst_rest hs h h'

theorem replaceBody_place {t : Str} {v1 v2 : UInt32} {j : Nat} {p p' : PointRecord} (h : replaceBody t v1 v2 j p = .ok p') : SameXyz p p' := by
  unfold replaceBody at h
  split at h
  all_goals first
    | (cases h; first | exact ⟨rfl, rfl, rfl⟩ | (split <;> exact ⟨rfl, rfl, rfl⟩))
    | (split at h
       · cases h
       · cases h; split <;> exact ⟨rfl, rfl, rfl⟩)

theorem replaceBody_rest {t : Str} {v1 v2 : UInt32} {j : Nat} {p q p' q' : PointRecord} (hs : SameRest p q)
    (h : replaceBody t v1 v2 j p = .ok p') (h' : replaceBody t v1 v2 j q = .ok q') : SameRest p' q' := by
  obtain ⟨x, y, z, c, p, i, r, g, b, e⟩ := p
  obtain ⟨x', y', z', c', p', i', r', g', b', e'⟩ := q
  obtain ⟨h1, h2, h3, h4, h5, h6, h7⟩ := hs
  simp only at h1 h2 h3 h4 h5 h6 h7
  subst h1 h2 h3 h4 h5 h6 h7
  unfold replaceBody at h h'
  generalize label t = l at h h'
  have r : ∀ {P : Prop} [Decidable P] {a a' b b' : PointRecord}, SameRest a a' → SameRest b b' → SameRest (if P then a else b) (if P then a' else b') := by
    intro P _ a a' b b' h1 h2
    split
    · exact h1
    · exact h2
  have e : ∀ {x y z x' y' z' : F64} {c p : UInt32} {i r g b : UInt16} {e : List UInt64},
    SameRest ⟨x, y, z, c, p, i, r, g, b, e⟩ ⟨x', y', z', c, p, i, r, g, b, e⟩ := ⟨rfl, rfl, rfl, rfl, rfl, rfl, rfl⟩
  split at h
  case h_7 =>
    simp only at h h'
    split at h
    · cases h
    · next hv =>
      simp only [hv] at h'
      rw [← Res.ok.inj h, ← Res.ok.inj h']
      exact r e e
  case h_8 =>
    split at h' <;> first | contradiction | skip
    rw [← Res.ok.inj h, ← Res.ok.inj h']
    exact e
  all_goals
    simp only at h'
    rw [← Res.ok.inj h, ← Res.ok.inj h']
    exact r e e

theorem keep_replace {t : Str} {v1 v2 : UInt32} {ef ef' : Nat} : Keeps (ef = ef') (replaceOp t v1 v2 ef) (replaceOp t v1 v2 ef') := by
  constructor
  intro op op' e e'
  unfold replaceOp at e e'
  by_cases c1 : isXYZ t = true
  · rw [if_pos c1] at e; cases e
  · rw [if_neg c1] at e e'
    · cases e
      cases e'
      exact keep_rest (fun _ _ _ => replaceBody_place) (fun _ _ _ => replaceBody_place) (by rintro rfl n p q p' q' hs h h'; exact replaceBody_rest hs h h')

theorem replaceNotLoop_rest {t : Str} {j : Nat} {p q : PointRecord} (hs : SameRest p q) (vs : List UInt32) :
    replaceNotLoop t j p vs = replaceNotLoop t j q vs := by
  have : ∀ v, hasValue t j p v = hasValue t j q v := by
    intro v
    obtain ⟨h1, h2, h3, h4, h5, h6, h7⟩ := hs
    unfold hasValue
    rw [h1, h2, h3, h4, h5, h6, h7]
  induction vs with
  | nil => rfl
  | cons v vs ih => simp only [replaceNotLoop, this, ih]

theorem replaceNotAssign_place {t : Str} {j : Nat} {r : Int} {p p' : PointRecord} (h : replaceNotAssign t j r p = .ok p') : SameXyz p p' := by
  unfold replaceNotAssign at h
  split at h <;> first | (cases h; exact ⟨rfl, rfl, rfl⟩) | skip
  split at h
  · cases h; exact ⟨rfl, rfl, rfl⟩
  · cases h

theorem replaceNotAssign_rest {t : Str} {j : Nat} {r : Int} {p q p' q' : PointRecord} (hs : SameRest p q) (h : replaceNotAssign t j r p = .ok p')
    (h' : replaceNotAssign t j r q = .ok q') : SameRest p' q' := by
  obtain ⟨h1, h2, h3, h4, h5, h6, h7⟩ := hs
  unfold replaceNotAssign at h h'
  generalize label t = l at h h'
  split at h
  case h_7 =>
    simp only at h h'
    split at h
    · split at h'
      · cases h; cases h'; exact ⟨h1, h2, h3, h4, h5, h6, by simp [h7]⟩
      · cases h'
    · cases h
  case h_8 => split at h' <;> first | contradiction | (cases h; cases h'; exact ⟨h1, h2, h3, h4, h5, h6, h7⟩)
  all_goals
    simp only at h'
    cases h; cases h'
    exact ⟨by simp [*], by simp [*], by simp [*], by simp [*], by simp [*], by simp [*], by simp [*]⟩

theorem keep_replaceNot {t : Str} {vs : List UInt32} {ef ef' : Nat} : Keeps (ef = ef') (replaceNotOp t vs ef) (replaceNotOp t vs ef') := by
  constructor
  intro op op' e e'
  unfold replaceNotOp at e e'
  by_cases c1 : isXYZ t = true
  · rw [if_pos c1] at e; cases e
  · by_cases c2 : vs.length < 2
    · rw [if_neg c1, if_pos c2] at e; cases e
    · rw [if_neg c1, if_neg c2] at e e'
      cases e
      cases e'
      · · have place : ∀ (j : Nat) (p p' : PointRecord), (do
              let replace ← replaceNotLoop t j p vs.dropLast
              if replace then replaceNotAssign t j (toInt (vs.getLastD 0)) p else .ok p) = .ok p' → SameXyz p p' := by
            intro j p p' h
            obtain ⟨d, -, h⟩ := Res.bind_eq_ok.mp h
            split at h
            · exact replaceNotAssign_place h
            · cases h; exact ⟨rfl, rfl, rfl⟩
          refine keep_rest (fun _ p p' => place _ p p') (fun _ p p' => place _ p p') ?_
          rintro rfl n p q p' q' hs h h'
          obtain ⟨d, k, h⟩ := Res.bind_eq_ok.mp h
          obtain ⟨d', k', h'⟩ := Res.bind_eq_ok.mp h'
          rw [replaceNotLoop_rest hs, k'] at k
          cases k
          split at h
          · rw [if_pos (by assumption)] at h'
            exact replaceNotAssign_rest hs h h'
          · rw [if_neg (by assumption)] at h'
            cases h; cases h'; exact hs

theorem keep_set {t : Str} {v : F64} {ef ef' : Nat} : Keep (ef = ef') (setOp t v ef) (setOp t v ef') := by
  intro n p q p' q' h h'
  unfold setOp at h h'
  generalize label t = l at h h'
  split at h
  case h_10 =>
    simp only at h'
    split at h
    · cases h
    · split at h'
      · cases h'
      · obtain ⟨a, k, h⟩ := Res.bind_eq_ok.mp h
        obtain ⟨a', k', h'⟩ := Res.bind_eq_ok.mp h'
        rw [k'] at k; cases k; cases h; cases h'
        refine ⟨fun hs => hs, ?_⟩
        rintro rfl ⟨h1, h2, h3, h4, h5, h6, h7⟩
        exact ⟨h1, h2, h3, h4, h5, h6, by simp [h7]⟩
  case h_11 =>
    split at h' <;> first | contradiction | skip
    cases h; cases h'
    exact ⟨fun hs => hs, fun _ hs => hs⟩
  all_goals
    simp only at h'
    first
    | (cases h; cases h'; exact ⟨fun hs => by first | exact ⟨rfl, hs.2⟩ | exact ⟨hs.1, rfl, hs.2.2⟩ | exact ⟨hs.1, hs.2.1, rfl⟩, fun _ hs => hs⟩)
    | (obtain ⟨a, k, h⟩ := Res.bind_eq_ok.mp h
       obtain ⟨a', k', h'⟩ := Res.bind_eq_ok.mp h'
       rw [k'] at k; cases k; cases h; cases h'
       refine ⟨fun hs => hs, fun _ hs => ?_⟩
       obtain ⟨h1, h2, h3, h4, h5, h6, h7⟩ := hs
       exact ⟨by simp [*], by simp [*], by simp [*], by simp [*], by simp [*], by simp [*], by simp [*]⟩)

theorem Keeps.prefix {α : Type} (r : Res α) {k k' : α → Res Op} (h : ∀ a, Keeps E (k a) (k' a)) : Keeps E (r >>= k) (r >>= k') := by
  constructor
  intro op op' e e'
  obtain ⟨a, h1, e⟩ := Res.bind_eq_ok.mp e
  obtain ⟨a', h1', e'⟩ := Res.bind_eq_ok.mp e'
  obtain rfl := Res.ok.inj (h1.symm.trans h1')
  exact (h a).keep op op' e e'

theorem Keeps.ite {c : Prop} [Decidable c] {a a' b b' : Res Op} (h1 : Keeps E a a') (h2 : Keeps E b b') :
    Keeps E (if c then a else b) (if c then a' else b') := by
  split
  · exact h1
  · exact h2

/-- The place with the offsets. -/
def noised (sx sy sz : F64) (d : Pt F64) (x y z : F64) : F64 × F64 × F64 :=
  (if F64.fne sx F64.zero then F64.add x d.x else x, if F64.fne sy F64.zero then F64.add y d.y else y,
    if F64.fne sz F64.zero then F64.add z d.z else z)

theorem keep_gauss (nz : Noise) (seed : Nat) (sx sy sz : F64) : Keep E (gaussianOp nz seed sx sy sz) (gaussianOp nz seed sx sy sz) :=
  keep_place (k := fun n x y z => .ok (noised sx sy sz (nz.gauss seed sx sy sz n) x y z)) fun _ _ => rfl

theorem keep_uniform (nz : Noise) (seed : Nat) (sx sy sz : F64) : Keep E (uniformOp nz seed sx sy sz) (uniformOp nz seed sx sy sz) :=
  keep_place (k := fun n x y z => .ok (noised sx sy sz (nz.uniform seed sx sy sz n) x y z)) fun _ _ => rfl

theorem keep_parse (b : Build) (env : Env) (seed ef ef' : Nat) (c : Command) :
    Keeps (ef = ef') (parseCommand b env seed ef c) (parseCommand b env seed ef' c) := by
  have place : ∀ {op : Op} (k : Nat → F64 → F64 → F64 → F64 × F64 × F64),
      (∀ n p, op n p = .ok { p with x := (k n p.x p.y p.z).1, y := (k n p.x p.y p.z).2.1, z := (k n p.x p.y p.z).2.2 }) → Keep (ef = ef') op op :=
    fun k h => keep_place (k := fun n x y z => .ok (k n x y z)) h
  unfold parseCommand
  refine .ite ?_ ?_
  · exact .num (k := addXOp) fun v => place (fun _ x y z => (F64.add x v, y, z)) fun _ _ => rfl
  refine .ite ?_ ?_
  · exact .num (k := addYOp) fun v => place (fun _ x y z => (x, F64.add y v, z)) fun _ _ => rfl
  refine .ite ?_ ?_
  · exact .num (k := addZOp) fun v => place (fun _ x y z => (x, y, F64.add z v)) fun _ _ => rfl
  refine .ite ?_ ?_
  · exact .prefix _ fun _ => .prefix _ fun _ => keep_copy
  refine .ite ?_ ?_
  · exact .num (k := fun v => gaussianOp env.noise seed v v v) fun v => keep_gauss _ _ _ _ _
  refine .ite ?_ ?_
  · exact .num (k := fun v => gaussianOp env.noise seed v F64.zero F64.zero) fun v => keep_gauss _ _ _ _ _
  refine .ite ?_ ?_
  · exact .num (k := fun v => gaussianOp env.noise seed F64.zero v F64.zero) fun v => keep_gauss _ _ _ _ _
  refine .ite ?_ ?_
  · exact .num (k := fun v => gaussianOp env.noise seed F64.zero F64.zero v) fun v => keep_gauss _ _ _ _ _
  refine .ite ?_ ?_
  · exact .num (k := quantizeOp) fun v => keep_quantize v
  refine .ite ?_ ?_
  · exact .prefix _ fun _ => .prefix _ fun _ => .prefix _ fun _ => keep_replace
  refine .ite ?_ ?_
  · exact .prefix _ fun _ => .prefix _ fun _ => keep_replaceNot
  refine .ite ?_ ?_
  · exact .num (k := rotateXOp env.trig) fun v => place (fun _ x y z => (x, F64.sub (F64.mul y (env.trig.cos (Affine.radians v))) (F64.mul z (env.trig.sin (Affine.radians v))),
      F64.add (F64.mul y (env.trig.sin (Affine.radians v))) (F64.mul z (env.trig.cos (Affine.radians v))))) fun _ _ => rfl
  refine .ite ?_ ?_
  · exact .num (k := rotateYOp env.trig) fun v => place (fun _ x y z => (F64.sub (F64.mul x (env.trig.cos (Affine.radians v))) (F64.mul z (env.trig.sin (Affine.radians v))), y,
      F64.add (F64.mul x (env.trig.sin (Affine.radians v))) (F64.mul z (env.trig.cos (Affine.radians v))))) fun _ _ => rfl
  refine .ite ?_ ?_
  · exact .num (k := rotateZOp env.trig) fun v => place (fun _ x y z => (F64.sub (F64.mul x (env.trig.cos (Affine.radians v))) (F64.mul y (env.trig.sin (Affine.radians v))),
      F64.add (F64.mul x (env.trig.sin (Affine.radians v))) (F64.mul y (env.trig.cos (Affine.radians v))), z)) fun _ _ => rfl
  refine .ite ?_ ?_
  · exact .num (k := scaleXOp) fun v => place (fun _ x y z => (F64.mul x v, y, z)) fun _ _ => rfl
  refine .ite ?_ ?_
  · exact .num (k := scaleYOp) fun v => place (fun _ x y z => (x, F64.mul y v, z)) fun _ _ => rfl
  refine .ite ?_ ?_
  · exact .num (k := scaleZOp) fun v => place (fun _ x y z => (x, y, F64.mul z v)) fun _ _ => rfl
  refine .ite ?_ ?_
  · refine .prefix _ fun _ => .prefix _ fun _ => ⟨?_⟩
    intro op op' h h'
    rw [← Res.ok.inj h, ← Res.ok.inj h']
    exact keep_set
  refine .ite ?_ ?_
  · exact .num (k := fun v => uniformOp env.noise seed v v v) fun v => keep_uniform _ _ _ _ _
  refine .ite ?_ ?_
  · exact .num (k := fun v => uniformOp env.noise seed v F64.zero F64.zero) fun v => keep_uniform _ _ _ _ _
  refine .ite ?_ ?_
  · exact .num (k := fun v => uniformOp env.noise seed F64.zero v F64.zero) fun v => keep_uniform _ _ _ _ _
  refine .ite ?_ ?_
  · exact .num (k := fun v => uniformOp env.noise seed F64.zero F64.zero v) fun v => keep_uniform _ _ _ _ _
  · constructor
    intro op op' h
    cases h

theorem applyOps_keep {ops ops' : List Op} (h : List.Forall₂ (Keep E) ops ops') : Keep E (fun n => applyOps n ops) (fun n => applyOps n ops') := by
  induction h with
  | nil =>
    intro n p q p' q' h h'
    cases h; cases h'
    exact ⟨fun h => h, fun _ h => h⟩
  | cons h _ ih =>
    intro n p q p' q' e e'
    obtain ⟨m, k1, e⟩ := Res.bind_eq_ok.mp e
    obtain ⟨m', k1', e'⟩ := Res.bind_eq_ok.mp e'
    obtain ⟨a, b⟩ := h n p q m m' k1 k1'
    obtain ⟨a', b'⟩ := ih n m m' p' q' e e'
    exact ⟨fun hs => a' (a hs), fun hE hs => b' hE (b hE hs)⟩

theorem applyAll_keep {ops ops' : List Op} (h : List.Forall₂ (Keep E) ops ops') {n : Nat} {ps qs ps' qs' : List PointRecord}
    (e : applyAll ops n ps = .ok ps') (e' : applyAll ops' n qs = .ok qs') :
    (List.Forall₂ SameXyz ps qs → List.Forall₂ SameXyz ps' qs') ∧ (E → List.Forall₂ SameRest ps qs → List.Forall₂ SameRest ps' qs') := by
  induction ps generalizing n qs ps' qs' with
  | nil =>
    cases e
    refine ⟨fun h => ?_, fun _ h => ?_⟩ <;> (cases h; cases e'; exact .nil)
  | cons p ps ih =>
    obtain ⟨p1, k1, e⟩ := Res.bind_eq_ok.mp e
    obtain ⟨ps1, k2, e⟩ := Res.bind_eq_ok.mp e
    cases e
    cases qs with
    | nil => exact ⟨(fun h => nomatch h), (fun _ h => nomatch h)⟩
    | cons q qs =>
      obtain ⟨q1, k1', e'⟩ := Res.bind_eq_ok.mp e'
      obtain ⟨qs1, k2', e'⟩ := Res.bind_eq_ok.mp e'
      cases e'
      obtain ⟨a, b⟩ := applyOps_keep h n p q p1 q1 k1 k1'
      obtain ⟨a', b'⟩ := ih k2 k2'
      refine ⟨fun h => ?_, fun hE h => ?_⟩
      · cases h with
        | cons h1 h2 => exact .cons (a h1) (a' h2)
      · cases h with
        | cons h1 h2 => exact .cons (b hE h1) (b' hE h2)

theorem parse_keep (b : Build) (env : Env) (seed ef ef' : Nat) {cs : List Command} {ops ops' : List Op}
    (h : cs.mapM (parseCommand b env seed ef) = .ok ops) (h' : cs.mapM (parseCommand b env seed ef') = .ok ops') :
    List.Forall₂ (Keep (ef = ef')) ops ops' := by
  replace h := mapM_eq_ok.mp h
  replace h' := mapM_eq_ok.mp h'
  induction h generalizing ops' with
  | nil => cases h'; exact .nil
  | cons e _ ih =>
    cases h' with
    | cons e' h' => exact .cons ((keep_parse b env seed ef ef' _).keep _ _ e e') (ih h')

end Spoc.Related
