import Verif.Proofs.Commute

/-!
# Operations that look neither at the point id nor at the number of the point
-/

namespace Spoc.Transform

open Spec Props AppUtils Text

/-- The operation does the same to a point whatever its id and its place are, and leaves the id alone. -/
structure Blind (op : Op) : Prop where
  number : ∀ n m p, op n p = op m p
  id : ∀ n p q id, op n p = .ok q → op n { p with p := id } = .ok { q with p := id }

theorem get_withId {f : Field} (hf : f ≠ .p) (q : PointRecord) (id : UInt32) : f.get { q with p := id } = f.get q := by
  cases f <;> first | rfl | exact absurd rfl hf

/-- Operations that look at other fields and change other fields. -/
theorem blind_local {R W : List Field} {op : Op} (h : Local R W op) (hR : Field.p ∉ R) (hW : Field.p ∉ W)
    (hn : ∀ n m p, op n p = op m p) : Blind op := by
  refine ⟨hn, fun n p q id hq => ?_⟩
  obtain ⟨q', h1, h2⟩ := h.same n p q { p with p := id } hq rfl (fun f hf => get_withId (by rintro rfl; exact hR hf) p id)
  have e : q' = { q with p := id } := by
    apply eq_of_get
    intro f
    have f1 := h.frame n p q hq
    have f2 := h.frame n _ q' h1
    by_cases hp : f = .p
    · subst hp
      rw [f2.2 _ hW]; rfl
    · rw [get_withId hp q id]
      by_cases hf : f ∈ W
      · exact h2 f hf
      · rw [f2.2 f hf, get_withId hp p id, f1.2 f hf]
  rw [h1, e]

theorem hasValue_withId {t : Str} {f : Field} (h : Selects t f) (hf : f ≠ .p) (j : Nat) (p : PointRecord) (id : UInt32) (v : UInt32) :
    hasValue t j { p with p := id } v = hasValue t j p v := by
  cases h with
  | p => exact absurd rfl hf
  | e hl _ => unfold hasValue; rw [hl]; rfl
  | _ => rfl

theorem replaceNotLoop_withId {t : Str} {f : Field} (h : Selects t f) (hf : f ≠ .p) (j : Nat) (p : PointRecord) (id : UInt32)
    (vs : List UInt32) : replaceNotLoop t j { p with p := id } vs = replaceNotLoop t j p vs := by
  induction vs with
  | nil => rfl
  | cons v vs ih => rw [replaceNotLoop, replaceNotLoop, hasValue_withId h hf, ih]

theorem replaceNotAssign_withId {t : Str} {f : Field} (h : Selects t f) (j : Nat) (r : Int) (p q : PointRecord) (id : UInt32)
    (hq : replaceNotAssign t j r p = .ok q) : replaceNotAssign t j r { p with p := id } = .ok { q with p := id } := by
  cases h with
  | e hl _ =>
    unfold replaceNotAssign at hq ⊢
    rw [hl] at hq ⊢
    simp only at hq ⊢
    split at hq
    · rename_i hj
      rw [if_pos hj]
      simp only [Res.ok.injEq] at hq ⊢
      rw [← hq]
    · simp at hq
  | _ =>
    obtain rfl := Res.ok.inj (show Res.ok _ = Res.ok q from hq)
    rfl

theorem blind_replaceNot {t : Str} {f : Field} (h : Selects t f) (hf : f ≠ .p) (ef : Nat) (vs : List UInt32) {op : Op}
    (hop : replaceNotOp t vs ef = .ok op) : Blind op := by
  unfold replaceNotOp at hop
  split at hop
  · simp at hop
  split at hop
  · simp at hop
  simp only [Res.ok.injEq] at hop
  subst hop
  refine ⟨fun _ _ _ => rfl, fun n p q id hq => ?_⟩
  rw [replaceNotLoop_withId h hf]
  rw [Res.bind_eq_ok] at hq
  obtain ⟨x, hx, hq⟩ := hq
  rw [hx, Res.ok_bind]
  cases x with
  | true =>
    simp only [if_true] at hq ⊢
    exact replaceNotAssign_withId h _ _ p q id hq
  | false =>
    simp only [Bool.false_eq_true, if_false, Res.ok.injEq] at hq ⊢
    rw [hq]

/-- Commands without noise do not depend on the number of the point. -/
theorem command_number (b : Build) (env : Env) (seed ef : Nat) (c : Command) (op : Op) (hc : c.name ∈ commandOptions)
    (hop : parseCommand b env seed ef c = .ok op) (n m : Nat) (p : PointRecord) : op n p = op m p := by
  obtain ⟨name, params⟩ := c
  simp only [commandOptions, List.mem_cons, List.not_mem_nil, or_false] at hc
  have hnum : ∀ (k : F64 → Op) op, (consumeDouble env.stod params >>= fun x => Res.ok (k x.1)) = .ok op → ∃ v, op = k v :=
    fun k op h => num_ok h
  rcases hc with rfl | rfl | rfl | rfl | rfl | rfl | rfl | rfl | rfl | rfl | rfl | rfl | rfl | rfl
  all_goals simp only [parseCommand, String.reduceEq, if_false, if_true] at hop
  case inr.inr.inr.inl =>
    rw [Res.bind_eq_ok] at hop
    obtain ⟨⟨t1, r1⟩, -, hop⟩ := hop
    rw [Res.bind_eq_ok] at hop
    obtain ⟨⟨t2, r2⟩, -, hop⟩ := hop
    simp only [copyFieldOp] at hop
    split at hop
    · simp at hop
    split at hop
    · simp at hop
    rw [Res.ok.injEq] at hop
    rw [← hop]
  case inr.inr.inr.inr.inr.inl =>
    rw [Res.bind_eq_ok] at hop
    obtain ⟨⟨t1, r1⟩, -, hop⟩ := hop
    simp only at hop
    rw [Res.bind_eq_ok] at hop
    obtain ⟨⟨t2, r2⟩, -, hop⟩ := hop
    simp only at hop
    rw [Res.bind_eq_ok] at hop
    obtain ⟨⟨t2, r2⟩, -, hop⟩ := hop
    simp only [replaceOp] at hop
    split at hop
    · simp at hop
    rw [Res.ok.injEq] at hop
    rw [← hop]
  case inr.inr.inr.inr.inr.inr.inl =>
    rw [Res.bind_eq_ok] at hop
    obtain ⟨⟨t1, r1⟩, -, hop⟩ := hop
    simp only at hop
    rw [Res.bind_eq_ok] at hop
    obtain ⟨⟨t2, r2⟩, -, hop⟩ := hop
    simp only [replaceNotOp] at hop
    split at hop
    · simp at hop
    split at hop
    · simp at hop
    rw [Res.ok.injEq] at hop
    rw [← hop]
  case inr.inr.inr.inr.inr.inr.inr.inr.inr.inr.inr.inr.inr =>
    rw [Res.bind_eq_ok] at hop
    obtain ⟨⟨t1, r1⟩, -, hop⟩ := hop
    simp only at hop
    rw [Res.bind_eq_ok] at hop
    obtain ⟨⟨t2, r2⟩, -, hop⟩ := hop
    rw [Res.ok.injEq] at hop
    rw [← hop]
    rfl
  all_goals
    obtain ⟨v, rfl⟩ := hnum _ _ hop
    rfl

/-- Commands that neither look at nor change the point id. -/
theorem blind_command (b : Build) (env : Env) (seed ef : Nat) (c : Command) (op : Op) (hc : c.name ∈ commandOptions)
    (hop : parseCommand b env seed ef c = .ok op)
    (hp : ∀ fs, Named c.name c.params fs ∨ Uses c.name c.params fs → Field.p ∉ fs) : Blind op := by
  by_cases hn : c.name = "replace-not"
  · have hop' := hop
    simp only [parseCommand, hn, String.reduceEq, if_false, if_true] at hop'
    rw [Res.bind_eq_ok] at hop'
    obtain ⟨⟨t1, r1⟩, h1, hop'⟩ := hop'
    simp only at hop'
    rw [Res.bind_eq_ok] at hop'
    obtain ⟨⟨vs, r2⟩, _, hop'⟩ := hop'
    obtain ⟨rest1, f1, ht1, hr1, hd1, hs1⟩ := consumeFieldName_ok h1
    have hnm : Named c.name c.params [f1] := .first (by rw [hn]; simp) ht1 hd1
    exact blind_replaceNot hs1 (fun e => hp _ (.inl hnm) (by simp [e])) ef vs hop'
  · obtain ⟨R, W, u, w, l⟩ := local_command b env seed ef c op hop (fun h => absurd h hn)
    exact blind_local l (hp R (.inr u)) (hp W (.inl w)) (command_number b env seed ef c op hc hop)

theorem blind_ops {ops : List Op} (h : ∀ op ∈ ops, Blind op) : Blind (fun n => applyOps n ops) := by
  induction ops with
  | nil =>
    refine ⟨fun _ _ _ => rfl, fun n p q id hq => ?_⟩
    simp only [applyOps, Res.ok.injEq] at hq ⊢
    rw [hq]
  | cons op ops ih =>
    have ih := ih (fun o ho => h o (by simp [ho]))
    have hb := h op (by simp)
    refine ⟨fun n m p => ?_, fun n p q id hq => ?_⟩
    · simp only [applyOps]
      rw [hb.number n m p]
      congr 1
      funext q
      exact ih.number n m q
    · simp only [applyOps] at hq ⊢
      rw [Res.bind_eq_ok] at hq
      obtain ⟨r, hr, hq⟩ := hq
      rw [hb.id n p r id hr, Res.ok_bind]
      exact ih.id n r q id hq

theorem applyAll_forall₂ {ops : List Op} (h : ∀ op ∈ ops, Blind op) (n : Nat) (ps qs : List PointRecord) :
    applyAll ops n ps = .ok qs ↔ List.Forall₂ (fun p q => applyOps 0 ops p = .ok q) ps qs := by
  have hb := blind_ops h
  induction ps generalizing n qs with
  | nil => simp [applyAll, eq_comm]
  | cons p ps ih =>
    simp only [applyAll, List.forall₂_cons_left_iff, Res.bind_eq_ok, Res.ok.injEq]
    constructor
    · rintro ⟨q, hq, l, hl, rfl⟩
      exact ⟨q, l, (hb.number 0 n p).trans hq, (ih _ _).mp hl, rfl⟩
    · rintro ⟨q, l, hq, hl, rfl⟩
      exact ⟨q, (hb.number n 0 p).trans hq, l, (ih _ _).mpr hl, rfl⟩

/-! ## The number of extra fields in the header does not matter to the commands -/

theorem copySrc_extra {t : Str} {f : Field} (h : Selects t f) (e e' : Nat) : copySrc t (extraIndex t e) = copySrc t (extraIndex t e') := by
  cases h with
  | e _ hj => rw [hj e, hj e']
  | _ => rfl

theorem copyDst_extra {t : Str} {f : Field} (h : Selects t f) (e e' : Nat) : copyDst t (extraIndex t e) = copyDst t (extraIndex t e') := by
  cases h with
  | e _ hj => rw [hj e, hj e']
  | _ => rfl

theorem replaceBody_extra {t : Str} {f : Field} (h : Selects t f) (v1 v2 : UInt32) (e e' : Nat) :
    replaceBody t v1 v2 (extraIndex t e) = replaceBody t v1 v2 (extraIndex t e') := by
  cases h with
  | e _ hj => rw [hj e, hj e']
  | _ => rfl

theorem hasValue_extra {t : Str} {f : Field} (h : Selects t f) (e e' : Nat) : hasValue t (extraIndex t e) = hasValue t (extraIndex t e') := by
  cases h with
  | e _ hj => rw [hj e, hj e']
  | _ => rfl

theorem replaceNotLoop_extra {t : Str} {f : Field} (h : Selects t f) (e e' : Nat) (p : PointRecord) (vs : List UInt32) :
    replaceNotLoop t (extraIndex t e) p vs = replaceNotLoop t (extraIndex t e') p vs := by
  induction vs with
  | nil => rfl
  | cons v vs ih => rw [replaceNotLoop, replaceNotLoop, hasValue_extra h e e', ih]

theorem replaceNotAssign_extra {t : Str} {f : Field} (h : Selects t f) (e e' : Nat) :
    replaceNotAssign t (extraIndex t e) = replaceNotAssign t (extraIndex t e') := by
  cases h with
  | e _ hj => rw [hj e, hj e']
  | _ => rfl

theorem setOp_extra {t : Str} {f : Field} (h : Selects t f) (v : F64) (e e' : Nat) : setOp t v e = setOp t v e' := by
  cases h with
  | e _ hj => unfold setOp; rw [hj e, hj e']
  | _ => rfl

theorem bind_congr {α β : Type} {r : Res α} {k k' : α → Res β} (h : ∀ a, r = .ok a → k a = k' a) : (r >>= k) = (r >>= k') := by
  cases r with
  | ok a => exact h a rfl
  | _ => rfl

theorem parseCommand_extra (b : Build) (env : Env) (seed e e' : Nat) (c : Command) :
    parseCommand b env seed e c = parseCommand b env seed e' c := by
  have h1 : ∀ {t1 r1 : Str} {s : Str}, consumeFieldName b s = .ok (t1, r1) → ∃ f, Selects t1 f := fun h => by
    obtain ⟨_, f, _, _, _, hs⟩ := consumeFieldName_ok h
    exact ⟨f, hs⟩
  unfold parseCommand
  have hcopy : ∀ {t1 t2 : Str}, (∃ f, Selects t1 f) → (∃ f, Selects t2 f) → copyFieldOp t1 t2 e = copyFieldOp t1 t2 e' := by
    rintro t1 t2 ⟨f1, s1⟩ ⟨f2, s2⟩
    unfold copyFieldOp
    simp only [copySrc_extra s1 e e', copyDst_extra s2 e e']
  have hrepl : ∀ {t : Str} (v1 v2 : UInt32), (∃ f, Selects t f) → replaceOp t v1 v2 e = replaceOp t v1 v2 e' := by
    rintro t v1 v2 ⟨f, s⟩
    unfold replaceOp
    simp only [replaceBody_extra s v1 v2 e e']
  have hnot : ∀ {t : Str} (vs : List UInt32), (∃ f, Selects t f) → replaceNotOp t vs e = replaceNotOp t vs e' := by
    rintro t vs ⟨f, s⟩
    unfold replaceNotOp
    simp only [replaceNotLoop_extra s e e', replaceNotAssign_extra s e e']
  have hset : ∀ {t : Str} (v : F64), (∃ f, Selects t f) → setOp t v e = setOp t v e' := fun v ⟨f, s⟩ => setOp_extra s v e e'
  have e1 : (do
      let (f1, s) ← consumeFieldName b c.params
      let (f2, _) ← consumeFieldName b s
      copyFieldOp f1 f2 e) = (do
      let (f1, s) ← consumeFieldName b c.params
      let (f2, _) ← consumeFieldName b s
      copyFieldOp f1 f2 e') :=
    bind_congr fun a ha => bind_congr fun a' ha' => hcopy (h1 ha) (h1 ha')
  have e2 : (do
      let (l, s) ← consumeFieldName b c.params
      let (v1, s) ← consumeInt s
      let (v2, _) ← consumeInt s
      replaceOp l v1 v2 e) = (do
      let (l, s) ← consumeFieldName b c.params
      let (v1, s) ← consumeInt s
      let (v2, _) ← consumeInt s
      replaceOp l v1 v2 e') :=
    bind_congr fun a ha => bind_congr fun a' _ => bind_congr fun a'' _ => hrepl _ _ (h1 ha)
  have e3 : (do
      let (l, s) ← consumeFieldName b c.params
      let (v, _) ← consumeInts s
      replaceNotOp l v e) = (do
      let (l, s) ← consumeFieldName b c.params
      let (v, _) ← consumeInts s
      replaceNotOp l v e') :=
    bind_congr fun a ha => bind_congr fun a' _ => hnot _ (h1 ha)
  have e4 : (do
      let (l, s) ← consumeFieldName b c.params
      let (v, _) ← consumeDouble env.stod s
      Res.ok (setOp l v e)) = (do
      let (l, s) ← consumeFieldName b c.params
      let (v, _) ← consumeDouble env.stod s
      Res.ok (setOp l v e')) :=
    bind_congr fun a ha => bind_congr fun a' _ => congrArg Res.ok (hset _ (h1 ha))
  simp only [e1, e2, e3, e4]

end Spoc.Transform
