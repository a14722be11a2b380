import Verif.Model.FileSteps
import Verif.Props.File

/-!
# C11, C12 statement by statement: exceptions leave the objects unchanged
-/

namespace Spoc.Props

open Spoc Spec Io FileOps FileSteps

theorem foldl_modify {α : Type} (f : α → α) (l : List α) (k j : Nat) :
    ((List.range k).foldl (fun l i => l.modify i f) l)[j]? = if j < k then f <$> l[j]? else l[j]? := by
  induction k with
  | zero => simp
  | succ k ih =>
    rw [List.range_succ, List.foldl_append, List.foldl_cons, List.foldl_nil, List.getElem?_modify, ih]
    by_cases h : j < k
    · have h2 : k ≠ j := by omega
      simp [h, h2, show j < k + 1 by omega]
    · by_cases h2 : j = k
      · subst h2; simp
      · simp [h, show ¬ j < k + 1 by omega, show k ≠ j by omega]

theorem foldl_modify_all {α : Type} (f : α → α) (l : List α) :
    (List.range l.length).foldl (fun l i => l.modify i f) l = l.map f := by
  apply List.ext_getElem?
  intro j
  rw [foldl_modify, List.getElem?_map]
  by_cases h : j < l.length
  · rw [if_pos h]; rfl
  · rw [if_neg h, List.getElem?_eq_none (by omega)]; rfl

theorem Mem.put_get (m : Mem) (r : Reg) : m.put r (m.get r) = m := by cases r <;> rfl

theorem resizeLoop_eq (r : Reg) (n : Nat) (is : List Nat) (m : Mem) :
    resizeLoop r n is m = (.ok (), m.put r { m.get r with
      prs := is.foldl (fun l i => l.modify i (fun q => { q with extra := SpocFile.resizeExtra n q.extra })) (m.get r).prs }) := by
  induction is generalizing m with
  | nil => simp only [resizeLoop, assign, List.foldl_nil, id]; rw [show m.put r { m.get r with prs := (m.get r).prs } = m from Mem.put_get m r]
  | cons i is ih =>
    simp only [resizeLoop, Stmt.andThen, resizeOne, assign]
    rw [ih]
    cases r <;> rfl

theorem resize_eq (r : Reg) (n : Nat) (bd : Build) (m : Mem) :
    exec bd (.resizeExtra r n) m = (.ok (), m.put r ((m.get r).resizeExtraFields n)) := by
  simp only [exec]
  rw [resizeLoop_eq, foldl_modify_all]
  rfl

theorem assignFrom_eq (r : Reg) (src : Mem → SpocFile) (m : Mem) :
    assignFrom r src m = if allSameSizeExtra (src m).prs then (.ok (), { m.put r (src m) with tmp := m.get r })
      else (.throw "The point record extra fields have inconsistent sizes", { m with tmp := src m }) := by
  rcases Bool.eq_false_or_eq_true (allSameSizeExtra (src m).prs) with h | h
  · simp only [assignFrom, Stmt.andThen, assign, throwIf, h]
    cases r <;> simp [swapTmp, Stmt.andThen, assign, Mem.put, Mem.get]
  · simp [assignFrom, Stmt.andThen, assign, throwIf, h]

/-- What an operation does to the two objects, compared with its effect in `FileOps`. -/
def Agrees (m : Mem) (r : Res State) (x : Res Unit × Mem) : Prop :=
  match r with
  | .ok s => x.1 = .ok () ∧ x.2.a = s.a ∧ x.2.b = s.b
  | .throw e => x.1 = .throw e ∧ x.2.a = m.a ∧ x.2.b = m.b
  | .ub w => x.1 = .ub w
  | .abort => x.1 = .abort
  | .hang => x.1 = .hang

theorem exec_agrees (bd : Build) (op : Op) (m : Mem) : Agrees m (step bd ⟨m.a, m.b⟩ op) (exec bd op m) := by
  have hget : ∀ r, (⟨m.a, m.b⟩ : State).get r = m.get r := by intro r; cases r <;> rfl
  have hputa : ∀ r f, ((⟨m.a, m.b⟩ : State).put r f).a = (m.put r f).a := by intro r f; cases r <;> rfl
  have hputb : ∀ r f, ((⟨m.a, m.b⟩ : State).put r f).b = (m.put r f).b := by intro r f; cases r <;> rfl
  have hempty : allSameSizeExtra [] = true := rfl
  cases op with
  | construct r ma mi w c p =>
    rcases Bool.eq_false_or_eq_true (allSameSizeExtra p) with h | h
    · simp only [step, SpocFile.new, exec, Stmt.andThen, assign, throwIf, h, Bool.not_true, Bool.false_eq_true, if_false, Res.ok_bind,
        assignFrom_eq, if_true]
      cases r <;> exact ⟨rfl, rfl, rfl⟩
    · simp [step, SpocFile.new, exec, Stmt.andThen, assign, throwIf, h, Agrees]
  | constructEmpty r =>
    simp only [step, exec, Stmt.andThen, assign, assignFrom_eq]
    cases r <;> exact ⟨rfl, rfl, rfl⟩
  | cloneEmpty r t =>
    simp only [step, exec, Stmt.andThen, assign, throwIf, hempty, Bool.not_true, Bool.false_eq_true, if_false, assignFrom_eq, if_true]
    cases r <;> cases t <;> exact ⟨rfl, rfl, rfl⟩
  | setWkt r w => cases r <;> exact ⟨rfl, rfl, rfl⟩
  | setCompressed r c => cases r <;> exact ⟨rfl, rfl, rfl⟩
  | pushBack r q =>
    rcases hp : (m.get r).prs with _ | ⟨q0, l⟩
    · simp only [step, exec, Stmt.andThen, assign, throwIf, SpocFile.pushBack, hget, SpocFile.extraFields, hp, List.isEmpty_nil, Bool.not_true,
        Bool.false_and, Bool.false_eq_true, if_false, Res.ok_bind]
      exact ⟨rfl, (hputa _ _).symm, (hputb _ _).symm⟩
    · by_cases h : q.extra.length = q0.extra.length
      · simp only [step, exec, Stmt.andThen, assign, throwIf, SpocFile.pushBack, hget, SpocFile.extraFields, hp, h, List.isEmpty_cons, ne_eq,
          not_true, decide_false, Bool.and_false, Bool.false_eq_true, if_false, Res.ok_bind]
        exact ⟨rfl, (hputa _ _).symm, (hputb _ _).symm⟩
      · simp [step, exec, Stmt.andThen, throwIf, SpocFile.pushBack, hget, SpocFile.extraFields, hp, h, Agrees]
  | resizeExtra r n =>
    rw [resize_eq]
    simp only [step, hget]
    exact ⟨rfl, (hputa _ _).symm, (hputb _ _).symm⟩
  | swap => exact ⟨rfl, rfl, rfl⟩
  | assign r t =>
    by_cases h : r = t
    · simp only [step, exec, h, if_true]
      exact ⟨rfl, rfl, rfl⟩
    · rcases Bool.eq_false_or_eq_true (allSameSizeExtra (m.get t).prs) with h2 | h2
      · simp only [step, exec, h, if_false, assignFrom_eq, SpocFile.copy, SpocFile.new, hget, h2, Bool.not_true, Bool.false_eq_true, Res.ok_bind,
          if_true]
        exact ⟨rfl, (hputa _ _).symm, (hputb _ _).symm⟩
      · simp [step, exec, h, assignFrom_eq, SpocFile.copy, SpocFile.new, hget, h2, Agrees]
  | setRecord r i q =>
    simp only [step, exec, Stmt.andThen, requireThat, throwIf, SpocFile.setPointRecord, hget, FileSteps.store]
    by_cases hi : i < (m.get r).prs.length
    · by_cases hq : q.extra.length = (m.get r).extraFields
      · simp only [decide_eq_true hi, require_true, hq, ne_eq, not_true, decide_false, Bool.false_eq_true, if_false, Res.ok_bind, if_pos hi]
        exact ⟨rfl, (hputa _ _).symm, (hputb _ _).symm⟩
      · simp [decide_eq_true hi, require_true, hq, Agrees]
    · cases bd with
      | debug => simp [hi, require, Agrees]
      | release =>
        by_cases hq : q.extra.length = (m.get r).extraFields
        · simp [hi, require, hq, Agrees]
        · simp [require, hq, Agrees]
  | setRecords r p =>
    rcases Bool.eq_false_or_eq_true (allSameSizeExtra p) with h | h
    · simp only [step, SpocFile.setPointRecords, exec, Stmt.andThen, assign, throwIf, h, Bool.not_true, Bool.false_eq_true, if_false, Res.ok_bind]
      cases r <;> exact ⟨rfl, rfl, rfl⟩
    · simp [step, SpocFile.setPointRecords, exec, Stmt.andThen, assign, throwIf, h, Agrees]
  | moveOut r => cases r <;> exact ⟨rfl, rfl, rfl⟩
  | moveIn r p =>
    rcases Bool.eq_false_or_eq_true (allSameSizeExtra p) with h | h
    · simp only [step, SpocFile.moveIn, exec, Stmt.andThen, assign, throwIf, h, Bool.not_true, Bool.false_eq_true, if_false, Res.ok_bind]
      cases r <;> exact ⟨rfl, rfl, rfl⟩
    · simp [step, SpocFile.moveIn, exec, Stmt.andThen, assign, throwIf, h, Agrees]

/-- **C11**: an operation that ends with an exception leaves both objects as they were before its first statement; the records that were to
be moved into an object are still in the vector of the caller. -/
theorem c11_exception_unchanged (bd : Build) (op : Op) (m m' : Mem) (e : String) (h : exec bd op m = (.throw e, m')) :
    m'.a = m.a ∧ m'.b = m.b ∧ ∀ r p, op = .moveIn r p → m'.v = p := by
  have ha := exec_agrees bd op m
  rw [h] at ha
  have h1 : m'.a = m.a ∧ m'.b = m.b := by
    unfold Agrees at ha
    split at ha
    · exact absurd ha.1 (by simp)
    · exact ha.2
    · exact absurd ha (by simp)
    · exact absurd ha (by simp)
    · exact absurd ha (by simp)
  refine ⟨h1.1, h1.2, ?_⟩
  rintro r p rfl
  rcases Bool.eq_false_or_eq_true (allSameSizeExtra p) with hp | hp
  · simp [exec, Stmt.andThen, assign, throwIf, hp] at h
  · simp [exec, Stmt.andThen, assign, throwIf, hp] at h
    rw [← h.2]

/-- **C11**: histories statement by statement: from two empty objects, whatever operations are executed and whatever exceptions are caught,
in both objects all records have the same number of extra fields. -/
theorem c11_statements (bd : Build) (ops : List Op) (m : Mem) (ha : m.a = SpocFile.empty) (hb : m.b = SpocFile.empty)
    (h : (execAll bd ops m).1 = .ok ()) :
    Uniform (execAll bd ops m).2.a.prs ∧ Uniform (execAll bd ops m).2.b.prs := by
  have key : ∀ (ops : List Op) (m : Mem), (execAll bd ops m).1 = .ok () →
      run bd ⟨m.a, m.b⟩ ops = .ok ⟨(execAll bd ops m).2.a, (execAll bd ops m).2.b⟩ := by
    intro ops
    induction ops with
    | nil => intro m _; rfl
    | cons op ops ih =>
      intro m h
      have hs := exec_agrees bd op m
      simp only [execAll] at h ⊢
      rw [run]
      generalize exec bd op m = x at h hs ⊢
      obtain ⟨x1, x2⟩ := x
      cases hst : step bd ⟨m.a, m.b⟩ op with
      | ok s =>
        rw [hst] at hs
        obtain ⟨h1, h2, h3⟩ := hs
        simp only at h1 h2 h3
        subst h1
        simp only at h ⊢
        have := ih x2 h
        rw [h2, h3] at this
        exact this
      | throw e =>
        rw [hst] at hs
        obtain ⟨h1, h2, h3⟩ := hs
        simp only at h1 h2 h3
        subst h1
        simp only at h ⊢
        have := ih x2 h
        rw [h2, h3] at this
        exact this
      | ub w => rw [hst] at hs; simp only [Agrees] at hs; subst hs; simp at h
      | abort => rw [hst] at hs; simp only [Agrees] at hs; subst hs; simp at h
      | hang => rw [hst] at hs; simp only [Agrees] at hs; subst hs; simp at h
  have := key ops m h
  rw [ha, hb] at this
  exact c11_consistent bd ops _ this

/-- A record with one extra field does not fit behind a record with two; the exception is caught and the history goes on. -/
example : let m : Mem := { a := SpocFile.empty, b := SpocFile.empty }
    let x := execAll .debug [.pushBack .a { extra := [1, 2] }, .pushBack .a { extra := [3] }, .moveIn .b [{ extra := [] }, { extra := [4] }],
      .assign .b .a, .resizeExtra .b 3] m
    x.1 = .ok () ∧ x.2.a.prs = [{ extra := [1, 2] }] ∧ x.2.b.prs = [{ extra := [1, 2, 0] }] ∧ x.2.v = [{ extra := [] }, { extra := [4] }] := by
  decide +kernel

example : exec .release (.moveIn .a [{ extra := [] }, { extra := [4] }]) { a := SpocFile.empty, b := SpocFile.empty }
    = (.throw "The point record extra fields have inconsistent sizes",
      { a := SpocFile.empty, b := SpocFile.empty, v := [{ extra := [] }, { extra := [4] }] }) := by
  decide +kernel

end Spoc.Props
