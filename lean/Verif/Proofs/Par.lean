import Verif.Base.Par
import Mathlib.Data.List.Count
import Mathlib.Data.List.Forall2

/-!
# Loops whose iterations touch only their own element are schedule independent
-/

namespace Spoc.Par

variable {L σ : Type}

/-- The step touches only element `i`, and acts there like `g`. -/
def LocalTo (i : Nat) (f : Step L σ) (g : L × σ → L × σ) : Prop :=
  ∀ l m v, m[i]? = some v → f l m = ((g (l, v)).1, m.set i (g (l, v)).2)

theorem load_local (i : Nat) (f : L → σ → L) : LocalTo i (load i f) (fun p => (f p.1 p.2, p.2)) := by
  intro l m v h
  simp only [load, h]
  congr 1
  apply List.ext_getElem?
  intro j
  rw [List.getElem?_set]
  split
  · rename_i hij; subst hij
    obtain ⟨h1, h2⟩ := List.getElem?_eq_some_iff.mp h
    simp [h1, h2]
  · rfl

theorem store_local (i : Nat) (f : L → σ → σ) : LocalTo i (store i f) (fun p => (p.1, f p.1 p.2)) := by
  intro l m v h
  simp only [store]
  congr 1
  apply List.ext_getElem?
  intro j
  rw [List.getElem?_modify, List.getElem?_set]
  split
  · rename_i hij; subst hij
    obtain ⟨h1, h2⟩ := List.getElem?_eq_some_iff.mp h
    simp [h1, h2]
  · simp

/-- Run steps on one element in isolation. -/
def solo (gs : List (L × σ → L × σ)) (p : L × σ) : L × σ := gs.foldl (fun p g => g p) p

theorem solo_take_succ {gs : List (L × σ → L × σ)} {k : Nat} (h : k < gs.length) (p : L × σ) :
    solo (gs.take (k + 1)) p = gs[k] (solo (gs.take k) p) := by
  unfold solo
  rw [List.take_succ_eq_append_getElem h, List.foldl_append]; rfl

/-- What holds at every moment of the loop: each iteration has made as much progress on its own element as its
program counter says, independently of all others. -/
structure Inv (gs : Nat → List (L × σ → L × σ)) (l0 : L) (mem0 : List σ) (s : State L σ) : Prop where
  len : s.mem.length = mem0.length
  elem : ∀ i v0, mem0[i]? = some v0 →
    (s.reg i, s.mem[i]?) = ((solo ((gs i).take (s.pc i)) (l0, v0)).1,
      some (solo ((gs i).take (s.pc i)) (l0, v0)).2)

theorem inv_step {body : Nat → List (Step L σ)} {gs : Nat → List (L × σ → L × σ)} {l0 : L} {mem0 : List σ}
    (hl : ∀ i < mem0.length, List.Forall₂ (LocalTo i) (body i) (gs i)) {s : State L σ} {i : Nat}
    (hi : i < mem0.length) (h : Inv gs l0 mem0 s) : Inv gs l0 mem0 (s.step body i) := by
  unfold State.step
  cases hb : (body i)[s.pc i]? with
  | none => exact h
  | some f =>
    have hv0 : mem0[i]? = some mem0[i] := List.getElem?_eq_getElem hi
    obtain ⟨hk, hf⟩ := List.getElem?_eq_some_iff.mp hb
    have hlen := (hl i hi).length_eq
    have hk' : s.pc i < (gs i).length := by omega
    have hloc : LocalTo i f ((gs i)[s.pc i]) := by
      have := (List.forall₂_iff_get.mp (hl i hi)).2 (s.pc i) hk hk'
      simp only [List.get_eq_getElem] at this
      rw [← hf]; exact this
    have he := h.elem i _ hv0
    rw [Prod.mk.injEq] at he
    have hstep := hloc (s.reg i) s.mem _ he.2
    refine ⟨?_, ?_⟩
    · simp only [hstep, List.length_set]; exact h.len
    · intro j v hj
      by_cases hij : j = i
      · subst hij
        rw [hv0] at hj
        obtain rfl := Option.some.inj hj
        have hm : j < s.mem.length := by rw [h.len]; exact hi
        simp only [hstep, Function.update_self]
        rw [he.1, List.getElem?_set_self hm, solo_take_succ hk']
      · simp only [hstep, Function.update_of_ne hij]
        rw [List.getElem?_set_ne (Ne.symm hij)]
        exact h.elem j v hj

theorem inv_run {body : Nat → List (Step L σ)} {gs : Nat → List (L × σ → L × σ)} {l0 : L} {mem0 : List σ}
    (hl : ∀ i < mem0.length, List.Forall₂ (LocalTo i) (body i) (gs i)) {sched : List Nat}
    (hs : ∀ i ∈ sched, i < mem0.length) {s : State L σ} (h : Inv gs l0 mem0 s) :
    Inv gs l0 mem0 (run body sched s) := by
  induction sched generalizing s with
  | nil => exact h
  | cons i sched ih =>
    exact ih (fun j hj => hs j (by simp [hj])) (inv_step hl (hs i (by simp)) h)

theorem pc_run (body : Nat → List (Step L σ)) (sched : List Nat) (s : State L σ) (i : Nat)
    (h : s.pc i ≤ (body i).length) :
    (run body sched s).pc i = min (s.pc i + sched.count i) (body i).length := by
  induction sched generalizing s with
  | nil => simp [run, h]
  | cons j sched ih =>
    have hrun : run body (j :: sched) s = run body sched (s.step body j) := rfl
    rw [hrun]
    by_cases hij : j = i
    · subst hij
      rw [List.count_cons_self]
      by_cases hd : s.pc j < (body j).length
      · have e : (s.step body j).pc j = s.pc j + 1 := by
          unfold State.step; rw [List.getElem?_eq_getElem hd]; simp
        rw [ih _ (by omega), e]; omega
      · have e : s.step body j = s := by
          unfold State.step; rw [List.getElem?_eq_none (by omega)]
        rw [e, ih _ h]; omega
    · rw [List.count_cons_of_ne hij]
      have e : (s.step body j).pc i = s.pc i := by
        unfold State.step
        split
        · rfl
        · simp [Function.update_of_ne (Ne.symm hij)]
      rw [ih _ (by omega), e]

/-- The result of a loop with local iterations, for every complete schedule: each element
is processed in isolation. -/
theorem run_local {body : Nat → List (Step L σ)} {gs : Nat → List (L × σ → L × σ)} {l0 : L} {mem0 : List σ}
    (hl : ∀ i < mem0.length, List.Forall₂ (LocalTo i) (body i) (gs i)) {sched : List Nat}
    (hc : Complete body mem0.length sched) :
    (run body sched (State.init l0 mem0)).mem = mem0.mapIdx (fun i v => (solo (gs i) (l0, v)).2) := by
  have h0 : Inv gs l0 mem0 (State.init l0 mem0) := by
    refine ⟨rfl, fun i v hv => ?_⟩
    simp [State.init, solo, hv]
  have h := inv_run hl hc.1 h0
  apply List.ext_getElem?
  intro i
  rw [List.getElem?_mapIdx]
  by_cases hi : i < mem0.length
  · have hv := List.getElem?_eq_getElem hi
    have he := h.elem i _ hv
    rw [Prod.mk.injEq] at he
    rw [he.2, hv]
    have hp := pc_run body sched (State.init l0 mem0) i (by simp [State.init])
    have := hc.2 i hi
    have hlen := (hl i hi).length_eq
    have : (run body sched (State.init l0 mem0)).pc i = (gs i).length := by
      rw [hp]; simp only [State.init]; omega
    rw [this, List.take_length]; rfl
  · rw [List.getElem?_eq_none (by rw [h.len]; omega), List.getElem?_eq_none (by omega)]; rfl

theorem count_sequential (body : Nat → List (Step L σ)) (n i : Nat) (hi : i < n) :
    (sequential body n).count i = (body i).length := by
  unfold sequential
  induction n with
  | zero => omega
  | succ n ih =>
    rw [List.range_succ, List.flatMap_append, List.count_append]
    simp only [List.flatMap_cons, List.flatMap_nil, List.append_nil]
    by_cases h : i = n
    · subst h
      have : List.count i (List.flatMap (fun i => List.replicate (body i).length i) (List.range i)) = 0 := by
        rw [List.count_eq_zero]
        intro hm
        obtain ⟨j, hj, hm⟩ := List.mem_flatMap.mp hm
        have := List.eq_of_mem_replicate hm
        simp at hj
        omega
      rw [this, List.count_replicate_self]; omega
    · rw [ih (by omega), List.count_replicate]
      simp; omega

theorem sequential_complete (body : Nat → List (Step L σ)) (n : Nat) : Complete body n (sequential body n) := by
  refine ⟨fun i hi => ?_, fun i hi => Nat.le_of_eq (count_sequential body n i hi).symm⟩
  unfold sequential at hi
  obtain ⟨j, hj, hm⟩ := List.mem_flatMap.mp hi
  have := List.eq_of_mem_replicate hm
  simp at hj
  omega

end Spoc.Par
