import Mathlib.Data.List.Basic
import Mathlib.Logic.Function.Basic

/-!
# Parallel loops

`#pragma omp parallel for` over a shared vector: iteration `i` is a list of steps; each step
may read and write the whole vector and the registers of its own iteration.  A schedule is an arbitrary
list of iteration numbers: the iteration named next performs its next step.
Any number of threads and any distribution of iterations to threads gives such a schedule
(sequentially consistent memory; a data race shows up as a dependence on the schedule).
-/

namespace Spoc.Par

/-- One memory operation of an iteration: registers and shared vector before and after. -/
abbrev Step (L σ : Type) := L → List σ → L × List σ

/-- State of a parallel loop: the shared vector, the registers and the program counter of each iteration. -/
structure State (L σ : Type) where
  mem : List σ
  reg : Nat → L
  pc : Nat → Nat

/-- Iteration `i` performs its next step (nothing if it has finished). -/
def State.step {L σ : Type} (body : Nat → List (Step L σ)) (s : State L σ) (i : Nat) : State L σ :=
  match (body i)[s.pc i]? with
  | none => s
  | some f =>
    let r := f (s.reg i) s.mem
    { mem := r.2, reg := Function.update s.reg i r.1, pc := Function.update s.pc i (s.pc i + 1) }

/-- Start of the loop: all program counters are zero. -/
def State.init {L σ : Type} (l0 : L) (mem : List σ) : State L σ := { mem, reg := fun _ => l0, pc := fun _ => 0 }

/-- Run a schedule. -/
def run {L σ : Type} (body : Nat → List (Step L σ)) (sched : List Nat) (s : State L σ) : State L σ :=
  sched.foldl (State.step body) s

/-- The loop `for (i = 0; i < n; ++i)` has come to its end under this schedule: only iterations
below `n` were run, and each of them completely. -/
def Complete {L σ : Type} (body : Nat → List (Step L σ)) (n : Nat) (sched : List Nat) : Prop :=
  (∀ i ∈ sched, i < n) ∧ ∀ i < n, (body i).length ≤ sched.count i

/-- The schedule of the sequential loop: one iteration after the other. -/
def sequential {L σ : Type} (body : Nat → List (Step L σ)) (n : Nat) : List Nat :=
  (List.range n).flatMap (fun i => List.replicate (body i).length i)

/-- A step that reads element `k` into the registers (nothing if there is no such element). -/
def load {L σ : Type} (k : Nat) (f : L → σ → L) : Step L σ := fun l m =>
  match m[k]? with
  | some v => (f l v, m)
  | none => (l, m)

/-- A step that modifies element `k` using the registers. -/
def store {L σ : Type} (k : Nat) (f : L → σ → σ) : Step L σ := fun l m => (l, m.modify k (f l))

end Spoc.Par
