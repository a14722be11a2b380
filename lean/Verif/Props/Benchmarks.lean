import Verif.Model.Benchmarks
import Verif.Props.TestUtils
import Verif.Props.EndToEnd

/-!
# C120: changing the records of a file, C121: the timer, C122: the benchmark of reading and writing
-/

namespace Spoc.Props

open Benchmarks Spec Text
open TestUtils (randomRecords)

/-! ## C120 -/

section C120

variable {change : PointRecord → Res PointRecord} {g : PointRecord → PointRecord}

theorem mapM_change {l : List PointRecord} (hg : ∀ q ∈ l, change q = .ok (g q)) : l.mapM change = .ok (l.map g) := by
  rw [mapM_eq_ok, List.forall₂_map_right_iff, List.forall₂_same]
  exact hg

/-- **C120**, all at once: setting changed copies of all records works exactly if the changed records have the same number of extra fields
each; otherwise there is an exception and the file is as it was. -/
theorem c120_all_at_once (f : SpocFile) (hg : ∀ q ∈ f.prs, change q = .ok (g q)) :
    (Uniform (f.prs.map g) → allAtOnce change f = ({ f with prs := f.prs.map g }, .ok ()))
      ∧ (¬ Uniform (f.prs.map g) → allAtOnce change f = (f, .throw "The point record extra fields have inconsistent sizes")) := by
  unfold allAtOnce
  rw [mapM_change hg, Res.ok_bind]
  unfold SpocFile.setPointRecords
  constructor
  · intro h
    rw [if_neg (by rw [(allSame_uniform _).mpr h]; simp)]
  · intro h
    rw [if_pos (by rw [Bool.not_eq_true', ← Bool.not_eq_true, allSame_uniform]; exact h)]

/-- **C120**, moving: moving the records out, changing them, and moving them back works for the same changes and gives the same file;
otherwise there is an exception and the file has lost its records. -/
theorem c120_moved (f : SpocFile) (hg : ∀ q ∈ f.prs, change q = .ok (g q)) :
    (Uniform (f.prs.map g) → movedOut change f = ({ f with prs := f.prs.map g }, .ok ()))
      ∧ (¬ Uniform (f.prs.map g) →
          movedOut change f = ({ f with prs := [] }, .throw "The point record extra fields have inconsistent sizes")) := by
  unfold movedOut SpocFile.moveOut
  simp only
  rw [mapM_change hg, Res.ok_bind]
  unfold SpocFile.moveIn
  constructor
  · intro h
    rw [if_neg (by rw [(allSame_uniform _).mpr h]; simp)]
  · intro h
    rw [if_pos (by rw [Bool.not_eq_true', ← Bool.not_eq_true, allSame_uniform]; exact h)]

theorem oneByOne_loop (b : Build) (f : SpocFile) (n : Nat) (rest : List PointRecord) : ∀ done : List PointRecord,
    (∀ q ∈ rest, change q = .ok (g q)) → (∀ q ∈ done ++ rest, q.extra.length = n) →
    oneByOne b change rest.length done.length { f with prs := done ++ rest }
      = let more := rest.takeWhile (fun q => decide ((g q).extra.length = q.extra.length))
        ({ f with prs := done ++ (more.map g ++ rest.drop more.length) },
          if more.length = rest.length then .ok () else
            .throw "spoc_file::set_point_record(): the point record extra fields size is inconsistent with existing point records") := by
  induction rest with
  | nil => intro done _ _; simp [oneByOne]
  | cons q rest ih =>
    intro done hg hn
    have hq : q.extra.length = n := hn q (by simp)
    have hx : ({ f with prs := done ++ q :: rest } : SpocFile).extraFields = n := by
      unfold SpocFile.extraFields
      cases done with
      | nil => exact hq
      | cons d done => exact hn d (by simp)
    have hget : ({ f with prs := done ++ q :: rest } : SpocFile).getPointRecord b done.length = .ok q := by
      unfold SpocFile.getPointRecord
      simp only [List.length_append, List.length_cons]
      rw [show decide (done.length < done.length + (rest.length + 1)) = true by simp]
      rw [List.getElem?_append_right (Nat.le_refl _), Nat.sub_self]
      cases b <;> rfl
    rw [List.length_cons, oneByOne, hget, Res.ok_bind, hg q (by simp), Res.ok_bind]
    unfold SpocFile.setPointRecord
    simp only [hx, List.length_append, List.length_cons]
    rw [show decide (done.length < done.length + (rest.length + 1)) = true by simp]
    have hreq : require b true = .ok () := by cases b <;> rfl
    rw [hreq, Res.ok_bind]
    by_cases hl : (g q).extra.length = q.extra.length
    · rw [if_neg (by rw [hl, hq]; simp), if_pos (by omega)]
      simp only
      have e : (done ++ q :: rest).set done.length (g q) = (done ++ [g q]) ++ rest := by
        rw [List.set_append_right _ _ (Nat.le_refl _), Nat.sub_self, List.set_cons_zero]
        simp
      rw [e]
      have := ih (done ++ [g q]) (fun q hq => hg q (by simp [hq])) (by
        intro r hr
        simp only [List.append_assoc, List.mem_append, List.mem_cons, List.not_mem_nil, or_false] at hr
        rcases hr with hr | rfl | hr
        · exact hn r (by simp [hr])
        · rw [hl]; exact hq
        · exact hn r (by simp [hr]))
      rw [List.length_append, List.length_singleton] at this
      rw [this, List.takeWhile_cons_of_pos (by simpa using hl)]
      simp
    · rw [if_pos (by rw [hq] at hl; exact hl), List.takeWhile_cons_of_neg (by simpa using hl)]
      simp

/-- **C120**, one by one: the records before the first one whose number of extra fields the change alters are changed.  If there is no such
record, all are; otherwise there is an exception and the rest of the records is as it was. -/
theorem c120_one_by_one (b : Build) (f : SpocFile) (hf : Uniform f.prs) (hg : ∀ q ∈ f.prs, change q = .ok (g q)) :
    oneByOne b change f.prs.length 0 f
      = let more := f.prs.takeWhile (fun q => decide ((g q).extra.length = q.extra.length))
        ({ f with prs := more.map g ++ f.prs.drop more.length },
          if more.length = f.prs.length then .ok () else
            .throw "spoc_file::set_point_record(): the point record extra fields size is inconsistent with existing point records") := by
  cases hp : f.prs with
  | nil => cases f; simp only at hp; subst hp; simp [oneByOne]
  | cons q rest =>
    have := oneByOne_loop (change := change) (g := g) b f q.extra.length f.prs [] hg (fun r hr => hf r (by simpa using hr) q (by rw [hp]; simp))
    simp only [List.nil_append, List.length_nil] at this
    rw [hp] at this
    have e : ({ f with prs := q :: rest } : SpocFile) = f := by rw [← hp]
    rw [e] at this
    exact this

/-- **C120**: a change that keeps the number of extra fields of every record works in all three ways and gives the same file. -/
theorem c120_agree (b : Build) (f : SpocFile) (hf : Uniform f.prs) (hg : ∀ q ∈ f.prs, change q = .ok (g q))
    (hk : ∀ q ∈ f.prs, (g q).extra.length = q.extra.length) :
    oneByOne b change f.prs.length 0 f = ({ f with prs := f.prs.map g }, .ok ())
      ∧ allAtOnce change f = ({ f with prs := f.prs.map g }, .ok ())
      ∧ movedOut change f = ({ f with prs := f.prs.map g }, .ok ()) := by
  have hu : Uniform (f.prs.map g) := by
    intro p hp q hq
    obtain ⟨a, ha, rfl⟩ := List.mem_map.mp hp
    obtain ⟨c, hc, rfl⟩ := List.mem_map.mp hq
    rw [hk a ha, hk c hc]
    exact hf a ha c hc
  refine ⟨?_, (c120_all_at_once f hg).1 hu, (c120_moved f hg).1 hu⟩
  rw [c120_one_by_one b f hf hg, List.takeWhile_eq_self_iff.mpr (fun q hq => by simpa using hk q hq)]
  simp

/-- **C120**: whatever the change does to the records, the file stays consistent in all three ways. -/
theorem c120_consistent (b : Build) (f : SpocFile) (hf : Uniform f.prs) (hg : ∀ q ∈ f.prs, change q = .ok (g q)) :
    Uniform (oneByOne b change f.prs.length 0 f).1.prs ∧ Uniform (allAtOnce change f).1.prs ∧ Uniform (movedOut change f).1.prs := by
  refine ⟨?_, ?_, ?_⟩
  · rw [c120_one_by_one b f hf hg]
    show Uniform (_ ++ _)
    have key : ∀ p ∈ (f.prs.takeWhile (fun q => decide ((g q).extra.length = q.extra.length))).map g
        ++ f.prs.drop (f.prs.takeWhile (fun q => decide ((g q).extra.length = q.extra.length))).length,
        ∃ a ∈ f.prs, p.extra.length = a.extra.length := by
      intro p hp
      rcases List.mem_append.mp hp with hp | hp
      · obtain ⟨a, ha, rfl⟩ := List.mem_map.mp hp
        have := List.mem_takeWhile_imp ha
        exact ⟨a, (List.takeWhile_sublist _).subset ha, by simpa using this⟩
      · exact ⟨p, List.mem_of_mem_drop hp, rfl⟩
    intro p hp q hq
    obtain ⟨a, ha, e1⟩ := key p hp
    obtain ⟨c, hc, e2⟩ := key q hq
    rw [e1, e2]
    exact hf a ha c hc
  · by_cases h : Uniform (f.prs.map g)
    · rw [(c120_all_at_once f hg).1 h]; exact h
    · rw [(c120_all_at_once f hg).2 h]; exact hf
  · by_cases h : Uniform (f.prs.map g)
    · rw [(c120_moved f hg).1 h]; exact h
    · rw [(c120_moved f hg).2 h]; intro p hp; simp at hp

/-- Give a record one more extra field. -/
def oneMore (q : PointRecord) : Res PointRecord := .ok { q with extra := 7 :: q.extra }

/-- Give only a record at 2 another extra field, and the others another classification. -/
def oddOnly (q : PointRecord) : Res PointRecord := .ok (if q.x = num 2 then { q with extra := [7] } else { q with c := 9 })

def fileOfOne : SpocFile := { SpocFile.empty with prs := [{ x := num 1 }] }
def fileOfTwo : SpocFile := { SpocFile.empty with prs := [{ x := num 1 }, { x := num 2 }] }

/-- Changing the classification is a change that keeps the number of extra fields. -/
example : Uniform fileOfTwo.prs ∧ fileOfTwo.prs.length = 2
    ∧ (∀ q ∈ fileOfTwo.prs, ({ q with c := 9 } : PointRecord).extra.length = q.extra.length) := by
  unfold Uniform
  decide +kernel

/-- After one more extra field for everyone the records have the same number of extra fields, after `oddOnly` they have not. -/
example : (∀ q ∈ fileOfTwo.prs, oneMore q = .ok { q with extra := 7 :: q.extra })
    ∧ Uniform (fileOfTwo.prs.map (fun q => { q with extra := 7 :: q.extra }))
    ∧ (∀ q ∈ fileOfTwo.prs, oddOnly q = .ok (if q.x = num 2 then { q with extra := [7] } else { q with c := 9 }))
    ∧ ¬ Uniform (fileOfTwo.prs.map (fun q => if q.x = num 2 then { q with extra := [7] } else { q with c := 9 })) := by
  unfold Uniform
  decide +kernel

/-- **C120**, limit: a change that gives every record one more extra field works all at once, but not one by one, not even for a single
record. -/
theorem c120_more_fields (b : Build) :
    allAtOnce oneMore fileOfOne = ({ fileOfOne with prs := [{ x := num 1, extra := [7] }] }, .ok ())
      ∧ (oneByOne b oneMore 1 0 fileOfOne).2 ≠ .ok () := by
  cases b <;> decide +kernel

/-- **C120**, limit: a change that gives only one of two records another extra field is refused in all three ways.  One by one, the first record
has been changed then; with moving the file has lost its records; all at once the file is as it was. -/
theorem c120_refused (b : Build) :
    (oneByOne b oddOnly 2 0 fileOfTwo).1.prs = [{ x := num 1, c := 9 }, { x := num 2 }] ∧ (movedOut oddOnly fileOfTwo).1.prs = []
      ∧ (allAtOnce oddOnly fileOfTwo).1 = fileOfTwo
      ∧ (oneByOne b oddOnly 2 0 fileOfTwo).2 ≠ .ok () ∧ (movedOut oddOnly fileOfTwo).2 ≠ .ok () ∧ (allAtOnce oddOnly fileOfTwo).2 ≠ .ok () := by
  cases b <;> decide +kernel

end C120

/-! ### the program -/

theorem pushAll_eq (f : SpocFile) (ps : List PointRecord) (h : Uniform (f.prs ++ ps)) : pushAll f ps = .ok { f with prs := f.prs ++ ps } := by
  unfold pushAll
  induction ps generalizing f with
  | nil => rw [List.append_nil]; rfl
  | cons q ps ih =>
    rw [List.foldlM_cons]
    have e : f.pushBack q = .ok { f with prs := f.prs ++ [q] } := by
      unfold SpocFile.pushBack
      cases hp : f.prs with
      | nil => rfl
      | cons q0 l =>
        simp only
        rw [if_neg (by rw [h q (by simp) q0 (by simp [hp])]; simp)]
    rw [e]
    show List.foldlM _ _ ps = _
    rw [ih { f with prs := f.prs ++ [q] } (by simpa using h)]
    simp

theorem pushRepeatedly_eq (ps : List PointRecord) (n : Nat) (f : SpocFile) (h : Uniform (f.prs ++ ps)) :
    pushRepeatedly ps n f = .ok { f with prs := f.prs ++ (List.replicate n ps).flatten } := by
  induction n generalizing f with
  | zero => simp [pushRepeatedly]
  | succ n ih =>
    rw [pushRepeatedly, pushAll_eq f ps h, Res.ok_bind, ih]
    · simp [List.replicate_succ]
    · intro p hp q hq
      exact h p (by simpa using hp) q (by simpa using hq)

/-- **C120**, filling: pushing records that have the same number of extra fields again and again gives a file with exactly the records that a
vector would have. -/
theorem c120_push_back (ps : List PointRecord) (h : Uniform ps) (n : Nat) :
    ∃ v f, pushBenchmark ps n = .ok (v, f) ∧ f.prs = v ∧ v = (List.replicate n ps).flatten := by
  have e : ∀ n : Nat, n.repeat (fun q => q ++ ps) [] = (List.replicate n ps).flatten := by
    intro n
    induction n with
    | zero => rfl
    | succ n ih =>
      rw [Nat.repeat, ih, List.replicate_succ', List.flatten_append]
      simp
  refine ⟨_, (SpocFile.mk majorVersion minorVersion [0x57, 0x4B, 0x54] false ([] ++ (List.replicate n ps).flatten)), ?_, ?_, e n⟩
  · unfold pushBenchmark SpocFile.new' SpocFile.new
    rw [if_neg (by decide), Res.ok_bind, pushRepeatedly_eq _ _ _ (by simpa using h), Res.ok_bind]
  · rw [e n]; rfl

theorem bump_keeps {ef : Nat} (hef : 0 < ef) {q : PointRecord} (h : q.extra.length = ef) :
    ∃ r, bump ef q = .ok r ∧ r.extra.length = ef := by
  unfold bump
  rw [List.getElem?_eq_getElem (by omega)]
  exact ⟨_, rfl, by rw [List.length_set]; exact h⟩

/-- **C120**, the program: the benchmark of the three ways ends well for all records that have the same number of extra fields, at least one. -/
theorem c120_program (b : Build) (ps : List PointRecord) (hps : Uniform ps) (iterations : Nat) (qs : List PointRecord) (ef : Nat) (hef : 0 < ef)
    (count : ∀ q ∈ qs, q.extra.length = ef) : fileRun b ps iterations qs ef = .ok 0 := by
  obtain ⟨v, f, h1, -⟩ := c120_push_back ps hps iterations
  have u : Uniform qs := fun p hp q hq => by rw [count p hp, count q hq]
  unfold fileRun
  rw [h1, Res.ok_bind]
  have hnew : SpocFile.new' [0x57, 0x4B, 0x54] false qs
      = .ok { major := majorVersion, minor := minorVersion, wkt := [0x57, 0x4B, 0x54], compressed := false, prs := qs } := by
    unfold SpocFile.new' SpocFile.new
    rw [if_neg (by rw [(allSame_uniform _).mpr u]; simp)]
  unfold changeBenchmark
  rw [hnew, Res.ok_bind]
  obtain ⟨g, hg⟩ : ∃ g : PointRecord → PointRecord, ∀ q, q.extra.length = ef → bump ef q = .ok (g q) ∧ (g q).extra.length = ef := by
    refine ⟨fun q => match bump ef q with | .ok r => r | _ => q, fun q hq => ?_⟩
    obtain ⟨r, e1, e2⟩ := bump_keeps hef hq
    simp only [e1]
    exact ⟨trivial, e2⟩
  have keep : ∀ (l : List PointRecord), (∀ q ∈ l, q.extra.length = ef) → ∀ q ∈ l.map g, q.extra.length = ef := by
    intro l h q hq
    obtain ⟨a, ha, rfl⟩ := List.mem_map.mp hq
    exact (hg a (h a ha)).2
  have run := fun (f : SpocFile) (h : ∀ q ∈ f.prs, q.extra.length = ef) =>
    c120_agree (change := bump ef) (g := g) b f (fun p hp q hq => by rw [h p hp, h q hq]) (fun q hq => (hg q (h q hq)).1)
      (fun q hq => by rw [(hg q (h q hq)).2, h q hq])
  rw [(run _ count).1]
  simp only
  rw [(run _ (keep _ count)).2.1]
  simp only
  rw [(run _ (keep _ (keep _ count))).2.2]

/-- **C120**, when the records to change have different numbers of extra fields: no file can be made of them, and the program gives -1. -/
theorem c120_status (b : Build) (ps : List PointRecord) (hps : Uniform ps) (iterations : Nat) (qs : List PointRecord) (ef : Nat)
    (hqs : ¬ Uniform qs) : fileRun b ps iterations qs ef = .ok (-1) := by
  obtain ⟨v, f, h1, -⟩ := c120_push_back ps hps iterations
  unfold fileRun
  rw [h1, Res.ok_bind]
  have hnew : ∃ e, SpocFile.new' [0x57, 0x4B, 0x54] false qs = .throw e := by
    have : allSameSizeExtra qs = false := Bool.eq_false_iff.mpr fun h => hqs ((allSame_uniform _).mp h)
    unfold SpocFile.new' SpocFile.new
    rw [this]
    exact ⟨_, rfl⟩
  obtain ⟨e, he⟩ := hnew
  unfold changeBenchmark
  rw [he]
  rfl

example : ¬ Uniform [({ x := num 1 } : PointRecord), { x := num 1, extra := [4] }] := by unfold Uniform; decide +kernel

/-- **C120**, the program on the records that it generates: it always ends well. -/
theorem c120_main (b : Build) : fileMain b = .ok 0 := by
  have count : ∀ n ef, ∀ q ∈ randomRecords n ef, q.extra.length = ef := fun n ef q hq => ((c115_records n ef true 123).2 q hq).count
  have uni : ∀ n ef, Uniform (randomRecords n ef) := fun n ef p hp q hq => by rw [count n ef p hp, count n ef q hq]
  exact c120_program b _ (uni _ _) _ _ _ (by decide) (count _ _)

/-- Two records with one extra field each. -/
example : Uniform [({ x := num 1, extra := [4] } : PointRecord), { x := num 2, extra := [5] }]
    ∧ ∀ q ∈ [({ x := num 1, extra := [4] } : PointRecord), { x := num 2, extra := [5] }], q.extra.length = 1 := by
  unfold Uniform
  decide +kernel

/-! ## C121 -/

/-- What a user does with a timer, with the reading of the clock in nanoseconds. -/
inductive Press where
  | start (at_ : Int)
  | stop (at_ : Int)
  deriving DecidableEq

/-- The timer after a button was pressed. -/
def pressed (t : Timer) : Press → Timer
  | .start a => t.start a
  | .stop a => t.stop a

/-- The reading of the clock. -/
def Press.time : Press → Int
  | .start a => a
  | .stop a => a

/-- The time of a start. -/
def Press.started : Press → Option Int
  | .start a => some a
  | .stop _ => none

/-- The time of the last start; making the timer is the first one. -/
def lastStart (made : Int) (presses : List Press) : Int := ((presses.filterMap Press.started).getLast?).getD made

/-- The end of the interval: the last stop if nothing came after it, or now. -/
def intervalEnd (presses : List Press) (now : Int) : Int :=
  match presses.getLast? with
  | some (.stop a) => a
  | _ => now

/-- **C121**: after any sequence of starts and stops the timer shows the time since the last start, up to the last stop if the timer stands, in
whole milliseconds rounded towards zero. -/
theorem c121_elapsed (made : Int) (presses : List Press) (now : Int) :
    Timer.elapsedMs now (presses.foldl pressed (Timer.new made))
      = F64.ofInt ((intervalEnd presses now - lastStart made presses).tdiv 1000000) := by
  have key : (presses.foldl pressed (Timer.new made)).t1 = lastStart made presses
      ∧ (if (presses.foldl pressed (Timer.new made)).running then now else (presses.foldl pressed (Timer.new made)).t2)
        = intervalEnd presses now := by
    induction presses using List.reverseRecOn with
    | nil => exact ⟨rfl, rfl⟩
    | append_singleton l e ih =>
      rw [List.foldl_append]
      cases e with
      | start a =>
        refine ⟨?_, ?_⟩
        · simp [lastStart, pressed, Timer.start, Press.started]
        · simp [intervalEnd, pressed, Timer.start]
      | stop a =>
        refine ⟨?_, ?_⟩
        · rw [show lastStart made (l ++ [Press.stop a]) = lastStart made l by simp [lastStart, Press.started]]
          exact ih.1
        · simp [intervalEnd, pressed, Timer.stop]
  unfold Timer.elapsedMs
  rw [← key.1, ← key.2]
  split <;> rfl

/-- The clock never goes back. -/
def Steady (made : Int) (presses : List Press) (now : Int) : Prop :=
  (made :: (presses.map Press.time ++ [now])).Pairwise (· ≤ ·)

theorem lastStart_mem (made : Int) (presses : List Press) :
    lastStart made presses = made ∨ ∃ pre post, presses = pre ++ Press.start (lastStart made presses) :: post := by
  unfold lastStart
  rcases h : (presses.filterMap Press.started).getLast? with _ | a
  · left; rfl
  · right
    have hm := List.mem_of_getLast? h
    rw [List.mem_filterMap] at hm
    obtain ⟨e, he, hs⟩ := hm
    cases e with
    | stop c => simp [Press.started] at hs
    | start c =>
      simp only [Press.started, Option.some.injEq] at hs
      subst hs
      exact List.append_of_mem he

theorem steady_order {made : Int} {presses : List Press} {now : Int} (h : Steady made presses now) :
    lastStart made presses ≤ intervalEnd presses now ∧ intervalEnd presses now ≤ now := by
  unfold Steady at h
  rw [List.pairwise_cons] at h
  obtain ⟨h1, h2⟩ := h
  rw [List.pairwise_append] at h2
  obtain ⟨h2, -, h3⟩ := h2
  have hnow : ∀ e ∈ presses, e.time ≤ now := fun e he => h3 _ (List.mem_map_of_mem he) now (by simp)
  have hmade : ∀ e ∈ presses, made ≤ e.time := fun e he => h1 _ (by simp; left; exact ⟨e, he, rfl⟩)
  have mn : made ≤ now := h1 now (by simp)
  rcases hl : presses.getLast? with _ | last
  · have : presses = [] := List.getLast?_eq_none_iff.mp hl
    subst this
    exact ⟨by simpa [lastStart, intervalEnd] using mn, by simp [intervalEnd]⟩
  · obtain ⟨pre, rfl⟩ := List.getLast?_eq_some_iff.mp hl
    have hstart : ∀ c, (∀ e ∈ pre ++ [last], e.time ≤ c) → made ≤ c → lastStart made (pre ++ [last]) ≤ c := by
      intro c hc hm
      rcases lastStart_mem made (pre ++ [last]) with e | ⟨l1, l2, e⟩
      · rw [e]; exact hm
      · generalize lastStart made (pre ++ [last]) = a at e ⊢
        exact hc (Press.start a) (by rw [e]; simp)
    cases last with
    | start a =>
      have : intervalEnd (pre ++ [Press.start a]) now = now := by simp [intervalEnd]
      rw [this]
      exact ⟨hstart now hnow mn, le_refl _⟩
    | stop a =>
      have : intervalEnd (pre ++ [Press.stop a]) now = a := by simp [intervalEnd]
      rw [this]
      refine ⟨hstart a ?_ (hmade (Press.stop a) (by simp)), hnow (Press.stop a) (by simp)⟩
      rw [List.map_append, List.pairwise_append] at h2
      intro e he
      rcases List.mem_append.mp he with he | he
      · exact h2.2.2 _ (List.mem_map_of_mem he) a (by simp [Press.time])
      · simp only [List.mem_singleton] at he; subst he; exact le_refl _

/-- **C121** (partial: for a clock that never goes back; the full statement is about every clock, and is false, `c121_set_back`): the number shown
is not negative, and it is the length of the interval with an error below one millisecond. -/
theorem c121_accurate_partial (made : Int) (presses : List Press) (now : Int) (h : Steady made presses now)
    (hlong : (now - made) / 1000000 < 2 ^ 53) :
    0 ≤ (Timer.elapsedMs now (presses.foldl pressed (Timer.new made))).val
      ∧ (Timer.elapsedMs now (presses.foldl pressed (Timer.new made))).val
          ≤ ((intervalEnd presses now - lastStart made presses : Int) : ℚ) / 1000000
      ∧ ((intervalEnd presses now - lastStart made presses : Int) : ℚ) / 1000000
          < (Timer.elapsedMs now (presses.foldl pressed (Timer.new made))).val + 1 := by
  obtain ⟨o1, o2⟩ := steady_order h
  have om : made ≤ lastStart made presses := by
    rcases lastStart_mem made presses with e | ⟨l1, l2, e⟩
    · rw [e]
    · unfold Steady at h
      rw [List.pairwise_cons] at h
      have hm : Press.start (lastStart made presses) ∈ presses := by
        have : Press.start (lastStart made presses) ∈ l1 ++ Press.start (lastStart made presses) :: l2 := by simp
        rwa [← e] at this
      have := List.mem_map_of_mem (f := Press.time) hm
      exact h.1 _ (by rw [List.mem_append]; left; exact this)
  rw [c121_elapsed]
  generalize hd : intervalEnd presses now - lastStart made presses = d
  have d0 : 0 ≤ d := by omega
  rw [Int.tdiv_eq_ediv_of_nonneg d0]
  have q0 : 0 ≤ d / 1000000 := by omega
  have q1 : d / 1000000 < 2 ^ 53 := by
    have : d / 1000000 ≤ (now - made) / 1000000 := Int.ediv_le_ediv (by decide) (by omega)
    omega
  rw [F64.ofInt_val (by omega)]
  refine ⟨by exact_mod_cast q0, ?_, ?_⟩
  · rw [le_div_iff₀ (by norm_num)]
    have : d / 1000000 * 1000000 ≤ d := by omega
    exact_mod_cast this
  · rw [div_lt_iff₀ (by norm_num)]
    have : d < (d / 1000000 + 1) * 1000000 := by omega
    exact_mod_cast this

/-- **C121**: as long as the timer stands, it always shows the same. -/
theorem c121_stands (made : Int) (presses : List Press) (a now now' : Int) :
    Timer.elapsedMs now ((presses ++ [Press.stop a]).foldl pressed (Timer.new made))
      = Timer.elapsedMs now' ((presses ++ [Press.stop a]).foldl pressed (Timer.new made)) := by
  rw [c121_elapsed, c121_elapsed]
  simp [intervalEnd]

/-- **C121**, limit: the timer uses the clock of the system, which can be set back.  Then it shows a negative time. -/
theorem c121_set_back : ∃ made now, (Timer.elapsedMs now (Timer.new made)).val < 0 := by
  refine ⟨5000000, 0, ?_⟩
  have := c121_elapsed 5000000 [] 0
  rw [List.foldl_nil] at this
  rw [this, F64.ofInt_val (by decide)]
  have : (intervalEnd [] 0 - lastStart 5000000 []).tdiv 1000000 = -5 := by decide
  rw [this]
  norm_num

/-- A timer that is stopped, started again and read. -/
example : Steady 3 [.stop 2000003, .start 5000000, .stop 9999999] 20000000
    ∧ lastStart 3 [.stop 2000003, .start 5000000, .stop 9999999] = 5000000
    ∧ intervalEnd [.stop 2000003, .start 5000000, .stop 9999999] 20000000 = 9999999 := by
  refine ⟨?_, by decide, by decide⟩
  unfold Steady
  decide

/-! ## C122 -/

/-- The file of the benchmark can be written, and read afterwards. -/
def Usable (canCreate : Str → Bool) (fs : Tile.FS) : Prop :=
  match fs fileName with
  | some f => f.writable = true ∧ f.readable = true
  | none => canCreate fileName = true

/-- The file system afterwards: only the file of the benchmark has changed, it has the bytes, and it can be written and read again. -/
def Left (fs fs' : Tile.FS) (bytes : Bytes) : Prop :=
  (∃ x, fs' fileName = some x ∧ x.content = bytes ∧ x.readable = true ∧ x.writable = true) ∧ ∀ m, m ≠ fileName → fs' m = fs m

theorem Left.usable {fs fs' : Tile.FS} {bytes : Bytes} (h : Left fs fs' bytes) (canCreate : Str → Bool) : Usable canCreate fs' := by
  obtain ⟨⟨x, h1, -, h2, h3⟩, -⟩ := h
  unfold Usable
  rw [h1]
  exact ⟨h3, h2⟩

theorem Left.trans {fs fs' fs'' : Tile.FS} {bs cs : Bytes} (h : Left fs fs' bs) (h' : Left fs' fs'' cs) : Left fs fs'' cs :=
  ⟨h'.1, fun m hm => (h'.2 m hm).trans (h.2 m hm)⟩

theorem writeTo_usable {canCreate : Str → Bool} {fs : Tile.FS} (h : Usable canCreate fs) (o : Out Unit) :
    ∃ fs', writeTo canCreate fs o = (fs', o.res) ∧ Left fs fs' o.bytes := by
  unfold Usable at h
  unfold writeTo Tile.openWrite
  cases hf : fs fileName with
  | none =>
    rw [hf] at h
    simp only at h
    simp only [h, if_true]
    refine ⟨_, rfl, ⟨_, by simp [Tile.FS.set]; rfl, rfl, rfl, rfl⟩, fun m hm => by simp [Tile.FS.set, hm]⟩
  | some x =>
    rw [hf] at h
    simp only at h
    simp only [h.1, if_true]
    refine ⟨_, rfl, ⟨{ content := o.bytes, readable := x.readable, writable := true }, by simp [Tile.FS.set], rfl, h.2, rfl⟩, fun m hm => by simp [Tile.FS.set, hm]⟩

theorem readFrom_left {fs fs' : Tile.FS} {bytes : Bytes} (h : Left fs fs' bytes) {α : Type} (read : IStream → Res (α × IStream)) :
    readFrom fs' read = (do .ok (← read { rest := bytes }).1) := by
  obtain ⟨⟨x, h1, h2, h3, -⟩, -⟩ := h
  unfold readFrom Main.openRead
  rw [h1]
  simp only [h3, if_true, h2]

/-- The cloud that is written. -/
def benchmarkCloud (wkt : Bytes) (ps : List PointRecord) : SpocFile :=
  { major := majorVersion, minor := minorVersion, wkt := wkt, compressed := true, prs := ps }

/-- **C122**, uncompressed: what the benchmark reads is exactly what it has written, also for negative zeros and for values that are not
numbers. -/
theorem c122_uncompressed (b : Build) (canCreate : Str → Bool) (fs : Tile.FS) (h : Usable canCreate fs) (ps : List PointRecord) (ef : Nat)
    (hef : ef ≤ 123) (count : ∀ q ∈ ps, q.extra.length = ef) :
    ∃ fs', readUncompressed b canCreate fs ps ef = (fs', .ok ps) ∧ Left fs fs' (ps.flatMap PointRecord.bytes) := by
  obtain ⟨fs', h1, h2⟩ := writeTo_usable h (Io.writeRecords ps)
  rw [Io.writeRecords_eq] at h1 h2
  refine ⟨fs', ?_, h2⟩
  unfold readUncompressed
  rw [Io.writeRecords_eq, h1]
  simp only [Res.ok_bind]
  rw [readFrom_left h2]
  have := Io.readUncompressedPoints_roundtrip b ef (Io.recordsPerBuffer_pos hef) ps count []
  rw [List.append_nil] at this
  rw [this]
  rfl

theorem compressedFile_eq (b : Build) (zl : Zlib) (wkt : Bytes) (hw : wkt.length ≤ 65535) (ps : List PointRecord) (hu : Uniform ps) :
    compressedFile b zl wkt ps = Io.writeFile b zl (benchmarkCloud wkt ps) := by
  have hn : SpocFile.new' wkt true ps = .ok (benchmarkCloud wkt ps) := by
    unfold SpocFile.new' SpocFile.new
    rw [if_neg (by rw [(allSame_uniform _).mpr hu]; simp)]
    rfl
  unfold compressedFile Io.writeFile
  rw [hn, Io.getHeader_eq (f := benchmarkCloud wkt ps) hw, Out.lift_ok_bind, Out.lift_ok_bind]
  rfl

/-- **C122**, compressed: what the benchmark reads is what it has written, up to the sign of coordinates that are zero. -/
theorem c122_compressed (b : Build) (zl : Zlib) (hz : zl.Correct) (canCreate : Str → Bool) (fs : Tile.FS) (h : Usable canCreate fs)
    (ps : List PointRecord) (ef : Nat) (hef : ef ≤ 255) (count : ∀ q ∈ ps, q.extra.length = ef) (hn : ps.length < 2 ^ 64)
    (hfit : FitsZlib zl ps.length) :
    ∃ fs' f, readCompressed b zl canCreate fs ps = (fs', .ok f) ∧ Left fs fs' (Io.writeFile b zl (benchmarkCloud wktRead ps)).bytes
      ∧ f.wkt = wktRead ∧ f.compressed = true ∧ List.Forall₂ SameUpToSignOfZero ps f.prs := by
  have hu : Uniform ps := fun p hp q hq => by rw [count p hp, count q hq]
  have hW : Writable (benchmarkCloud wktRead ps) :=
    ⟨rfl, rfl, (show wktRead.length ≤ 65535 by decide), hu, fun q hq => by rw [count q hq]; exact hef, hn⟩
  obtain ⟨fs', h1, h2⟩ := writeTo_usable h (compressedFile b zl wktRead ps)
  rw [compressedFile_eq b zl _ (by decide) ps hu] at h1 h2
  obtain ⟨f, r1, r2, r3, r4⟩ := c02_compressed_roundtrip_values b zl hz _ hW rfl hfit []
  rw [List.append_nil] at r1
  have r5 := readFileCompressed_eq.mpr ⟨r1, r3⟩
  refine ⟨fs', f, ?_, h2, r2, r3, r4⟩
  unfold readCompressed
  rw [compressedFile_eq b zl _ (by decide) ps hu, h1]
  simp only [(read_compressed_canon b hz _ hW rfl hfit).1, Res.ok_bind]
  rw [readFrom_left h2, r5]
  rfl

/-- **C122**, the program: with a file that can be written and read, it ends well, leaves the compressed cloud behind, and changes no other
file. -/
theorem c122_program (b : Build) (zl : Zlib) (hz : zl.Correct) (canCreate : Str → Bool) (fs : Tile.FS) (h : Usable canCreate fs)
    (ps : List PointRecord) (ef : Nat) (hef : ef ≤ 123) (count : ∀ q ∈ ps, q.extra.length = ef) (hn : ps.length < 2 ^ 64)
    (hfit : FitsZlib zl ps.length) :
    ∃ fs', ioRun b zl canCreate fs ps ef = (fs', .ok 0) ∧ Left fs fs' (Io.writeFile b zl (benchmarkCloud wktRead ps)).bytes := by
  have hu : Uniform ps := fun p hp q hq => by rw [count p hp, count q hq]
  obtain ⟨fs1, a1, a2⟩ := writeTo_usable h (Io.writeRecords ps)
  obtain ⟨fs2, b1, b2⟩ := c122_uncompressed b canCreate fs1 (a2.usable _) ps ef hef count
  obtain ⟨fs3, c1, c2⟩ := writeTo_usable (b2.usable canCreate) (compressedFile b zl wktWrite ps)
  obtain ⟨fs4, f, d1, d2, -⟩ := c122_compressed b zl hz canCreate fs3 (c2.usable _) ps ef (by omega) count hn hfit
  refine ⟨fs4, ?_, (a2.trans b2).trans (c2.trans d2)⟩
  rw [compressedFile_eq b zl _ (by decide) ps hu] at c1
  have hW : Writable (benchmarkCloud wktWrite ps) :=
    ⟨rfl, rfl, (show wktWrite.length ≤ 65535 by decide), hu, fun q hq => by rw [count q hq]; omega, hn⟩
  rw [(read_compressed_canon b hz _ hW rfl hfit).1] at c1
  rw [Io.writeRecords_eq] at a1
  unfold ioRun ioBenchmarks writeUncompressed writeCompressed
  rw [Io.writeRecords_eq, a1]
  simp only
  rw [b1]
  simp only
  rw [compressedFile_eq b zl _ (by decide) ps hu, c1]
  simp only
  rw [d1]
  rfl

/-- **C122**, the program on the records that it generates. -/
theorem c122_main (b : Build) (zl : Zlib) (hz : zl.Correct) (canCreate : Str → Bool) (fs : Tile.FS) (h : Usable canCreate fs)
    (hfit : FitsZlib zl 10000000) : (ioMain b zl canCreate fs).2 = .ok 0 ∧ ∀ m, m ≠ fileName → (ioMain b zl canCreate fs).1 m = fs m := by
  have count : ∀ n ef, ∀ q ∈ randomRecords n ef, q.extra.length = ef := fun n ef q hq => ((c115_records n ef true 123).2 q hq).count
  have len : ∀ n ef, (randomRecords n ef).length = n := fun n ef => (c115_records n ef true 123).1
  obtain ⟨fs', h1, h2⟩ := c122_program b zl hz canCreate fs h _ 8 (by decide) (count 10000000 8) (by rw [len]; norm_num) (by rw [len]; exact hfit)
  unfold ioMain
  rw [h1]
  exact ⟨rfl, h2.2⟩

/-- **C122**: if the file can't be written, the program fails with -1 and changes nothing. -/
theorem c122_refused (b : Build) (zl : Zlib) (canCreate : Str → Bool) (fs : Tile.FS)
    (h : match fs fileName with | some f => f.writable = false | none => canCreate fileName = false) (ps : List PointRecord) (ef : Nat) :
    ioRun b zl canCreate fs ps ef = (fs, .ok (-1)) := by
  have : Tile.openWrite canCreate fs fileName = none := by
    unfold Tile.openWrite
    cases hf : fs fileName with
    | none => rw [hf] at h; simp only at h; simp [h]
    | some x => rw [hf] at h; simp only at h; simp [h]
  unfold ioRun ioBenchmarks writeUncompressed writeTo
  rw [this]

/-- **C122**, when the file is there, can be written and cannot be read: the program gives -1, and no other file has changed. -/
theorem c122_unreadable (b : Build) (zl : Zlib) (canCreate : Str → Bool) (fs : Tile.FS) (x : Tile.File) (hx : fs fileName = some x)
    (hw : x.writable = true) (hr : x.readable = false) (ps : List PointRecord) (ef : Nat) :
    (ioRun b zl canCreate fs ps ef).2 = .ok (-1) ∧ ∀ m, m ≠ fileName → (ioRun b zl canCreate fs ps ef).1 m = fs m := by
  have ho : ∀ g : Tile.FS, ∀ y : Tile.File, g fileName = some y → y.writable = true → y.readable = false →
      ∃ g' y', writeTo canCreate g (Io.writeRecords ps) = (g', .ok ()) ∧ g' fileName = some y' ∧ y'.writable = true ∧ y'.readable = false
        ∧ ∀ m, m ≠ fileName → g' m = g m := by
    intro g y h1 h2 h3
    unfold writeTo Tile.openWrite
    simp only [h1, h2, if_true]
    rw [Io.writeRecords_eq]
    refine ⟨_, { y with content := ps.flatMap PointRecord.bytes }, rfl, ?_, h2, h3, ?_⟩
    · simp [Tile.FS.set, h2]
    · intro m hm; simp [Tile.FS.set, hm]
  obtain ⟨f1, y1, a1, a2, a3, a4, a5⟩ := ho fs x hx hw hr
  obtain ⟨f2, y2, b1, b2, b3, b4, b5⟩ := ho f1 y1 a2 a3 a4
  have e : Main.openRead f2 fileName = none := by
    unfold Main.openRead
    simp [b2, b4]
  unfold ioRun ioBenchmarks writeUncompressed readUncompressed readFrom
  rw [a1]
  simp only
  rw [b1]
  simp only
  rw [e]
  exact ⟨rfl, fun m hm => (b5 m hm).trans (a5 m hm)⟩

/-- Such a disk. -/
example : ∃ fs : Tile.FS, ∃ x, fs fileName = some x ∧ x.writable = true ∧ x.readable = false :=
  ⟨fun _ => some { content := [], readable := false, writable := true }, _, rfl, rfl, rfl⟩

/-- On an empty disk on which files can be created the program can run, for example with two records, of which one has a negative zero. -/
example : Usable (fun _ => true) (fun _ => none) ∧ toyZlib.Correct ∧ FitsZlib toyZlib 2
    ∧ ∀ q ∈ [({ x := F64.negZero, extra := [4] } : PointRecord), { x := num 2, extra := [5] }], q.extra.length = 1 :=
  ⟨rfl, toyZlib_correct, toyZlib_fits (by decide), by decide +kernel⟩

/-- A disk on which nothing can be created. -/
example : match (fun _ => none : Tile.FS) fileName with
    | some f => f.writable = false
    | none => (fun _ : Str => false) fileName = false := rfl

end Spoc.Props
