import Verif.Props.Plain

/-!
# C118: a pipeline of filters is one filter
-/

namespace Spoc.Props

open Getopt Cmd Main Spec Spec.Cmd Text
open Io (hdr)

/-- The numbers of the steps that a request asks for, in the order in which one run carries them out: keep classes, remove classes, remove
duplicates, subsample, remove by coordinate. -/
def stepsOf (r : FilterRequest) : List Nat :=
  (if r.keep = [] then [] else [1]) ++ (if r.remove = [] then [] else [2]) ++ (if r.unique then [3] else [])
    ++ (if r.resolution = none then [] else [4]) ++ (if r.coords = none then [] else [5])

/-- Every step of `r1` comes before every step of `r2`; both may remove classes. -/
def InOrder (r1 r2 : FilterRequest) : Prop := ∀ i ∈ stepsOf r1, ∀ j ∈ stepsOf r2, i < j ∨ (i = 2 ∧ j = 2)

/-- Something random is asked for. -/
def Random (r : FilterRequest) : Prop := r.unique = true ∨ r.resolution ≠ none

/-- `r` asks for what `r1` and `r2` ask for. -/
structure Together (r r1 r2 : FilterRequest) : Prop where
  keep : r.keep = r1.keep ++ r2.keep
  remove : r.remove = r1.remove ++ r2.remove
  unique : r.unique = (r1.unique || r2.unique)
  resolution : r.resolution = r1.resolution.or r2.resolution
  coords : r.coords = r1.coords.or r2.coords
  seed1 : Random r1 → r.seed = r1.seed
  seed2 : Random r2 → r.seed = r2.seed

theorem steps_compose (b : Build) (sh : Subsampling.Shuffle) {r r1 r2 : FilterRequest} (ho : InOrder r1 r2) (ht : Together r r1 r2)
    (ps qs : List PointRecord) : FilterSteps b sh r ps qs ↔ ∃ ms, FilterSteps b sh r1 ps ms ∧ FilterSteps b sh r2 ms qs := by
  have m1 : r1.keep ≠ [] → 1 ∈ stepsOf r1 := fun h => by simp [stepsOf, h]
  have m2 : r1.remove ≠ [] → 2 ∈ stepsOf r1 := fun h => by simp [stepsOf, h]
  have m3 : r1.unique = true → 3 ∈ stepsOf r1 := fun h => by simp [stepsOf, h]
  have m4 : r1.resolution ≠ none → 4 ∈ stepsOf r1 := fun h => by simp [stepsOf, h]
  have m5 : r1.coords ≠ none → 5 ∈ stepsOf r1 := fun h => by simp [stepsOf, h]
  have a1 : ∀ i ∈ stepsOf r1, 1 ≤ i → r2.keep = [] := fun i hi hle => by
    by_contra h
    have := ho i hi 1 (by simp [stepsOf, h])
    omega
  have a2 : ∀ i ∈ stepsOf r1, 3 ≤ i → r2.remove = [] := fun i hi hle => by
    by_contra h
    have := ho i hi 2 (by simp [stepsOf, h])
    omega
  have a3 : ∀ i ∈ stepsOf r1, 3 ≤ i → r2.unique = false := fun i hi hle => by
    by_contra h
    have := ho i hi 3 (by simp [stepsOf, h])
    omega
  have a4 : ∀ i ∈ stepsOf r1, 4 ≤ i → r2.resolution = none := fun i hi hle => by
    by_contra h
    have := ho i hi 4 (by simp [stepsOf, h])
    omega
  have a5 : ∀ i ∈ stepsOf r1, 5 ≤ i → r2.coords = none := fun i hi hle => by
    by_contra h
    have := ho i hi 5 (by simp [stepsOf, h])
    omega
  obtain ⟨k1, e1, u1, s1, d1, c1⟩ := r1
  obtain ⟨k2, e2, u2, s2, d2, c2⟩ := r2
  obtain ⟨k, e, u, s, d, c⟩ := r
  obtain ⟨t1, t2, t3, t4, t5, t6, t7⟩ := ht
  simp only [Random] at *
  subst t1 t2 t3 t4 t5
  by_cases h5 : c1 = none
  swap
  · -- nothing is left for the second run
    obtain rfl := a1 5 (m5 h5) (by omega)
    obtain rfl := a2 5 (m5 h5) (by omega)
    obtain rfl := a3 5 (m5 h5) (by omega)
    obtain rfl := a4 5 (m5 h5) (by omega)
    obtain rfl := a5 5 (m5 h5) (by omega)
    have hd : FilterSteps b sh ⟨k1 ++ [], e1 ++ [], u1 || false, s1.or none, d, c1.or none⟩ ps qs ↔ FilterSteps b sh ⟨k1, e1, u1, s1, d1, c1⟩ ps qs := by
      simp only [List.append_nil, Bool.or_false, Option.or_none]
      rcases Bool.eq_false_or_eq_true u1 with hu | hu
      · rw [t6 (.inl hu)]
      · cases s1 with
        | none => subst hu; simp [FilterSteps]
        | some v => rw [t6 (.inr (by simp))]
    rw [hd]
    simp [FilterSteps]
  subst h5
  by_cases h4 : s1 = none
  swap
  · -- only the condition is left
    obtain rfl := a1 4 (m4 h4) (by omega)
    obtain rfl := a2 4 (m4 h4) (by omega)
    obtain rfl := a3 4 (m4 h4) (by omega)
    obtain rfl := a4 4 (m4 h4) (by omega)
    obtain rfl := t6 (.inr h4)
    simp only [FilterSteps, List.append_nil, Bool.or_false, Option.or_none, Option.none_or]
    constructor
    · rintro ⟨p1, p2, p3, p4, x1, x2, x3, x4, x5⟩
      exact ⟨p4, ⟨p1, p2, p3, p4, x1, x2, x3, x4, rfl⟩, p4, p4, p4, p4, by simp, by simp, by simp, rfl, x5⟩
    · rintro ⟨ms, ⟨p1, p2, p3, p4, x1, x2, x3, x4, rfl⟩, q1, q2, q3, q4, y1, y2, y3, rfl, y5⟩
      obtain rfl : q1 = ms := by simpa using y1
      obtain rfl : q2 = q1 := by simpa using y2
      obtain rfl : q4 = q2 := by simpa using y3
      exact ⟨p1, p2, p3, q4, x1, x2, x3, x4, y5⟩
  subst h4
  rcases Bool.eq_false_or_eq_true u1 with h3 | h3
  · -- subsampling and the condition are left
    obtain rfl := a1 3 (m3 h3) (by omega)
    obtain rfl := a2 3 (m3 h3) (by omega)
    obtain rfl := a3 3 (m3 h3) (by omega)
    obtain rfl := t6 (.inl h3)
    subst h3
    simp only [FilterSteps, List.append_nil, Bool.or_false, Option.none_or]
    constructor
    · rintro ⟨p1, p2, p3, p4, x1, x2, x3, x4, x5⟩
      refine ⟨p3, ⟨p1, p2, p3, p3, x1, x2, x3, rfl, rfl⟩, p3, p3, p3, p4, by simp, by simp, by simp, ?_, x5⟩
      cases s2 with
      | none => exact x4
      | some v => rw [← t7 (.inr (by simp))]; exact x4
    · rintro ⟨ms, ⟨p1, p2, p3, p4, x1, x2, x3, rfl, rfl⟩, q1, q2, q3, q4, y1, y2, y3, y4, y5⟩
      obtain rfl : q1 = ms := by simpa using y1
      obtain rfl : q2 = q1 := by simpa using y2
      obtain rfl : q3 = q2 := by simpa using y3
      refine ⟨p1, p2, q3, q4, x1, x2, x3, ?_, y5⟩
      cases s2 with
      | none => exact y4
      | some v => rw [t7 (.inr (by simp))]; exact y4
  subst h3
  -- the first run chooses by class only
  have key : (if k1 ++ k2 = [] then ps else ps.filter (fun p => decide (p.c.toNat ∈ k1 ++ k2))).filter (fun p => decide (p.c.toNat ∉ e1 ++ e2))
      = (if k2 = [] then ((if k1 = [] then ps else ps.filter (fun p => decide (p.c.toNat ∈ k1))).filter (fun p => decide (p.c.toNat ∉ e1)))
          else ((if k1 = [] then ps else ps.filter (fun p => decide (p.c.toNat ∈ k1))).filter (fun p => decide (p.c.toNat ∉ e1))).filter
            (fun p => decide (p.c.toNat ∈ k2))).filter (fun p => decide (p.c.toNat ∉ e2)) := by
    by_cases hk : k2 = []
    · subst hk
      rw [List.append_nil, if_pos rfl]
      rw [List.filter_filter (p := fun p : PointRecord => decide (p.c.toNat ∉ e2))]
      congr 1
      funext p
      by_cases h1 : p.c.toNat ∈ e1 <;> by_cases h2 : p.c.toNat ∈ e2 <;> simp [h1, h2]
    · have hk1 : k1 = [] := by
        by_contra h
        exact hk (a1 1 (m1 h) (by omega))
      have he1 : e1 = [] := by
        by_contra h
        exact hk (a1 2 (m2 h) (by omega))
      subst hk1 he1
      simp [hk]
  simp only [FilterSteps, Bool.false_or, Option.none_or]
  constructor
  · rintro ⟨p1, p2, p3, p4, x1, x2, x3, x4, x5⟩
    refine ⟨_, ⟨_, _, _, _, rfl, rfl, rfl, rfl, rfl⟩, _, p2, p3, p4, rfl, ?_, ?_, ?_, x5⟩
    · rw [x2, x1, key]
    · cases u2 with
      | false => exact x3
      | true => rw [← t7 (.inl rfl)]; exact x3
    · cases s2 with
      | none => exact x4
      | some v => rw [← t7 (.inr (by simp))]; exact x4
  · rintro ⟨ms, ⟨p1, p2, p3, p4, x1, x2, x3, x4, x5⟩, q1, q2, q3, q4, y1, y2, y3, y4, y5⟩
    refine ⟨_, _, q3, q4, rfl, rfl, ?_, ?_, y5⟩
    · rw [key, ← x1, ← x2, ← show p3 = p2 from x3, ← show p4 = p3 from x4, ← show ms = p4 from x5, ← y1, ← y2]
      cases u2 with
      | false => exact y3
      | true => rw [t7 (.inl rfl)]; exact y3
    · cases s2 with
      | none => exact y4
      | some v => rw [t7 (.inr (by simp))]; exact y4

/-- What a run of filter between standard input and standard output does. -/
theorem filter_run (p : Params) (hsh : p.shuffle.Lawful) {w : World} {argv : List Str} {r : FilterRequest}
    (hopt : Asks (Cmd.filter.options argv) r) (hops : Cmd.filter.operands argv = []) {f : SpocFile} {s' : IStream}
    (hf : Io.readFile p.build p.zlib w.stdin = .ok (f, s')) (hc : f.compressed = false) (qs : List PointRecord) :
    FilterSteps p.build p.shuffle r f.prs qs →
      (Name.filter.run p argv w).res = .ok 0 ∧ (Name.filter.run p argv w).out = (Io.writeFile p.build p.zlib { f with prs := qs }).bytes := by
  intro h
  have hs := survives_subperm (readable_survives hf hc) hc (filterSteps_subperm _ _ hsh _ h)
  obtain ⟨a, ha, av, ah, hp⟩ := filter_process p.build p.shuffle hsh f (readable_writable hf).uniform _ r hopt
  rcases hp with ⟨us, h3, h4⟩ | ⟨h3, -⟩
  · obtain rfl := filterSteps_unique h h3
    have e : Name.filter.run p argv w = outputStream w [] (Io.writeFile p.build p.zlib { f with prs := qs }) := by
      simp only [Name.run, Main.filter, filterArgs, withOperands, ha, hops, Cmd.inOut, Res.ok_bind, av, ah, Bool.false_eq_true, if_false,
        readThenWrite, inputStream, List.isEmpty_nil, if_true, Apps.fileOf, hf, h4]
    rw [e]
    simp only [outputStream, List.isEmpty_nil, if_true]
    rw [(c84_write_succeeds p.build p.zlib _ hs.1.uniform).1 hs.1.wkt]
    exact ⟨rfl, trivial⟩
  · exact absurd ⟨qs, h⟩ h3

/-- The standard input of the next program of a pipeline is what the last one wrote. -/
def piped (p : Params) (argv : List Str) (w : World) : World := { w with stdin := { rest := (Name.filter.run p argv w).out } }

/-- **C118.**  If every step that `argv1` asks for comes before every step that `argv2` asks for (in the order keep, remove, unique, subsample,
condition; both may remove classes), then one run that asks for all of it succeeds exactly if the run with `argv1` and the run with `argv2` on
its output succeed, and writes the same bytes.  The input is anything that can be read as an uncompressed file. -/
theorem c118_pipeline (p : Params) (hz : p.zlib.Correct) (hsh : p.shuffle.Lawful) (w : World) (argv argv1 argv2 : List Str)
    (r r1 r2 : FilterRequest) (ho : InOrder r1 r2) (ht : Together r r1 r2) (h : Asks (Cmd.filter.options argv) r)
    (h1 : Asks (Cmd.filter.options argv1) r1) (h2 : Asks (Cmd.filter.options argv2) r2) (hn : Cmd.filter.operands argv = [])
    (hn1 : Cmd.filter.operands argv1 = []) (hn2 : Cmd.filter.operands argv2 = []) (f : SpocFile) (s' : IStream)
    (hf : Io.readFile p.build p.zlib w.stdin = .ok (f, s')) (hc : f.compressed = false) :
    ((Name.filter.run p argv w).res = .ok 0 ↔
        (Name.filter.run p argv1 w).res = .ok 0 ∧ (Name.filter.run p argv2 (piped p argv1 w)).res = .ok 0)
      ∧ ((Name.filter.run p argv w).res = .ok 0 →
          (Name.filter.run p argv2 (piped p argv1 w)).out = (Name.filter.run p argv w).out) := by
  have piped_reads : ∀ ms, FilterSteps p.build p.shuffle r1 f.prs ms →
      Io.readFile p.build p.zlib (piped p argv1 w).stdin = .ok ({ f with prs := ms }, { rest := [] }) := by
    intro ms hm
    have := (survives_roundtrip p.build p.zlib hz _
      (survives_subperm (readable_survives hf hc) hc (filterSteps_subperm _ _ hsh _ hm))).2 []
    rw [List.append_nil] at this
    rw [show (piped p argv1 w).stdin = { rest := (Name.filter.run p argv1 w).out } from rfl, (filter_run p hsh h1 hn1 hf hc ms hm).2, this]
  have all : (Name.filter.run p argv w).res = .ok 0 → ∃ ms qs, FilterSteps p.build p.shuffle r1 f.prs ms
      ∧ FilterSteps p.build p.shuffle r2 ms qs ∧ FilterSteps p.build p.shuffle r f.prs qs := by
    intro hok
    rcases filter_stdin p hsh w argv r h hn f _ hf with ⟨qs, q1, -⟩ | hbad
    · obtain ⟨ms, m1, m2⟩ := (steps_compose _ _ ho ht f.prs qs).mp q1
      exact ⟨ms, qs, m1, m2, q1⟩
    · exact absurd hok hbad
  refine ⟨⟨fun hok => ?_, fun ⟨ok1, ok2⟩ => ?_⟩, fun hok => ?_⟩
  · obtain ⟨ms, qs, m1, m2, -⟩ := all hok
    exact ⟨(filter_run p hsh h1 hn1 hf hc ms m1).1, (filter_run p hsh h2 hn2 (piped_reads ms m1) hc qs m2).1⟩
  · rcases filter_stdin p hsh w argv1 r1 h1 hn1 f _ hf with ⟨ms, m1, -⟩ | hbad
    · rcases filter_stdin p hsh (piped p argv1 w) argv2 r2 h2 hn2 _ _ (piped_reads ms m1) with ⟨qs, m2, -⟩ | hbad
      · exact (filter_run p hsh h hn hf hc qs ((steps_compose _ _ ho ht f.prs qs).mpr ⟨ms, m1, m2⟩)).1
      · exact absurd ok2 hbad
    · exact absurd ok1 hbad
  · obtain ⟨ms, qs, m1, m2, m3⟩ := all hok
    rw [(filter_run p hsh h2 hn2 (piped_reads ms m1) hc qs m2).2, (filter_run p hsh h hn hf hc qs m3).2]

/-- **C118**, order of the runs: filters that judge each point by itself (classes and conditions) can be put into a pipeline in either order;
the runs succeed and the bytes are the same, namely those of the points that both keep. -/
theorem c118_swap (p : Params) (hz : p.zlib.Correct) (hsh : p.shuffle.Lawful) (w : World) (argv1 argv2 : List Str)
    (r1 r2 : FilterRequest) (hp1 : PointByPoint r1) (hp2 : PointByPoint r2)
    (h1 : Asks (Cmd.filter.options argv1) r1) (h2 : Asks (Cmd.filter.options argv2) r2)
    (hn1 : Cmd.filter.operands argv1 = []) (hn2 : Cmd.filter.operands argv2 = []) (f : SpocFile) (s' : IStream)
    (hf : Io.readFile p.build p.zlib w.stdin = .ok (f, s')) (hc : f.compressed = false) :
    (Name.filter.run p argv2 (piped p argv1 w)).res = .ok 0 ∧ (Name.filter.run p argv1 (piped p argv2 w)).res = .ok 0
      ∧ (Name.filter.run p argv2 (piped p argv1 w)).out = (Name.filter.run p argv1 (piped p argv2 w)).out
      ∧ (Name.filter.run p argv2 (piped p argv1 w)).out
          = (Io.writeFile p.build p.zlib { f with prs := f.prs.filter (fun q => keeps r1 q && keeps r2 q) }).bytes := by
  have both : ∀ {a b : List Str} {r r' : FilterRequest}, PointByPoint r → PointByPoint r' → Asks (Cmd.filter.options a) r →
      Asks (Cmd.filter.options b) r' → Cmd.filter.operands a = [] → Cmd.filter.operands b = [] →
      (Name.filter.run p b (piped p a w)).res = .ok 0
        ∧ (Name.filter.run p b (piped p a w)).out
          = (Io.writeFile p.build p.zlib { f with prs := f.prs.filter (fun q => keeps r q && keeps r' q) }).bytes := by
    intro a b r r' hr hr' ha hb na nb
    have m1 := filterSteps_keeps (b := p.build) (sh := p.shuffle) hr f.prs
    have hrd : Io.readFile p.build p.zlib (piped p a w).stdin = .ok ({ f with prs := f.prs.filter (keeps r) }, { rest := [] }) := by
      have := (survives_roundtrip p.build p.zlib hz _
        (survives_subperm (readable_survives hf hc) hc (filterSteps_subperm _ _ hsh _ m1))).2 []
      rw [List.append_nil] at this
      rw [show (piped p a w).stdin = { rest := (Name.filter.run p a w).out } from rfl, (filter_run p hsh ha na hf hc _ m1).2, this]
    have := filter_run p hsh hb nb hrd hc _ (filterSteps_keeps (b := p.build) (sh := p.shuffle) hr' (f.prs.filter (keeps r)))
    rw [List.filter_filter] at this
    rw [show (fun q => keeps r q && keeps r' q) = fun q => keeps r' q && keeps r q from funext fun q => Bool.and_comm _ _]
    exact this
  obtain ⟨a1, a2⟩ := both hp1 hp2 h1 h2 hn1 hn2
  obtain ⟨b1, b2⟩ := both hp2 hp1 h2 h1 hn2 hn1
  refine ⟨a1, b1, ?_, a2⟩
  rw [a2, b2]
  congr 4
  funext q
  exact Bool.and_comm _ _

/-! ## Limits -/

/-- Two classes, and two points at the same place. -/
def cloudClasses : SpocFile :=
  { SpocFile.empty with prs := [{ x := num 0, c := 1 }, { x := num 0, c := 2 }, { x := num 15, c := 1 }] }

/-- What a run of filter on the cloud `f` writes. -/
def filterOut (argv : List Str) (f : SpocFile) : Res Int × Bytes :=
  ((Name.filter.run exampleParams argv (onInput f)).res, (Name.filter.run exampleParams argv (onInput f)).out)

/-- What a pipeline of two runs writes. -/
def pipeOut (argv1 argv2 : List Str) (f : SpocFile) : Res Int × Bytes :=
  ((Name.filter.run exampleParams argv2 (piped exampleParams argv1 (onInput f))).res,
    (Name.filter.run exampleParams argv2 (piped exampleParams argv1 (onInput f))).out)

/-- The cloud as bytes. -/
def fileOf (ps : List PointRecord) : Bytes := (Io.writeFile .release toyZlib { SpocFile.empty with prs := ps }).bytes

/-- **C118**, limit: the classes to keep do not accumulate over the runs of a pipeline.  One run with two of them keeps the points of either
class; two runs with one each keep nothing. -/
theorem c118_keep_twice :
    filterOut ["-k1".toList, "-k2".toList] cloudClasses = (.ok 0, fileOf cloudClasses.prs)
      ∧ pipeOut ["-k1".toList] ["-k2".toList] cloudClasses = (.ok 0, fileOf []) := by
  decide +kernel

/-- **C118**, limit: of two conditions in one run the last one counts, while the runs of a pipeline remove what any of them says. -/
theorem c118_two_conditions :
    filterOut ["-cx > 13".toList, "-cx < 3".toList] cloudClasses = (.ok 0, fileOf [{ x := num 15, c := 1 }])
      ∧ pipeOut ["-cx > 13".toList] ["-cx < 3".toList] cloudClasses = (.ok 0, fileOf []) := by
  decide +kernel

/-- **C118**, limit: the order of the steps matters.  One run chooses the classes before it removes duplicates, however the options are
ordered; a pipeline that removes duplicates first may lose the point that would have been kept. -/
theorem c118_unique_first :
    filterOut ["-u".toList, "-k2".toList] cloudClasses = (.ok 0, fileOf [{ x := num 0, c := 2 }])
      ∧ filterOut ["-k2".toList, "-u".toList] cloudClasses = (.ok 0, fileOf [{ x := num 0, c := 2 }])
      ∧ pipeOut ["-u".toList] ["-k2".toList] cloudClasses = (.ok 0, fileOf []) := by
  decide +kernel

/-! ## Examples -/

theorem cloudClasses_reads (w : World) (hw : w.stdin = (onInput cloudClasses).stdin) :
    Io.readFile .release toyZlib w.stdin = .ok (cloudClasses, { rest := [] }) := by
  rw [hw]
  exact reads ⟨⟨rfl, rfl, by decide, by unfold Uniform; decide, by decide, by decide⟩, fun _ => by decide,
    fun h => by simp [cloudClasses, SpocFile.empty] at h⟩

theorem pipeline_asks {argv : List Str} {os : List (String × Str)} {r : FilterRequest} (h : Cmd.filter.options argv = os) (ha : Asks os r) :
    Asks (Cmd.filter.options argv) r := by rw [h]; exact ha

example : (Name.filter.run exampleParams ["-cx > 13".toList, "-a7".toList, "-u".toList] (piped exampleParams ["-k1".toList] (onInput cloudClasses))).out
    = (Name.filter.run exampleParams ["-k1".toList, "-u".toList, "-a7".toList, "-cx > 13".toList] (onInput cloudClasses)).out := by
  refine (c118_pipeline exampleParams toyZlib_correct (fun _ l => List.Perm.refl l) (onInput cloudClasses) _ _ _
    { keep := [1], unique := true, seed := 7, coords := some (⟨0, false⟩, num 13) } { keep := [1] }
    { unique := true, seed := 7, coords := some (⟨0, false⟩, num 13) } ?_ ?_
    (pipeline_asks (os := [("keep-class", ['1']), ("unique-xyz", []), ("random-seed", ['7']), ("remove-coords", "x > 13".toList)])
      (by decide +kernel) ?_)
    (pipeline_asks (os := [("keep-class", ['1'])]) (by decide +kernel) ?_)
    (pipeline_asks (os := [("remove-coords", "x > 13".toList), ("random-seed", ['7']), ("unique-xyz", [])]) (by decide +kernel) ?_)
    (by decide +kernel) (by decide +kernel) (by decide +kernel) cloudClasses _ (cloudClasses_reads _ rfl) rfl).2 (by decide +kernel)
  · unfold InOrder; decide
  · exact ⟨rfl, rfl, rfl, rfl, rfl, fun h => by simp [Random] at h, fun _ => rfl⟩
  · exact ⟨by decide, by decide, by decide, by decide, by decide, by simp, rfl, .inl rfl, by decide,
      ⟨"13".toList, 2, by decide, by decide, by decide +kernel⟩⟩
  · exact ⟨by decide, by decide, by decide, by decide, by decide, by simp, rfl, .inr ⟨rfl, rfl⟩, by decide, .inl rfl⟩
  · exact ⟨by decide, by decide, by decide, by decide, by decide, by simp, rfl, .inl rfl, by decide,
      ⟨"13".toList, 2, by decide, by decide, by decide +kernel⟩⟩

example : (Name.filter.run exampleParams ["-k1".toList] (piped exampleParams ["-cx > 13".toList] (onInput cloudClasses))).out
    = (Name.filter.run exampleParams ["-cx > 13".toList] (piped exampleParams ["-k1".toList] (onInput cloudClasses))).out :=
  (c118_swap exampleParams toyZlib_correct (fun _ l => List.Perm.refl l) (onInput cloudClasses) _ _
    { coords := some (⟨0, false⟩, num 13) } { keep := [1] } ⟨rfl, rfl⟩ ⟨rfl, rfl⟩ (example_asks (by decide +kernel))
    (pipeline_asks (os := [("keep-class", ['1'])]) (by decide +kernel)
      ⟨by decide, by decide, by decide, by decide, by decide, by simp, rfl, .inr ⟨rfl, rfl⟩, by decide, .inl rfl⟩)
    (by decide +kernel) (by decide +kernel) cloudClasses _ (cloudClasses_reads _ rfl) rfl).2.2.1

end Spoc.Props
