import Verif.Props.MergeStages

/-!
# C103: working on the files before merging them or on the merged file
-/

namespace Spoc.Props

open Getopt Cmd Main Spec Spec.Cmd Text

/-- A run of an application on one file: the command line, the names of input and output, the clouds before and after. -/
structure Job where
  argv : List Str
  input : Str
  output : Str
  before : SpocFile
  made : SpocFile

/-- The runs, one after the other. -/
def afterAll (n : Name) (p : Params) (jobs : List Job) (w : World) : World :=
  jobs.foldl (fun w j => after n p j.argv w) w

/-- No output is the input or the output of another run. -/
def Separate (jobs : List Job) : Prop :=
  (jobs.map (·.output)).Nodup ∧ ∀ j ∈ jobs, ∀ k ∈ jobs, j.input ≠ k.output

/-- What the runs leave behind, when `w₀` has the inputs. -/
theorem afterAll_makes (n : Name) (p : Params) (jobs : List Job) (hsep : Separate jobs) (w₀ w : World)
    (hin : ∀ j ∈ jobs, w.fs j.input = w₀.fs j.input) (hout : ∀ j ∈ jobs, CanReplace w j.output)
    (hmake : ∀ j ∈ jobs, ∀ w' : World, w'.fs j.input = w₀.fs j.input → CanReplace w' j.output → Makes n p w' j.argv j.output j.made) :
    (∀ j ∈ jobs, HasCloud p (afterAll n p jobs w).fs j.output j.made)
      ∧ ∀ m, m ∉ jobs.map (·.output) → (afterAll n p jobs w).fs m = w.fs m := by
  induction jobs generalizing w with
  | nil => exact ⟨by simp, fun _ _ => rfl⟩
  | cons j jobs ih =>
    obtain ⟨hnd, hdis⟩ := hsep
    rw [List.map_cons, List.nodup_cons] at hnd
    obtain ⟨-, -, h3, h4⟩ := hmake j (by simp) w (hin j (by simp)) (hout j (by simp))
    have hne : ∀ k ∈ jobs, k.output ≠ j.output := fun k hk e => hnd.1 (by rw [← e]; exact List.mem_map_of_mem hk)
    have hsame : ∀ m, m ≠ j.output → (after n p j.argv w).fs m = w.fs m := h4
    obtain ⟨i1, i2⟩ := ih ⟨hnd.2, fun a ha b hb => hdis a (by simp [ha]) b (by simp [hb])⟩ (after n p j.argv w)
      (fun k hk => (hsame _ (hdis k (by simp [hk]) j (by simp))).trans (hin k (by simp [hk])))
      (fun k hk => by
        have := hout k (by simp [hk])
        unfold CanReplace at this ⊢
        rw [hsame _ (hne k hk)]
        exact this)
      (fun k hk => hmake k (by simp [hk]))
    refine ⟨fun k hk => ?_, fun m hm => ?_⟩
    · rcases List.mem_cons.mp hk with rfl | hk
      · obtain ⟨x, s, e1, e2, e3⟩ := h3
        exact ⟨x, s, (i2 _ hnd.1).trans e1, e2, e3⟩
      · exact i1 k hk
    · rw [List.map_cons, List.mem_cons, not_or] at hm
      exact (i2 m hm.2).trans (hsame m hm.1)

/-! ## Filters -/

/-- The request judges each point by itself: neither duplicates nor subsampling. -/
def PointByPoint (r : FilterRequest) : Prop := r.unique = false ∧ r.resolution = none

/-- The points that such a request keeps. -/
def keeps (r : FilterRequest) (q : PointRecord) : Bool :=
  (decide (r.keep = []) || decide (q.c.toNat ∈ r.keep)) && decide (q.c.toNat ∉ r.remove) &&
    match r.coords with
    | none => true
    | some (c, v) => decide (¬ c.Holds q v)

theorem filterSteps_keeps {b : Build} {sh : Subsampling.Shuffle} {r : FilterRequest} (hr : PointByPoint r) (ps : List PointRecord) :
    FilterSteps b sh r ps (ps.filter (keeps r)) := by
  refine ⟨_, _, _, _, rfl, rfl, by rw [hr.1]; exact rfl, by rw [hr.2], ?_⟩
  unfold keeps
  cases hc : r.coords with
  | none =>
    simp only [Bool.and_true]
    split
    · rename_i hk
      simp [hk]
    · rename_i hk
      rw [List.filter_filter]
      congr 1
      funext q
      simp [hk, Bool.and_comm]
  | some cv =>
    simp only
    split
    · rename_i hk
      rw [List.filter_filter]
      congr 1
      funext q
      simp [hk, Bool.and_comm]
    · rename_i hk
      rw [List.filter_filter, List.filter_filter]
      congr 1
      funext q
      simp only [hk, decide_false, Bool.false_or]
      cases decide (q.c.toNat ∈ r.keep) <;> cases decide (q.c.toNat ∉ r.remove) <;> cases decide (¬ cv.1.Holds q cv.2) <;> rfl

/-- The cloud with the points that the request keeps. -/
def filtered (r : FilterRequest) (f : SpocFile) : SpocFile := { f with prs := f.prs.filter (keeps r) }

theorem mergedPoints_filtered (r : FilterRequest) (id : Nat → UInt32) (fs : List SpocFile) :
    mergedPoints id (fs.map (filtered r)) = (mergedPoints id fs).filter (keeps r) := by
  unfold mergedPoints
  induction fs generalizing id with
  | nil => rfl
  | cons f fs ih =>
    rw [List.map_cons, List.mapIdx_cons, List.mapIdx_cons, List.flatten_cons, List.flatten_cons, List.filter_append, ih (fun i => id (i + 1))]
    congr 1
    rw [filtered, List.filter_map]
    rfl

theorem mergedCloud_filtered (r : FilterRequest) (asked : Option Nat) (f : SpocFile) (fs : List SpocFile) :
    mergedCloud asked (filtered r f) (fs.map (filtered r)) = filtered r (mergedCloud asked f fs) := by
  unfold mergedCloud
  rw [← List.map_cons, mergedPoints_filtered, List.all_map]
  rfl

theorem uniform_allPoints_map {T : SpocFile → SpocFile} (fs : List SpocFile) (hT : ∀ f ∈ fs, ∀ q ∈ (T f).prs, ∃ r ∈ f.prs, r.extra.length = q.extra.length)
    (hu : Uniform (allPoints fs)) : Uniform (allPoints (fs.map T)) := by
  have key : ∀ q ∈ allPoints (fs.map T), ∃ r ∈ allPoints fs, r.extra.length = q.extra.length := by
    intro q hq
    unfold allPoints at hq ⊢
    rw [List.flatMap_map] at hq
    obtain ⟨f, hf, hq⟩ := List.mem_flatMap.mp hq
    obtain ⟨r, hr, e⟩ := hT f hf q hq
    exact ⟨r, List.mem_flatMap.mpr ⟨f, hf, hr⟩, e⟩
  intro q hq r hr
  obtain ⟨q', a1, a2⟩ := key q hq
  obtain ⟨r', b1, b2⟩ := key r hr
  rw [← a2, ← b2]
  exact hu q' a1 r' b1

/-- What the merge of the files that the runs have left writes. -/
theorem merge_made (n : Name) (p : Params) (w : World) (jobs : List Job) (hsep : Separate jobs)
    (hout : ∀ j ∈ jobs, CanReplace w j.output)
    (hmake : ∀ j ∈ jobs, ∀ w' : World, w'.fs j.input = w.fs j.input → CanReplace w' j.output → Makes n p w' j.argv j.output j.made)
    (quiet : Bool) (asked : Option Nat) (ha : ∀ n ∈ asked, n < 2 ^ 31) (argv : List Str) (hopt : Cmd.merge.options argv = mergeOptions quiet asked)
    (hops : Cmd.merge.operands argv = jobs.map (·.output)) (g : SpocFile) (gs : List SpocFile) (hg : jobs.map (·.made) = g :: gs)
    (h2 : 2 ≤ jobs.length) (hu : Uniform (allPoints (g :: gs))) (hok : (Io.writeFile p.build p.zlib (mergedCloud asked g gs)).res = .ok ()) :
    (Name.merge.run p argv (afterAll n p jobs w)).res = .ok 0
      ∧ (Name.merge.run p argv (afterAll n p jobs w)).out = (Io.writeFile p.build p.zlib (mergedCloud asked g gs)).bytes := by
  refine merge_bytes p _ argv quiet asked ha hopt g gs ?_ ?_ hu hok
  · rw [hops, ← hg, List.forall₂_map_left_iff, List.forall₂_map_right_iff, List.forall₂_same]
    exact (afterAll_makes n p jobs hsep w w (fun _ _ => rfl) hout hmake).1
  · rintro rfl
    have := congrArg List.length hg
    simp at this
    omega

/-- What filter writes to its standard output. -/
theorem filter_stdout (p : Params) (hsh : p.shuffle.Lawful) (w : World) (argv : List Str) (r : FilterRequest) (hr : PointByPoint r)
    (hopt : Asks (Cmd.filter.options argv) r) (hops : Cmd.filter.operands argv = []) (f : SpocFile) (s' : IStream)
    (hf : Io.readFile p.build p.zlib w.stdin = .ok (f, s')) (hok : (Io.writeFile p.build p.zlib (filtered r f)).res = .ok ()) :
    (Name.filter.run p argv w).res = .ok 0 ∧ (Name.filter.run p argv w).out = (Io.writeFile p.build p.zlib (filtered r f)).bytes := by
  obtain ⟨a, ha, av, ah, hp⟩ := filter_process p.build p.shuffle hsh f (readable_writable hf).uniform _ r hopt
  rcases hp with ⟨qs', h3, h4⟩ | ⟨h3, -⟩
  · obtain rfl := filterSteps_unique (filterSteps_keeps hr f.prs) h3
    have e : Name.filter.run p argv w = outputStream w [] (Io.writeFile p.build p.zlib (filtered r f)) := by
      simp only [Name.run, Main.filter, filterArgs, withOperands, ha, hops, inOut, Res.ok_bind, av, ah, Bool.false_eq_true, if_false,
        readThenWrite, inputStream, List.isEmpty_nil, if_true, Apps.fileOf, hf, h4]
      rfl
    rw [e]
    simp only [outputStream, List.isEmpty_nil, if_true, hok]
    exact ⟨rfl, trivial⟩
  · exact absurd ⟨_, filterSteps_keeps hr f.prs⟩ h3

/-- **C103**: filtering each file and merging the results writes the very bytes that merging the files and filtering what merge
writes does, when the filter judges each point by itself.

Partial: the clouds have to survive a round trip (C01, C02). -/
theorem c103_filter_merge_partial (p : Params) (hz : p.zlib.Correct) (hsh : p.shuffle.Lawful) (w : World) (r : FilterRequest)
    (hr : PointByPoint r) (jobs : List Job) (hsep : Separate jobs) (h2 : 2 ≤ jobs.length)
    (hjobs : ∀ j ∈ jobs, Asks (Cmd.filter.options j.argv) r ∧ Cmd.filter.operands j.argv = [j.input, j.output] ∧ j.input ≠ [] ∧ j.output ≠ []
      ∧ HasCloud p w.fs j.input j.before ∧ CanReplace w j.output ∧ j.made = filtered r j.before ∧ Survives p.zlib j.made)
    (f : SpocFile) (fs : List SpocFile) (hf : jobs.map (·.before) = f :: fs) (hu : Uniform (allPoints (f :: fs)))
    (asked : Option Nat) (ha : ∀ n ∈ asked, n < 2 ^ 31) (q1 q2 : Bool) (raw filt rest : List Str)
    (ho1 : Cmd.merge.options raw = mergeOptions q1 asked) (hn1 : Cmd.merge.operands raw = jobs.map (·.input))
    (ho2 : Cmd.merge.options filt = mergeOptions q2 asked) (hn2 : Cmd.merge.operands filt = jobs.map (·.output))
    (ho3 : Asks (Cmd.filter.options rest) r) (hn3 : Cmd.filter.operands rest = [])
    (hs : Survives p.zlib (mergedCloud asked f fs)) (hs' : Survives p.zlib (filtered r (mergedCloud asked f fs)))
    (w' : World) (hw : w'.stdin = { rest := (Name.merge.run p raw w).out }) :
    (Name.merge.run p raw w).res = .ok 0 ∧ (Name.filter.run p rest w').res = .ok 0
      ∧ (Name.merge.run p filt (afterAll .filter p jobs w)).res = .ok 0
      ∧ (Name.merge.run p filt (afterAll .filter p jobs w)).out = (Name.filter.run p rest w').out := by
  have hmade : jobs.map (·.made) = filtered r f :: fs.map (filtered r) := by
    rw [← List.map_cons, ← hf, List.map_map]
    exact List.map_congr_left fun j hj => (hjobs j hj).2.2.2.2.2.2.1
  obtain ⟨a1, a2⟩ := survives_roundtrip p.build p.zlib hz _ hs
  obtain ⟨b1, -⟩ := survives_roundtrip p.build p.zlib hz _ hs'
  have hfs : fs ≠ [] := by
    rintro rfl
    have := congrArg List.length hf
    simp at this
    omega
  obtain ⟨c1, c2⟩ := merge_bytes p w raw q1 asked ha ho1 f fs
    (by
      rw [hn1, ← hf, List.forall₂_map_left_iff, List.forall₂_map_right_iff, List.forall₂_same]
      exact fun j hj => (hjobs j hj).2.2.2.2.1) hfs hu a1
  obtain ⟨d1, d2⟩ := filter_stdout p hsh w' rest r hr ho3 hn3 (mergedCloud asked f fs) { rest := [] }
    (by rw [hw, c2]; simpa using a2 []) b1
  obtain ⟨e1, e2⟩ := merge_made .filter p w jobs hsep (fun j hj => (hjobs j hj).2.2.2.2.2.1)
    (fun j hj w' hi hc => by
      obtain ⟨k1, k2, k3, k4, ⟨x, s, g1, g2, g3⟩, -, k5, k6⟩ := hjobs j hj
      rw [k5] at k6 ⊢
      exact c76_filter_partial p hz hsh w' j.argv j.input j.output r k1 k2 k3 k4 hc j.before ⟨x, s, hi.trans g1, g2, g3⟩ _ (filterSteps_keeps hr _) k6)
    q2 asked ha filt ho2 hn2 _ _ hmade h2
    (by
      rw [← List.map_cons]
      exact uniform_allPoints_map _ (fun g _ q hq => ⟨q, (List.mem_filter.mp hq).1, rfl⟩) hu)
    (by rw [mergedCloud_filtered]; exact b1)
  exact ⟨c1, d1, e1, by rw [e2, d2, mergedCloud_filtered]⟩

/-! ## Examples -/

/-- `filter --remove-coords=x>13` on the files `a` and `d`. -/
def exampleJobs : List Job :=
  [⟨["-cx > 13".toList, ['a'], ['o']], ['a'], ['o'], cloudA, filtered { coords := some (⟨0, false⟩, num 13) } cloudA⟩,
   ⟨["-cx > 13".toList, ['d'], ['u']], ['d'], ['u'], cloudA, filtered { coords := some (⟨0, false⟩, num 13) } cloudA⟩]

theorem exampleJobs_separate : Separate exampleJobs := by
  refine ⟨by decide, ?_⟩
  intro j hj k hk
  simp only [exampleJobs, List.mem_cons, List.not_mem_nil, or_false] at hj hk
  rcases hj with rfl | rfl <;> rcases hk with rfl | rfl <;> decide

theorem example_asks {argv : List Str} (h : Cmd.filter.options argv = [("remove-coords", "x > 13".toList)]) :
    Asks (Cmd.filter.options argv) { coords := some (⟨0, false⟩, num 13) } := by
  rw [h]
  exact ⟨by decide, by decide, by decide, by decide, by decide, by simp, rfl, .inr ⟨rfl, rfl⟩, by decide,
    ⟨"13".toList, 2, by decide, by decide, by decide +kernel⟩⟩

example (w' : World) (hw : w'.stdin = { rest := (Name.merge.run exampleParams [['a'], ['d']] exampleDisk).out }) :
    (Name.merge.run exampleParams [['o'], ['u']] (afterAll .filter exampleParams exampleJobs exampleDisk)).out
      = (Name.filter.run exampleParams ["-cx > 13".toList] w').out := by
  have hs : Survives toyZlib (mergedCloud none cloudA [cloudA]) :=
    merged_survives _ _ _ rfl (by decide) (by unfold Uniform; decide +kernel) (by decide +kernel) (by decide +kernel)
  refine (c103_filter_merge_partial exampleParams toyZlib_correct (fun _ l => List.Perm.refl l) exampleDisk
    { coords := some (⟨0, false⟩, num 13) } ⟨rfl, rfl⟩ exampleJobs exampleJobs_separate (by decide) ?_ cloudA [cloudA] rfl
    (by unfold Uniform; decide +kernel) none (by simp) false false [['a'], ['d']] [['o'], ['u']] ["-cx > 13".toList] (by decide +kernel)
    (by decide +kernel) (by decide +kernel) (by decide +kernel) (example_asks (by decide +kernel)) (by decide +kernel) hs
    (survives_sublist hs rfl List.filter_sublist) w' hw).2.2.2
  intro j hj
  simp only [exampleJobs, List.mem_cons, List.not_mem_nil, or_false] at hj
  rcases hj with rfl | rfl
  · exact ⟨example_asks (by decide +kernel), by decide +kernel, by decide, by decide, cloudA_on_disk.1, rfl, rfl,
      survives_sublist cloudA_survives rfl List.filter_sublist⟩
  · exact ⟨example_asks (by decide +kernel), by decide +kernel, by decide, by decide, cloudA_on_disk.2, rfl, rfl,
      survives_sublist cloudA_survives rfl List.filter_sublist⟩

/-- The filter of the example does remove points. -/
example : (filtered { coords := some (⟨0, false⟩, num 13) } cloudA).prs.length = 2 := by decide +kernel

/-- **C103, negation**: `--unique-xyz` does not see that two files have a point in common. -/
theorem c103_unique : ∃ (p : Params) (w : World),
    Cmd.filter.options ["-u".toList, ['a'], ['o']] = [("unique-xyz", [])]
      ∧ (Name.merge.run p [['o'], ['u']] (after .filter p ["-u".toList, ['d'], ['u']] (after .filter p ["-u".toList, ['a'], ['o']] w))).res = .ok 0
      ∧ (Name.filter.run p ["-u".toList] { w with stdin := { rest := (Name.merge.run p [['a'], ['d']] w).out } }).res = .ok 0
      ∧ (Name.merge.run p [['o'], ['u']] (after .filter p ["-u".toList, ['d'], ['u']] (after .filter p ["-u".toList, ['a'], ['o']] w))).out
        ≠ (Name.filter.run p ["-u".toList] { w with stdin := { rest := (Name.merge.run p [['a'], ['d']] w).out } }).out :=
  ⟨exampleParams, exampleDisk, by decide +kernel⟩

/-- **C103, negation**: subsampling keeps one point of every file. -/
theorem c103_subsample : ∃ (p : Params) (w : World),
    Cmd.filter.options ["-s100".toList, ['a'], ['o']] = [("subsample", "100".toList)]
      ∧ (Name.merge.run p [['o'], ['u']] (after .filter p ["-s100".toList, ['d'], ['u']] (after .filter p ["-s100".toList, ['a'], ['o']] w))).res
        = .ok 0
      ∧ (Name.filter.run p ["-s100".toList] { w with stdin := { rest := (Name.merge.run p [['a'], ['d']] w).out } }).res = .ok 0
      ∧ (Name.merge.run p [['o'], ['u']] (after .filter p ["-s100".toList, ['d'], ['u']] (after .filter p ["-s100".toList, ['a'], ['o']] w))).out
        ≠ (Name.filter.run p ["-s100".toList] { w with stdin := { rest := (Name.merge.run p [['a'], ['d']] w).out } }).out :=
  ⟨exampleParams, exampleDisk, by decide +kernel⟩

end Spoc.Props
