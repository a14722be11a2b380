import Verif.Props.Twice
import Verif.Props.MergeStages
import Verif.Props.MergeCommutes
import Verif.Props.HowMany
import Verif.Props.Write
import Verif.Props.TransformMerge

/-!
# Uncompressed files that can be read survive being written

With that, C100, C103, C104 and C106 need no condition on what is written if the inputs are not compressed, and C114 needs only that an input
can be read.
-/

namespace Spoc.Props

open Main Io Spec Text HasXYZ

/-- A file that has been read and is not compressed survives being written and read again. -/
theorem readable_survives {b : Build} {z : Zlib} {s s' : IStream} {f : SpocFile} (hr : readFile b z s = .ok (f, s'))
    (hc : f.compressed = false) : Survives z f := by
  refine ⟨readable_writable hr, fun _ q hq => ?_, fun h => by rw [hc] at h; simp at h⟩
  obtain ⟨h, s1, h1, h2, h3, h4, h5⟩ := (c09_reader_safe b z s).2.2 f s' hr
  rw [h3 q hq]
  by_contra hgt
  have hpos : 0 < h.totalPoints.toNat := by
    rw [← h2]; exact List.length_pos_iff.mpr (List.ne_nil_of_mem hq)
  unfold readFile at hr
  rw [h1] at hr
  simp only [Res.ok_bind] at hr
  have hc0 : ¬ h.compressed ≠ 0 := by
    intro hne
    have := h5.mpr hne
    rw [hc] at this
    simp at this
  rw [if_neg hc0, readUncompressedPoints,
    readLoop_stuck b _ _ (recordsPerBuffer_zero (by omega)) _ _ _ _ _ (by simpa using hpos) hpos] at hr
  simp at hr

/-! ## Merging -/

theorem length_mergedPoints (id : Nat → UInt32) (fs : List SpocFile) : (mergedPoints id fs).length = (allPoints fs).length := by
  unfold mergedPoints allPoints
  induction fs generalizing id with
  | nil => rfl
  | cons f fs ih =>
    rw [List.mapIdx_cons, List.flatten_cons, List.length_append, List.length_map, List.flatMap_cons, List.length_append]
    have := ih (fun i => id (i + 1))
    omega

theorem mem_mergedPoints {id : Nat → UInt32} {fs : List SpocFile} {q : PointRecord} (h : q ∈ mergedPoints id fs) :
    ∃ f ∈ fs, ∃ p ∈ f.prs, q.extra = p.extra := by
  unfold mergedPoints at h
  obtain ⟨l, h1, h2⟩ := List.mem_flatten.mp h
  rw [List.mem_mapIdx] at h1
  obtain ⟨i, hi, rfl⟩ := h1
  obtain ⟨p, hp, rfl⟩ := List.mem_map.mp h2
  exact ⟨fs[i], List.getElem_mem hi, p, hp, rfl⟩

/-- The result of merging uncompressed files survives. -/
theorem merged_survives_of {z : Zlib} (asked : Option Nat) {f : SpocFile} {fs : List SpocFile} (h : ∀ g ∈ f :: fs, Survives z g ∧ g.compressed = false)
    (hu : Uniform (allPoints (f :: fs))) (hn : (allPoints (f :: fs)).length < 2 ^ 64) : Survives z (mergedCloud asked f fs) := by
  have hc : (mergedCloud asked f fs).compressed = false := by
    unfold mergedCloud
    simp [(h f (by simp)).2]
  have he : ∀ q ∈ (mergedCloud asked f fs).prs, ∃ p ∈ allPoints (f :: fs), q.extra = p.extra ∧ p.extra.length ≤ 123 := by
    intro q hq
    obtain ⟨g, hg, p, hp, e⟩ := mem_mergedPoints hq
    exact ⟨p, List.mem_flatMap.mpr ⟨g, hg, hp⟩, e, (h g hg).1.2.1 (h g hg).2 p hp⟩
  refine ⟨⟨rfl, rfl, (h f (by simp)).1.1.wkt, ?_, ?_, ?_⟩, ?_, fun e => by rw [hc] at e; simp at e⟩
  · intro p hp q hq
    obtain ⟨p', h1, e1, -⟩ := he p hp
    obtain ⟨q', h2, e2, -⟩ := he q hq
    rw [e1, e2]
    exact hu p' h1 q' h2
  · intro q hq
    obtain ⟨p', -, e1, h2⟩ := he q hq
    rw [e1]
    omega
  · show (mergedPoints (idOf asked) (f :: fs)).length < 2 ^ 64
    rw [length_mergedPoints]
    exact hn
  · intro _ q hq
    obtain ⟨p', -, e1, h2⟩ := he q hq
    rw [e1]
    exact h2

theorem clouds_survive {p : Params} {fs : Tile.FS} {ns : List Str} {cs : List SpocFile} (h : List.Forall₂ (fun n f => HasCloud p fs n f) ns cs)
    (hc : ∀ f ∈ cs, f.compressed = false) : ∀ f ∈ cs, Survives p.zlib f ∧ f.compressed = false := by
  intro f hf
  refine ⟨?_, hc f hf⟩
  induction h with
  | nil => simp at hf
  | cons h1 _ ih =>
    rcases List.mem_cons.mp hf with rfl | hf
    · obtain ⟨x, s, -, -, hr⟩ := h1
      exact readable_survives hr (hc _ (by simp))
    · exact ih (fun g hg => hc g (by simp [hg])) hf

/-- **C100** for uncompressed files, without conditions on what is written: merging some files with a given point id, and merging the result
with further files with the same id, gives the same bytes as merging all of them at once. -/
theorem c100_uncompressed (p : Params) (hz : p.zlib.Correct) (w : World) (n : Nat) (ha : n < 2 ^ 31)
    (first second once : List Str) (q1 q2 q3 : Bool)
    (ho1 : Cmd.merge.options first = mergeOptions q1 (some n)) (ho2 : Cmd.merge.options second = mergeOptions q2 (some n))
    (ho3 : Cmd.merge.options once = mergeOptions q3 (some n))
    (is js : List Str) (m : Str) (hm : m ∉ js)
    (h1 : Cmd.merge.operands first = is) (h2 : Cmd.merge.operands second = m :: js) (h3 : Cmd.merge.operands once = is ++ js)
    (hi : 2 ≤ is.length) (hj : js ≠ []) (f : SpocFile) (fs gs : List SpocFile)
    (hf : List.Forall₂ (fun n f => HasCloud p w.fs n f) is (f :: fs)) (hg : List.Forall₂ (fun n f => HasCloud p w.fs n f) js gs)
    (hc : ∀ g ∈ f :: fs ++ gs, g.compressed = false)
    (hu : Uniform (allPoints (f :: fs ++ gs))) (hn : (allPoints (f :: fs ++ gs)).length < 2 ^ 64)
    (w' : World) (hw : w'.fs = putFile w.fs m (Name.merge.run p first w).out) :
    (Name.merge.run p second w').res = .ok 0 ∧ (Name.merge.run p once w).res = .ok 0
      ∧ (Name.merge.run p second w').out = (Name.merge.run p once w).out := by
  have a1 := clouds_survive hf fun g hg => hc g (List.mem_append_left _ hg)
  have a2 := clouds_survive hg fun g hg => hc g (List.mem_append_right _ hg)
  have e : allPoints (f :: fs ++ gs) = allPoints (f :: fs) ++ allPoints gs := List.flatMap_append ..
  refine c100_same_bytes_partial p hz w n ha first second once q1 q2 q3 ho1 ho2 ho3 is js m hm h1 h2 h3 hi hj f fs gs hf hg hu
    (merged_survives_of _ a1 ?_ ?_) (merged_survives_of _ ?_ hu hn) w' hw
  · rw [e] at hu
    exact fun x hx y hy => hu x (List.mem_append_left _ hx) y (List.mem_append_left _ hy)
  · rw [e, List.length_append] at hn
    omega
  · intro g hg
    rcases List.mem_append.mp (show g ∈ (f :: fs) ++ gs from hg) with h | h
    · exact a1 g h
    · exact a2 g h

/-- **C103** for uncompressed files, without conditions on what is written: filtering each file and merging the results writes the very bytes
that merging the files and filtering what merge writes does, when the filter judges each point by itself. -/
theorem c103_uncompressed (p : Params) (hz : p.zlib.Correct) (hsh : p.shuffle.Lawful) (w : World) (r : FilterRequest)
    (hr : PointByPoint r) (jobs : List Job) (hsep : Separate jobs) (h2 : 2 ≤ jobs.length)
    (hjobs : ∀ j ∈ jobs, Asks (Cmd.filter.options j.argv) r ∧ Cmd.filter.operands j.argv = [j.input, j.output] ∧ j.input ≠ [] ∧ j.output ≠ []
      ∧ HasCloud p w.fs j.input j.before ∧ j.before.compressed = false ∧ CanReplace w j.output ∧ j.made = filtered r j.before)
    (f : SpocFile) (fs : List SpocFile) (hf : jobs.map (·.before) = f :: fs) (hu : Uniform (allPoints (f :: fs)))
    (hn : (allPoints (f :: fs)).length < 2 ^ 64)
    (asked : Option Nat) (ha : ∀ n ∈ asked, n < 2 ^ 31) (q1 q2 : Bool) (raw filt rest : List Str)
    (ho1 : Cmd.merge.options raw = mergeOptions q1 asked) (hn1 : Cmd.merge.operands raw = jobs.map (·.input))
    (ho2 : Cmd.merge.options filt = mergeOptions q2 asked) (hn2 : Cmd.merge.operands filt = jobs.map (·.output))
    (ho3 : Asks (Cmd.filter.options rest) r) (hn3 : Cmd.filter.operands rest = [])
    (w' : World) (hw : w'.stdin = { rest := (Name.merge.run p raw w).out }) :
    (Name.merge.run p raw w).res = .ok 0 ∧ (Name.filter.run p rest w').res = .ok 0
      ∧ (Name.merge.run p filt (afterAll .filter p jobs w)).res = .ok 0
      ∧ (Name.merge.run p filt (afterAll .filter p jobs w)).out = (Name.filter.run p rest w').out := by
  have hs : ∀ j ∈ jobs, Survives p.zlib j.before ∧ j.before.compressed = false := fun j hj => by
    obtain ⟨-, -, -, -, ⟨x, s, -, -, hx⟩, hc, -⟩ := hjobs j hj
    exact ⟨readable_survives hx hc, hc⟩
  have hm : Survives p.zlib (mergedCloud asked f fs) := by
    refine merged_survives_of asked (fun g hg => ?_) hu hn
    rw [← hf] at hg
    obtain ⟨j, hj, rfl⟩ := List.mem_map.mp hg
    exact hs j hj
  have hmc : (mergedCloud asked f fs).compressed = false := by
    have : f ∈ jobs.map (·.before) := by rw [hf]; simp
    obtain ⟨j, hj, e⟩ := List.mem_map.mp this
    have := (hs j hj).2
    rw [e] at this
    unfold mergedCloud
    simp [this]
  refine c103_filter_merge_partial p hz hsh w r hr jobs hsep h2 (fun j hj => ?_) f fs hf hu asked ha q1 q2 raw filt rest ho1 hn1 ho2 hn2 ho3 hn3
    hm (survives_sublist hm hmc List.filter_sublist) w' hw
  obtain ⟨a1, a2, a3, a4, a5, a6, a7, a8⟩ := hjobs j hj
  refine ⟨a1, a2, a3, a4, a5, a7, a8, ?_⟩
  rw [a8]
  exact survives_sublist (hs j hj).1 a6 List.filter_sublist

/-- A disk with two compressed files. -/
def zeroDisk : World where
  fs := putFile (putFile (fun _ => none) ['a'] (Io.writeFile .release toyZlib
      { SpocFile.empty with compressed := true, prs := [{ x := F64.negZero, c := 1 }, { x := F64.one, c := 2 }] }).bytes)
    ['d'] (Io.writeFile .release toyZlib { SpocFile.empty with compressed := true, prs := [{ x := F64.one, c := 1 }] }).bytes
  canCreate _ := true
  stdin := { rest := [] }

/-- **C103, negation** for compressed files: if a filtered file has only zeros in a coordinate, the sign of a negative zero is lost (C02)
before the files are merged. -/
theorem c103_negative_zero : ∃ (p : Params) (w : World),
    Cmd.filter.options ["-k1".toList, ['a'], ['o']] = [("keep-class", ['1'])]
      ∧ (Name.merge.run p [['o'], ['u']] (after .filter p ["-k1".toList, ['d'], ['u']] (after .filter p ["-k1".toList, ['a'], ['o']] w))).res = .ok 0
      ∧ (Name.filter.run p ["-k1".toList] { w with stdin := { rest := (Name.merge.run p [['a'], ['d']] w).out } }).res = .ok 0
      ∧ (Name.merge.run p [['o'], ['u']] (after .filter p ["-k1".toList, ['d'], ['u']] (after .filter p ["-k1".toList, ['a'], ['o']] w))).out
        ≠ (Name.filter.run p ["-k1".toList] { w with stdin := { rest := (Name.merge.run p [['a'], ['d']] w).out } }).out :=
  ⟨exampleParams, zeroDisk, by decide +kernel⟩

/-! ## Running twice -/

/-- **C106**, filter, for every uncompressed input that can be read: filtering what has been filtered, with the same options, changes
nothing.  (Without `--subsample`, and `--unique-xyz` only without a seed: `c106_subsample`, `c106_seed`.) -/
theorem c106_filter_uncompressed (p : Params) (hz : p.zlib.Correct) (hsh : p.shuffle.Lawful) (w : World) (argv : List Str) (r : FilterRequest)
    (hopt : Asks (Cmd.filter.options argv) r) (hops : Cmd.filter.operands argv = []) (hres : r.resolution = none)
    (hseed : r.unique = true → r.seed = 0) (f : SpocFile) (s' : IStream) (hf : Io.readFile p.build p.zlib w.stdin = .ok (f, s'))
    (hc : f.compressed = false) (hok : (Name.filter.run p argv w).res = .ok 0) : Settled .filter p argv w := by
  rcases filter_stdin p hsh w argv r hopt hops f s' hf with ⟨qs, hq, -⟩ | h
  · exact c106_filter_partial p hz hsh w argv r hopt hops hres hseed f s' hf qs hq
      (survives_subperm (readable_survives hf hc) hc (filterSteps_subperm _ _ hsh _ hq))
  · exact absurd hok h

/-- **C106**, srs, for every uncompressed input that can be read: setting the same text (of at most 65535 bytes) again changes nothing. -/
theorem c106_srs_uncompressed (p : Params) (hz : p.zlib.Correct) (w : World) (argv : List Str) (t : Str)
    (hopt : Cmd.srs.options argv = [("srs", t)]) (hops : Cmd.srs.operands argv = []) (f : SpocFile) (s' : IStream)
    (hf : Io.readFile p.build p.zlib w.stdin = .ok (f, s')) (hc : f.compressed = false) (ht : (Main.bytes t).length ≤ 65535) :
    Settled .srs p argv w := by
  have h := readable_survives hf hc
  exact c106_srs_partial p hz w argv t hopt hops f s' hf
    ⟨⟨h.1.major, h.1.minor, ht, h.1.uniform, h.1.extra, h.1.count⟩, h.2.1, fun e => by rw [show _ = f.compressed from rfl, hc] at e; simp at e⟩

/-! ## Numbers of points -/

theorem fitsZlib_mono {z : Zlib} {n m : Nat} (h : FitsZlib z n) (hm : m ≤ n) : FitsZlib z m :=
  ⟨by have := h.1; omega, fun bs hb => h.2 bs (by omega)⟩

/-- What filter writes can be read, and the number of points is right, for every input that can be read (compressed columns below 4 GiB). -/
theorem filter_count (p : Params) (hz : p.zlib.Correct) (hsh : p.shuffle.Lawful) {w : World} {f : SpocFile} {s : IStream}
    (hf : Io.readFile p.build p.zlib w.stdin = .ok (f, s)) (hfit : f.compressed = true → FitsZlib p.zlib f.prs.length) (argv : List Str)
    (r : FilterRequest) (hopt : Asks (Cmd.filter.options argv) r) (hops : Cmd.filter.operands argv = []) :
    ((Name.filter.run p argv w).res = .ok 0 ↔ ∃ qs, FilterSteps p.build p.shuffle r f.prs qs)
      ∧ ∀ qs, FilterSteps p.build p.shuffle r f.prs qs →
          ∃ f' s', Io.readFile p.build p.zlib { rest := (Name.filter.run p argv w).out } = .ok (f', s') ∧ f'.prs.length = qs.length := by
  have hw := readable_writable hf
  have written : ∀ qs, FilterSteps p.build p.shuffle r f.prs qs →
      Name.filter.run p argv w = outputStream w [] (Io.writeFile p.build p.zlib { f with prs := qs }) := by
    intro qs h
    obtain ⟨a, ha, av, ah, hp⟩ := filter_process p.build p.shuffle hsh f hw.uniform _ r hopt
    rcases hp with ⟨us, h3, h4⟩ | ⟨h3, -⟩
    · obtain rfl := filterSteps_unique h h3
      simp only [Name.run, Main.filter, filterArgs, withOperands, ha, hops, Cmd.inOut, Res.ok_bind, av, ah, Bool.false_eq_true, if_false,
        readThenWrite, inputStream, List.isEmpty_nil, if_true, Apps.fileOf, hf, h4]
    · exact absurd ⟨qs, h⟩ h3
  have stdout : ∀ (o : Out Unit), outputStream w [] o = ⟨w.fs, o.bytes, zero o.res⟩ := by
    intro o
    simp [outputStream]
  have good : ∀ qs, FilterSteps p.build p.shuffle r f.prs qs → Writable { f with prs := qs } := fun qs h => by
    have hl := filterSteps_subperm _ _ hsh _ h
    exact ⟨hw.major, hw.minor, hw.wkt, uniform_subperm hw.uniform hl, fun q hq => hw.extra q (hl.subset hq),
      lt_of_le_of_lt hl.length_le hw.count⟩
  refine ⟨⟨fun h => ?_, fun ⟨qs, h⟩ => ?_⟩, fun qs h => ?_⟩
  · rcases filter_stdin p hsh w argv r hopt hops f _ hf with ⟨qs, q1, -⟩ | hbad
    · exact ⟨qs, q1⟩
    · exact absurd h hbad
  · rw [written qs h, stdout, (c84_write_succeeds p.build p.zlib _ (good qs h).uniform).1 (good qs h).wkt]
    rfl
  · rw [written qs h, stdout]
    have hl := filterSteps_subperm _ _ hsh _ h
    rcases Bool.eq_false_or_eq_true f.compressed with hc | hc
    · obtain ⟨f', e, -, -, h3⟩ := c02_compressed_roundtrip_values p.build p.zlib hz { f with prs := qs } (good qs h) hc
        (fitsZlib_mono (hfit hc) hl.length_le) []
      rw [List.append_nil] at e
      exact ⟨f', _, e, h3.length_eq.symm⟩
    · have := (survives_roundtrip p.build p.zlib hz _ (survives_subperm (readable_survives hf hc) hc hl)).2 []
      rw [List.append_nil] at this
      exact ⟨_, _, this, rfl⟩

/-- **C114**, the filter application: if in each class the points of two inputs are at the same places, then `filter` with `--subsample` or
`--unique-xyz` or both, and any `--keep-class` and `--remove-class`, writes equally many points for both, with any two seeds; and it succeeds
for both or for neither.  The inputs are any bytes that can be read, compressed (columns below 4 GiB) or not.  (A condition on a coordinate
looks at the points that happen to be kept: `c114_condition`.) -/
theorem c114_filter (p : Params) (hz : p.zlib.Correct) (hsh : p.shuffle.Lawful) (f g : SpocFile) (w w' : World) {s s' : IStream}
    (hf : Io.readFile p.build p.zlib w.stdin = .ok (f, s)) (hg : Io.readFile p.build p.zlib w'.stdin = .ok (g, s'))
    (hfc : f.compressed = true → FitsZlib p.zlib f.prs.length) (hgc : g.compressed = true → FitsZlib p.zlib g.prs.length)
    (hff : ∀ q ∈ f.prs, Spec.Fin (pt q)) (hgf : ∀ q ∈ g.prs, Spec.Fin (pt q))
    (h : ∀ n, SamePlaces ((ofClass n f.prs).map pt) ((ofClass n g.prs).map pt))
    (argv argv' : List Str) (r : FilterRequest) (seed' : Nat) (hr : r.unique = true ∨ r.resolution ≠ none) (hco : r.coords = none)
    (hopt : Asks (Cmd.filter.options argv) r) (hopt' : Asks (Cmd.filter.options argv') { r with seed := seed' })
    (hops : Cmd.filter.operands argv = []) (hops' : Cmd.filter.operands argv' = []) :
    ((Name.filter.run p argv w).res = .ok 0 ↔ (Name.filter.run p argv' w').res = .ok 0)
      ∧ ((Name.filter.run p argv w).res = .ok 0 → ∃ f' g' s s',
          Io.readFile p.build p.zlib { rest := (Name.filter.run p argv w).out } = .ok (f', s)
          ∧ Io.readFile p.build p.zlib { rest := (Name.filter.run p argv' w').out } = .ok (g', s')
          ∧ f'.prs.length = g'.prs.length) := by
  obtain ⟨a1, a2⟩ := filter_count p hz hsh hf hfc argv r hopt hops
  obtain ⟨b1, b2⟩ := filter_count p hz hsh hg hgc argv' _ hopt' hops'
  refine ⟨⟨fun hk => ?_, fun hk => ?_⟩, fun hk => ?_⟩
  · obtain ⟨qs, hq⟩ := a1.mp hk
    obtain ⟨us, hu, -⟩ := c114_steps p.build p.build p.shuffle p.shuffle hsh hsh r seed' hr hco hff hgf h hq
    exact b1.mpr ⟨us, hu⟩
  · obtain ⟨us, hu⟩ := b1.mp hk
    obtain ⟨qs, hq, -⟩ := c114_steps p.build p.build p.shuffle p.shuffle hsh hsh { r with seed := seed' } r.seed hr hco hgf hff
      (fun n => samePlaces_symm (h n)) hu
    exact a1.mpr ⟨qs, hq⟩
  · obtain ⟨qs, hq⟩ := a1.mp hk
    obtain ⟨us, hu, hl⟩ := c114_steps p.build p.build p.shuffle p.shuffle hsh hsh r seed' hr hco hff hgf h hq
    obtain ⟨f', s1, e1, l1⟩ := a2 qs hq
    obtain ⟨g', s2, e2, l2⟩ := b2 us hu
    exact ⟨f', g', s1, s2, e1, e2, by rw [l1, l2, hl]⟩

/-! ## Examples -/

theorem reads {f : SpocFile} (h : Survives toyZlib f) :
    Io.readFile .release toyZlib { rest := (Io.writeFile .release toyZlib f).bytes } = .ok (f, { rest := [] }) := by
  have := (survives_roundtrip .release toyZlib toyZlib_correct f h).2 []
  rwa [List.append_nil] at this

example : ∀ w' : World, w'.fs = putFile exampleDisk.fs ['m'] (Name.merge.run exampleParams ["-p7".toList, ['a'], ['d']] exampleDisk).out →
    (Name.merge.run exampleParams ["-p7".toList, ['m'], ['a']] w').out
      = (Name.merge.run exampleParams ["-p7".toList, ['a'], ['d'], ['a']] exampleDisk).out :=
  fun w' hw => (c100_uncompressed exampleParams toyZlib_correct exampleDisk 7 (by decide) ["-p7".toList, ['a'], ['d']]
    ["-p7".toList, ['m'], ['a']] ["-p7".toList, ['a'], ['d'], ['a']] false false false (by decide +kernel) (by decide +kernel)
    (by decide +kernel) [['a'], ['d']] [['a']] ['m'] (by decide) (by decide +kernel) (by decide +kernel) (by decide +kernel) (by decide)
    (by decide) cloudA [cloudA] [cloudA] (.cons cloudA_on_disk.1 (.cons cloudA_on_disk.2 .nil))
    (.cons cloudA_on_disk.1 .nil) (by simp [cloudA, SpocFile.empty]) (by unfold Uniform; decide +kernel) (by decide +kernel) w' hw).2.2

example (w' : World) (hw : w'.stdin = { rest := (Name.merge.run exampleParams [['a'], ['d']] exampleDisk).out }) :
    (Name.merge.run exampleParams [['o'], ['u']] (afterAll .filter exampleParams exampleJobs exampleDisk)).out
      = (Name.filter.run exampleParams ["-cx > 13".toList] w').out := by
  refine (c103_uncompressed exampleParams toyZlib_correct (fun _ l => List.Perm.refl l) exampleDisk
    { coords := some (⟨0, false⟩, num 13) } ⟨rfl, rfl⟩ exampleJobs exampleJobs_separate (by decide) ?_ cloudA [cloudA] rfl
    (by unfold Uniform; decide +kernel) (by decide +kernel) none (by simp) false false [['a'], ['d']] [['o'], ['u']] ["-cx > 13".toList]
    (by decide +kernel) (by decide +kernel) (by decide +kernel) (by decide +kernel) (example_asks (by decide +kernel)) (by decide +kernel)
    w' hw).2.2.2
  intro j hj
  simp only [exampleJobs, List.mem_cons, List.not_mem_nil, or_false] at hj
  rcases hj with rfl | rfl
  · exact ⟨example_asks (by decide +kernel), by decide +kernel, by decide, by decide, cloudA_on_disk.1, rfl, rfl, rfl⟩
  · exact ⟨example_asks (by decide +kernel), by decide +kernel, by decide, by decide, cloudA_on_disk.2, rfl, rfl, rfl⟩

example : Settled .filter exampleParams ["-cx > 13".toList] (onInput cloudA) :=
  c106_filter_uncompressed exampleParams toyZlib_correct (fun _ l => List.Perm.refl l) _ _ { coords := some (⟨0, false⟩, num 13) }
    (example_asks (by decide +kernel)) (by decide +kernel) rfl (by simp) cloudA _ (cloudA_input _ rfl) rfl (by decide +kernel)

example : Settled .srs exampleParams ["--srs=W".toList] (onInput cloudA) :=
  c106_srs_uncompressed exampleParams toyZlib_correct _ _ ['W'] (by decide +kernel) (by decide +kernel) cloudA _ (cloudA_input _ rfl) rfl
    (by decide)

example : ∃ f' g' s s',
    Io.readFile .release toyZlib { rest := (Name.filter.run exampleParams ["-s6".toList, "-u".toList] exampleInput).out } = .ok (f', s)
      ∧ Io.readFile .release toyZlib { rest := (Name.filter.run exampleParams ["-s6".toList, "-u".toList, "-a7".toList] twiceInput).out } = .ok (g', s')
      ∧ f'.prs.length = g'.prs.length := by
  have hres : some (num 6) = if F64.gt (atof "6".toList) F64.zero then some (atof "6".toList) else none := by decide +kernel
  refine (c114_filter exampleParams toyZlib_correct (fun _ l => List.Perm.refl l) cloudA cloudTwice exampleInput twiceInput
    (cloudA_input _ rfl) (reads cloudTwice_survives) (by simp [cloudA, SpocFile.empty]) (by simp [cloudTwice, SpocFile.empty]) (by unfold Spec.Fin; decide +kernel) (by unfold Spec.Fin; decide +kernel) cloudTwice_places
    ["-s6".toList, "-u".toList] ["-s6".toList, "-u".toList, "-a7".toList]
    { unique := true, resolution := some (num 6) } 7 (.inl rfl) rfl ?_ ?_ (by decide +kernel) (by decide +kernel)).2 (by decide +kernel)
  · rw [show Cmd.filter.options ["-s6".toList, "-u".toList] = [("subsample", "6".toList), ("unique-xyz", [])] by decide +kernel]
    exact ⟨by decide, by decide, by decide, by decide, by decide, by simp, hres, .inr ⟨rfl, rfl⟩, by decide, .inl rfl⟩
  · rw [show Cmd.filter.options ["-s6".toList, "-u".toList, "-a7".toList]
      = [("subsample", "6".toList), ("unique-xyz", []), ("random-seed", "7".toList)] by decide +kernel]
    exact ⟨by decide, by decide, by decide, by decide, by decide, by simp, hres, .inl (by decide +kernel), by decide, .inl rfl⟩

/-! ## C104 -/

theorem jobs_survive {p : Params} {w : World} {jobs : List Job} (h : ∀ j ∈ jobs, Props.Holds p w.fs j.input j.before) {f : SpocFile} {fs : List SpocFile}
    (hf : jobs.map (·.before) = f :: fs) : ∀ g ∈ f :: fs, Survives p.zlib g ∧ g.compressed = false := by
  intro g hg
  rw [← hf] at hg
  obtain ⟨j, hj, rfl⟩ := List.mem_map.mp hg
  exact ⟨(h j hj).2.1, (h j hj).1⟩

/-- **C104**: transforming each file and merging the results writes the very bytes that merging the files and transforming what
merge writes does, when no command looks at or changes the point ids and every single file can be transformed. -/
theorem c104_transform_merge (p : Params) (hz : p.zlib.Correct) (w : World) (os : List (String × Str)) (hne : os ≠ [])
    (hos : ∀ o ∈ os, o.1 ∈ commandOptions) (hid : ∀ o ∈ os, ∀ fs, Named o.1 o.2 fs ∨ Uses o.1 o.2 fs → Field.p ∉ fs)
    (jobs : List Job) (hsep : Separate jobs) (h2 : 2 ≤ jobs.length)
    (hjobs : ∀ j ∈ jobs, Cmd.transform.options j.argv = os ∧ Cmd.transform.operands j.argv = [j.input, j.output] ∧ j.input ≠ []
      ∧ j.output ≠ [] ∧ Props.Holds p w.fs j.input j.before ∧ CanReplace w j.output ∧ Makes .transform p w j.argv j.output j.made)
    (f : SpocFile) (fs : List SpocFile) (hf : jobs.map (·.before) = f :: fs) (hu : Uniform (allPoints (f :: fs)))
    (hn : (allPoints (f :: fs)).length < 2 ^ 64)
    (asked : Option Nat) (ha : ∀ n ∈ asked, n < 2 ^ 31) (q1 q2 : Bool) (raw moved rest : List Str)
    (ho1 : Cmd.merge.options raw = mergeOptions q1 asked) (hn1 : Cmd.merge.operands raw = jobs.map (·.input))
    (ho2 : Cmd.merge.options moved = mergeOptions q2 asked) (hn2 : Cmd.merge.operands moved = jobs.map (·.output))
    (ho3 : Cmd.transform.options rest = os) (hn3 : Cmd.transform.operands rest = [])
    (w' : World) (hw : w'.stdin = { rest := (Name.merge.run p raw w).out }) :
    (Name.merge.run p raw w).res = .ok 0 ∧ (Name.transform.run p rest w').res = .ok 0
      ∧ (Name.merge.run p moved (afterAll .transform p jobs w)).res = .ok 0
      ∧ (Name.merge.run p moved (afterAll .transform p jobs w)).out = (Name.transform.run p rest w').out :=
  c104_transform_merge_of p hz w os hne hos hid jobs hsep h2 hjobs f fs hf hu asked ha q1 q2 raw moved rest ho1 hn1 ho2 hn2 ho3 hn3
    (merged_survives_of _ (jobs_survive (fun j hj => (hjobs j hj).2.2.2.2.1) hf) hu hn) w' hw

/-- **C104**: the merged file can be transformed exactly if all files can be. -/
theorem c104_success (p : Params) (hz : p.zlib.Correct) (w : World) (os : List (String × Str)) (hne : os ≠ [])
    (hos : ∀ o ∈ os, o.1 ∈ commandOptions) (hid : ∀ o ∈ os, ∀ fs, Named o.1 o.2 fs ∨ Uses o.1 o.2 fs → Field.p ∉ fs)
    (jobs : List Job) (hsep : Separate jobs) (h2 : 2 ≤ jobs.length)
    (hjobs : ∀ j ∈ jobs, Cmd.transform.options j.argv = os ∧ Cmd.transform.operands j.argv = [j.input, j.output] ∧ j.input ≠ []
      ∧ Props.Holds p w.fs j.input j.before ∧ CanReplace w j.output)
    (f : SpocFile) (fs : List SpocFile) (hf : jobs.map (·.before) = f :: fs) (hu : Uniform (allPoints (f :: fs)))
    (hn : (allPoints (f :: fs)).length < 2 ^ 64)
    (asked : Option Nat) (ha : ∀ n ∈ asked, n < 2 ^ 31) (quiet : Bool) (raw rest : List Str)
    (ho1 : Cmd.merge.options raw = mergeOptions quiet asked) (hn1 : Cmd.merge.operands raw = jobs.map (·.input))
    (ho3 : Cmd.transform.options rest = os) (hn3 : Cmd.transform.operands rest = [])
    (w' : World) (hw : w'.stdin = { rest := (Name.merge.run p raw w).out }) :
    (Name.transform.run p rest w').res = .ok 0 ↔ ∀ j ∈ jobs, (Name.transform.run p j.argv w).res = .ok 0 :=
  c104_success_of p hz w os hne hos hid jobs hsep h2 hjobs f fs hf hu asked ha quiet raw rest ho1 hn1 ho3 hn3
    (merged_survives_of _ (jobs_survive (fun j hj => (hjobs j hj).2.2.2.1) hf) hu hn) w' hw

example (w' : World) (hw : w'.stdin = { rest := (Name.merge.run exampleParams [['a'], ['d']] exampleDisk).out }) :
    (Name.merge.run exampleParams [['o'], ['u']] (afterAll .transform exampleParams exampleTransforms exampleDisk)).out
      = (Name.transform.run exampleParams ["--set=c,7".toList] w').out := by
  refine (c104_transform_merge exampleParams toyZlib_correct exampleDisk [("set", "c,7".toList)] (by simp) (by decide) ?_
    exampleTransforms exampleTransforms_separate (by decide) ?_ cloudA [cloudA] rfl
    (by unfold Uniform; decide +kernel) (by decide +kernel) none (by simp) false false [['a'], ['d']] [['o'], ['u']] ["--set=c,7".toList]
    (by decide +kernel) (by decide +kernel) (by decide +kernel) (by decide +kernel) (by decide +kernel) (by decide +kernel) w' hw).2.2.2
  · intro o ho
    obtain rfl := List.mem_singleton.mp ho
    rintro fs (h | h)
    · rw [Transform.named_first (by simp) h]; decide
    · rw [Transform.uses_set h]; simp
  · intro j hj
    simp only [exampleTransforms, List.mem_cons, List.not_mem_nil, or_false] at hj
    rcases hj with rfl | rfl
    · exact ⟨by decide +kernel, by decide +kernel, by decide, by decide, cloudA_holds.1, rfl,
        example_set _ ['a'] ['o'] (by decide +kernel) (by decide +kernel) (by decide) (by decide) (by decide) cloudA_holds.1 rfl⟩
    · exact ⟨by decide +kernel, by decide +kernel, by decide, by decide, cloudA_holds.2, rfl,
        example_set _ ['d'] ['u'] (by decide +kernel) (by decide +kernel) (by decide) (by decide) (by decide) cloudA_holds.2 rfl⟩

end Spoc.Props
