import Verif.Props.NegativeZero
import Verif.Props.Nested
import Verif.Props.TileForce

/-!
# C100, C103, C106, C111 and tiles (C149) for compressed files without negative zeros
-/

namespace Spoc.Props

open Getopt Cmd Main Spec Spec.Cmd Text

theorem lossless_steps {p : Params} {f : SpocFile} {s s' : IStream} (hf : Io.readFile p.build p.zlib s = .ok (f, s')) (hl : Lossless p.zlib f) {qs : List PointRecord}
    (h : qs.Subperm f.prs) : Survives p.zlib { f with prs := qs } := by
  have hw := readable_writable hf
  refine lossless_survives ?_ (fun e q hm => ?_) (lossless_subperm hl h)
  · exact ⟨hw.major, hw.minor, hw.wkt, uniform_subperm hw.uniform h, fun q hq => hw.extra q (h.subset hq), lt_of_le_of_lt h.length_le hw.count⟩
  · exact (readable_survives hf e).2.1 e q (h.subset hm)

/-- **C106**, filter, for every input that can be read, compressed or not, without negative zeros if compressed: filtering what has been filtered, with the same options,
changes nothing. -/
theorem c106_filter_lossless (p : Params) (hz : p.zlib.Correct) (hsh : p.shuffle.Lawful) (w : World) (argv : List Str) (r : FilterRequest)
    (hopt : Asks (Cmd.filter.options argv) r) (hops : Cmd.filter.operands argv = []) (hres : r.resolution = none)
    (hseed : r.unique = true → r.seed = 0) (f : SpocFile) (s' : IStream) (hf : Io.readFile p.build p.zlib w.stdin = .ok (f, s'))
    (hl : Lossless p.zlib f) (hok : (Name.filter.run p argv w).res = .ok 0) : Settled .filter p argv w := by
  rcases filter_stdin p hsh w argv r hopt hops f s' hf with ⟨qs, hq, -⟩ | h
  · exact c106_filter_partial p hz hsh w argv r hopt hops hres hseed f s' hf qs hq (lossless_steps hf hl (filterSteps_subperm _ _ hsh _ hq))
  · exact absurd hok h

/-- **C111**, the filter application, also for compressed files without negative zeros. -/
theorem c111_filter_lossless (p : Params) (hz : p.zlib.Correct) (hsh : p.shuffle.Lawful) (w : World) (argv argv' : List Str) (i o o' : Str)
    {k : Nat} {h r : F64} (hp : PowerLarger k h r) (seed : Nat) (hopt : Asks (Cmd.filter.options argv) { resolution := some h, seed := seed })
    (hopt' : Asks (Cmd.filter.options argv') { resolution := some r, seed := seed }) (hops : Cmd.filter.operands argv = [i, o])
    (hops' : Cmd.filter.operands argv' = [i, o']) (hi : i ≠ []) (ho : o ≠ []) (ho' : o' ≠ []) (hc : CanReplace w o) (hc' : CanReplace w o')
    (f : SpocFile) (hcloud : HasCloud p w.fs i f) (hl : Lossless p.zlib f)
    (hf : ∀ q ∈ f.prs, Spec.Fin (pt q)) (hfit : GridFits (Extent.ofPoints f.prs) h) :
    ∃ qs rs, Makes .filter p w argv o { f with prs := qs } ∧ Makes .filter p w argv' o' { f with prs := rs } ∧ rs.Sublist qs
      ∧ List.Subperm qs f.prs := by
  obtain ⟨us, hus, -⟩ := c22_voxel_indexes f.prs h hf hp.1 (powerLarger_fv hp).1 hfit
  obtain ⟨ks, qs, k1, k2, k3, k4, k5, -⟩ := c23_one_per_voxel p.build p.shuffle hsh f.prs h seed us hus
  obtain ⟨rs, r1, r2⟩ := c111_subsample p.build p.shuffle hsh f.prs hf hp seed k2
  have s1 : FilterSteps p.build p.shuffle { resolution := some h, seed := seed } f.prs qs := ⟨f.prs, f.prs, f.prs, qs, rfl, by simp, rfl, k2, rfl⟩
  have s2 : FilterSteps p.build p.shuffle { resolution := some r, seed := seed } f.prs rs := ⟨f.prs, f.prs, f.prs, rs, rfl, by simp, rfl, r1, rfl⟩
  exact ⟨qs, rs, (c149_filter p hz hsh w argv i o _ hopt hops hi ho hc f hcloud hl qs s1).1, (c149_filter p hz hsh w argv' i o' _ hopt' hops' hi ho' hc' f hcloud hl rs s2).1,
    r2, filterSteps_subperm _ _ hsh _ s1⟩

theorem mem_merged_at {id : Nat → UInt32} {fs : List SpocFile} {q : PointRecord} (h : q ∈ mergedPoints id fs) :
    ∃ f ∈ fs, ∃ p ∈ f.prs, q.extra = p.extra ∧ q.x = p.x ∧ q.y = p.y ∧ q.z = p.z := by
  unfold mergedPoints at h
  obtain ⟨l, h1, h2⟩ := List.mem_flatten.mp h
  rw [List.mem_mapIdx] at h1
  obtain ⟨i, hi, rfl⟩ := h1
  obtain ⟨p, hp, rfl⟩ := List.mem_map.mp h2
  exact ⟨fs[i], List.getElem_mem hi, p, hp, rfl, rfl, rfl, rfl⟩

/-- The result of merging such clouds is such a cloud.  (If not all files are compressed, merge writes an uncompressed one, which has at most 123 extra fields.) -/
theorem merged_lossless {z : Zlib} (asked : Option Nat) {f : SpocFile} {fs : List SpocFile} (hs : ∀ g ∈ f :: fs, Writable g ∧ Lossless z g)
    (hu : Uniform (allPoints (f :: fs))) (hn : (allPoints (f :: fs)).length < 2 ^ 64)
    (hx : (∃ g ∈ f :: fs, g.compressed = false) → ∀ q ∈ allPoints (f :: fs), q.extra.length ≤ 123)
    (hfit : (∀ g ∈ f :: fs, g.compressed = true) → FitsZlib z (allPoints (f :: fs)).length) :
    Writable (mergedCloud asked f fs) ∧ ((mergedCloud asked f fs).compressed = false → ∀ q ∈ (mergedCloud asked f fs).prs, q.extra.length ≤ 123)
      ∧ Lossless z (mergedCloud asked f fs) := by
  have hmem : ∀ q ∈ (mergedCloud asked f fs).prs, ∃ g ∈ f :: fs, ∃ p ∈ g.prs, p ∈ allPoints (f :: fs) ∧ q.extra = p.extra ∧ q.x = p.x ∧ q.y = p.y ∧ q.z = p.z := by
    intro q hq
    obtain ⟨g, hg, p, hp, e⟩ := mem_merged_at hq
    exact ⟨g, hg, p, hp, List.mem_flatMap.mpr ⟨g, hg, hp⟩, e⟩
  have hmw : Writable (mergedCloud asked f fs) := by
    refine ⟨rfl, rfl, (hs f (by simp)).1.wkt, ?_, ?_, ?_⟩
    · intro a ha b hb
      obtain ⟨-, -, a', -, m1, e1, -⟩ := hmem a ha
      obtain ⟨-, -, b', -, m2, e2, -⟩ := hmem b hb
      rw [e1, e2]
      exact hu a' m1 b' m2
    · intro a ha
      obtain ⟨g, hg, a', m, -, e1, -⟩ := hmem a ha
      rw [e1]
      exact (hs g hg).1.extra a' m
    · show (mergedPoints (idOf asked) (f :: fs)).length < 2 ^ 64
      rw [length_mergedPoints]
      exact hn
  have hme : (mergedCloud asked f fs).compressed = false → ∀ q ∈ (mergedCloud asked f fs).prs, q.extra.length ≤ 123 := by
    intro e q hq
    obtain ⟨-, -, q', -, m, e1, -⟩ := hmem q hq
    rw [e1]
    refine hx ?_ q' m
    have e : (f :: fs).all (fun f => f.compressed) = false := e
    rw [List.all_eq_false] at e
    obtain ⟨g, hg, h⟩ := e
    exact ⟨g, hg, by simpa using h⟩
  have hml : Lossless z (mergedCloud asked f fs) := by
    intro e
    have e : (f :: fs).all (fun f => f.compressed) = true := e
    rw [List.all_eq_true] at e
    refine ⟨?_, fun q hq => ?_⟩
    · show FitsZlib z (mergedPoints (idOf asked) (f :: fs)).length
      rw [length_mergedPoints]
      exact hfit e
    · obtain ⟨g, hg, q', m, -, -, e1, e2, e3⟩ := hmem q hq
      rw [e1, e2, e3]
      exact ((hs g hg).2 (e g hg)).2 q' m
  exact ⟨hmw, hme, hml⟩

/-- **C103** also for compressed files without negative zeros: filtering each file and merging the results writes the very bytes that merging the files and filtering what
merge writes does, when the filter judges each point by itself.  (If not all files are compressed, merge writes an uncompressed one, which has at most 123 extra fields.) -/
theorem c103_lossless (p : Params) (hz : p.zlib.Correct) (hsh : p.shuffle.Lawful) (w : World) (r : FilterRequest)
    (hr : PointByPoint r) (jobs : List Job) (hsep : Separate jobs) (h2 : 2 ≤ jobs.length)
    (hjobs : ∀ j ∈ jobs, Asks (Cmd.filter.options j.argv) r ∧ Cmd.filter.operands j.argv = [j.input, j.output] ∧ j.input ≠ [] ∧ j.output ≠ []
      ∧ HasCloud p w.fs j.input j.before ∧ Lossless p.zlib j.before ∧ CanReplace w j.output ∧ j.made = filtered r j.before)
    (f : SpocFile) (fs : List SpocFile) (hf : jobs.map (·.before) = f :: fs) (hu : Uniform (allPoints (f :: fs)))
    (hn : (allPoints (f :: fs)).length < 2 ^ 64) (hx : (∃ g ∈ f :: fs, g.compressed = false) → ∀ q ∈ allPoints (f :: fs), q.extra.length ≤ 123)
    (hfit : (∀ g ∈ f :: fs, g.compressed = true) → FitsZlib p.zlib (allPoints (f :: fs)).length)
    (asked : Option Nat) (ha : ∀ n ∈ asked, n < 2 ^ 31) (q1 q2 : Bool) (raw filt rest : List Str)
    (ho1 : Cmd.merge.options raw = mergeOptions q1 asked) (hn1 : Cmd.merge.operands raw = jobs.map (·.input))
    (ho2 : Cmd.merge.options filt = mergeOptions q2 asked) (hn2 : Cmd.merge.operands filt = jobs.map (·.output))
    (ho3 : Asks (Cmd.filter.options rest) r) (hn3 : Cmd.filter.operands rest = [])
    (w' : World) (hw : w'.stdin = { rest := (Name.merge.run p raw w).out }) :
    (Name.merge.run p raw w).res = .ok 0 ∧ (Name.filter.run p rest w').res = .ok 0
      ∧ (Name.merge.run p filt (afterAll .filter p jobs w)).res = .ok 0
      ∧ (Name.merge.run p filt (afterAll .filter p jobs w)).out = (Name.filter.run p rest w').out := by
  have hs : ∀ g ∈ f :: fs, Writable g ∧ Lossless p.zlib g := by
    intro g hg
    rw [← hf] at hg
    obtain ⟨j, hj, rfl⟩ := List.mem_map.mp hg
    obtain ⟨-, -, -, -, ⟨x, s, -, -, hx⟩, hc, -⟩ := hjobs j hj
    exact ⟨readable_writable hx, hc⟩
  obtain ⟨hmw, hme, hml⟩ := merged_lossless asked hs hu hn hx hfit
  have part : ∀ {g : SpocFile}, Writable g → (g.compressed = false → ∀ q ∈ g.prs, q.extra.length ≤ 123) → Lossless p.zlib g → Survives p.zlib (filtered r g) := by
    intro g hw he hl
    have hsub : List.Subperm (filtered r g).prs g.prs := List.Sublist.subperm List.filter_sublist
    refine lossless_survives ?_ (fun e q hm => he e q (hsub.subset hm)) (lossless_subperm hl hsub)
    exact ⟨hw.major, hw.minor, hw.wkt, uniform_subperm hw.uniform hsub, fun q hq => hw.extra q (hsub.subset hq), lt_of_le_of_lt hsub.length_le hw.count⟩
  refine c103_filter_merge_partial p hz hsh w r hr jobs hsep h2 (fun j hj => ?_) f fs hf hu asked ha q1 q2 raw filt rest ho1 hn1 ho2 hn2 ho3 hn3
    (lossless_survives hmw hme hml) (part hmw hme hml) w' hw
  obtain ⟨a1, a2, a3, a4, a5, a6, a7, a8⟩ := hjobs j hj
  refine ⟨a1, a2, a3, a4, a5, a7, a8, ?_⟩
  rw [a8]
  obtain ⟨x, s, -, -, h3⟩ := id a5
  exact part (readable_writable h3) (fun e => (readable_survives h3 e).2.1 e) a6

/-- **C100** also for compressed files without negative zeros: merging in two steps, with a given id, writes the very bytes that merging at once does. -/
theorem c100_lossless (p : Params) (hz : p.zlib.Correct) (w : World) (n : Nat) (ha : n < 2 ^ 31)
    (first second once : List Str) (q1 q2 q3 : Bool)
    (ho1 : Cmd.merge.options first = mergeOptions q1 (some n)) (ho2 : Cmd.merge.options second = mergeOptions q2 (some n))
    (ho3 : Cmd.merge.options once = mergeOptions q3 (some n))
    (is js : List Str) (m : Str) (hm : m ∉ js)
    (h1 : Cmd.merge.operands first = is) (h2 : Cmd.merge.operands second = m :: js) (h3 : Cmd.merge.operands once = is ++ js)
    (hi : 2 ≤ is.length) (hj : js ≠ []) (f : SpocFile) (fs gs : List SpocFile)
    (hf : List.Forall₂ (fun n f => HasCloud p w.fs n f) is (f :: fs)) (hg : List.Forall₂ (fun n f => HasCloud p w.fs n f) js gs)
    (hl : ∀ g ∈ f :: fs ++ gs, Lossless p.zlib g)
    (hu : Uniform (allPoints (f :: fs ++ gs))) (hn : (allPoints (f :: fs ++ gs)).length < 2 ^ 64)
    (hx : (∃ g ∈ f :: fs ++ gs, g.compressed = false) → ∀ q ∈ allPoints (f :: fs ++ gs), q.extra.length ≤ 123)
    (hfit : (∀ g ∈ f :: fs, g.compressed = true) → FitsZlib p.zlib (allPoints (f :: fs ++ gs)).length)
    (w' : World) (hw : w'.fs = putFile w.fs m (Name.merge.run p first w).out) :
    (Name.merge.run p second w').res = .ok 0 ∧ (Name.merge.run p once w).res = .ok 0
      ∧ (Name.merge.run p second w').out = (Name.merge.run p once w).out := by
  have cloud : ∀ {ns : List Str} {cs : List SpocFile}, List.Forall₂ (fun n f => HasCloud p w.fs n f) ns cs → ∀ g ∈ cs, Writable g := by
    intro ns cs h g hg
    obtain ⟨n, -, x, s, -, -, e⟩ := forall₂_right h g hg
    exact readable_writable e
  have hall : ∀ g ∈ f :: fs ++ gs, Writable g ∧ Lossless p.zlib g := fun g h =>
    ⟨(List.mem_append.mp h).elim (cloud hf g) (cloud hg g), hl g h⟩
  have e : allPoints (f :: fs ++ gs) = allPoints (f :: fs) ++ allPoints gs := List.flatMap_append ..
  have mem : ∀ q ∈ allPoints (f :: fs), q ∈ allPoints (f :: fs ++ gs) := fun q h => by rw [e]; exact List.mem_append_left _ h
  have len : (allPoints (f :: fs)).length ≤ (allPoints (f :: fs ++ gs)).length := by rw [e, List.length_append]; omega
  obtain ⟨a1, a2, a3⟩ := merged_lossless (some n) (fun g h => hall g (List.mem_append_left _ h)) (fun x h y h' => hu x (mem x h) y (mem y h')) (lt_of_le_of_lt len hn)
    (fun ⟨g, h, h'⟩ q hq => hx ⟨g, List.mem_append_left _ h, h'⟩ q (mem q hq)) (fun h => fitsZlib_mono (hfit h) len)
  obtain ⟨b1, b2, b3⟩ := merged_lossless (z := p.zlib) (f := f) (fs := fs ++ gs) (some n) hall hu hn hx (fun h => hfit fun g h' => h g (List.mem_append_left _ h'))
  exact c100_same_bytes_partial p hz w n ha first second once q1 q2 q3 ho1 ho2 ho3 is js m hm h1 h2 h3 hi hj f fs gs hf hg hu
    (lossless_survives a1 a2 a3) (lossless_survives b1 b2 b3) w' hw

/-- **C106**, srs, for every input that can be read, compressed or not, without negative zeros if compressed. -/
theorem c106_srs_lossless (p : Params) (hz : p.zlib.Correct) (w : World) (argv : List Str) (t : Str)
    (hopt : Cmd.srs.options argv = [("srs", t)]) (hops : Cmd.srs.operands argv = []) (f : SpocFile) (s' : IStream)
    (hf : Io.readFile p.build p.zlib w.stdin = .ok (f, s')) (hl : Lossless p.zlib f) (ht : (Main.bytes t).length ≤ 65535) :
    Settled .srs p argv w := by
  have hw := readable_writable hf
  refine c106_srs_partial p hz w argv t hopt hops f s' hf (lossless_survives ⟨hw.major, hw.minor, ht, hw.uniform, hw.extra, hw.count⟩ (fun e => ?_) hl)
  exact (readable_survives hf e).2.1 e

/-- **C149**, tiles: every tile is exactly its part of the cloud, for every file that can be read, compressed or not; and every tile is such a cloud again. -/
theorem c149_tiles (p : Params) (hz : p.zlib.Correct) (w : World) (argv : List Str) (i : Str)
    (hops : Cmd.tile.operands argv = [i]) (hi : i ≠ []) (f : SpocFile) (hf : HasCloud p w.fs i f) (hl : Lossless p.zlib f)
    (a : Tile.Args) (ha : Tile.getArgs (Cmd.tile.options argv) {} = .ok a) (hv : a.version = false)
    (hh : a.help = false) {sx sy : F64} {numbers : List UInt64} (hsz : Tile.tileSizes a (Extent.ofPoints f.prs) = .ok (sx, sy))
    (hn : Tile.getTileIndexes f.prs (Extent.ofPoints f.prs) sx sy = .ok numbers)
    (hpre : (if a.pre.isEmpty then Tile.stem i else a.pre) ≠ [])
    (hfree : ∀ k ∈ numbers, Tile.Free w.canCreate a.force w.fs (tileName { a with fn := i } f k)) :
    (Name.tile.run p argv w).res = .ok 0
      ∧ (∀ k ∈ numbers, HasCloud p (Name.tile.run p argv w).fs (tileName { a with fn := i } f k) { f with prs := pointsNumbered f.prs numbers k }
          ∧ Lossless p.zlib { f with prs := pointsNumbered f.prs numbers k })
      ∧ ∀ m, (∀ k ∈ numbers, m ≠ tileName { a with fn := i } f k) → (Name.tile.run p argv w).fs m = w.fs m := by
  obtain ⟨x, s', h1, h2, h3⟩ := id hf
  have hw := readable_writable h3
  have part : ∀ k, Lossless p.zlib { f with prs := pointsNumbered f.prs numbers k } := fun k =>
    lossless_subperm hl (Tile.pointsNumbered_sublist f.prs numbers k).subperm
  obtain ⟨a1, -, a3, a4⟩ := c76_tile p hz w argv i hops hi f hf a ha hv hh hsz hn
    ⟨fun e => (readable_survives h3 e).2.1 e, fun e => ⟨(hl e).1, fun k _ =>
      ((lossless_steps h3 hl (Tile.pointsNumbered_sublist f.prs numbers k).subperm).2.2 e).2⟩⟩ hpre hfree
  refine ⟨a1, fun k hk => ⟨?_, part k⟩, a4⟩
  have := a3 k hk
  rwa [tileOf_eq hw] at this

/-! ## examples -/

/-- The hypotheses of `c106_filter_lossless` hold, for a compressed cloud. -/
example : Settled .filter exampleParams ["-cx > 13".toList] (onInput { cloudA with compressed := true }) := by
  have h := (survives_roundtrip .release toyZlib toyZlib_correct { cloudA with compressed := true }
    ⟨writable_flag cloudA_survives.1 true, fun h => by simp at h, fun _ => ⟨toyZlib_fits (by decide), cloudA_zeros⟩⟩).2 []
  rw [List.append_nil] at h
  exact c106_filter_lossless exampleParams toyZlib_correct (fun _ l => List.Perm.refl l) _ _ { coords := some (⟨0, false⟩, num 13) }
    (example_asks (by decide +kernel)) (by decide +kernel) rfl (by simp) { cloudA with compressed := true } _ h cloudZ_lossless (by decide +kernel)

/-- The hypotheses of `c111_filter_lossless` hold, for a compressed file. -/
example : ∃ qs rs, Makes .filter exampleParams exampleDisk ["--subsample=5".toList, ['z'], ['o']] ['o'] { cloudA with compressed := true, prs := qs }
    ∧ Makes .filter exampleParams exampleDisk ["--subsample=10".toList, ['z'], ['o']] ['o'] { cloudA with compressed := true, prs := rs } ∧ rs.Sublist qs := by
  have e : Cmd.filter.options ["--subsample=5".toList, ['z'], ['o']] = [("subsample", ['5'])] := by decide +kernel
  have e' : Cmd.filter.options ["--subsample=10".toList, ['z'], ['o']] = [("subsample", ['1', '0'])] := by decide +kernel
  obtain ⟨qs, rs, h1, h2, h3, -⟩ := c111_filter_lossless exampleParams toyZlib_correct (fun _ l => List.Perm.refl l) exampleDisk
    ["--subsample=5".toList, ['z'], ['o']] ["--subsample=10".toList, ['z'], ['o']] ['z'] ['o'] ['o'] ten_five 0 (by
      rw [e]
      exact ⟨by decide, by decide, by decide, by decide, by decide, by simp,
        by show some (num 5) = if F64.gt (atof ['5']) F64.zero then some (atof ['5']) else none; decide +kernel,
        .inr ⟨rfl, rfl⟩, by decide, .inl rfl⟩) (by
      rw [e']
      exact ⟨by decide, by decide, by decide, by decide, by decide, by simp,
        by show some (num 10) = if F64.gt (atof ['1', '0']) F64.zero then some (atof ['1', '0']) else none; decide +kernel,
        .inr ⟨rfl, rfl⟩, by decide, .inl rfl⟩) (by decide +kernel) (by decide +kernel)
    (by decide) (by decide) (by decide) rfl rfl _ cloudZ_on_disk cloudZ_lossless (by unfold Spec.Fin; decide +kernel) (by decide +kernel)
  exact ⟨qs, rs, h1, h2, h3⟩

/-- A compressed file and an uncompressed one. -/
def mixedJobs : List Job :=
  [⟨["-cx > 13".toList, ['z'], ['o']], ['z'], ['o'], { cloudA with compressed := true },
      filtered { coords := some (⟨0, false⟩, num 13) } { cloudA with compressed := true }⟩,
   ⟨["-cx > 13".toList, ['d'], ['u']], ['d'], ['u'], cloudA, filtered { coords := some (⟨0, false⟩, num 13) } cloudA⟩]

theorem mixedJobs_separate : Separate mixedJobs := by
  refine ⟨by decide, ?_⟩
  intro j hj k hk
  simp only [mixedJobs, List.mem_cons, List.not_mem_nil, or_false] at hj hk
  rcases hj with rfl | rfl <;> rcases hk with rfl | rfl <;> decide

/-- The hypotheses of `c103_lossless` hold. -/
example (w' : World) (hw : w'.stdin = { rest := (Name.merge.run exampleParams [['z'], ['d']] exampleDisk).out }) :
    (Name.merge.run exampleParams [['o'], ['u']] (afterAll .filter exampleParams mixedJobs exampleDisk)).out
      = (Name.filter.run exampleParams ["-cx > 13".toList] w').out := by
  refine (c103_lossless exampleParams toyZlib_correct (fun _ l => List.Perm.refl l) exampleDisk
    { coords := some (⟨0, false⟩, num 13) } ⟨rfl, rfl⟩ mixedJobs mixedJobs_separate (by decide) ?_ _ [cloudA] rfl
    (by unfold Uniform; decide +kernel) (by decide +kernel) (fun _ => by decide +kernel) (fun h => absurd (h cloudA (by simp)) (by decide)) none (by simp) false false
    [['z'], ['d']] [['o'], ['u']] ["-cx > 13".toList]
    (by decide +kernel) (by decide +kernel) (by decide +kernel) (by decide +kernel) (example_asks (by decide +kernel)) (by decide +kernel)
    w' hw).2.2.2
  intro j hj
  simp only [mixedJobs, List.mem_cons, List.not_mem_nil, or_false] at hj
  rcases hj with rfl | rfl
  · exact ⟨example_asks (by decide +kernel), by decide +kernel, by decide, by decide, cloudZ_on_disk, cloudZ_lossless, rfl, rfl⟩
  · exact ⟨example_asks (by decide +kernel), by decide +kernel, by decide, by decide, cloudA_on_disk.2, (fun e => nomatch e), rfl, rfl⟩

/-- The hypotheses of `c100_lossless` hold: first two compressed files, then an uncompressed one. -/
example : ∀ w' : World, w'.fs = putFile exampleDisk.fs ['m'] (Name.merge.run exampleParams ["-p7".toList, ['z'], ['z']] exampleDisk).out →
    (Name.merge.run exampleParams ["-p7".toList, ['m'], ['a']] w').out
      = (Name.merge.run exampleParams ["-p7".toList, ['z'], ['z'], ['a']] exampleDisk).out :=
  fun w' hw => (c100_lossless exampleParams toyZlib_correct exampleDisk 7 (by decide) ["-p7".toList, ['z'], ['z']]
    ["-p7".toList, ['m'], ['a']] ["-p7".toList, ['z'], ['z'], ['a']] false false false (by decide +kernel) (by decide +kernel)
    (by decide +kernel) [['z'], ['z']] [['a']] ['m'] (by decide) (by decide +kernel) (by decide +kernel) (by decide +kernel) (by decide)
    (by decide) _ [_] [cloudA] (.cons cloudZ_on_disk (.cons cloudZ_on_disk .nil)) (.cons cloudA_on_disk.1 .nil) (by
      intro g hg
      simp only [List.cons_append, List.nil_append, List.mem_cons, List.not_mem_nil, or_false] at hg
      rcases hg with rfl | rfl | rfl
      · exact cloudZ_lossless
      · exact cloudZ_lossless
      · exact fun e => nomatch e) (by unfold Uniform; decide +kernel) (by decide +kernel) (fun _ => by decide +kernel)
    (fun _ => toyZlib_fits (by decide +kernel)) w' hw).2.2

/-- The hypotheses of `c106_srs_lossless` hold, for a compressed cloud. -/
example : Settled .srs exampleParams ["--srs=W".toList] (onInput { cloudA with compressed := true }) := by
  have h := (survives_roundtrip .release toyZlib toyZlib_correct { cloudA with compressed := true }
    ⟨writable_flag cloudA_survives.1 true, fun h => by simp at h, fun _ => ⟨toyZlib_fits (by decide), cloudA_zeros⟩⟩).2 []
  rw [List.append_nil] at h
  exact c106_srs_lossless exampleParams toyZlib_correct _ _ ['W'] (by decide +kernel) (by decide +kernel) { cloudA with compressed := true } _ h cloudZ_lossless (by decide)

/-- The hypotheses of `c149_tiles` hold, for a compressed file. -/
example := c149_tiles exampleParams toyZlib_correct fullDisk ["-f".toList, "-s10".toList, "-pb".toList, ['z']] ['z'] (by decide +kernel)
    (by decide) { cloudA with compressed := true } cloudZ_on_fullDisk cloudZ_lossless { force := true, tileSize := num 10, pre := ['b'] } (by decide +kernel)
    rfl rfl (sx := num 10) (sy := num 10) (numbers := [0, 1, 3]) (by decide +kernel) (by decide +kernel)
    (by decide) (fun k hk => .inr ⟨rfl, fullDisk_taken _⟩)

end Spoc.Props
