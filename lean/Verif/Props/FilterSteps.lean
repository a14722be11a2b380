import Verif.Props.Filter

/-!
# C75: the options of the filter application together
-/

namespace Spoc.Props

open Filter Spec Text

/-- The arguments of the options with a name, in the order in which they are given. -/
def given (name : String) (os : List (String × Str)) : List Str := (os.filter (fun o => decide (o.1 = name))).map (·.2)

/-- The last one counts. -/
def lastGiven (name : String) (os : List (String × Str)) : Option Str := (given name os).getLast?

/-- The options that are not about help and version. -/
def filterNames : List String := ["verbose", "keep-class", "random-seed", "remove-class", "unique-xyz", "subsample", "remove-coords"]

theorem given_cons_eq (name : String) (arg : Str) (os : List (String × Str)) : given name ((name, arg) :: os) = arg :: given name os := by
  simp [given]

theorem given_cons_ne {n name : String} (h : n ≠ name) (arg : Str) (os : List (String × Str)) : given name ((n, arg) :: os) = given name os := by
  simp [given, h]

theorem last_cons {α β : Type} (f : α → β) (d : β) (x : α) (l : List α) :
    ((x :: l).getLast?.map f).getD d = ((l.getLast?).map f).getD (f x) := by
  cases l with
  | nil => rfl
  | cons y l =>
    rw [List.getLast?_cons_cons]
    obtain ⟨z, hz⟩ : ∃ z, (y :: l).getLast? = some z := ⟨_, List.getLast?_eq_some_getLast (by simp)⟩
    rw [hz]; rfl

/-- What `get_args` finds. -/
theorem getArgs_given (os : List (String × Str)) (hos : ∀ o ∈ os, o.1 ∈ filterNames) (a : Filter.Args) :
    Filter.getArgs os a = .ok { a with
      verbose := a.verbose || !(given "verbose" os).isEmpty
      keepClasses := ((given "keep-class" os).map atoi).reverse ++ a.keepClasses
      seed := ((lastGiven "random-seed" os).map strtol).getD a.seed
      removeClasses := ((given "remove-class" os).map atoi).reverse ++ a.removeClasses
      uniqueXyz := a.uniqueXyz || !(given "unique-xyz" os).isEmpty
      subsample := ((lastGiven "subsample" os).map atof).getD a.subsample
      removeCoords := (lastGiven "remove-coords" os).getD a.removeCoords } := by
  induction os generalizing a with
  | nil => simp [Filter.getArgs, given, lastGiven]
  | cons o os ih =>
    obtain ⟨name, arg⟩ := o
    have hn : name ∈ filterNames := hos _ List.mem_cons_self
    have ih := ih (fun o h => hos o (List.mem_cons_of_mem _ h))
    unfold Filter.getArgs
    simp only [filterNames, List.mem_cons, List.not_mem_nil, or_false] at hn
    have hcoord : ∀ (x d : Str) (l : List Str), (x :: l).getLast?.getD d = l.getLast?.getD x := by
      intro x d l
      have := last_cons id d x l
      simpa using this
    rcases hn with rfl | rfl | rfl | rfl | rfl | rfl | rfl
    all_goals
      simp only [Filter.dispatch, if_true]
      simp (decide := true) only [if_false, Res.ok_bind]
      rw [ih]
      simp (decide := true) only [lastGiven, given_cons_eq, given_cons_ne, ne_eq, List.map_cons, List.reverse_cons,
        List.append_assoc, List.singleton_append, List.isEmpty_cons, Bool.not_false, Bool.or_true, Bool.true_or, last_cons, hcoord]

/-- What is asked for. -/
structure FilterRequest where
  keep : List Nat := []
  remove : List Nat := []
  unique : Bool := false
  resolution : Option F64 := none
  seed : Nat := 0
  coords : Option (Condition × F64) := none
  deriving DecidableEq

/-- The options ask for it: classes and seed are decimal numbers; of several seeds, resolutions and conditions the last one
counts; a resolution that is not above zero and an empty condition ask for nothing. -/
structure Asks (os : List (String × Str)) (r : FilterRequest) : Prop where
  names : ∀ o ∈ os, o.1 ∈ filterNames
  keep : given "keep-class" os = r.keep.map (Nat.toDigits 10)
  keepRange : ∀ n ∈ r.keep, n < 2 ^ 32
  remove : given "remove-class" os = r.remove.map (Nat.toDigits 10)
  removeRange : ∀ n ∈ r.remove, n < 2 ^ 32
  unique : r.unique = true ↔ ∃ o ∈ os, o.1 = "unique-xyz"
  resolution : match lastGiven "subsample" os with
    | none => r.resolution = none
    | some t => r.resolution = if F64.gt (atof t) F64.zero then some (atof t) else none
  seed : lastGiven "random-seed" os = some (Nat.toDigits 10 r.seed) ∨ (lastGiven "random-seed" os = none ∧ r.seed = 0)
  seedRange : r.seed < 2 ^ 63
  coords : match r.coords with
    | none => lastGiven "remove-coords" os = none ∨ lastGiven "remove-coords" os = some []
    | some (c, v) => ∃ t n, lastGiven "remove-coords" os = some (c.text ++ t) ∧ ' ' ∉ t ∧ Text.stod t = some (v, n)

/-- The steps, in this order, from the points `ps` to the points `qs`. -/
def FilterSteps (b : Build) (sh : Subsampling.Shuffle) (r : FilterRequest) (ps qs : List PointRecord) : Prop :=
  ∃ p1 p2 p3 p4,
    p1 = (if r.keep = [] then ps else ps.filter (fun p => decide (p.c.toNat ∈ r.keep)))
    ∧ p2 = p1.filter (fun p => decide (p.c.toNat ∉ r.remove))
    ∧ (if r.unique then uniqueXyzPoints b sh p2 r.seed = .ok p3 else p3 = p2)
    ∧ (match r.resolution with
        | none => p4 = p3
        | some h => Subsampling.subsamplePoints b sh p3 h r.seed = .ok p4)
    ∧ (match r.coords with
        | none => qs = p4
        | some (c, v) => qs = p4.filter (fun q => decide (¬ c.Holds q v)))

theorem strtol_digits {n : Nat} (h : n < 2 ^ 63) : strtol (Nat.toDigits 10 n) = n := by
  show strtol (showNat n) = n
  unfold strtol
  have := scanInt_of (isNumber_showNat n noDigit_nil)
  rw [List.append_nil] at this
  rw [this, decVal_showNat]
  simp only [reduceCtorEq, if_false]
  omega

/-- `unique_xyz` of a file in terms of the points. -/
theorem uniqueXyz_points (b : Build) (sh : Subsampling.Shuffle) (hsh : sh.Lawful) (f : SpocFile) (hu : Uniform f.prs) (seed : Nat) :
    ∃ qs, uniqueXyzPoints b sh f.prs seed = .ok qs ∧ uniqueXyz b sh f seed = .ok { f with prs := qs } ∧ Uniform qs := by
  have hi := uniqueXyzIndexes_eq b sh hsh f.prs seed
  have hsub := Subsampling.dedupe_sublist (dup := Subsampling.sameLoc f.prs) (Subsampling.order sh seed f.prs.length)
  have hlt : ∀ k ∈ Subsampling.dedupe (Subsampling.sameLoc f.prs) (Subsampling.order sh seed f.prs.length) [], k < f.prs.length :=
    fun k hk => List.mem_range.mp ((Subsampling.order_perm hsh seed f.prs.length).mem_iff.mp (hsub.subset hk))
  obtain ⟨qs, h1, h2, h3⟩ := pick_only f hu _ (hsub.nodup (order_nodup hsh _ _)) hlt
  obtain ⟨qs', h4, h5⟩ := mapM_at f.prs _ hlt
  have e : qs' = qs := by rw [forall₂_filterMap h5, forall₂_filterMap h1]
  refine ⟨qs, ?_, ?_, uniform_subperm hu h2⟩
  · unfold uniqueXyzPoints
    rw [hi, Res.ok_bind, h4, e]
  · unfold uniqueXyz
    rw [hi, Res.ok_bind]
    exact h3

/-- `subsample_file` of a file in terms of the points. -/
theorem subsampleFile_points (b : Build) (sh : Subsampling.Shuffle) (hsh : sh.Lawful) (f : SpocFile) (hu : Uniform f.prs)
    (res : F64) (seed : Nat) {qs : List PointRecord} (h : Subsampling.subsamplePoints b sh f.prs res seed = .ok qs) :
    subsampleFile b sh f res seed = .ok { f with prs := qs } ∧ Uniform qs := by
  have hsp : qs.Subperm f.prs := by
    cases hv : Voxel.getIndexes f.prs res with
    | ok vs =>
      obtain ⟨ks, qs', h1, h2, h3, h4, h5, _⟩ := c23_one_per_voxel b sh hsh f.prs res seed vs hv
      rw [h] at h2
      obtain rfl := Res.ok.inj h2
      rw [forall₂_filterMap h3]
      obtain ⟨l, hl1, hl2⟩ : ks.Subperm (List.range f.prs.length) :=
        List.subperm_of_subset h4 (fun k hk' => List.mem_range.mpr (h5 k hk'))
      have h6 := hl2.filterMap (fun k => f.prs[k]?)
      rw [filterMap_range] at h6
      exact ⟨_, hl1.filterMap _, h6⟩
    | _ =>
      have := c23_undefined b sh f.prs res seed (by rw [hv]; rfl)
      rw [h] at this
      simp [Res.isOk] at this
  have hq := uniform_subperm hu hsp
  refine ⟨?_, hq⟩
  unfold subsampleFile
  rw [h, Res.ok_bind]
  unfold SpocFile.setPointRecords
  split
  · next hb =>
    have := (Props.uniform_iff { f with prs := qs }).mp hq
    unfold SpocFile.isValid at this
    simp_all
  · rfl

/-- A step that fails makes the rest fail. -/
theorem bind_notOk {α β : Type} {x : Res α} (h : x.isOk = false) (g : α → Res β) : (x >>= g).isOk = false := by
  cases x <;> first | rfl | simp [Res.isOk] at h

theorem lift_notOk {α : Type} {x : Res α} (h : x.isOk = false) (g : α → Out Unit) :
    (Out.lift x >>= g).bytes = [] ∧ (Out.lift x >>= g).res ≠ .ok () := by
  cases x <;> first | (simp [Res.isOk] at h; done) | (simp [Bind.bind, Out.bind, Out.lift])

/-- What `get_args` and the processing steps do. -/
theorem filter_process (b : Build) (sh : Subsampling.Shuffle) (hsh : sh.Lawful) (f : SpocFile) (hu : Uniform f.prs)
    (os : List (String × Str)) (r : FilterRequest) (hos : Asks os r) :
    ∃ a, Filter.getArgs os {} = .ok a ∧ a.version = false ∧ a.help = false ∧
      ((∃ qs, FilterSteps b sh r f.prs qs ∧ process b sh a f = .ok { f with prs := qs })
        ∨ ((¬ ∃ qs, FilterSteps b sh r f.prs qs) ∧ (process b sh a f).isOk = false)) := by
  obtain ⟨hnames, hk, hkr, hrm, hrr, hun, hres, hseed, hsr, hco⟩ := hos
  obtain ⟨a, ha, ak, ar, au, ac, as, asub, av, ah⟩ : ∃ a : Filter.Args, Filter.getArgs os {} = .ok a
      ∧ a.keepClasses = r.keep.reverse.map (fun n => atoi (Nat.toDigits 10 n))
      ∧ a.removeClasses = r.remove.reverse.map (fun n => atoi (Nat.toDigits 10 n))
      ∧ a.uniqueXyz = r.unique
      ∧ (match r.coords with
          | none => a.removeCoords = []
          | some (c, v) => ∃ t n, a.removeCoords = c.text ++ t ∧ ' ' ∉ t ∧ Text.stod t = some (v, n))
      ∧ a.seed = r.seed
      ∧ (match r.resolution with
          | none => F64.gt a.subsample F64.zero = false
          | some h => a.subsample = h ∧ F64.gt h F64.zero = true)
      ∧ a.version = false ∧ a.help = false := by
    refine ⟨_, getArgs_given os hnames {}, ?_, ?_, ?_, ?_, ?_, ?_, rfl, rfl⟩
    · simp [hk, List.map_reverse, Function.comp_def]
    · simp [hrm, List.map_reverse, Function.comp_def]
    · rw [Bool.eq_iff_iff, hun]
      simp [given, List.filter_eq_nil_iff]
    · split at hco
      · rcases hco with e | e <;> simp [e]
      · obtain ⟨t, n, e, h1, h2⟩ := hco
        exact ⟨t, n, by simp [e], h1, h2⟩
    · rcases hseed with e | ⟨e, e0⟩
      · simp [e, strtol_digits hsr]
      · simp [e, e0]
    · split at hres
      · next e => 
        rw [hres, e]
        show F64.gt F64.zero F64.zero = false
        decide
      · next t e =>
        rw [hres, e]
        cases hg : F64.gt (atof t) F64.zero
        · simpa using hg
        · exact ⟨rfl, hg⟩
  have hsd : (UInt64.ofInt a.seed).toNat = r.seed := by
    rw [as]
    show (UInt64.ofNat _).toNat = _
    rw [UInt64.toNat_ofNat']
    omega
  -- keep
  obtain ⟨p1, e1, s1, u1⟩ : ∃ p1, p1 = (if r.keep = [] then f.prs else f.prs.filter (fun p => decide (p.c.toNat ∈ r.keep)))
      ∧ stage (!a.keepClasses.isEmpty) (keepClasses · a.keepClasses) f = .ok { f with prs := p1 } ∧ Uniform p1 := by
    refine ⟨_, rfl, ?_⟩
    by_cases hke : r.keep = []
    · rw [ak, if_pos hke, hke]
      exact ⟨rfl, hu⟩
    · rw [if_neg hke, show (!a.keepClasses.isEmpty) = true by rw [ak]; simpa [List.isEmpty_iff] using hke]
      have h := (c39_keep_remove f hu r.keep.reverse (fun n h => hkr n (List.mem_reverse.mp h))).1
      have hu' := uniform_sublist hu (List.filter_sublist (p := fun p : PointRecord => decide (p.c.toNat ∈ r.keep)))
      rw [ak]
      simp only [List.mem_reverse] at h
      exact ⟨stage_true h hu', hu'⟩
  -- remove
  obtain ⟨p2, e2, s2, u2⟩ : ∃ p2, p2 = p1.filter (fun p => decide (p.c.toNat ∉ r.remove))
      ∧ stage (!a.removeClasses.isEmpty) (removeClasses · a.removeClasses) { f with prs := p1 } = .ok { f with prs := p2 } ∧ Uniform p2 := by
    refine ⟨_, rfl, ?_⟩
    have hu' := uniform_sublist u1 (List.filter_sublist (p := fun p : PointRecord => decide (p.c.toNat ∉ r.remove)))
    refine ⟨?_, hu'⟩
    by_cases hke : r.remove = []
    · rw [ar, hke]
      simp [stage_false]
    · rw [show (!a.removeClasses.isEmpty) = true by rw [ar]; simpa [List.isEmpty_iff] using hke]
      have h := (c39_keep_remove { f with prs := p1 } u1 r.remove.reverse (fun n h => hrr n (List.mem_reverse.mp h))).2
      rw [ar]
      simp only [List.mem_reverse] at h
      exact stage_true h hu'
  -- duplicates
  obtain ⟨p3, e3, s3, u3⟩ : ∃ p3, (if r.unique then uniqueXyzPoints b sh p2 r.seed = .ok p3 else p3 = p2)
      ∧ stage a.uniqueXyz (uniqueXyz b sh · r.seed) { f with prs := p2 } = .ok { f with prs := p3 } ∧ Uniform p3 := by
    rw [au]
    cases r.unique
    · exact ⟨p2, rfl, rfl, u2⟩
    · obtain ⟨qs, h1, h2, h3⟩ := uniqueXyz_points b sh hsh { f with prs := p2 } u2 r.seed
      exact ⟨qs, h1, stage_true h2 h3, h3⟩
  -- coordinates
  have s5 : ∀ p4, Uniform p4 → ∃ qs, (match r.coords with
        | none => qs = p4
        | some (c, v) => qs = p4.filter (fun q => decide (¬ c.Holds q v)))
      ∧ stage (!a.removeCoords.isEmpty) (removeCoords Text.stod · a.removeCoords) { f with prs := p4 } = .ok { f with prs := qs } := by
    intro p4 u4
    split at ac
    · rw [ac]
      exact ⟨p4, rfl, rfl⟩
    · next c v _ =>
      obtain ⟨t, n, h1, h2, h3⟩ := ac
      rw [h1]
      refine ⟨_, rfl, ?_⟩
      have hne : (!(c.text ++ t).isEmpty) = true := by simp [Condition.text]
      rw [hne]
      exact stage_true (c40_removes Text.stod { f with prs := p4 } u4 c t h2 v n h3) (uniform_sublist u4 List.filter_sublist)
  refine ⟨a, ha, av, ah, ?_⟩
  have hproc : process b sh a f = (do
      let f4 ← stage (F64.gt a.subsample F64.zero) (subsampleFile b sh · a.subsample r.seed) { f with prs := p3 }
      stage (!a.removeCoords.isEmpty) (removeCoords Text.stod · a.removeCoords) f4) := by
    unfold process
    simp only [hsd]
    rw [s1, Res.ok_bind, s2, Res.ok_bind, s3, Res.ok_bind]
  have done : ∀ p4, Uniform p4 → (match r.resolution with
        | none => p4 = p3
        | some h => Subsampling.subsamplePoints b sh p3 h r.seed = .ok p4) →
      stage (F64.gt a.subsample F64.zero) (subsampleFile b sh · a.subsample r.seed) { f with prs := p3 } = .ok { f with prs := p4 } →
      ∃ qs, FilterSteps b sh r f.prs qs ∧ process b sh a f = .ok { f with prs := qs } := by
    intro p4 u4 h4 s4
    obtain ⟨qs, h5, s5⟩ := s5 p4 u4
    refine ⟨qs, ⟨p1, p2, p3, p4, e1, e2, e3, h4, h5⟩, ?_⟩
    rw [hproc, s4, Res.ok_bind, s5]
  cases hq : r.resolution with
  | none =>
    rw [hq] at asub done
    refine .inl (done p3 u3 rfl ?_)
    rw [asub]
    rfl
  | some h =>
    rw [hq] at asub done
    obtain ⟨as1, as2⟩ := asub
    cases h4 : Subsampling.subsamplePoints b sh p3 h r.seed with
    | ok p4 =>
      obtain ⟨h5, u4⟩ := subsampleFile_points b sh hsh { f with prs := p3 } u3 h r.seed h4
      refine .inl (done p4 u4 h4 ?_)
      rw [as1, as2]
      exact stage_true h5 u4
    | _ =>
      refine .inr ⟨?_, ?_⟩
      · rintro ⟨qs, q1, q2, q3, q4, g1, g2, g3, g4, g5⟩
        rw [hq] at g4
        obtain rfl : q1 = p1 := by rw [e1, g1]
        obtain rfl : q2 = p2 := by rw [e2, g2]
        obtain rfl : q3 = p3 := by
          cases hun' : r.unique
          · rw [hun'] at g3 e3
            simp only [Bool.false_eq_true, if_false] at g3 e3
            rw [e3, g3]
          · rw [hun'] at g3 e3
            simp only [if_true] at g3 e3
            rw [e3] at g3
            exact (Res.ok.inj g3).symm
        simp only at g4
        rw [h4] at g4
        simp at g4
      · rw [hproc]
        refine bind_notOk ?_ _
        rw [as1, as2]
        unfold stage
        rw [if_pos rfl]
        refine bind_notOk ?_ _
        unfold subsampleFile
        refine bind_notOk ?_ _
        show (Subsampling.subsamplePoints b sh p3 h r.seed).isOk = false
        rw [h4]; rfl

/-- **C75**: whatever the order of the options on the command line, the filter application keeps the asked classes, then
removes the asked classes, then the duplicates, then subsamples, then removes by coordinate, with the seed that is given in both
random steps; it writes the result with everything else of the file unchanged.  If a step is not possible (the voxels
of the subsampling cannot be computed), it writes nothing and fails. -/
theorem c75_filter_steps (b : Build) (zl : Zlib) (sh : Subsampling.Shuffle) (hsh : sh.Lawful) (s : IStream) (f : SpocFile)
    (rest : IStream) (hr : Io.readFile b zl s = .ok (f, rest)) (os : List (String × Str)) (r : FilterRequest) (hos : Asks os r) :
    (∃ qs, FilterSteps b sh r f.prs qs ∧ Filter.main b zl sh os s = Io.writeFile b zl { f with prs := qs })
    ∨ ((¬ ∃ qs, FilterSteps b sh r f.prs qs)
        ∧ (Filter.main b zl sh os s).bytes = [] ∧ (Filter.main b zl sh os s).res ≠ .ok ()) := by
  obtain ⟨a, ha, av, ah, hp⟩ := filter_process b sh hsh f (readable_writable hr).uniform os r hos
  have hmain : Filter.main b zl sh os s = (do
      let g ← Out.lift (process b sh a f)
      Io.writeFile b zl g) := by
    unfold Filter.main
    rw [ha, Out.lift_ok_bind]
    simp only [av, ah, Bool.false_eq_true, if_false]
    rw [Apps.fileOf, hr, Res.ok_bind]
    simp only [Out.lift_ok_bind]
  rcases hp with ⟨qs, h1, h2⟩ | ⟨h1, h2⟩
  · exact .inl ⟨qs, h1, by rw [hmain, h2, Out.lift_ok_bind]⟩
  · refine .inr ⟨h1, ?_⟩
    rw [hmain]
    exact lift_notOk h2 _

/-- The steps determine the result. -/
theorem filterSteps_unique {b : Build} {sh : Subsampling.Shuffle} {r : FilterRequest} {ps qs qs' : List PointRecord}
    (h : FilterSteps b sh r ps qs) (h' : FilterSteps b sh r ps qs') : qs = qs' := by
  obtain ⟨p1, p2, p3, p4, e1, e2, e3, e4, e5⟩ := h
  obtain ⟨q1, q2, q3, q4, g1, g2, g3, g4, g5⟩ := h'
  obtain rfl : q1 = p1 := by rw [e1, g1]
  obtain rfl : q2 = p2 := by rw [e2, g2]
  obtain rfl : q3 = p3 := by
    cases hun' : r.unique
    · rw [hun'] at g3 e3
      simp only [Bool.false_eq_true, if_false] at g3 e3
      rw [e3, g3]
    · rw [hun'] at g3 e3
      simp only [if_true] at g3 e3
      rw [e3] at g3
      exact (Res.ok.inj g3).symm
  obtain rfl : q4 = p4 := by
    cases hq : r.resolution with
    | none =>
      rw [hq] at e4 g4
      exact g4.trans e4.symm
    | some h =>
      rw [hq] at e4 g4
      simp only at e4 g4
      rw [e4] at g4
      exact (Res.ok.inj g4).symm
  cases hq : r.coords with
  | none =>
    rw [hq] at e5 g5
    exact e5.trans g5.symm
  | some h =>
    rw [hq] at e5 g5
    exact e5.trans g5.symm

/-- The order of the options does not matter, the later seed counts, and the random steps follow the seed. -/
def exampleFilterOptions : List (String × Str) :=
  [("remove-coords", "x > 10".toList), ("random-seed", ['3']), ("keep-class", ['2']), ("subsample", "0.5".toList),
    ("random-seed", ['7']), ("unique-xyz", []), ("keep-class", ['6'])]

example : Asks exampleFilterOptions
    { keep := [2, 6], unique := true, resolution := some ⟨0x3FE0000000000000⟩, seed := 7,
      coords := some (⟨0, false⟩, ⟨0x4024000000000000⟩) } :=
  ⟨by decide, by decide, by decide, by decide, by decide, by simp [exampleFilterOptions], by
    show some (⟨0x3FE0000000000000⟩ : F64) = if F64.gt (atof "0.5".toList) F64.zero then some (atof "0.5".toList) else none
    decide +kernel, .inl (by decide), by decide,
    ⟨"10".toList, 2, by decide, by decide, by decide +kernel⟩⟩

end Spoc.Props
