import Verif.Props.TransformMerge

/-!
# C110: filtering before or after transforming
-/

namespace Spoc.Props

open Getopt Cmd Main Spec Spec.Cmd Text
open Transform (applyOps parseCommand Op)
open Io (hdr hdr_write writeFile_uncompressed_eq)

/-- The coordinate that a condition is about. -/
def conditionField (c : Condition) : Field :=
  match c.axis with | 0 => .x | 1 => .y | 2 => .z

/-- The fields that a filter looks at. -/
def looksAt (r : FilterRequest) : List Field :=
  (if r.keep = [] ∧ r.remove = [] then [] else [.c])
    ++ (if r.unique = false ∧ r.resolution = none then [] else [.x, .y, .z])
    ++ (match r.coords with | none => [] | some (c, _) => [conditionField c])

/-! ## The filter on two clouds with the same values in the fields that it looks at -/

section
variable {α : Type} [HasXYZ α]

theorem indexes_of_pts (b : Build) (sh : Subsampling.Shuffle) (ps : List α) (res : F64) (seed : Nat) :
    Subsampling.subsampleIndexes b sh ps res seed = Subsampling.subsampleIndexes b sh (ps.map pt) res seed := by
  have e1 : Extent.ofPoints (ps.map pt) = Extent.ofPoints ps := by
    unfold Extent.ofPoints
    rw [List.foldl_map]
    rfl
  have e2 : Voxel.getIndexes (ps.map pt) res = Voxel.getIndexes ps res := by
    unfold Voxel.getIndexes Voxel.getIndexesIn
    rw [e1, List.mapM_map]
    rfl
  unfold Subsampling.subsampleIndexes
  rw [e2, List.length_map]

theorem stepXyz_pts (b : Build) (ps : List α) : Subsampling.stepXyz b (ps.map pt) = Subsampling.stepXyz b ps := by
  funext a j
  unfold Subsampling.stepXyz Voxel.at'
  rw [List.length_map, List.getElem?_map]
  cases ps[j]? <;> rfl

theorem unique_of_pts (b : Build) (sh : Subsampling.Shuffle) (ps : List α) (seed : Nat) :
    Subsampling.uniqueXyzIndexes b sh ps seed = Subsampling.uniqueXyzIndexes b sh (ps.map pt) seed := by
  unfold Subsampling.uniqueXyzIndexes
  rw [stepXyz_pts, List.length_map]

end

theorem pts_eq {R : PointRecord → PointRecord → Prop} (hR : ∀ p q, R p q → pt p = pt q) {ps qs : List PointRecord}
    (h : List.Forall₂ R ps qs) : ps.map pt = qs.map pt := by
  induction h with
  | nil => rfl
  | cons h _ ih => rw [List.map_cons, List.map_cons, hR _ _ h, ih]

theorem pick_rel {R : PointRecord → PointRecord → Prop} {ps qs : List PointRecord} (h : List.Forall₂ R ps qs) (ks : List Nat)
    {ps' : List PointRecord} (hp : ks.mapM (fun i => Voxel.at' ps i) = .ok ps') :
    ∃ qs', ks.mapM (fun i => Voxel.at' qs i) = .ok qs' ∧ List.Forall₂ R ps' qs' := by
  have hl := h.length_eq
  have hget : ∀ k p, Voxel.at' ps k = .ok p → ∃ q, Voxel.at' qs k = .ok q ∧ R p q := by
    intro k p hk
    unfold Voxel.at' at hk ⊢
    by_cases hlt : k < ps.length
    · rw [List.getElem?_eq_getElem hlt] at hk
      rw [List.getElem?_eq_getElem (hl ▸ hlt)]
      obtain rfl := Res.ok.inj hk
      exact ⟨_, rfl, forall₂_get h hlt (hl ▸ hlt)⟩
    · rw [List.getElem?_eq_none (by omega)] at hk
      simp at hk
  have hp' := mapM_eq_ok.mp hp
  clear hp
  induction hp' with
  | nil => exact ⟨[], rfl, .nil⟩
  | cons h1 _ ih =>
    obtain ⟨q, hq, hr⟩ := hget _ _ h1
    obtain ⟨qs', e1, e2⟩ := ih
    refine ⟨q :: qs', ?_, .cons hr e2⟩
    rw [List.mapM_cons, hq, Res.ok_bind, e1]
    rfl

theorem filter_rel {R : PointRecord → PointRecord → Prop} {f : PointRecord → Bool} (hf : ∀ p q, R p q → f p = f q)
    {ps qs : List PointRecord} (h : List.Forall₂ R ps qs) : List.Forall₂ R (ps.filter f) (qs.filter f) := by
  induction h with
  | nil => exact .nil
  | @cons p q _ _ h _ ih =>
    rw [List.filter_cons, List.filter_cons, ← hf p q h]
    split
    · exact .cons h ih
    · exact ih

/-- A filter chooses the same points of two clouds, if the two agree in what the steps of the filter depend on. -/
theorem filterSteps_like (b : Build) (sh : Subsampling.Shuffle) (r : FilterRequest) {R : PointRecord → PointRecord → Prop}
    (hc : ¬ (r.keep = [] ∧ r.remove = []) → ∀ p q, R p q → p.c.toNat = q.c.toNat)
    (hun : r.unique = true → ∀ ps qs, List.Forall₂ R ps qs →
      Subsampling.uniqueXyzIndexes b sh qs r.seed = Subsampling.uniqueXyzIndexes b sh ps r.seed)
    (hsub : ∀ v, r.resolution = some v → ∀ ps qs, List.Forall₂ R ps qs →
      Subsampling.subsampleIndexes b sh qs v r.seed = Subsampling.subsampleIndexes b sh ps v r.seed)
    (hcond : ∀ c v, r.coords = some (c, v) → ∀ p q, R p q → c.coord p = c.coord q)
    {ps qs ps' : List PointRecord} (h : List.Forall₂ R ps qs)
    (hp : FilterSteps b sh r ps ps') : ∃ qs', FilterSteps b sh r qs qs' ∧ List.Forall₂ R ps' qs' := by
  obtain ⟨p1, p2, p3, p4, e1, e2, e3, e4, e5⟩ := hp
  -- classes
  obtain ⟨q1, f1, g1⟩ : ∃ q1, q1 = (if r.keep = [] then qs else qs.filter (fun p => decide (p.c.toNat ∈ r.keep))) ∧ List.Forall₂ R p1 q1 := by
    refine ⟨_, rfl, ?_⟩
    rw [e1]
    split
    · exact h
    · rename_i hk
      exact filter_rel (fun p q hpq => by rw [hc (fun h => hk h.1) p q hpq]) h
  obtain ⟨q2, f2, g2⟩ : ∃ q2, q2 = q1.filter (fun p => decide (p.c.toNat ∉ r.remove)) ∧ List.Forall₂ R p2 q2 := by
    refine ⟨_, rfl, ?_⟩
    rw [e2]
    by_cases hk : r.remove = []
    · simp only [hk, List.not_mem_nil, not_false_eq_true, decide_true, List.filter_true]
      exact g1
    · exact filter_rel (fun p q hpq => by rw [hc (fun h => hk h.2) p q hpq]) g1
  -- duplicates
  obtain ⟨q3, f3, g3⟩ : ∃ q3, (if r.unique then uniqueXyzPoints b sh q2 r.seed = .ok q3 else q3 = q2) ∧ List.Forall₂ R p3 q3 := by
    by_cases hu : r.unique = true
    · rw [if_pos hu] at e3
      simp only [if_pos hu]
      unfold uniqueXyzPoints at e3 ⊢
      rw [Res.bind_eq_ok] at e3
      obtain ⟨ks, k1, k2⟩ := e3
      obtain ⟨q3, m1, m2⟩ := pick_rel g2 ks k2
      refine ⟨q3, ?_, m2⟩
      rw [hun hu _ _ g2, k1, Res.ok_bind, m1]
    · rw [if_neg hu] at e3
      simp only [if_neg hu]
      exact ⟨q2, rfl, by rw [e3]; exact g2⟩
  -- subsampling
  obtain ⟨q4, f4, g4⟩ : ∃ q4, (match r.resolution with
      | none => q4 = q3
      | some h => Subsampling.subsamplePoints b sh q3 h r.seed = .ok q4) ∧ List.Forall₂ R p4 q4 := by
    cases hres : r.resolution with
    | none =>
      rw [hres] at e4
      exact ⟨q3, rfl, by rw [show p4 = p3 from e4]; exact g3⟩
    | some v =>
      rw [hres] at e4
      simp only at e4
      unfold Subsampling.subsamplePoints at e4
      rw [Res.bind_eq_ok] at e4
      obtain ⟨ks, k1, k2⟩ := e4
      obtain ⟨q4, m1, m2⟩ := pick_rel g3 ks k2
      refine ⟨q4, ?_, m2⟩
      show Subsampling.subsamplePoints b sh q3 v r.seed = .ok q4
      unfold Subsampling.subsamplePoints
      rw [hsub v hres _ _ g3, k1, Res.ok_bind, m1]
  -- conditions
  cases hco : r.coords with
  | none =>
    rw [hco] at e5
    exact ⟨q4, ⟨q1, q2, q3, q4, f1, f2, f3, f4, by rw [hco]⟩, by rw [show ps' = p4 from e5]; exact g4⟩
  | some cv =>
    obtain ⟨c, v⟩ := cv
    rw [hco] at e5
    refine ⟨_, ⟨q1, q2, q3, q4, f1, f2, f3, f4, by rw [hco]⟩, ?_⟩
    rw [show ps' = p4.filter (fun q => decide (¬ c.Holds q v)) from e5]
    refine filter_rel (fun p q hpq => ?_) g4
    have hcoord := hcond c v hco p q hpq
    rw [decide_eq_decide, not_iff_not]
    unfold Condition.Holds
    rw [hcoord]

/-- A filter that looks at fields with the same values chooses the same points. -/
theorem filterSteps_rel (b : Build) (sh : Subsampling.Shuffle) (r : FilterRequest) {R : PointRecord → PointRecord → Prop}
    (hR : ∀ p q, R p q → ∀ f ∈ looksAt r, f.get q = f.get p) {ps qs ps' : List PointRecord} (h : List.Forall₂ R ps qs)
    (hp : FilterSteps b sh r ps ps') : ∃ qs', FilterSteps b sh r qs qs' ∧ List.Forall₂ R ps' qs' := by
  have hc : ¬ (r.keep = [] ∧ r.remove = []) → ∀ p q, R p q → p.c.toNat = q.c.toNat := by
    intro hne p q hpq
    have := hR p q hpq .c (by simp [looksAt, hne])
    exact (Option.some.inj this).symm
  have hx : ¬ (r.unique = false ∧ r.resolution = none) → ∀ p q, R p q → pt p = pt q := by
    intro hne p q hpq
    have h1 := Option.some.inj (hR p q hpq .x (by simp [looksAt, hne]))
    have h2 := Option.some.inj (hR p q hpq .y (by simp [looksAt, hne]))
    have h3 := Option.some.inj (hR p q hpq .z (by simp [looksAt, hne]))
    show (⟨p.x, p.y, p.z⟩ : Pt F64) = ⟨q.x, q.y, q.z⟩
    have k : ∀ a c : F64, c.bits.toNat = a.bits.toNat → a = c := by
      rintro ⟨a⟩ ⟨c⟩ e
      exact congrArg F64.mk (UInt64.toNat_inj.mp e).symm
    rw [k _ _ h1, k _ _ h2, k _ _ h3]
  refine filterSteps_like b sh r hc (fun hu ps qs h => ?_) (fun v hres ps qs h => ?_) (fun c v hco p q hpq => ?_) h hp
  · rw [unique_of_pts, ← pts_eq (hx (by simp [hu])) h, ← unique_of_pts]
  · rw [indexes_of_pts, ← pts_eq (hx (by simp [hres])) h, ← indexes_of_pts]
  · have := hR p q hpq (conditionField c) (by simp [looksAt, hco])
    have k : ∀ a c : F64, c.bits.toNat = a.bits.toNat → a = c := by
      rintro ⟨a⟩ ⟨c⟩ e
      exact congrArg F64.mk (UInt64.toNat_inj.mp e).symm
    unfold conditionField at this
    unfold Condition.coord
    obtain ⟨ax, le⟩ := c
    match ax with
    | 0 => exact k _ _ (Option.some.inj this)
    | 1 => exact k _ _ (Option.some.inj this)
    | 2 => exact k _ _ (Option.some.inj this)

theorem pick_subperm {ps qs : List PointRecord} {ks : List Nat} (hn : ks.Nodup) (hk : ∀ k ∈ ks, k < ps.length)
    (h : ks.mapM (fun i => Voxel.at' ps i) = .ok qs) : qs.Subperm ps := by
  obtain ⟨qs', h1, h2⟩ := mapM_at ps ks hk
  rw [h] at h1
  obtain rfl := Res.ok.inj h1
  rw [forall₂_filterMap h2]
  obtain ⟨l, hl1, hl2⟩ : ks.Subperm (List.range ps.length) :=
    List.subperm_of_subset hn (fun k hk' => List.mem_range.mpr (hk k hk'))
  have h6 := hl2.filterMap (fun k => ps[k]?)
  rw [filterMap_range] at h6
  exact ⟨_, hl1.filterMap _, h6⟩

/-- A filter chooses some of the points. -/
theorem filterSteps_subperm (b : Build) (sh : Subsampling.Shuffle) (hsh : sh.Lawful) (r : FilterRequest) {ps qs : List PointRecord}
    (h : FilterSteps b sh r ps qs) : qs.Subperm ps := by
  obtain ⟨p1, p2, p3, p4, e1, e2, e3, e4, e5⟩ := h
  have s1 : p1.Subperm ps := by
    rw [e1]
    split
    · exact List.Subperm.refl _
    · exact List.filter_sublist.subperm
  have s2 : p2.Subperm p1 := by rw [e2]; exact List.filter_sublist.subperm
  have s3 : p3.Subperm p2 := by
    split at e3
    · unfold uniqueXyzPoints at e3
      rw [uniqueXyzIndexes_eq b sh hsh, Res.ok_bind] at e3
      have hsub := Subsampling.dedupe_sublist (dup := Subsampling.sameLoc p2) (Subsampling.order sh r.seed p2.length)
      exact pick_subperm (hsub.nodup (order_nodup hsh _ _))
        (fun k hk => List.mem_range.mp ((Subsampling.order_perm hsh r.seed p2.length).mem_iff.mp (hsub.subset hk))) e3
    · rw [e3]
  have s4 : p4.Subperm p3 := by
    cases hres : r.resolution with
    | none => rw [hres] at e4; rw [show p4 = p3 from e4]
    | some v =>
      rw [hres] at e4
      have h : Subsampling.subsamplePoints b sh p3 v r.seed = .ok p4 := e4
      cases hv : Voxel.getIndexes p3 v with
      | ok vs =>
        obtain ⟨ks, qs', h1, h2, h3, h4, h5, _⟩ := c23_one_per_voxel b sh hsh p3 v r.seed vs hv
        unfold Subsampling.subsamplePoints at h
        rw [h1, Res.ok_bind] at h
        exact pick_subperm h4 h5 h
      | _ =>
        have := c23_undefined b sh p3 v r.seed (by rw [hv]; rfl)
        rw [h] at this
        simp [Res.isOk] at this
  have s5 : qs.Subperm p4 := by
    cases hco : r.coords with
    | none => rw [hco] at e5; rw [show qs = p4 from e5]
    | some cv =>
      rw [hco] at e5
      rw [show qs = p4.filter _ from e5]
      exact List.filter_sublist.subperm
  exact s5.trans (s4.trans (s3.trans (s2.trans s1)))

theorem survives_subperm {zl : Zlib} {f : SpocFile} (h : Survives zl f) (hc : f.compressed = false) {l : List PointRecord}
    (hl : l.Subperm f.prs) : Survives zl { f with prs := l } :=
  ⟨⟨h.1.major, h.1.minor, h.1.wkt, uniform_subperm h.1.uniform hl, fun q hq => h.1.extra q (hl.subset hq),
    lt_of_le_of_lt hl.length_le h.1.count⟩, fun _ q hq => h.2.1 hc q (hl.subset hq), fun e => by rw [hc] at e; simp at e⟩

/-! ## The transformation -/

/-- Commands without noise treat every point in the same way. -/
theorem applyAll_rel {b : Build} {env : Transform.Env} {seed ef : Nat} {cs : List Transform.Command} {ops : List Op}
    (hcs : ∀ c ∈ cs, c.name ∈ commandOptions) (hops : cs.mapM (parseCommand b env seed ef) = .ok ops) (n : Nat) (ps qs : List PointRecord) :
    applyAll ops n ps = .ok qs ↔ List.Forall₂ (fun p q => applyOps 0 ops p = .ok q) ps qs := by
  have hnum : ∀ (n m : Nat) (p : PointRecord), applyOps n ops p = applyOps m ops p := by
    have h := mapM_eq_ok.mp hops
    clear hops
    induction h with
    | nil => intro n m p; rfl
    | @cons c op cs ops hc _ ih =>
      intro n m p
      have ih := ih (fun c h => hcs c (by simp [h]))
      simp only [applyOps]
      rw [Transform.command_number b env seed ef c op (hcs c (by simp)) hc n m p]
      congr 1
      funext q
      exact ih n m q
  induction ps generalizing n qs with
  | nil => simp [applyAll, eq_comm]
  | cons p ps ih =>
    simp only [applyAll, List.forall₂_cons_left_iff, Res.bind_eq_ok, Res.ok.injEq]
    constructor
    · rintro ⟨q, hq, l, hl, rfl⟩
      exact ⟨q, l, (hnum 0 n p).trans hq, (ih _ _).mp hl, rfl⟩
    · rintro ⟨q, l, hq, hl, rfl⟩
      exact ⟨q, (hnum n 0 p).trans hq, l, (ih _ _).mpr hl, rfl⟩

/-- Commands leave the fields alone that they do not change. -/
theorem ops_spare {b : Build} {env : Transform.Env} {seed ef : Nat} {cs : List Transform.Command} {ops : List Op} (f : Field)
    (hf : ∀ c ∈ cs, ∀ fs, Changes c.name c.params fs → f ∉ fs)
    (hops : cs.mapM (parseCommand b env seed ef) = .ok ops) {n : Nat} {p q : PointRecord} (hq : applyOps n ops p = .ok q) :
    f.get q = f.get p := by
  have h := mapM_eq_ok.mp hops
  clear hops
  induction h generalizing p with
  | nil =>
    simp only [applyOps, Res.ok.injEq] at hq
    rw [hq]
  | @cons c op cs ops hc _ ih =>
    simp only [applyOps, Res.bind_eq_ok] at hq
    obtain ⟨m, hm, hq⟩ := hq
    rw [ih (fun c h => hf c (by simp [h])) hq]
    obtain ⟨R, W, -, w, l⟩ := Transform.local_changes b env seed ef c op hc
    exact (l.frame n p m hm).2 f (hf c (by simp) W w)

/-- A run of filter on the standard input. -/
theorem filter_stdin (p : Params) (hsh : p.shuffle.Lawful) (w : World) (argv : List Str) (r : FilterRequest)
    (hopt : Asks (Cmd.filter.options argv) r) (hops : Cmd.filter.operands argv = []) (f : SpocFile) (s' : IStream)
    (hf : Io.readFile p.build p.zlib w.stdin = .ok (f, s')) :
    (∃ qs, FilterSteps p.build p.shuffle r f.prs qs
        ∧ Name.filter.run p argv w = outputStream w [] (Io.writeFile p.build p.zlib { f with prs := qs }))
      ∨ (Name.filter.run p argv w).res ≠ .ok 0 := by
  obtain ⟨a, ha, av, ah, hp⟩ := filter_process p.build p.shuffle hsh f (readable_writable hf).uniform _ r hopt
  rcases hp with ⟨qs, h3, h4⟩ | ⟨-, h4⟩
  · left
    refine ⟨qs, h3, ?_⟩
    simp only [Name.run, Main.filter, filterArgs, withOperands, ha, hops, inOut, Res.ok_bind, av, ah, Bool.false_eq_true, if_false,
      readThenWrite, inputStream, List.isEmpty_nil, if_true, Apps.fileOf, hf, h4]
  · right
    simp only [Name.run, Main.filter, filterArgs, withOperands, ha, hops, inOut, Res.ok_bind, av, ah, Bool.false_eq_true, if_false,
      readThenWrite, inputStream, List.isEmpty_nil, if_true, Apps.fileOf, hf]
    cases hq : Filter.process p.build p.shuffle a f with
    | ok g => rw [hq] at h4; simp [Res.isOk] at h4
    | _ => simp [failWith]

/-- What is common to C110 and C113. -/
theorem filter_transform_of (p : Params) (hz : p.zlib.Correct) (hsh : p.shuffle.Lawful) (f : SpocFile) (hs : Survives p.zlib f)
    (hc : f.compressed = false) (tl : Bytes) (w : World) (hw : w.stdin = { rest := (Io.writeFile p.build p.zlib f).bytes ++ tl })
    (fargv : List Str) (r : FilterRequest) (hopt : Asks (Cmd.filter.options fargv) r) (hops : Cmd.filter.operands fargv = [])
    (targv : List Str) (os : List (String × Str)) (topt : Cmd.transform.options targv = os) (hne : os ≠ [])
    (hos : ∀ o ∈ os, o.1 ∈ commandOptions) (tops : Cmd.transform.operands targv = [])
    (hrel : ∀ ops ts qs, (commandsOf os).mapM (parseCommand p.build p.env 0 f.extraFields) = .ok ops →
      List.Forall₂ (fun x y => applyOps 0 ops x = .ok y) f.prs ts →
      (Name.transform.run p targv w).out = (Io.writeFile p.build p.zlib { f with prs := ts }).bytes → Survives p.zlib { f with prs := ts } →
      FilterSteps p.build p.shuffle r f.prs qs →
      ∃ us, FilterSteps p.build p.shuffle r ts us ∧ List.Forall₂ (fun x y => applyOps 0 ops x = .ok y) qs us)
    (hfok : (Name.filter.run p fargv w).res = .ok 0) (htok : (Name.transform.run p targv w).res = .ok 0)
    (w1 w2 : World) (h1 : w1.stdin = { rest := (Name.filter.run p fargv w).out })
    (h2 : w2.stdin = { rest := (Name.transform.run p targv w).out }) :
    (Name.transform.run p targv w1).res = .ok 0 ∧ (Name.filter.run p fargv w2).res = .ok 0
      ∧ (Name.transform.run p targv w1).out = (Name.filter.run p fargv w2).out := by
  have hzr : ∀ r : Res Unit, zero r = .ok 0 ↔ r = .ok () := by intro r; cases r <;> simp [zero]
  have stdout : ∀ (w : World) (o : Out Unit), outputStream w [] o = ⟨w.fs, o.bytes, zero o.res⟩ := by
    intro w o
    simp [outputStream]
  obtain ⟨a1, a2⟩ := survives_roundtrip p.build p.zlib hz f hs
  -- the filter on the cloud
  rcases filter_stdin p hsh w fargv r hopt hops f _ (by rw [hw]; exact a2 tl) with ⟨qs, q1, q2⟩ | hbad
  swap
  · exact absurd hfok hbad
  have hq := filterSteps_subperm p.build p.shuffle hsh r q1
  have sq := survives_subperm hs hc hq
  obtain ⟨b1, b2⟩ := survives_roundtrip p.build p.zlib hz _ sq
  -- the transformation of the cloud
  have hcs : ∀ c ∈ commandsOf os, c.name ∈ commandOptions := by
    intro c h
    obtain ⟨o, ho, rfl⟩ := List.mem_map.mp h
    exact hos o ho
  have trun := fun w => transform_stdin p w targv os topt hne hos tops
  rw [trun w, hw, stdout, hzr] at htok
  obtain ⟨ops, ts, t1, t2, t3⟩ := (apply_written p.build p.zlib p.env f hs.1 hc tl (commandsOf os) 0 _).mp
    (show _ = (⟨_, .ok ()⟩ : Out Unit) by rw [← htok])
  obtain ⟨st, wt⟩ := changed hs hc t1 t2
  have hall := (applyAll_rel hcs t1 0 f.prs ts).mp t2
  obtain ⟨us, u1, u2⟩ := hrel ops ts qs t1 hall (by rw [trun w, stdout, hw]; simp only; rw [t3, wt]) st q1
  -- the transformation of what is left
  have t1' : (commandsOf os).mapM (parseCommand p.build p.env 0 (SpocFile.extraFields { f with prs := qs })) = .ok ops :=
    (parse_extra p _ _ os).trans t1
  have t2' := (applyAll_rel hcs t1 0 qs us).mpr u2
  obtain ⟨su, wu⟩ := changed (f := { f with prs := qs }) sq hc t1' t2'
  have hT : Name.transform.run p targv w1 = outputStream w1 [] (Io.writeFile p.build p.zlib { f with prs := us }) := by
    have := (apply_written p.build p.zlib p.env _ sq.1 hc [] (commandsOf os) 0 _).mpr ⟨ops, us, t1', t2', rfl⟩
    rw [List.append_nil, ← wu] at this
    rw [trun w1, h1, q2, stdout w, this]
  -- the filter on the transformed cloud
  have hread : Io.readFile p.build p.zlib w2.stdin = .ok ({ f with prs := ts }, { rest := [] }) := by
    have := (survives_roundtrip p.build p.zlib hz _ st).2 []
    rw [h2, trun w, stdout, hw]
    simp only
    rw [t3]
    rw [wt, List.append_nil] at this
    exact this
  have hF : Name.filter.run p fargv w2 = outputStream w2 [] (Io.writeFile p.build p.zlib { f with prs := us }) := by
    obtain ⟨a, ha, av, ah, hp⟩ := filter_process p.build p.shuffle hsh _ (readable_writable hread).uniform _ r hopt
    rcases hp with ⟨us', v1, v2⟩ | ⟨v1, -⟩
    · obtain rfl := filterSteps_unique u1 v1
      simp only [Name.run, Main.filter, filterArgs, withOperands, ha, hops, inOut, Res.ok_bind, av, ah, Bool.false_eq_true, if_false,
        readThenWrite, inputStream, List.isEmpty_nil, if_true, Apps.fileOf, hread, v2]
    · exact absurd ⟨us, u1⟩ v1
  rw [hT, hF, stdout, stdout, hzr, wu]
  exact ⟨rfl, rfl, rfl⟩

/-- A file that filter has read survives. -/
theorem filtered_survives (p : Params) (hsh : p.shuffle.Lawful) (f : SpocFile) (hf : Writable f) (hc : f.compressed = false) (tl : Bytes)
    (w : World) (hw : w.stdin = { rest := (Io.writeFile p.build p.zlib f).bytes ++ tl }) (argv : List Str) (r : FilterRequest)
    (hopt : Asks (Cmd.filter.options argv) r) (hops : Cmd.filter.operands argv = []) (hok : (Name.filter.run p argv w).res = .ok 0) :
    Survives p.zlib f := by
  refine ⟨hf, fun _ q hq => ?_, fun h => by rw [hc] at h; simp at h⟩
  by_contra hgt
  have hh := (c01_hang p.build p.zlib f hf hc (List.ne_nil_of_mem hq) (fun x hx => by rw [hf.uniform x hx q hq]; omega) tl).2.1
  obtain ⟨a, ha, av, ah, -⟩ := filter_process p.build p.shuffle hsh f hf.uniform _ r hopt
  simp only [Name.run, Main.filter, filterArgs, withOperands, ha, hops, inOut, Res.ok_bind, av, ah, Bool.false_eq_true, if_false,
    readThenWrite, inputStream, List.isEmpty_nil, if_true, Apps.fileOf, hw, hh] at hok
  simp [failWith] at hok

/-- **C110**: filtering a cloud and transforming what is left writes the very bytes that transforming the cloud and filtering the
result does, when the commands change no field that the filter looks at, and both the filter and the transformation succeed on
the cloud.  This includes `--unique-xyz` and `--subsample`, with and without a seed.  (Compressed clouds are refused by transform, C40.) -/
theorem c110_filter_transform (p : Params) (hz : p.zlib.Correct) (hsh : p.shuffle.Lawful) (f : SpocFile) (hf : Writable f)
    (hc : f.compressed = false) (tl : Bytes) (w : World) (hw : w.stdin = { rest := (Io.writeFile p.build p.zlib f).bytes ++ tl })
    (fargv : List Str) (r : FilterRequest) (hopt : Asks (Cmd.filter.options fargv) r) (hops : Cmd.filter.operands fargv = [])
    (targv : List Str) (os : List (String × Str)) (topt : Cmd.transform.options targv = os) (hne : os ≠ [])
    (hos : ∀ o ∈ os, o.1 ∈ commandOptions) (tops : Cmd.transform.operands targv = [])
    (hspare : ∀ o ∈ os, ∀ fs, Changes o.1 o.2 fs → ∀ k ∈ looksAt r, k ∉ fs)
    (hfok : (Name.filter.run p fargv w).res = .ok 0) (htok : (Name.transform.run p targv w).res = .ok 0)
    (w1 w2 : World) (h1 : w1.stdin = { rest := (Name.filter.run p fargv w).out })
    (h2 : w2.stdin = { rest := (Name.transform.run p targv w).out }) :
    (Name.transform.run p targv w1).res = .ok 0 ∧ (Name.filter.run p fargv w2).res = .ok 0
      ∧ (Name.transform.run p targv w1).out = (Name.filter.run p fargv w2).out := by
  have hs := filtered_survives p hsh f hf hc tl w hw fargv r hopt hops hfok
  refine filter_transform_of p hz hsh f hs hc tl w hw fargv r hopt hops targv os topt hne hos tops (fun ops ts qs t1 hall _ _ q1 => ?_)
    hfok htok w1 w2 h1 h2
  have hsame : ∀ x y, applyOps 0 ops x = .ok y → ∀ k ∈ looksAt r, k.get y = k.get x := by
    intro x y hxy k hk
    refine ops_spare k ?_ t1 hxy
    intro c h fs hn
    obtain ⟨o, ho, rfl⟩ := List.mem_map.mp h
    exact hspare o ho fs hn k hk
  exact filterSteps_rel p.build p.shuffle r hsame hall q1

/-! ## Examples -/

/-- The standard input is the cloud of the examples. -/
def exampleInput : World := { exampleDisk with stdin := { rest := (Io.writeFile .release toyZlib cloudA).bytes } }

example (w1 w2 : World) (h1 : w1.stdin = { rest := (Name.filter.run exampleParams ["-cx > 13".toList, "-u".toList] exampleInput).out })
    (h2 : w2.stdin = { rest := (Name.transform.run exampleParams ["--set=c,7".toList] exampleInput).out }) :
    (Name.transform.run exampleParams ["--set=c,7".toList] w1).out = (Name.filter.run exampleParams ["-cx > 13".toList, "-u".toList] w2).out := by
  refine (c110_filter_transform exampleParams toyZlib_correct (fun _ l => List.Perm.refl l) cloudA cloudA_survives.1 rfl [] exampleInput
    (by rw [List.append_nil]; rfl) ["-cx > 13".toList, "-u".toList] { unique := true, coords := some (⟨0, false⟩, num 13) } ?_
    (by decide +kernel) ["--set=c,7".toList] [("set", "c,7".toList)] (by decide +kernel) (by simp) (by decide) (by decide +kernel) ?_
    (by decide +kernel) (by decide +kernel) w1 w2 h1 h2).2.2
  · rw [show Cmd.filter.options ["-cx > 13".toList, "-u".toList] = [("remove-coords", "x > 13".toList), ("unique-xyz", [])] by decide +kernel]
    exact ⟨by decide, by decide, by decide, by decide, by decide, by simp, rfl, .inr ⟨rfl, rfl⟩, by decide,
      ⟨"13".toList, 2, by decide, by decide, by decide +kernel⟩⟩
  · intro o ho fs hfs
    obtain rfl := List.mem_singleton.mp ho
    rw [Transform.named_first (by simp) (Transform.changes_named (by decide) hfs)]
    decide

/-- **C110, negation**: a command that changes a field at which the filter looks. -/
theorem c110_same_field : ∃ (p : Params) (w : World),
    (Name.filter.run p ["-k7".toList] w).res = .ok 0 ∧ (Name.transform.run p ["--set=c,7".toList] w).res = .ok 0
      ∧ (Name.transform.run p ["--set=c,7".toList] { w with stdin := { rest := (Name.filter.run p ["-k7".toList] w).out } }).out
        ≠ (Name.filter.run p ["-k7".toList] { w with stdin := { rest := (Name.transform.run p ["--set=c,7".toList] w).out } }).out :=
  ⟨exampleParams, exampleInput, by decide +kernel⟩

/-- **C110, negation**: `--replace-not` for the intensity changes the class, at which the filter looks. -/
theorem c110_replace_not : ∃ (p : Params) (w : World),
    (Name.filter.run p ["-k0".toList] w).res = .ok 0 ∧ (Name.transform.run p ["--replace-not=i,1,5".toList] w).res = .ok 0
      ∧ (Name.transform.run p ["--replace-not=i,1,5".toList] { w with stdin := { rest := (Name.filter.run p ["-k0".toList] w).out } }).out
        ≠ (Name.filter.run p ["-k0".toList] { w with stdin := { rest := (Name.transform.run p ["--replace-not=i,1,5".toList] w).out } }).out :=
  ⟨exampleParams, exampleInput, by decide +kernel⟩

end Spoc.Props
