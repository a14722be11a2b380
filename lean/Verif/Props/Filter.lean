import Verif.Proofs.Filter

/-!
# C39, C40: the filter application
-/

namespace Spoc.Props

open Spec Filter Text

/-- The options `--name=n` for the numbers `ns`, as they are written on a command line. -/
def classOptions (name : String) (ns : List Nat) : List (String × Str) := ns.map (fun n => (name, Nat.toDigits 10 n))

theorem toInt_mem' {c : UInt32} {ns : List Nat} (hn : ∀ n ∈ ns, n < 2 ^ 32) :
    toInt c ∈ ns.map (fun n => atoi (Nat.toDigits 10 n)) ↔ c.toNat ∈ ns := toInt_mem hn

/-- **C39**: with the classes `ns`, `keep_classes` returns exactly the points whose class is among them, `remove_classes` exactly
the others, in file order, and everything else of the file is unchanged. -/
theorem c39_keep_remove (f : SpocFile) (hf : Uniform f.prs) (ns : List Nat) (hn : ∀ n ∈ ns, n < 2 ^ 32) :
    keepClasses f (ns.map (fun n => atoi (Nat.toDigits 10 n)))
      = .ok { f with prs := f.prs.filter (fun p => decide (p.c.toNat ∈ ns)) }
    ∧ removeClasses f (ns.map (fun n => atoi (Nat.toDigits 10 n)))
      = .ok { f with prs := f.prs.filter (fun p => decide (p.c.toNat ∉ ns)) } := by
  constructor
  · unfold keepClasses
    rw [select_eq _ f hf, List.filter_congr (fun p _ => decide_eq_decide.mpr (toInt_mem' hn))]
  · unfold removeClasses
    rw [select_eq _ f hf, List.filter_congr (fun p _ => decide_eq_decide.mpr (not_congr (toInt_mem' hn)))]

example : Uniform exampleFile.prs ∧ ∀ n ∈ [2, 4294967295], n < 2 ^ 32 :=
  ⟨exampleFile_writable.uniform, by decide⟩

/-- **C39**: for every set of integers, the two results share no point, contain every point exactly once, and keep the order. -/
theorem c39_partition (f : SpocFile) (hf : Uniform f.prs) (c : List Int) :
    ∃ k r, keepClasses f c = .ok k ∧ removeClasses f c = .ok r
      ∧ k.prs.Sublist f.prs ∧ r.prs.Sublist f.prs ∧ (k.prs ++ r.prs).Perm f.prs
      ∧ (∀ p ∈ k.prs, ∀ q ∈ r.prs, p.c ≠ q.c)
      ∧ k.cloneEmpty = f.cloneEmpty ∧ r.cloneEmpty = f.cloneEmpty := by
  refine ⟨_, _, select_eq _ f hf, select_eq _ f hf, List.filter_sublist, List.filter_sublist, ?_, ?_, rfl, rfl⟩
  · have := List.filter_append_perm (fun p : PointRecord => decide (toInt p.c ∈ c)) f.prs
    have e : f.prs.filter (fun p => decide (toInt p.c ∉ c))
        = f.prs.filter (fun x => !decide (toInt x.c ∈ c)) := by
      congr 1; funext p; simp
    simp only
    rw [e]
    exact this
  · intro p hp q hq e
    have h1 := (List.mem_filter.mp hp).2
    have h2 := (List.mem_filter.mp hq).2
    simp only [decide_eq_true_eq] at h1 h2
    rw [e] at h1
    exact h2 h1

theorem keep_getArgs (ns : List Nat) (a : Args) : getArgs (classOptions "keep-class" ns) a
    = .ok { a with keepClasses := (ns.map (fun n => atoi (Nat.toDigits 10 n))).reverse ++ a.keepClasses } := by
  induction ns generalizing a with
  | nil => rfl
  | cons n ns ih =>
    show (do
      let a' ← dispatch a "keep-class" (Nat.toDigits 10 n)
      if "keep-class" = "help" then .ok a' else getArgs (classOptions "keep-class" ns) a') = _
    have : dispatch a "keep-class" (Nat.toDigits 10 n) = .ok { a with keepClasses := atoi (Nat.toDigits 10 n) :: a.keepClasses } := rfl
    rw [this, Res.ok_bind, if_neg (by decide), ih]
    simp

theorem remove_getArgs (ns : List Nat) (a : Args) : getArgs (classOptions "remove-class" ns) a
    = .ok { a with removeClasses := (ns.map (fun n => atoi (Nat.toDigits 10 n))).reverse ++ a.removeClasses } := by
  induction ns generalizing a with
  | nil => rfl
  | cons n ns ih =>
    show (do
      let a' ← dispatch a "remove-class" (Nat.toDigits 10 n)
      if "remove-class" = "help" then .ok a' else getArgs (classOptions "remove-class" ns) a') = _
    have : dispatch a "remove-class" (Nat.toDigits 10 n) = .ok { a with removeClasses := atoi (Nat.toDigits 10 n) :: a.removeClasses } := rfl
    rw [this, Res.ok_bind, if_neg (by decide), ih]
    simp

/-- **C39** for the application: `--keep-class` given any number of times (at least once) makes it write the file of the points
with one of these classes. -/
theorem c39_app_keep (b : Build) (zl : Zlib) (sh : Subsampling.Shuffle) (s : IStream) (f : SpocFile) (rest : IStream)
    (hr : Io.readFile b zl s = .ok (f, rest)) (ns : List Nat) (hne : ns ≠ []) (hn : ∀ n ∈ ns, n < 2 ^ 32) :
    Filter.main b zl sh (classOptions "keep-class" ns) s
      = Io.writeFile b zl { f with prs := f.prs.filter (fun p => decide (p.c.toNat ∈ ns)) } := by
  have hu := (readable_writable hr).uniform
  have hk := (c39_keep_remove f hu ns.reverse (fun n h => hn n (List.mem_reverse.mp h))).1
  unfold Filter.main
  rw [keep_getArgs, Out.lift_ok_bind]
  simp only [Bool.false_eq_true, if_false]
  rw [Apps.fileOf, hr, Res.ok_bind]
  simp only [Out.lift_ok_bind]
  have hp : process b sh { keepClasses := (ns.map (fun n => atoi (Nat.toDigits 10 n))).reverse ++ [] } f
      = .ok { f with prs := f.prs.filter (fun p => decide (p.c.toNat ∈ ns)) } := by
    unfold process
    have e1 : (!((ns.map (fun n => atoi (Nat.toDigits 10 n))).reverse ++ []).isEmpty) = true := by
      cases ns with
      | nil => exact absurd rfl hne
      | cons => simp
    have e2 : (ns.map (fun n => atoi (Nat.toDigits 10 n))).reverse ++ []
      = ns.reverse.map (fun n => atoi (Nat.toDigits 10 n)) := by simp
    have e3 : F64.gt F64.zero F64.zero = false := by decide
    simp only
    rw [e1, e2, stage_true hk (uniform_sublist hu List.filter_sublist), e3]
    simp only [stage_false, Res.ok_bind, List.isEmpty_nil, Bool.not_true, List.mem_reverse]
  rw [hp, Out.lift_ok_bind]

/-- **C39** for the application: likewise `--remove-class`. -/
theorem c39_app_remove (b : Build) (zl : Zlib) (sh : Subsampling.Shuffle) (s : IStream) (f : SpocFile) (rest : IStream)
    (hr : Io.readFile b zl s = .ok (f, rest)) (ns : List Nat) (hne : ns ≠ []) (hn : ∀ n ∈ ns, n < 2 ^ 32) :
    Filter.main b zl sh (classOptions "remove-class" ns) s
      = Io.writeFile b zl { f with prs := f.prs.filter (fun p => decide (p.c.toNat ∉ ns)) } := by
  have hu := (readable_writable hr).uniform
  have hk := (c39_keep_remove f hu ns.reverse (fun n h => hn n (List.mem_reverse.mp h))).2
  unfold Filter.main
  rw [remove_getArgs, Out.lift_ok_bind]
  simp only [Bool.false_eq_true, if_false]
  rw [Apps.fileOf, hr, Res.ok_bind]
  simp only [Out.lift_ok_bind]
  have hp : process b sh { removeClasses := (ns.map (fun n => atoi (Nat.toDigits 10 n))).reverse ++ [] } f
      = .ok { f with prs := f.prs.filter (fun p => decide (p.c.toNat ∉ ns)) } := by
    unfold process
    have e1 : (!((ns.map (fun n => atoi (Nat.toDigits 10 n))).reverse ++ []).isEmpty) = true := by
      cases ns with
      | nil => exact absurd rfl hne
      | cons => simp
    have e2 : (ns.map (fun n => atoi (Nat.toDigits 10 n))).reverse ++ []
      = ns.reverse.map (fun n => atoi (Nat.toDigits 10 n)) := by simp
    have e3 : F64.gt F64.zero F64.zero = false := by decide
    simp only
    rw [e1, e2, e3, List.isEmpty_nil, Bool.not_true, stage_false, Res.ok_bind,
      stage_true hk (uniform_sublist hu List.filter_sublist)]
    simp only [stage_false, Res.ok_bind, List.isEmpty_nil, Bool.not_true, List.mem_reverse]
  rw [hp, Out.lift_ok_bind]

example : ∃ rest, Io.readFile .release toyZlib { rest := (Io.writeFile .release toyZlib exampleFile).bytes }
    = .ok (exampleFile, rest) := by
  have := (survives_roundtrip .release toyZlib toyZlib_correct exampleFile
    ⟨exampleFile_writable, fun _ => by decide, fun h => by simp [exampleFile] at h⟩).2 []
  rw [List.append_nil] at this
  exact ⟨_, this⟩

/-- What is not a number counts as class 0. -/
theorem c39_not_a_number : getArgs [("keep-class", "ground".toList)] {} = .ok { keepClasses := [0] } := by decide +kernel

/-! ## C40 -/

theorem valueOf_axis (c : Condition) :
    valueOf [match c.axis with | 0 => 'x' | 1 => 'y' | 2 => 'z'] = .ok (fun q => c.coord q) := by
  obtain ⟨a, l⟩ := c
  match a with
  | 0 => rfl
  | 1 => rfl
  | 2 => rfl

theorem compareOf_less (l : Bool) : compareOf [if l then '<' else '>']
    = .ok (fun v1 v2 => if (if l then F64.lt v1 v2 else F64.gt v1 v2) then F64.one else F64.zero) := by
  cases l <;> rfl

theorem text_eq (c : Condition) (t : Str) : c.text ++ t
    = [match c.axis with | 0 => 'x' | 1 => 'y' | 2 => 'z'] ++ ' ' :: ([if c.less then '<' else '>'] ++ ' ' :: t) := rfl

theorem axis_no_space (c : Condition) : ' ' ∉ [match c.axis with | 0 => 'x' | 1 => 'y' | 2 => 'z'] := by
  generalize c.axis = a
  revert a
  decide

theorem rel_no_space (l : Bool) : ' ' ∉ [if l then '<' else '>'] := by cases l <;> decide

/-- **C40**: an axis, a relation and a number removes exactly the points whose coordinate stands in the relation to the number. -/
theorem c40_removes (stod : AppUtils.Stod) (f : SpocFile) (hf : Uniform f.prs) (c : Condition) (t : Str) (ht : ' ' ∉ t)
    (v : F64) (n : Nat) (hv : stod t = some (v, n)) :
    removeCoords stod f (c.text ++ t) = .ok { f with prs := f.prs.filter (fun q => decide (¬ c.Holds q v)) } := by
  unfold removeCoords
  rw [text_eq, split_three.mpr ⟨rfl, axis_no_space c, rel_no_space c.less, ht⟩]
  simp only
  rw [valueOf_axis, Res.ok_bind, compareOf_less, Res.ok_bind, hv]
  simp only
  rw [select_eq _ f hf]
  congr 3
  funext q
  have h0 : F64.feq F64.one F64.zero = false := by decide +kernel
  have h1 : F64.feq F64.zero F64.zero = true := by decide
  unfold Condition.Holds
  by_cases hc : c.less = true
  · simp only [hc, if_true]
    cases hl : F64.lt (c.coord q) v with
    | true =>
      rw [if_pos rfl, h0]
      have := F64.lt_iff.mp hl
      simp [this]
    | false =>
      rw [if_neg (by decide), h1]
      have : ¬ ((c.coord q).isNaN = false ∧ v.isNaN = false ∧ (c.coord q).fv < v.fv) := by
        rw [← F64.lt_iff, hl]; decide
      simp [this]
  · simp only [hc, Bool.false_eq_true, if_false, gt_iff_lt]
    cases hl : F64.gt (c.coord q) v with
    | true =>
      rw [if_pos rfl, h0]
      have := F64.lt_iff.mp hl
      simp [this]
    | false =>
      rw [if_neg (by decide), h1]
      have : ¬ ((c.coord q).isNaN = false ∧ v.isNaN = false ∧ v.fv < (c.coord q).fv) := by
        intro h
        have := F64.lt_iff.mpr ⟨h.2.1, h.1, h.2.2⟩
        unfold F64.gt at hl
        rw [hl] at this
        exact absurd this (by decide)
      simp [this]

/-- `x > 10.5` -/
example : Uniform exampleFile.prs ∧ ' ' ∉ "10.5".toList ∧ (Text.stod "10.5".toList).isSome = true
    ∧ (⟨0, false⟩ : Condition).text ++ "10.5".toList = "x > 10.5".toList :=
  ⟨exampleFile_writable.uniform, by decide, by decide +kernel, by decide⟩

/-- **C40** (partial: text behind the number is accepted, see `c40_trailing_text_accepted`): every other string is
rejected with an exception: everything that is not an axis, a space, a relation, a space, and a string without spaces
that `stod` accepts. -/
theorem c40_rejects_partial (stod : AppUtils.Stod) (f : SpocFile) (op : Str)
    (h : ¬ ∃ (c : Condition) (t : Str), op = c.text ++ t ∧ ' ' ∉ t ∧ (stod t).isSome = true) :
    ∃ what, removeCoords stod f op = .throw what := by
  unfold removeCoords
  split
  · next a r t e =>
    obtain ⟨e, h1, h2, h3⟩ := split_three.mp e
    cases hv : valueOf a with
    | ok val =>
      cases hc : compareOf r with
      | ok cmp =>
        simp only [Res.ok_bind]
        cases hs : stod t with
        | none => exact ⟨_, rfl⟩
        | some w =>
          exfalso
          apply h
          have ha : ∃ i : Fin 3, a = [match i with | 0 => 'x' | 1 => 'y' | 2 => 'z'] := by
            unfold valueOf at hv
            split at hv
            · next h => exact ⟨0, h⟩
            · split at hv
              · next h => exact ⟨1, h⟩
              · split at hv
                · next h => exact ⟨2, h⟩
                · simp at hv
          have hb : ∃ l : Bool, r = [if l then '<' else '>'] := by
            unfold compareOf at hc
            split at hc
            · next h => exact ⟨false, h⟩
            · split at hc
              · next h => exact ⟨true, h⟩
              · simp at hc
          obtain ⟨i, ha⟩ := ha
          obtain ⟨l, hb⟩ := hb
          refine ⟨⟨i, l⟩, t, ?_, h3, by rw [hs]; rfl⟩
          rw [text_eq, e, ha, hb]
      | throw w => exact ⟨w, rfl⟩
      | ub w => unfold compareOf at hc; split at hc <;> (try split at hc) <;> simp at hc
      | abort => unfold compareOf at hc; split at hc <;> (try split at hc) <;> simp at hc
      | hang => unfold compareOf at hc; split at hc <;> (try split at hc) <;> simp at hc
    | throw w => exact ⟨w, rfl⟩
    | ub w => unfold valueOf at hv; repeat' (first | split at hv | simp at hv)
    | abort => unfold valueOf at hv; repeat' (first | split at hv | simp at hv)
    | hang => unfold valueOf at hv; repeat' (first | split at hv | simp at hv)
  · exact ⟨_, rfl⟩

/-- Two spaces between the parts. -/
example : ¬ ∃ (c : Condition) (t : Str), "x  > 10".toList = c.text ++ t ∧ ' ' ∉ t ∧ (Text.stod t).isSome = true := by
  rintro ⟨⟨a, l⟩, t, h, -⟩
  match a, l with
  | 0, true => simp [Condition.text] at h
  | 0, false => simp [Condition.text] at h
  | 1, true => simp [Condition.text] at h
  | 1, false => simp [Condition.text] at h
  | 2, true => simp [Condition.text] at h
  | 2, false => simp [Condition.text] at h

/-- The full claim is false: text after the number is ignored instead of being rejected. -/
theorem c40_trailing_text_accepted (f : SpocFile) (hf : Uniform f.prs) :
    removeCoords Text.stod f "x > 10O0".toList
      = removeCoords Text.stod f "x > 10".toList ∧ (removeCoords Text.stod f "x > 10".toList).isOk = true := by
  have e1 : Text.stod "10O0".toList = some (⟨0x4024000000000000⟩, 2) := by decide +kernel
  have e2 : Text.stod "10".toList = some (⟨0x4024000000000000⟩, 2) := by decide +kernel
  have h1 := c40_removes Text.stod f hf ⟨0, false⟩ "10O0".toList (by decide) _ _ e1
  have h2 := c40_removes Text.stod f hf ⟨0, false⟩ "10".toList (by decide) _ _ e2
  have t1 : (⟨0, false⟩ : Condition).text ++ "10O0".toList = "x > 10O0".toList := by decide
  have t2 : (⟨0, false⟩ : Condition).text ++ "10".toList = "x > 10".toList := by decide
  rw [t1] at h1
  rw [t2] at h2
  rw [h1, h2]
  exact ⟨rfl, rfl⟩

/-- **C40** for the application. -/
theorem c40_app (b : Build) (zl : Zlib) (sh : Subsampling.Shuffle) (s : IStream) (f : SpocFile) (rest : IStream)
    (hr : Io.readFile b zl s = .ok (f, rest)) (c : Condition) (t : Str) (ht : ' ' ∉ t)
    (v : F64) (n : Nat) (hv : Text.stod t = some (v, n)) :
    Filter.main b zl sh [("remove-coords", c.text ++ t)] s
      = Io.writeFile b zl { f with prs := f.prs.filter (fun q => decide (¬ c.Holds q v)) } := by
  have hu := (readable_writable hr).uniform
  have hc := c40_removes Text.stod f hu c t ht v n hv
  have ha : getArgs [("remove-coords", c.text ++ t)] {} = .ok { removeCoords := c.text ++ t } := by
    unfold getArgs
    have : dispatch {} "remove-coords" (c.text ++ t) = .ok { removeCoords := c.text ++ t } := rfl
    rw [this, Res.ok_bind, if_neg (by decide)]
    rfl
  unfold Filter.main
  rw [ha, Out.lift_ok_bind]
  simp only [Bool.false_eq_true, if_false]
  rw [Apps.fileOf, hr, Res.ok_bind]
  simp only [Out.lift_ok_bind]
  have hp : process b sh { removeCoords := c.text ++ t } f
      = .ok { f with prs := f.prs.filter (fun q => decide (¬ c.Holds q v)) } := by
    unfold process
    have e3 : F64.gt F64.zero F64.zero = false := by decide
    have e1 : (!(c.text ++ t).isEmpty) = true := by rw [text_eq]; rfl
    simp only [stage_false, Res.ok_bind, List.isEmpty_nil, Bool.not_true, e3]
    rw [e1, stage_true hc (uniform_sublist hu List.filter_sublist)]
  rw [hp, Out.lift_ok_bind]

/-! ## C65: filtering only removes points -/

theorem select_only {keep : PointRecord → Bool} {f g : SpocFile} (hu : Uniform f.prs) (h : select f keep = .ok g) :
    g.cloneEmpty = f.cloneEmpty ∧ g.prs.Sublist f.prs := by
  rw [select_eq keep f hu] at h
  obtain rfl := Res.ok.inj h
  exact ⟨rfl, List.filter_sublist⟩

theorem removeCoords_only {st : AppUtils.Stod} {f g : SpocFile} {op : Str} (hu : Uniform f.prs)
    (h : removeCoords st f op = .ok g) : g.cloneEmpty = f.cloneEmpty ∧ g.prs.Sublist f.prs := by
  unfold removeCoords at h
  split at h
  · obtain ⟨val, _, h⟩ := Res.bind_eq_ok.mp h
    obtain ⟨cmp, _, h⟩ := Res.bind_eq_ok.mp h
    split at h
    · simp at h
    · exact select_only hu h
  · simp at h

/-- Picking records by index. -/
theorem pick_only (f : SpocFile) (hu : Uniform f.prs) (ks : List Nat) (hk : ks.Nodup) (hlt : ∀ k ∈ ks, k < f.prs.length) :
    ∃ qs, List.Forall₂ (fun k q => f.prs[k]? = some q) ks qs ∧ qs.Subperm f.prs
      ∧ (ks.foldlM (fun g i => do
          let p ← Voxel.at' f.prs i
          g.pushBack p) f.cloneEmpty) = .ok { f with prs := qs } := by
  obtain ⟨qs, h1, h2⟩ := mapM_at f.prs ks hlt
  have hsp : qs.Subperm f.prs := by
    rw [forall₂_filterMap h2]
    have : ks.Subperm (List.range f.prs.length) :=
      List.subperm_of_subset hk (fun k hk' => List.mem_range.mpr (hlt k hk'))
    obtain ⟨l, hl1, hl2⟩ := this
    have h3 := hl2.filterMap (fun k => f.prs[k]?)
    rw [filterMap_range] at h3
    exact ⟨_, hl1.filterMap _, h3⟩
  have key : ∀ (ks : List Nat) (qs : List PointRecord) (g : SpocFile),
      List.Forall₂ (fun k q => f.prs[k]? = some q) ks qs →
      ks.foldlM (fun g i => do
          let p ← Voxel.at' f.prs i
          g.pushBack p) g = qs.foldlM (fun g p => g.pushBack p) g := by
    intro ks qs g hf
    induction hf generalizing g with
    | nil => rfl
    | cons h _ ih =>
      rw [List.foldlM_cons, List.foldlM_cons]
      unfold Voxel.at'
      rw [h]
      simp only [Res.ok_bind]
      congr 1
      funext g'
      exact ih g'
  refine ⟨qs, h2, hsp, ?_⟩
  rw [key ks qs _ h2, pushAll_eq]
  · simp [SpocFile.cloneEmpty]
  · show Uniform ([] ++ qs)
    rw [List.nil_append]
    exact fun p hp q hq => hu p (hsp.subset hp) q (hsp.subset hq)

/-- What `unique_xyz` does: for every seed it removes points, such that one of every location is left. -/
theorem uniqueXyz_spec (b : Build) (sh : Subsampling.Shuffle) (hsh : sh.Lawful) (f : SpocFile) (hu : Uniform f.prs) (seed : Nat) :
    ∃ g, uniqueXyz b sh f seed = .ok g ∧ g.cloneEmpty = f.cloneEmpty ∧ g.prs.Subperm f.prs := by
  have hi := uniqueXyzIndexes_eq b sh hsh f.prs seed
  have hsub := Subsampling.dedupe_sublist (dup := Subsampling.sameLoc f.prs) (Subsampling.order sh seed f.prs.length)
  obtain ⟨qs, h1, h2, h3⟩ := pick_only f hu _ (hsub.nodup (order_nodup hsh _ _)) (fun k hk =>
    List.mem_range.mp ((Subsampling.order_perm hsh seed f.prs.length).mem_iff.mp (hsub.subset hk)))
  refine ⟨{ f with prs := qs }, ?_, rfl, h2⟩
  unfold uniqueXyz
  rw [hi, Res.ok_bind]
  exact h3

theorem subsampleFile_only {b : Build} {sh : Subsampling.Shuffle} (hsh : sh.Lawful) {f g : SpocFile}
    {res : F64} {seed : Nat} (h : subsampleFile b sh f res seed = .ok g) :
    g.cloneEmpty = f.cloneEmpty ∧ g.prs.Subperm f.prs := by
  unfold subsampleFile at h
  obtain ⟨qs, hq, h⟩ := Res.bind_eq_ok.mp h
  unfold SpocFile.setPointRecords at h
  split at h
  · simp at h
  · obtain rfl := Res.ok.inj h
    refine ⟨rfl, ?_⟩
    show qs.Subperm f.prs
    cases hv : Voxel.getIndexes f.prs res with
    | ok vs =>
      obtain ⟨ks, qs', h1, h2, h3, h4, h5, _⟩ := c23_one_per_voxel b sh hsh f.prs res seed vs hv
      rw [hq] at h2
      obtain rfl := Res.ok.inj h2
      rw [forall₂_filterMap h3]
      obtain ⟨l, hl1, hl2⟩ : ks.Subperm (List.range f.prs.length) :=
        List.subperm_of_subset h4 (fun k hk' => List.mem_range.mpr (h5 k hk'))
      have h6 := hl2.filterMap (fun k => f.prs[k]?)
      rw [filterMap_range] at h6
      exact ⟨_, hl1.filterMap _, h6⟩
    | _ =>
      have := c23_undefined b sh f.prs res seed (by rw [hv]; rfl)
      rw [hq] at this
      simp [Res.isOk] at this

theorem stage_only {on : Bool} {step : SpocFile → Res SpocFile} {f g : SpocFile}
    (hs : ∀ g, step f = .ok g → g.cloneEmpty = f.cloneEmpty ∧ g.prs.Subperm f.prs) (h : stage on step f = .ok g) :
    g.cloneEmpty = f.cloneEmpty ∧ g.prs.Subperm f.prs := by
  unfold stage at h
  split at h
  · obtain ⟨g', h1, h2⟩ := Res.bind_eq_ok.mp h
    have e : g = g' := by
      unfold SpocFile.copy SpocFile.new at h2
      split at h2
      · simp at h2
      · exact (Res.ok.inj h2).symm
    rw [e]
    exact hs g' h1
  · rw [← Res.ok.inj h]; exact ⟨rfl, List.Subperm.refl _⟩

theorem uniform_subperm {l m : List PointRecord} (h : Uniform m) (hs : l.Subperm m) : Uniform l :=
  fun p hp q hq => h p (hs.subset hp) q (hs.subset hq)

/-- The steps together only remove points. -/
theorem process_only {b : Build} {sh : Subsampling.Shuffle} (hsh : sh.Lawful) {a : Args} {f g : SpocFile} (hu : Uniform f.prs)
    (h : process b sh a f = .ok g) : g.cloneEmpty = f.cloneEmpty ∧ g.prs.Subperm f.prs := by
  unfold process at h
  obtain ⟨f1, h1, h⟩ := Res.bind_eq_ok.mp h
  obtain ⟨f2, h2, h⟩ := Res.bind_eq_ok.mp h
  obtain ⟨f3, h3, h⟩ := Res.bind_eq_ok.mp h
  obtain ⟨f4, h4, h⟩ := Res.bind_eq_ok.mp h
  have p1 := stage_only (fun g hg => (select_only hu hg).imp id (·.subperm)) h1
  have u1 := uniform_subperm hu p1.2
  have p2 := stage_only (fun g hg => (select_only u1 hg).imp id (·.subperm)) h2
  have u2 := uniform_subperm u1 p2.2
  have p3 := stage_only (fun g hg => by
    obtain ⟨g', e, hg'⟩ := uniqueXyz_spec b sh hsh f2 u2 (UInt64.ofInt a.seed).toNat
    rw [e] at hg
    rw [← Res.ok.inj hg]
    exact hg') h3
  have u3 := uniform_subperm u2 p3.2
  have p4 := stage_only (fun g hg => subsampleFile_only hsh hg) h4
  have u4 := uniform_subperm u3 p4.2
  have p5 := stage_only (fun g hg => (removeCoords_only u4 hg).imp id (·.subperm)) h
  exact ⟨p5.1.trans (p4.1.trans (p3.1.trans (p2.1.trans p1.1))),
    p5.2.trans (p4.2.trans (p3.2.trans (p2.2.trans p1.2)))⟩

/-- **C65**: whatever options are given, when the filter application succeeds it has written (unless it only printed help or
the version) a file whose points all come from the input, none more often than there, and whose version, WKT and
compression flag are those of the input. -/
theorem c65_filter_only_removes (b : Build) (zl : Zlib) (sh : Subsampling.Shuffle) (hsh : sh.Lawful)
    (options : List (String × Str)) (hopt : ∀ o ∈ options, o.1 ≠ "help" ∧ o.1 ≠ "version") (s : IStream)
    (hok : (Filter.main b zl sh options s).res = .ok ()) :
    ∃ f rest g, Io.readFile b zl s = .ok (f, rest) ∧ Filter.main b zl sh options s = Io.writeFile b zl g
      ∧ g.prs.Subperm f.prs ∧ g.cloneEmpty = f.cloneEmpty := by
  have flags : ∀ (os : List (String × Str)) (a : Args), (∀ o ∈ os, o.1 ≠ "help" ∧ o.1 ≠ "version") →
      a.help = false ∧ a.version = false → ∀ a', getArgs os a = .ok a' → a'.help = false ∧ a'.version = false := by
    intro os
    induction os with
    | nil => intro a _ ha a' h; rw [← Res.ok.inj h]; exact ha
    | cons o os ih =>
      obtain ⟨name, arg⟩ := o
      intro a ho ha a' h
      unfold getArgs at h
      obtain ⟨a1, h1, h2⟩ := Res.bind_eq_ok.mp h
      have hn := ho (name, arg) (by simp)
      rw [if_neg hn.1] at h2
      refine ih a1 (fun o h => ho o (by simp [h])) ?_ a' h2
      unfold dispatch at h1
      rw [if_neg hn.1] at h1
      split at h1
      · rw [← Res.ok.inj h1]; exact ha
      · rw [if_neg hn.2] at h1
        repeat' first
          | (split at h1)
          | (rw [← Res.ok.inj h1]; exact ha)
          | (simp at h1)
  unfold Filter.main at hok ⊢
  cases ha : getArgs options {} with
  | ok a =>
    obtain ⟨f1, f2⟩ := flags options {} hopt ⟨rfl, rfl⟩ a ha
    rw [ha] at hok
    rw [Out.lift_ok_bind] at hok ⊢
    simp only [f1, f2, Bool.false_eq_true, if_false] at hok ⊢
    cases hr : Io.readFile b zl s with
    | ok v =>
      obtain ⟨f, rest⟩ := v
      have e : Apps.fileOf (.ok (f, rest)) = .ok f := rfl
      rw [hr, e, Out.lift_ok_bind] at hok
      rw [e, Out.lift_ok_bind]
      cases hp : process b sh a f with
      | ok g =>
        obtain ⟨p1, p2⟩ := process_only hsh (readable_writable hr).uniform hp
        exact ⟨f, rest, g, rfl, by rw [Out.lift_ok_bind], p2, p1⟩
      | throw w => rw [hp] at hok; simp at hok
      | ub w => rw [hp] at hok; cases hok
      | abort => rw [hp] at hok; cases hok
      | hang => rw [hp] at hok; cases hok
    | throw w => rw [hr] at hok; cases hok
    | ub w => rw [hr] at hok; cases hok
    | abort => rw [hr] at hok; cases hok
    | hang => rw [hr] at hok; cases hok
  | throw w => rw [ha] at hok; cases hok
  | ub w => rw [ha] at hok; cases hok
  | abort => rw [ha] at hok; cases hok
  | hang => rw [ha] at hok; cases hok

theorem survives_sublist {zl : Zlib} {f : SpocFile} (h : Survives zl f) (hc : f.compressed = false) {l : List PointRecord}
    (hl : l.Sublist f.prs) : Survives zl { f with prs := l } :=
  ⟨⟨h.1.major, h.1.minor, h.1.wkt, uniform_sublist h.1.uniform hl, fun q hq => h.1.extra q (hl.subset hq),
    lt_of_le_of_lt hl.length_le h.1.count⟩, fun _ q hq => h.2.1 hc q (hl.subset hq), fun e => by rw [hc] at e; simp at e⟩

/-- Not shuffling. -/
def noShuffle : Subsampling.Shuffle := fun _ l => l

example : noShuffle.Lawful
    ∧ (∀ o ∈ classOptions "keep-class" [2], o.1 ≠ "help" ∧ o.1 ≠ "version")
    ∧ (Filter.main .release toyZlib noShuffle (classOptions "keep-class" [2])
        { rest := (Io.writeFile .release toyZlib exampleFile).bytes }).res = .ok () := by
  refine ⟨fun _ l => List.Perm.refl l, by decide, ?_⟩
  have h1 : Survives toyZlib exampleFile := ⟨exampleFile_writable, fun _ => by decide, fun h => by simp [exampleFile] at h⟩
  have := (survives_roundtrip .release toyZlib toyZlib_correct exampleFile h1).2 []
  rw [List.append_nil] at this
  rw [c39_app_keep .release toyZlib _ _ _ _ this [2] (by decide) (by decide)]
  exact (survives_roundtrip .release toyZlib toyZlib_correct _ (survives_sublist h1 rfl List.filter_sublist)).1

end Spoc.Props
