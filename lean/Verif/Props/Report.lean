import Verif.Props.Json

/-!
# C74: the text that the info application prints
-/

namespace Spoc.Props

open Info Spec Text

/-- The text is a decimal numeral for a number that differs from `v` by at most `ε`. -/
def Shows (s : Str) (v ε : ℝ) : Prop := ∃ n : Numeral, n.Ok ∧ s = n.text ∧ |n.value - v| ≤ ε

theorem shows_nat (n : Nat) : Shows (showNat n) n 0 := by
  obtain ⟨h1, h2, h3⟩ := showNat_numeral n
  exact ⟨_, h1, h2, by rw [h3]; simp⟩

theorem shows_int (n : Int) : Shows (showInt n) n 0 := by
  obtain ⟨h1, h2, h3⟩ := showInt_numeral n
  exact ⟨_, h1, h2, by rw [h3]; simp⟩

theorem shows_dbl {x : F64} (h : x.isFinite = true) : Shows (showFixed 3 x) x.val (1 / 2 / 10 ^ 3) := by
  obtain ⟨h1, h2, h3⟩ := showFixed_numeral (P := 3) (by norm_num) h
  exact ⟨_, h1, h2, h3⟩

/-! ## C59: the numbers in the text -/

/-- The text for one field.  `one s a` says that `s` shows the value `a`, and `diff s a b` that `s` shows the difference of `a` and `b`. -/
def SummaryLines {α : Type} (compact quart : Bool) (v : α → ℝ) (one : Str → α → Prop) (diff : Str → α → α → Prop) (xs : List α)
    (label t : Str) : Prop :=
  if quart then
    ∃ q0 q1 q2 q3 q4, IsSummary v xs q0 q1 q2 q3 q4 ∧
      if compact then
        ∃ s0 s4 d d1 d2 d3 d4, t = label ++ "range=".toList ++ d ++ ", ".toList ++ s0 ++ " + ".toList ++ d1 ++ " + ".toList ++ d2
            ++ " + ".toList ++ d3 ++ " + ".toList ++ d4 ++ " = ".toList ++ s4 ++ ['\n']
          ∧ one s0 q0 ∧ one s4 q4 ∧ diff d q4 q0 ∧ diff d1 q1 q0 ∧ diff d2 q2 q1 ∧ diff d3 q3 q2 ∧ diff d4 q4 q3
      else
        ∃ n s0 s1 s2 s3 s4 d, t = label ++ n ++ "\nrange\t".toList ++ d ++ "\nq0\t".toList ++ s0 ++ "\nq1\t".toList ++ s1
            ++ "\nq2\t".toList ++ s2 ++ "\nq3\t".toList ++ s3 ++ "\nq4\t".toList ++ s4 ++ ['\n']
          ∧ Shows n xs.length 0 ∧ diff d q4 q0 ∧ one s0 q0 ∧ one s1 q1 ∧ one s2 q2 ∧ one s3 q3 ∧ one s4 q4
  else
    ∃ mn mx, IsRange v xs mn mx ∧
      if compact then
        ∃ a b d, t = label ++ "range=".toList ++ d ++ ", min=".toList ++ a ++ ", max=".toList ++ b ++ ['\n']
          ∧ diff d mx mn ∧ one a mn ∧ one b mx
      else
        ∃ n a b d, t = label ++ n ++ "\nrange\t".toList ++ d ++ "\nmin\t".toList ++ a ++ "\nmax\t".toList ++ b ++ ['\n']
          ∧ Shows n xs.length 0 ∧ diff d mx mn ∧ one a mn ∧ one b mx

/-- The text for a field of integers: exact. -/
def LinesInt {α : Type} (compact quart : Bool) (v : α → ℝ) (xs : List α) (label t : Str) : Prop :=
  SummaryLines compact quart v (fun s a => Shows s (v a) 0) (fun s a b => Shows s (v a - v b) 0) xs label t

/-- The text for a field of doubles: up to half a unit in the third decimal; differences are rounded differences, unless they overflow. -/
def LinesF64 (compact quart : Bool) (xs : List F64) (label t : Str) : Prop :=
  SummaryLines compact quart F64.val (fun s a => Shows s a.val (1 / 2 / 10 ^ 3))
    (fun s a b => (F64.sub a b).isFinite = true → Shows s (F64.sub a b).val (1 / 2 / 10 ^ 3)) xs label t

theorem lines_of_reports {α : Type} {compact quart : Bool} {k : Kind α} {v : α → ℝ} {one : Str → α → Prop} {diff : Str → α → α → Prop}
    {xs : List α} {label t : Str} (h : ReportsText compact quart k v xs label t) (h1 : ∀ a ∈ xs, one (k.text a) a)
    (h2 : ∀ a b, v b ≤ v a → diff (k.textDiff a b) a b) : SummaryLines compact quart v one diff xs label t := by
  unfold ReportsText at h
  unfold SummaryLines
  cases quart with
  | true =>
    rw [if_pos rfl] at h ⊢
    obtain ⟨q0, q1, q2, q3, q4, hs, e⟩ := h
    obtain ⟨m0, m1, m2, m3, m4⟩ := hs.mem
    obtain ⟨o1, o2, o3, o4⟩ := hs.ordered
    refine ⟨q0, q1, q2, q3, q4, hs, ?_⟩
    cases compact with
    | true =>
      exact ⟨_, _, _, _, _, _, _, e, h1 _ m0, h1 _ m4, h2 _ _ (hs.bounds q4 m4).1, h2 _ _ o1, h2 _ _ o2, h2 _ _ o3, h2 _ _ o4⟩
    | false =>
      exact ⟨_, _, _, _, _, _, _, e, shows_nat _, h2 _ _ (hs.bounds q4 m4).1, h1 _ m0, h1 _ m1, h1 _ m2, h1 _ m3, h1 _ m4⟩
  | false =>
    rw [if_neg (by simp)] at h ⊢
    obtain ⟨mn, mx, hs, e⟩ := h
    obtain ⟨m0, m1⟩ := hs.mem
    refine ⟨mn, mx, hs, ?_⟩
    cases compact with
    | true => exact ⟨_, _, _, e, h2 _ _ (hs.bounds mx m1).1, h1 _ m0, h1 _ m1⟩
    | false => exact ⟨_, _, _, _, e, shows_nat _, h2 _ _ (hs.bounds mx m1).1, h1 _ m0, h1 _ m1⟩

theorem lines_f64 {sort : List F64 → List F64} {compact quart : Bool} {xs : List F64} {label t : Str}
    (h : ReportsText compact quart (kindF64 sort) F64.val xs label t) (hf : ∀ x ∈ xs, x.isFinite = true) :
    LinesF64 compact quart xs label t :=
  lines_of_reports h (fun a ha => shows_dbl (hf a ha)) (fun _ _ _ hG => shows_dbl hG)

theorem lines_u16 {compact quart : Bool} {xs : List UInt16} {label t : Str}
    (h : ReportsText compact quart kindU16 (fun u => (u.toNat : ℝ)) xs label t) : LinesInt compact quart (fun u => (u.toNat : ℝ)) xs label t := by
  refine lines_of_reports h (fun a _ => shows_nat _) ?_
  intro a b _
  have := shows_int ((a.toNat : Int) - b.toNat)
  push_cast at this
  exact this

theorem lines_u32 {compact quart : Bool} {xs : List UInt32} {label t : Str}
    (h : ReportsText compact quart kindU32 (fun u => (u.toNat : ℝ)) xs label t) : LinesInt compact quart (fun u => (u.toNat : ℝ)) xs label t := by
  refine lines_of_reports h (fun a _ => shows_nat _) ?_
  intro a b hab
  show Shows (showNat (a - b).toNat) _ _
  have hle : b.toNat ≤ a.toNat := by exact_mod_cast hab
  have e : (a - b).toNat = a.toNat - b.toNat := UInt32.toNat_sub_of_le _ _ hle
  have := shows_nat (a.toNat - b.toNat)
  rw [Nat.cast_sub hle] at this
  rw [e]
  exact this

theorem lines_u64 {compact quart : Bool} {xs : List UInt64} {label t : Str}
    (h : ReportsText compact quart kindU64 (fun u => (u.toNat : ℝ)) xs label t) : LinesInt compact quart (fun u => (u.toNat : ℝ)) xs label t := by
  refine lines_of_reports h (fun a _ => shows_nat _) ?_
  intro a b hab
  show Shows (showNat (a - b).toNat) _ _
  have hle : b.toNat ≤ a.toNat := by exact_mod_cast hab
  have e : (a - b).toNat = a.toNat - b.toNat := UInt64.toNat_sub_of_le _ _ hle
  have := shows_nat (a.toNat - b.toNat)
  rw [Nat.cast_sub hle] at this
  rw [e]
  exact this

/-- **C59**, the numbers in the text: for files with finite coordinates every printed number is the statistic it is said to be; integers
are exact, coordinates have three decimals. -/
theorem c59_printed_partial (b : Build) (sort : List F64 → List F64) (hs : SortsF64 sort) (ps : List PointRecord) (hne : ps ≠ []) (hu : Uniform ps)
    (hf : AllFinite ps) (hlen : ps.length < 2 ^ 62) (compact quart : Bool) :
    ∃ x y z c p i r g bl es, summariesText b sort ps compact quart = .ok (x ++ y ++ z ++ c ++ p ++ i ++ r ++ g ++ bl ++ List.flatten es)
      ∧ LinesF64 compact quart (ps.map (·.x)) "x\t".toList x
      ∧ LinesF64 compact quart (ps.map (·.y)) "y\t".toList y
      ∧ LinesF64 compact quart (ps.map (·.z)) "z\t".toList z
      ∧ LinesInt compact quart (fun u => (u.toNat : ℝ)) (ps.map (·.c)) "c\t".toList c
      ∧ LinesInt compact quart (fun u => (u.toNat : ℝ)) (ps.map (·.p)) "p\t".toList p
      ∧ LinesInt compact quart (fun u => (u.toNat : ℝ)) (ps.map (·.i)) "i\t".toList i
      ∧ LinesInt compact quart (fun u => (u.toNat : ℝ)) (ps.map (·.r)) "r\t".toList r
      ∧ LinesInt compact quart (fun u => (u.toNat : ℝ)) (ps.map (·.g)) "g\t".toList g
      ∧ LinesInt compact quart (fun u => (u.toNat : ℝ)) (ps.map (·.b)) "b\t".toList bl
      ∧ es.length = Diff.extraFieldsSize ps
      ∧ ∀ (k : Nat) (e : Str), es[k]? = some e → ∃ num, Shows num k 0
          ∧ LinesInt compact quart (fun u => (u.toNat : ℝ)) (extraColumn k ps) ("extra_".toList ++ num ++ ['\t']) e := by
  have hn : NoNaN ps := fun p hp => ⟨finite_noNaN (hf p hp).1, finite_noNaN (hf p hp).2.1, finite_noNaN (hf p hp).2.2⟩
  obtain ⟨x, y, z, c, p, i, r, g, bl, es, h, hx, hy, hz, hc, hp, hi, hr, hg, hb, hl, he⟩ :=
    c59_text_partial b sort hs ps hne hu hn hlen compact quart
  refine ⟨x, y, z, c, p, i, r, g, bl, es, h, lines_f64 hx ?_, lines_f64 hy ?_, lines_f64 hz ?_, lines_u32 hc, lines_u32 hp, lines_u16 hi,
    lines_u16 hr, lines_u16 hg, lines_u16 hb, hl, fun k e hk => ⟨_, shows_nat k, lines_u64 (he k e hk)⟩⟩
  · intro a ha; obtain ⟨q, hq, rfl⟩ := List.mem_map.mp ha; exact (hf q hq).1
  · intro a ha; obtain ⟨q, hq, rfl⟩ := List.mem_map.mp ha; exact (hf q hq).2.1
  · intro a ha; obtain ⟨q, hq, rfl⟩ := List.mem_map.mp ha; exact (hf q hq).2.2

example : SortsF64 exampleSort ∧ exampleFile.prs ≠ [] ∧ Uniform exampleFile.prs ∧ AllFinite exampleFile.prs ∧ exampleFile.prs.length < 2 ^ 62
    ∧ Diff.extraFieldsSize exampleFile.prs = 3 := by
  refine ⟨exampleSort_sorts, ?_⟩
  unfold Uniform AllFinite
  decide +kernel

/-! ## C74 -/

/-- The header as five lines. -/
def HeaderLines (f : SpocFile) (t : Str) : Prop :=
  ∃ major minor total, t = "major_version\t".toList ++ major ++ "\nminor_version\t".toList ++ minor ++ "\nogc_wkt\t'".toList ++ chars f.wkt
      ++ "'\ntotal_points\t".toList ++ total ++ "\ncompressed\t".toList ++ (if f.compressed then "true\n".toList else "false\n".toList)
    ∧ Shows major f.major.toNat 0 ∧ Shows minor f.minor.toNat 0 ∧ Shows total f.prs.length 0

/-- One line for a density. -/
def DensityLine (name : String) (d : F64) (unit : String) (t : Str) : Prop :=
  ∃ s, t = name.toList ++ '\t' :: s ++ '\t' :: unit.toList ++ ['\n'] ∧ (d.isFinite = true → Shows s d.val (1 / 2 / 10 ^ 15))

theorem header_lines {f : SpocFile} {h : Header} (hlen : f.prs.length < 2 ^ 64) (hh : f.getHeader = .ok h) : HeaderLines f (headerText h) := by
  unfold SpocFile.getHeader Header.new at hh
  split at hh
  · cases hh
  · have e := (Res.ok.inj hh).symm
    subst e
    refine ⟨_, _, _, ?_, shows_nat _, shows_nat _, shows_nat _⟩
    unfold headerText
    have h1 : (UInt64.ofNat f.prs.length).toNat = f.prs.length := UInt64.toNat_ofNat_of_lt' hlen
    simp only [h1]
    cases f.compressed
    · simp
    · simp

/-- C74: without `--json` the text consists of the parts that are switched on, in this order; the header part shows version, spatial
reference, number of points and compression, and the last part shows the three densities with 15 decimals. -/
theorem c74_text_report (b : Build) (sort : List F64 → List F64) (a : Args) (f : SpocFile) (t : Str) (hj : a.json = false)
    (hlen : f.prs.length < 2 ^ 64) (h : process b sort a f = .ok t) :
    ∃ hd su cl me, t = hd ++ su ++ cl ++ me
      ∧ (a.headerInfo = true → HeaderLines f hd) ∧ (a.headerInfo = false → hd = [])
      ∧ (a.summaryInfo = true → summariesText b sort f.prs a.compact a.quartiles = .ok su) ∧ (a.summaryInfo = false → su = [])
      ∧ (a.classInfo = true → classesText f.prs = .ok cl) ∧ (a.classInfo = false → cl = [])
      ∧ (a.metricInfo = true → ∃ d1 d2 d3 l1 l2 l3,
          metricValues f.prs = .ok [(Key.extentPointDensity, d1), (Key.gridPointDensity, d2), (Key.voxelPointDensity, d3)]
          ∧ DensityLine "extent_point_density" d1 "pts/unit^2" l1 ∧ DensityLine "grid_point_density" d2 "pts/unit^2" l2
          ∧ DensityLine "voxel_point_density" d3 "pts/unit^3" l3 ∧ me = l1 ++ l2 ++ l3)
      ∧ (a.metricInfo = false → me = []) := by
  unfold process at h
  rw [hj] at h
  simp only [Bool.false_eq_true, if_false] at h
  obtain ⟨hd, h1, h⟩ := Res.bind_eq_ok.mp h
  obtain ⟨su, h2, h⟩ := Res.bind_eq_ok.mp h
  obtain ⟨cl, h3, h⟩ := Res.bind_eq_ok.mp h
  obtain ⟨me, h4, h⟩ := Res.bind_eq_ok.mp h
  refine ⟨hd, su, cl, me, (Res.ok.inj h).symm, ?_, ?_, ?_, ?_, ?_, ?_, ?_, ?_⟩
  · intro on
    rw [on, sectionText, if_pos rfl] at h1
    obtain ⟨x, hx, h1⟩ := Res.bind_eq_ok.mp h1
    rw [← Res.ok.inj h1]
    exact header_lines hlen hx
  · intro off
    rw [off] at h1
    exact (Res.ok.inj h1).symm
  · intro on
    rw [on] at h2
    exact h2
  · intro off
    rw [off] at h2
    exact (Res.ok.inj h2).symm
  · intro on
    rw [on] at h3
    exact h3
  · intro off
    rw [off] at h3
    exact (Res.ok.inj h3).symm
  · intro on
    rw [on, sectionText, if_pos rfl, metricsText] at h4
    obtain ⟨m, hm, h4⟩ := Res.bind_eq_ok.mp h4
    obtain ⟨ls, hl, h4⟩ := Res.bind_eq_ok.mp h4
    have hk : ∃ d1 d2 d3, m = [(Key.extentPointDensity, d1), (Key.gridPointDensity, d2), (Key.voxelPointDensity, d3)] := by
      unfold metricValues at hm
      obtain ⟨vi, -, hm⟩ := Res.bind_eq_ok.mp hm
      exact ⟨_, _, _, (Res.ok.inj hm).symm⟩
    obtain ⟨d1, d2, d3, rfl⟩ := hk
    have e1 : metricUnits.lookup Key.extentPointDensity = some "pts/unit^2".toList := by decide +kernel
    have e2 : metricUnits.lookup Key.gridPointDensity = some "pts/unit^2".toList := by decide +kernel
    have e3 : metricUnits.lookup Key.voxelPointDensity = some "pts/unit^3".toList := by decide +kernel
    simp only [List.mapM_cons, List.mapM_nil, e1, e2, e3, Res.ok_bind] at hl
    have hl := (Res.ok.inj hl).symm
    subst hl
    refine ⟨d1, d2, d3, _, _, _, hm, ⟨showFixed 15 d1, rfl, ?_⟩, ⟨showFixed 15 d2, rfl, ?_⟩, ⟨showFixed 15 d3, rfl, ?_⟩, ?_⟩
    · intro hf; exact ⟨_, showFixed_numeral (by decide) hf⟩
    · intro hf; exact ⟨_, showFixed_numeral (by decide) hf⟩
    · intro hf; exact ⟨_, showFixed_numeral (by decide) hf⟩
    · rw [← Res.ok.inj h4]
      simp only [List.flatten_cons, List.flatten_nil, List.append_nil, List.append_assoc]
      rfl
  · intro off
    rw [off] at h4
    exact (Res.ok.inj h4).symm

/-- The header report on a file. -/
example : ∃ t, process .release exampleSort { summaryInfo := false, classInfo := false, metricInfo := false } exampleFile = .ok t
    ∧ t ≠ [] := ⟨_, rfl, by decide⟩

end Spoc.Props
