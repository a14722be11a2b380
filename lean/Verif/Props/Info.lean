import Verif.Proofs.Info
import Verif.Props.ToolPoints

/-!
# C57, C58, C59: class counts, class names and summaries of the info application
-/

namespace Spoc.Props

open Spec Text Info

theorem exists_map_eq {α β : Type} (f : α → β) (l : List β) (h : ∀ b ∈ l, ∃ a, b = f a) : ∃ as : List α, l = as.map f := by
  induction l with
  | nil => exact ⟨[], rfl⟩
  | cons b r ih =>
    obtain ⟨a, ha⟩ := h b (by simp)
    obtain ⟨as, has⟩ := ih (fun b hb => h b (by simp [hb]))
    exact ⟨a :: as, by rw [List.map_cons, ← ha, ← has]⟩

/-! ## C57 -/

/-- The label that is printed for a class. -/
def classLabel (c : UInt32) : Str := classKey (toInt c)

/-- **C57**: the histogram has one entry for each class that occurs, with its exact number of points; the counts add up to the number of points. -/
theorem c57_histogram (cs : List UInt32) :
    ∃ ls : List UInt32, ls.Nodup ∧ (∀ c, c ∈ ls ↔ c ∈ cs) ∧ classCountMap cs = ls.map (fun c => (classLabel c, cs.count c))
      ∧ (ls.map (fun c => cs.count c)).sum = cs.length := by
  obtain ⟨h1, h2, h3, h4⟩ := counts_spec cs
  have hp := classCountMap_perm cs
  obtain ⟨ls, hls⟩ := exists_map_eq (fun c => (classLabel c, cs.count c)) (classCountMap cs) (by
    intro e he
    obtain ⟨⟨k, n⟩, he1, he2⟩ := List.mem_map.mp (hp.mem_iff.mp he)
    obtain ⟨c, hc, hck⟩ := (h2 k).mp (List.mem_map_of_mem (f := (·.1)) he1)
    have := lookup_of_mem h3 he1
    rw [← hck, h1 c, if_pos hc] at this
    refine ⟨c, ?_⟩
    unfold classLabel
    rw [← he2, ← Option.some.inj this, ← hck])
  have hkeys : (classCountMap cs).map (·.1) = ls.map classLabel := by
    rw [hls, List.map_map]
    rfl
  have hnd : (ls.map classLabel).Nodup := by
    rw [← hkeys]
    exact ((hp.map (·.1)).nodup_iff).mpr (nodup_keys cs)
  refine ⟨ls, hnd.of_map, ?_, hls, ?_⟩
  · intro c
    have e1 : c ∈ ls ↔ classLabel c ∈ ls.map classLabel := by
      constructor
      · exact List.mem_map_of_mem
      · intro h
        obtain ⟨d, hd, e⟩ := List.mem_map.mp h
        rwa [← toInt_inj (classKey_inj e)]
    have e2 : c ∈ cs ↔ toInt c ∈ (counts cs).map (·.1) := by
      rw [h2]
      constructor
      · exact fun h => ⟨c, h, rfl⟩
      · rintro ⟨d, hd, e⟩
        rwa [← toInt_inj e]
    rw [e1, ← hkeys, (hp.map (·.1)).mem_iff, List.map_map, e2]
    constructor
    · intro h
      obtain ⟨e, he, h⟩ := List.mem_map.mp h
      rw [← classKey_inj h]
      exact List.mem_map_of_mem he
    · intro h
      obtain ⟨e, he, h⟩ := List.mem_map.mp h
      exact List.mem_map.mpr ⟨e, he, by show classKey e.1 = _; rw [h]; rfl⟩
  · have : (classCountMap cs).map (·.2) = ls.map (fun c => cs.count c) := by
      rw [hls, List.map_map]
      rfl
    rw [← this, (hp.map (·.2)).sum_eq, List.map_map]
    exact h4

/-- The labels tell the classes apart, and the label of a class below 2^31 is its number. -/
theorem c57_labels_partial : Function.Injective classLabel ∧ ∀ c : UInt32, c.toNat < 2 ^ 31 → IsClassLabel c.toNat (classLabel c) := by
  refine ⟨fun c d h => toInt_inj (classKey_inj h), ?_⟩
  intro c hc
  unfold classLabel
  rw [toInt_small hc]
  refine ⟨classKey_nonneg_digits _, ?_, ?_⟩
  · rw [classKey_nonneg, decVal_padLeft, decVal_showNat]
  · rw [classKey_nonneg, length_padLeft]
    exact le_max_left _ _

example : classLabel 5 = ['0', '0', '5'] ∧ classCountMap [5, 2, 5, 1000] = [(['0', '0', '2'], 1), (['0', '0', '5'], 2), (['1', '0', '0', '0'], 1)] := by
  decide +kernel

/-- What is missing in C57: the number of a class from 2^31 on is printed as a negative number. -/
theorem c57_large_label : classLabel 0xFFFFFFFF = ['0', '-', '1'] ∧ ¬ IsClassLabel (0xFFFFFFFF : UInt32).toNat (classLabel 0xFFFFFFFF) := by
  have h : classLabel 0xFFFFFFFF = ['0', '-', '1'] := by decide +kernel
  refine ⟨h, ?_⟩
  rintro ⟨h1, -, -⟩
  rw [h] at h1
  have := h1 '-' (by simp)
  simp [not_digit_minus] at this

/-! ## C58 -/

/-- The name that is printed for a class (`none` if an exception is thrown). -/
def printedName (c : UInt32) : Res Str := className (classLabel c)

/-- **C58** for classes below 2^31: the printed name is the ASPRS name. -/
theorem c58_names_partial (c : UInt32) (h : c.toNat < 2 ^ 31) : printedName c = .ok (asprsName c.toNat).toList := className_small h

/-- Every class from 0 to 255 has a name, the other ones do not. -/
theorem c58_named (c : Nat) : asprsName c ≠ "undefined" ↔ c < 256 := by
  constructor
  · intro h
    by_contra hc
    apply h
    unfold asprsName
    split <;> first | omega | skip
    rw [if_neg (by omega), if_neg hc]
  · intro h
    have key : ∀ c : Fin 256, asprsName c.val ≠ "undefined" := by decide +kernel
    exact key ⟨c, h⟩

/-- The names of the classes from 2^31 on: the last nine are called "unclassified", which is the name of class 0. -/
theorem c58_large_names (c : UInt32) (h : 2 ^ 31 ≤ c.toNat) :
    printedName c = .ok (if c.toNat ≤ 2 ^ 32 - 10 then "undefined".toList else "unclassified".toList) := by
  by_cases hc : c.toNat ≤ 2 ^ 32 - 10
  · rw [if_pos hc]; exact className_big h hc
  · rw [if_neg hc]; exact className_last (by omega)

/-- C58 is false for class 2^32 - 1. -/
theorem c58_wrong_name : printedName 0xFFFFFFFF = .ok "unclassified".toList ∧ asprsName (0xFFFFFFFF : UInt32).toNat = "undefined" := by
  decide +kernel

example : (2 : UInt32).toNat < 2 ^ 31 ∧ asprsName 2 = "ground" := by decide

theorem printedName_ok (c : UInt32) : ∃ s, printedName c = .ok s := by
  by_cases h : c.toNat < 2 ^ 31
  · exact ⟨_, c58_names_partial c h⟩
  · exact ⟨_, c58_large_names c (by omega)⟩

theorem class_lines (N : Str → Res Str) (L name : UInt32 → Str) (cnt : UInt32 → Nat) (h : ∀ c, N (L c) = .ok (name c)) (ls : List UInt32) :
    (ls.map (fun c => (L c, cnt c))).mapM (fun e => do
      let l ← N e.1
      (Res.ok ("cls_".toList ++ e.1 ++ ['\t'] ++ showNat e.2 ++ ['\t'] ++ l ++ ['\n']) : Res Str))
      = .ok (ls.map (fun c => "cls_".toList ++ L c ++ ['\t'] ++ showNat (cnt c) ++ ['\t'] ++ name c ++ ['\n'])) := by
  induction ls with
  | nil => rfl
  | cons c r ih =>
    rw [List.map_cons, List.mapM_cons, ih]
    simp only [h, Res.ok_bind]
    rfl

theorem classes_text (f : SpocFile) (name : UInt32 → Str) (hname : ∀ c, className (classLabel c) = .ok (name c)) (ls : List UInt32)
    (h : classCountMap (f.prs.map (·.c)) = ls.map (fun c => (classLabel c, (f.prs.map (·.c)).count c))) :
    classesText f.prs = .ok (ls.map (fun c => "cls_".toList ++ classLabel c ++ ['\t'] ++ showNat ((f.prs.map (·.c)).count c) ++ ['\t']
      ++ name c ++ ['\n'])).flatten := by
  unfold classesText Diff.column
  rw [h, class_lines className classLabel name (fun c => (f.prs.map (·.c)).count c) hname]
  simp only [Res.ok_bind]

theorem classes_app (b : Build) (zl : Zlib) (sort : List F64 → List F64) (input s : IStream) (f : SpocFile)
    (hf : Io.readFile b zl input = .ok (f, s)) (t : Str) (ht : classesText f.prs = .ok t) :
    main b zl sort ["header-info", "summary-info", "metric-info"] [] input = (t, .ok ()) := by
  have hfo : Apps.fileOf (Io.readFile b zl input) = .ok f := by rw [hf]; rfl
  have ha : getArgs ["header-info", "summary-info", "metric-info"] {}
      = .ok { headerInfo := false, summaryInfo := false, metricInfo := false } := by rfl
  unfold main
  rw [ha]
  simp only [Bool.false_eq_true, if_false, List.isEmpty_nil, if_true]
  unfold processAll
  rw [hfo]
  simp only [Res.ok_bind]
  unfold process sectionText
  simp only [Bool.false_eq_true, if_false, if_true, ht, Res.ok_bind]
  simp [processAll]

/-- C57 and C58 for the application: with the other parts switched off it prints one line for each class that occurs, with label, count
and name. -/
theorem c57_c58_app (b : Build) (zl : Zlib) (sort : List F64 → List F64) (input s : IStream) (f : SpocFile)
    (hf : Io.readFile b zl input = .ok (f, s)) :
    ∃ (ls : List UInt32) (name : UInt32 → Str), ls.Nodup ∧ (∀ c, c ∈ ls ↔ c ∈ f.prs.map (·.c))
      ∧ (∀ c, printedName c = .ok (name c))
      ∧ main b zl sort ["header-info", "summary-info", "metric-info"] [] input =
        ((ls.map (fun c => "cls_".toList ++ classLabel c ++ ['\t'] ++ showNat ((f.prs.map (·.c)).count c) ++ ['\t'] ++ name c ++ ['\n'])).flatten,
          .ok ()) := by
  obtain ⟨ls, h1, h2, h3, h4⟩ := c57_histogram (f.prs.map (·.c))
  choose name hname using printedName_ok
  refine ⟨ls, name, h1, h2, hname, ?_⟩
  have hname' : ∀ c, className (classLabel c) = .ok (name c) := by
    intro c
    have := hname c
    unfold printedName at this
    exact this
  exact classes_app b zl sort input s f hf _ (classes_text f name hname' ls h3)

/-! ## C59 -/

/-- The JSON value reports minimum, quartiles and maximum of `xs`. -/
def ReportsQuartiles {α : Type} (k : Kind α) (v : α → ℝ) (xs : List α) (j : Json) : Prop :=
  ∃ q0 q1 q2 q3 q4 l, IsSummary v xs q0 q1 q2 q3 q4 ∧ j = .obj l
    ∧ l.lookup ['q', '0'] = some (k.json q0) ∧ l.lookup ['q', '1'] = some (k.json q1) ∧ l.lookup ['q', '2'] = some (k.json q2)
    ∧ l.lookup ['q', '3'] = some (k.json q3) ∧ l.lookup ['q', '4'] = some (k.json q4)
    ∧ l.lookup ['r', 'a', 'n', 'g', 'e'] = some (k.jsonDiff q4 q0)

/-- The JSON value reports minimum and maximum of `xs`. -/
def ReportsRange {α : Type} (k : Kind α) (v : α → ℝ) (xs : List α) (j : Json) : Prop :=
  ∃ mn mx l, IsRange v xs mn mx ∧ j = .obj l
    ∧ l.lookup ['m', 'i', 'n'] = some (k.json mn) ∧ l.lookup ['m', 'a', 'x'] = some (k.json mx)
    ∧ l.lookup ['r', 'a', 'n', 'g', 'e'] = some (k.jsonDiff mx mn)

/-- The JSON value reports what has been asked for. -/
def Reports {α : Type} (quart : Bool) (k : Kind α) (v : α → ℝ) (xs : List α) (j : Json) : Prop :=
  if quart then ReportsQuartiles k v xs j else ReportsRange k v xs j

/-- The text reports what has been asked for. -/
def ReportsText {α : Type} (compact quart : Bool) (k : Kind α) (v : α → ℝ) (xs : List α) (label t : Str) : Prop :=
  if quart then
    ∃ q0 q1 q2 q3 q4, IsSummary v xs q0 q1 q2 q3 q4 ∧ t =
      if compact then
        label ++ "range=".toList ++ k.textDiff q4 q0 ++ ", ".toList ++ k.text q0 ++ " + ".toList ++ k.textDiff q1 q0
            ++ " + ".toList ++ k.textDiff q2 q1 ++ " + ".toList ++ k.textDiff q3 q2 ++ " + ".toList ++ k.textDiff q4 q3
            ++ " = ".toList ++ k.text q4 ++ ['\n']
      else
        label ++ showNat xs.length ++ "\nrange\t".toList ++ k.textDiff q4 q0 ++ "\nq0\t".toList ++ k.text q0 ++ "\nq1\t".toList ++ k.text q1
            ++ "\nq2\t".toList ++ k.text q2 ++ "\nq3\t".toList ++ k.text q3 ++ "\nq4\t".toList ++ k.text q4 ++ ['\n']
  else
    ∃ mn mx, IsRange v xs mn mx ∧ t =
      if compact then
        label ++ "range=".toList ++ k.textDiff mx mn ++ ", min=".toList ++ k.text mn ++ ", max=".toList ++ k.text mx ++ ['\n']
      else
        label ++ showNat xs.length ++ "\nrange\t".toList ++ k.textDiff mx mn ++ "\nmin\t".toList ++ k.text mn ++ "\nmax\t".toList ++ k.text mx
            ++ ['\n']

section

variable {α : Type}

theorem c59_object {k : Kind α} {v : α → ℝ} {good : α → Prop} (hk : Info.Lawful k v good) (xs : List α) (hne : xs ≠ [])
    (hx : ∀ x ∈ xs, good x) (hlen : xs.length < 2 ^ 62) (quart : Bool) :
    ∃ j, summaryObject k xs quart = .ok j ∧ Reports quart k v xs j := by
  cases xs with
  | nil => exact absurd rfl hne
  | cons x r =>
    unfold summaryObject Reports
    cases quart with
    | true =>
      obtain ⟨q, h1, h2⟩ := quartiles_spec hk (x :: r) hne hx hlen
      simp only [if_true, h1, Res.ok_bind]
      refine ⟨_, rfl, q.q0, q.q1, q.q2, q.q3, q.q4, _, h2, rfl, ?_⟩
      simp only [lookup_mapOf]
      exact ⟨rfl, rfl, rfl, rfl, rfl, rfl⟩
    | false =>
      have hx0 := hx x (by simp)
      have hxr : ∀ y ∈ r, good y := fun y hy => hx y (by simp [hy])
      obtain ⟨a1, a2⟩ := minElement_spec hk x r hx0 hxr
      obtain ⟨b1, b2⟩ := maxElement_spec hk x r hx0 hxr
      simp only [Bool.false_eq_true, if_false]
      refine ⟨_, rfl, minElement k.lt x r, maxElement k.lt x r, _, ⟨⟨a1, b1⟩, fun y hy => ⟨a2 y hy, b2 y hy⟩⟩, rfl, ?_⟩
      simp only [lookup_mapOf]
      exact ⟨rfl, rfl, rfl⟩

theorem c59_string {k : Kind α} {v : α → ℝ} {good : α → Prop} (hk : Info.Lawful k v good) (xs : List α) (hne : xs ≠ [])
    (hx : ∀ x ∈ xs, good x) (hlen : xs.length < 2 ^ 62) (label : Str) (compact quart : Bool) :
    ∃ t, summaryString k label xs compact quart = .ok t ∧ ReportsText compact quart k v xs label t := by
  cases xs with
  | nil => exact absurd rfl hne
  | cons x r =>
    unfold summaryString ReportsText
    cases quart with
    | true =>
      obtain ⟨q, h1, h2⟩ := quartiles_spec hk (x :: r) hne hx hlen
      simp only [if_true, h1, Res.ok_bind]
      exact ⟨_, rfl, q.q0, q.q1, q.q2, q.q3, q.q4, h2, rfl⟩
    | false =>
      have hx0 := hx x (by simp)
      have hxr : ∀ y ∈ r, good y := fun y hy => hx y (by simp [hy])
      obtain ⟨a1, a2⟩ := minElement_spec hk x r hx0 hxr
      obtain ⟨b1, b2⟩ := maxElement_spec hk x r hx0 hxr
      simp only [Bool.false_eq_true, if_false]
      exact ⟨_, rfl, minElement k.lt x r, maxElement k.lt x r, ⟨⟨a1, b1⟩, fun y hy => ⟨a2 y hy, b2 y hy⟩⟩, rfl⟩

end

/-- The values of an extra field. -/
def extraColumn (k : Nat) (ps : List PointRecord) : List UInt64 := ps.map (fun p => p.extra.getD k 0)

theorem getExtra_ok (b : Build) {ps : List PointRecord} (hu : Uniform ps) {k : Nat} (hk : k < Diff.extraFieldsSize ps) :
    Diff.getExtra b k ps = .ok (extraColumn k ps) := by
  unfold Diff.getExtra extraColumn
  have hall : ∀ p ∈ ps, k < p.extra.length := by
    intro p hp
    cases ps with
    | nil => simp at hp
    | cons q r =>
      have : p.extra.length = q.extra.length := hu p hp q (by simp)
      have hk' : k < q.extra.length := hk
      omega
  clear hk hu
  induction ps with
  | nil => rfl
  | cons q r ih =>
    have hq := hall q (by simp)
    rw [List.mapM_cons, List.getElem?_eq_getElem hq, ih (fun p hp => hall p (by simp [hp]))]
    have : decide (k < q.extra.length) = true := by simpa using hq
    rw [this]
    cases b <;> simp [cassert, List.getD_eq_getElem?_getD, List.getElem?_eq_getElem hq]

/-- No coordinate is NaN. -/
def NoNaN (ps : List PointRecord) : Prop := ∀ p ∈ ps, p.x.isNaN = false ∧ p.y.isNaN = false ∧ p.z.isNaN = false

/-- **C59** for the JSON output of files without NaN: for every field, minimum, quartiles and maximum are reported, and no index is out of
range.  (A `std::vector` of numbers cannot have 2^62 elements.) -/
theorem c59_json_partial (b : Build) (sort : List F64 → List F64) (hs : SortsF64 sort) (ps : List PointRecord) (hne : ps ≠ []) (hu : Uniform ps)
    (hn : NoNaN ps) (hlen : ps.length < 2 ^ 62) (quart : Bool) :
    ∃ l x y z c p i r g bl es, summariesObject b sort ps quart = .ok (.obj l)
      ∧ l.lookup ['x'] = some x ∧ Reports quart (kindF64 sort) F64.val (ps.map (·.x)) x
      ∧ l.lookup ['y'] = some y ∧ Reports quart (kindF64 sort) F64.val (ps.map (·.y)) y
      ∧ l.lookup ['z'] = some z ∧ Reports quart (kindF64 sort) F64.val (ps.map (·.z)) z
      ∧ l.lookup ['c'] = some c ∧ Reports quart kindU32 (fun u => (u.toNat : ℝ)) (ps.map (·.c)) c
      ∧ l.lookup ['p'] = some p ∧ Reports quart kindU32 (fun u => (u.toNat : ℝ)) (ps.map (·.p)) p
      ∧ l.lookup ['i'] = some i ∧ Reports quart kindU16 (fun u => (u.toNat : ℝ)) (ps.map (·.i)) i
      ∧ l.lookup ['r'] = some r ∧ Reports quart kindU16 (fun u => (u.toNat : ℝ)) (ps.map (·.r)) r
      ∧ l.lookup ['g'] = some g ∧ Reports quart kindU16 (fun u => (u.toNat : ℝ)) (ps.map (·.g)) g
      ∧ l.lookup ['b'] = some bl ∧ Reports quart kindU16 (fun u => (u.toNat : ℝ)) (ps.map (·.b)) bl
      ∧ l.lookup ['e', 'x', 't', 'r', 'a'] = some (.arr es) ∧ es.length = Diff.extraFieldsSize ps
      ∧ ∀ (k : Nat) (e : Json), es[k]? = some e → Reports quart kindU64 (fun u => (u.toNat : ℝ)) (extraColumn k ps) e := by
  have hm : ∀ {α : Type} (g : PointRecord → α), ps.map g ≠ [] := fun g h => hne (List.map_eq_nil_iff.mp h)
  have hl : ∀ {α : Type} (g : PointRecord → α), (ps.map g).length < 2 ^ 62 := fun g => by rw [List.length_map]; exact hlen
  obtain ⟨x, x1, x2⟩ := c59_object (lawful_f64 hs) (ps.map (·.x)) (hm _)
    (by intro a ha; obtain ⟨p, hp, rfl⟩ := List.mem_map.mp ha; exact (hn p hp).1) (hl _) quart
  obtain ⟨y, y1, y2⟩ := c59_object (lawful_f64 hs) (ps.map (·.y)) (hm _)
    (by intro a ha; obtain ⟨p, hp, rfl⟩ := List.mem_map.mp ha; exact (hn p hp).2.1) (hl _) quart
  obtain ⟨z, z1, z2⟩ := c59_object (lawful_f64 hs) (ps.map (·.z)) (hm _)
    (by intro a ha; obtain ⟨p, hp, rfl⟩ := List.mem_map.mp ha; exact (hn p hp).2.2) (hl _) quart
  obtain ⟨c, c1, c2⟩ := c59_object lawful_u32 (ps.map (·.c)) (hm _) (fun _ _ => trivial) (hl _) quart
  obtain ⟨p, p1, p2⟩ := c59_object lawful_u32 (ps.map (·.p)) (hm _) (fun _ _ => trivial) (hl _) quart
  obtain ⟨i, i1, i2⟩ := c59_object lawful_u16 (ps.map (·.i)) (hm _) (fun _ _ => trivial) (hl _) quart
  obtain ⟨r, r1, r2⟩ := c59_object lawful_u16 (ps.map (·.r)) (hm _) (fun _ _ => trivial) (hl _) quart
  obtain ⟨g, g1, g2⟩ := c59_object lawful_u16 (ps.map (·.g)) (hm _) (fun _ _ => trivial) (hl _) quart
  obtain ⟨bl, b1, b2⟩ := c59_object lawful_u16 (ps.map (·.b)) (hm _) (fun _ _ => trivial) (hl _) quart
  have hex : ∀ k : Nat, ∃ e, summaryObject kindU64 (extraColumn k ps) quart = .ok e
      ∧ Reports quart kindU64 (fun u => (u.toNat : ℝ)) (extraColumn k ps) e :=
    fun k => c59_object lawful_u64 (extraColumn k ps) (hm _) (fun _ _ => trivial) (hl _) quart
  choose e e1 e2 using hex
  have he : (List.range (Diff.extraFieldsSize ps)).mapM (fun k => do
      let e ← Diff.getExtra b k ps
      summaryObject kindU64 e quart) = .ok ((List.range (Diff.extraFieldsSize ps)).map e) := by
    have key : ∀ l : List Nat, (∀ k ∈ l, k < Diff.extraFieldsSize ps) → l.mapM (fun k => do
      let e ← Diff.getExtra b k ps
      summaryObject kindU64 e quart) = .ok (l.map e) := by
      intro l
      induction l with
      | nil => intro _; rfl
      | cons k r ih =>
        intro h
        rw [List.mapM_cons, getExtra_ok b hu (h k (by simp)), ih (fun k hk => h k (by simp [hk]))]
        simp only [Res.ok_bind, e1]
        rfl
    exact key _ (fun k hk => List.mem_range.mp hk)
  refine ⟨mapOf [(['x'], x), (['y'], y), (['z'], z), (['c'], c), (['p'], p), (['i'], i), (['r'], r), (['g'], g), (['b'], bl),
    (['e', 'x', 't', 'r', 'a'], .arr ((List.range (Diff.extraFieldsSize ps)).map e))],
    x, y, z, c, p, i, r, g, bl, (List.range (Diff.extraFieldsSize ps)).map e, ?_, ?_⟩
  · unfold summariesObject Diff.column
    simp only [x1, y1, z1, c1, p1, i1, r1, g1, b1, he, Res.ok_bind]
  · simp only [lookup_mapOf]
    refine ⟨rfl, x2, rfl, y2, rfl, z2, rfl, c2, rfl, p2, rfl, i2, rfl, r2, rfl, g2, rfl, b2, rfl, by simp, ?_⟩
    intro k t ht
    rw [List.getElem?_map, Option.map_eq_some_iff] at ht
    obtain ⟨k', hk', rfl⟩ := ht
    have : k' = k := by
      obtain ⟨h1, h2⟩ := List.getElem?_eq_some_iff.mp hk'
      rw [← h2, List.getElem_range]
    subst this
    exact e2 k'

/-- **C59** for the text output of files without NaN. -/
theorem c59_text_partial (b : Build) (sort : List F64 → List F64) (hs : SortsF64 sort) (ps : List PointRecord) (hne : ps ≠ []) (hu : Uniform ps)
    (hn : NoNaN ps) (hlen : ps.length < 2 ^ 62) (compact quart : Bool) :
    ∃ x y z c p i r g bl es, summariesText b sort ps compact quart = .ok (x ++ y ++ z ++ c ++ p ++ i ++ r ++ g ++ bl ++ List.flatten es)
      ∧ ReportsText compact quart (kindF64 sort) F64.val (ps.map (·.x)) "x\t".toList x
      ∧ ReportsText compact quart (kindF64 sort) F64.val (ps.map (·.y)) "y\t".toList y
      ∧ ReportsText compact quart (kindF64 sort) F64.val (ps.map (·.z)) "z\t".toList z
      ∧ ReportsText compact quart kindU32 (fun u => (u.toNat : ℝ)) (ps.map (·.c)) "c\t".toList c
      ∧ ReportsText compact quart kindU32 (fun u => (u.toNat : ℝ)) (ps.map (·.p)) "p\t".toList p
      ∧ ReportsText compact quart kindU16 (fun u => (u.toNat : ℝ)) (ps.map (·.i)) "i\t".toList i
      ∧ ReportsText compact quart kindU16 (fun u => (u.toNat : ℝ)) (ps.map (·.r)) "r\t".toList r
      ∧ ReportsText compact quart kindU16 (fun u => (u.toNat : ℝ)) (ps.map (·.g)) "g\t".toList g
      ∧ ReportsText compact quart kindU16 (fun u => (u.toNat : ℝ)) (ps.map (·.b)) "b\t".toList bl
      ∧ es.length = Diff.extraFieldsSize ps
      ∧ ∀ (k : Nat) (e : Str), es[k]? = some e → ReportsText compact quart kindU64 (fun u => (u.toNat : ℝ)) (extraColumn k ps)
          ("extra_".toList ++ showNat k ++ ['\t']) e := by
  have hm : ∀ {α : Type} (g : PointRecord → α), ps.map g ≠ [] := fun g h => hne (List.map_eq_nil_iff.mp h)
  have hl : ∀ {α : Type} (g : PointRecord → α), (ps.map g).length < 2 ^ 62 := fun g => by rw [List.length_map]; exact hlen
  obtain ⟨x, x1, x2⟩ := c59_string (lawful_f64 hs) (ps.map (·.x)) (hm _)
    (by intro a ha; obtain ⟨p, hp, rfl⟩ := List.mem_map.mp ha; exact (hn p hp).1) (hl _) "x\t".toList compact quart
  obtain ⟨y, y1, y2⟩ := c59_string (lawful_f64 hs) (ps.map (·.y)) (hm _)
    (by intro a ha; obtain ⟨p, hp, rfl⟩ := List.mem_map.mp ha; exact (hn p hp).2.1) (hl _) "y\t".toList compact quart
  obtain ⟨z, z1, z2⟩ := c59_string (lawful_f64 hs) (ps.map (·.z)) (hm _)
    (by intro a ha; obtain ⟨p, hp, rfl⟩ := List.mem_map.mp ha; exact (hn p hp).2.2) (hl _) "z\t".toList compact quart
  obtain ⟨c, c1, c2⟩ := c59_string lawful_u32 (ps.map (·.c)) (hm _) (fun _ _ => trivial) (hl _) "c\t".toList compact quart
  obtain ⟨p, p1, p2⟩ := c59_string lawful_u32 (ps.map (·.p)) (hm _) (fun _ _ => trivial) (hl _) "p\t".toList compact quart
  obtain ⟨i, i1, i2⟩ := c59_string lawful_u16 (ps.map (·.i)) (hm _) (fun _ _ => trivial) (hl _) "i\t".toList compact quart
  obtain ⟨r, r1, r2⟩ := c59_string lawful_u16 (ps.map (·.r)) (hm _) (fun _ _ => trivial) (hl _) "r\t".toList compact quart
  obtain ⟨g, g1, g2⟩ := c59_string lawful_u16 (ps.map (·.g)) (hm _) (fun _ _ => trivial) (hl _) "g\t".toList compact quart
  obtain ⟨bl, b1, b2⟩ := c59_string lawful_u16 (ps.map (·.b)) (hm _) (fun _ _ => trivial) (hl _) "b\t".toList compact quart
  have hex : ∀ k : Nat, ∃ e, summaryString kindU64 ("extra_".toList ++ showNat k ++ ['\t']) (extraColumn k ps) compact quart = .ok e
      ∧ ReportsText compact quart kindU64 (fun u => (u.toNat : ℝ)) (extraColumn k ps) ("extra_".toList ++ showNat k ++ ['\t']) e :=
    fun k => c59_string lawful_u64 (extraColumn k ps) (hm _) (fun _ _ => trivial) (hl _) _ compact quart
  choose e e1 e2 using hex
  have he : (List.range (Diff.extraFieldsSize ps)).mapM (fun k => do
      let e ← Diff.getExtra b k ps
      summaryString kindU64 ("extra_".toList ++ showNat k ++ ['\t']) e compact quart) = .ok ((List.range (Diff.extraFieldsSize ps)).map e) := by
    have key : ∀ l : List Nat, (∀ k ∈ l, k < Diff.extraFieldsSize ps) → l.mapM (fun k => do
      let e ← Diff.getExtra b k ps
      summaryString kindU64 ("extra_".toList ++ showNat k ++ ['\t']) e compact quart) = .ok (l.map e) := by
      intro l
      induction l with
      | nil => intro _; rfl
      | cons k r ih =>
        intro h
        rw [List.mapM_cons, getExtra_ok b hu (h k (by simp)), ih (fun k hk => h k (by simp [hk]))]
        simp only [Res.ok_bind, e1]
        rfl
    exact key _ (fun k hk => List.mem_range.mp hk)
  refine ⟨x, y, z, c, p, i, r, g, bl, (List.range (Diff.extraFieldsSize ps)).map e, ?_, x2, y2, z2, c2, p2, i2, r2, g2, b2, by simp, ?_⟩
  · unfold summariesText Diff.column
    simp only [x1, y1, z1, c1, p1, i1, r1, g1, b1, he, Res.ok_bind]
  · intro k t ht
    rw [List.getElem?_map, Option.map_eq_some_iff] at ht
    obtain ⟨k', hk', rfl⟩ := ht
    have : k' = k := by
      obtain ⟨h1, h2⟩ := List.getElem?_eq_some_iff.mp hk'
      rw [← h2, List.getElem_range]
    subst this
    exact e2 k'

/-- A sorting function as the theorems need it. -/
def exampleSort (xs : List F64) : List F64 := xs.mergeSort (fun a b => decide (a.fv ≤ b.fv))

theorem exampleSort_sorts : SortsF64 exampleSort := by
  intro xs _
  refine ⟨List.mergeSort_perm _ _, ?_⟩
  have := List.pairwise_mergeSort (le := fun (a b : F64) => decide (a.fv ≤ b.fv)) (by intro a b c; simp only [decide_eq_true_eq]; omega)
    (by intro a b; simp; omega) xs
  refine this.imp ?_
  intro a b h
  exact F64.val_le_iff.mpr (by simpa using h)

example : SortsF64 exampleSort ∧ exampleFile.prs ≠ [] ∧ Uniform exampleFile.prs ∧ NoNaN exampleFile.prs ∧ exampleFile.prs.length < 2 ^ 62
    ∧ Diff.extraFieldsSize exampleFile.prs = 3 := by
  refine ⟨exampleSort_sorts, ?_⟩
  unfold Uniform NoNaN
  decide +kernel

/-- What is missing in C59: a NaN in the first place hides minimum and maximum, -/
theorem c59_nan_range (sort : List F64 → List F64) : summaryObject (kindF64 sort) [F64.nan, F64.one, F64.zero] false =
    .ok (.obj [(['m', 'a', 'x'], .dbl F64.nan), (['m', 'i', 'n'], .dbl F64.nan), (['r', 'a', 'n', 'g', 'e'], .dbl F64.nan)]) := by rfl

/-- and quartiles of values with a NaN among them are undefined behaviour, -/
theorem c59_nan_undefined (sort : List F64 → List F64) (xs : List F64) (h : 2 ≤ xs.length) (hn : xs.any F64.isNaN = true) :
    (summaryObject (kindF64 sort) xs true).isUb = true := by
  cases xs with
  | nil => simp at h
  | cons x r =>
    unfold summaryObject quartiles kindF64
    simp only [if_true]
    rw [if_pos ⟨h, hn⟩]
    rfl

example : 2 ≤ [F64.one, F64.nan].length ∧ [F64.one, F64.nan].any F64.isNaN = true := by decide +kernel

end Spoc.Props
