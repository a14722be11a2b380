import Verif.Proofs.Json
import Verif.Props.Info

/-!
# C60: the numbers in the JSON output of the info application
-/

namespace Spoc.Props

open Text Spec Info Json

/-! ## Lemmas -/

theorem mem_mapSet {β : Type} {m : List (Str × β)} {k : Str} {v : β} {e : Str × β} (h : e ∈ mapSet m k v) : e = (k, v) ∨ e ∈ m := by
  induction m with
  | nil => left; simpa [mapSet] using h
  | cons e' r ih =>
    obtain ⟨k', v'⟩ := e'
    rw [mapSet] at h
    split at h
    · rcases List.mem_cons.mp h with h | h
      · exact Or.inl h
      · exact Or.inr h
    · split at h
      · rcases List.mem_cons.mp h with h | h
        · exact Or.inl h
        · exact Or.inr (List.mem_cons_of_mem _ h)
      · rcases List.mem_cons.mp h with h | h
        · right; rw [h]; simp
        · rcases ih h with h | h
          · exact Or.inl h
          · exact Or.inr (List.mem_cons_of_mem _ h)

theorem mem_mapOf {β : Type} {l : List (Str × β)} {e : Str × β} (h : e ∈ mapOf l) : e ∈ l := by
  have key : ∀ (l m : List (Str × β)), e ∈ l.foldl (fun m e => mapSet m e.1 e.2) m → e ∈ l ∨ e ∈ m := by
    intro l
    induction l with
    | nil => intro m h; exact Or.inr h
    | cons a r ih =>
      intro m h
      rcases ih _ h with h | h
      · exact Or.inl (List.mem_cons_of_mem _ h)
      · rcases mem_mapSet h with h | h
        · left; rw [h]; simp
        · exact Or.inr h
  rcases key l [] h with h | h
  · exact h
  · simp at h

theorem clean_mapOf {l : List (Str × Json)} (h : ∀ e ∈ l, '\'' ∉ e.1 ∧ Clean e.2) : Clean (.obj (mapOf l)) := by
  rw [Clean, cleanObject_iff]
  exact fun e he => h e (mem_mapOf he)

theorem lookup_map_snd {β γ : Type} (g : β → γ) (l : List (Str × β)) (k : Str) :
    (l.map (fun e => (e.1, g e.2))).lookup k = (l.lookup k).map g := by
  induction l with
  | nil => rfl
  | cons e r ih =>
    obtain ⟨k', v⟩ := e
    rw [List.map_cons, List.lookup_cons, List.lookup_cons]
    cases h : (k == k')
    · exact ih
    · rfl

theorem get_obj (l : List (Str × Json)) (k : Str) (ks : List Str) :
    (tree (.obj l)).get (k :: ks) = (l.lookup k).bind (fun j => (tree j).get ks) := by
  rw [tree, treeObject_eq]
  show (match (l.map (fun e => (e.1, tree e.2))).lookup k with
    | some t => Tree.get t ks
    | none => none) = _
  rw [lookup_map_snd]
  cases l.lookup k <;> rfl

theorem get_nil (t : Tree) : t.get [] = some t := by cases t <;> rfl

/-- The keys contain no quotes. -/
theorem clean_keys : ∀ k ∈ [['s', 'i', 'z', 'e'], ['m', 'i', 'n'], ['m', 'a', 'x'], ['r', 'a', 'n', 'g', 'e'], ['q', '0'], ['q', '1'], ['q', '2'],
    ['q', '3'], ['q', '4'], ['x'], ['y'], ['z'], ['c'], ['p'], ['i'], ['r'], ['g'], ['b'], ['e', 'x', 't', 'r', 'a'],
    Key.majorVersion, Key.minorVersion, Key.wkt, Key.totalPoints, Key.compressed, Key.header, Key.summary, Key.classifications, Key.metrics,
    Key.extentPointDensity, Key.gridPointDensity, Key.voxelPointDensity], '\'' ∉ k := by decide

theorem clean_summary {α : Type} {k : Kind α} (h1 : ∀ a, Clean (k.json a)) (h2 : ∀ a b, Clean (k.jsonDiff a b)) {xs : List α} {quart : Bool}
    {j : Json} (h : summaryObject k xs quart = .ok j) : Clean j := by
  cases xs with
  | nil =>
    rw [summaryObject] at h
    rw [← Res.ok.inj h]
    apply clean_mapOf
    intro e he
    simp only [List.mem_cons, List.not_mem_nil, or_false] at he
    rcases he with rfl | rfl | rfl <;> exact ⟨clean_keys _ (by simp), by rw [Clean] <;> simp⟩
  | cons x r =>
    rw [summaryObject] at h
    cases quart with
    | true =>
      rw [if_pos rfl] at h
      cases hq : quartiles k (x :: r) with
      | ok q =>
        rw [hq, Res.ok_bind] at h
        rw [← Res.ok.inj h]
        apply clean_mapOf
        intro e he
        simp only [List.mem_cons, List.not_mem_nil, or_false] at he
        rcases he with rfl | rfl | rfl | rfl | rfl | rfl
        · exact ⟨clean_keys _ (by simp), h2 _ _⟩
        all_goals exact ⟨clean_keys _ (by simp), h1 _⟩
      | throw e => rw [hq] at h; exact absurd h (by intro h; cases h)
      | ub e => rw [hq] at h; exact absurd h (by intro h; cases h)
      | abort => rw [hq] at h; exact absurd h (by intro h; cases h)
      | hang => rw [hq] at h; exact absurd h (by intro h; cases h)
    | false =>
      rw [if_neg (by simp)] at h
      rw [← Res.ok.inj h]
      apply clean_mapOf
      intro e he
      simp only [List.mem_cons, List.not_mem_nil, or_false] at he
      rcases he with rfl | rfl | rfl
      · exact ⟨clean_keys _ (by simp), h2 _ _⟩
      all_goals exact ⟨clean_keys _ (by simp), h1 _⟩

theorem clean_f64 {sort : List F64 → List F64} {xs : List F64} {quart : Bool} {j : Json} (h : summaryObject (kindF64 sort) xs quart = .ok j) : Clean j :=
  clean_summary (by intro a; unfold kindF64; rw [Clean] <;> simp) (by intro a b; unfold kindF64; rw [Clean] <;> simp) h

theorem clean_u32 {xs : List UInt32} {quart : Bool} {j : Json} (h : summaryObject kindU32 xs quart = .ok j) : Clean j :=
  clean_summary (by intro a; unfold kindU32; rw [Clean] <;> simp) (by intro a b; unfold kindU32; rw [Clean] <;> simp) h

theorem clean_u16 {xs : List UInt16} {quart : Bool} {j : Json} (h : summaryObject kindU16 xs quart = .ok j) : Clean j :=
  clean_summary (by intro a; unfold kindU16; rw [Clean] <;> simp) (by intro a b; unfold kindU16; rw [Clean] <;> simp) h

theorem clean_u64 {xs : List UInt64} {quart : Bool} {j : Json} (h : summaryObject kindU64 xs quart = .ok j) : Clean j :=
  clean_summary (by intro a; unfold kindU64; rw [Clean] <;> simp) (by intro a b; unfold kindU64; rw [Clean] <;> simp) h

theorem bind_ok {α β : Type} {x : Res α} {g : α → Res β} {r : β} (h : (x >>= g) = .ok r) : ∃ a, x = .ok a ∧ g a = .ok r := by
  cases x with
  | ok a => exact ⟨a, rfl, h⟩
  | throw e => exact absurd h (by intro h; cases h)
  | ub e => exact absurd h (by intro h; cases h)
  | abort => exact absurd h (by intro h; cases h)
  | hang => exact absurd h (by intro h; cases h)

theorem clean_summaries {b : Build} {sort : List F64 → List F64} {ps : List PointRecord} {quart : Bool} {j : Json}
    (h : summariesObject b sort ps quart = .ok j) : Clean j := by
  unfold summariesObject at h
  obtain ⟨x, hx, h⟩ := bind_ok h
  obtain ⟨y, hy, h⟩ := bind_ok h
  obtain ⟨z, hz, h⟩ := bind_ok h
  obtain ⟨c, hc, h⟩ := bind_ok h
  obtain ⟨p, hp, h⟩ := bind_ok h
  obtain ⟨i, hi, h⟩ := bind_ok h
  obtain ⟨r, hr, h⟩ := bind_ok h
  obtain ⟨g, hg, h⟩ := bind_ok h
  obtain ⟨bl, hbl, h⟩ := bind_ok h
  obtain ⟨a, ha, h⟩ := bind_ok h
  rw [← Res.ok.inj h]
  apply clean_mapOf
  intro e he
  simp only [List.mem_cons, List.not_mem_nil, or_false] at he
  rcases he with rfl | rfl | rfl | rfl | rfl | rfl | rfl | rfl | rfl | rfl
  · exact ⟨clean_keys _ (by simp), clean_f64 hx⟩
  · exact ⟨clean_keys _ (by simp), clean_f64 hy⟩
  · exact ⟨clean_keys _ (by simp), clean_f64 hz⟩
  · exact ⟨clean_keys _ (by simp), clean_u32 hc⟩
  · exact ⟨clean_keys _ (by simp), clean_u32 hp⟩
  · exact ⟨clean_keys _ (by simp), clean_u16 hi⟩
  · exact ⟨clean_keys _ (by simp), clean_u16 hr⟩
  · exact ⟨clean_keys _ (by simp), clean_u16 hg⟩
  · exact ⟨clean_keys _ (by simp), clean_u16 hbl⟩
  · refine ⟨clean_keys _ (by simp), ?_⟩
    rw [Clean, cleanArray_iff]
    have key : ∀ (l : List Nat) (a : List Json), l.mapM (fun k => do
        let e ← Diff.getExtra b k ps
        summaryObject kindU64 e quart) = .ok a → ∀ v ∈ a, Clean v := by
      intro l
      induction l with
      | nil =>
        intro a h v hv
        rw [List.mapM_nil] at h
        rw [← Res.ok.inj h] at hv
        simp at hv
      | cons k r ih =>
        intro a h v hv
        rw [List.mapM_cons] at h
        obtain ⟨s, hs, h⟩ := bind_ok h
        obtain ⟨e, he, hs⟩ := bind_ok hs
        obtain ⟨t, ht, h⟩ := bind_ok h
        rw [← Res.ok.inj h] at hv
        rcases List.mem_cons.mp hv with rfl | hv
        · exact clean_u64 hs
        · exact ih t ht v hv
    exact key _ _ ha

theorem showInt_noquote (n : Int) : '\'' ∉ showInt n := by
  intro h
  obtain ⟨h1, h2, -⟩ := showInt_numeral n
  rw [h2] at h
  rcases numeral_chars h1 _ h with h | h | h | h | h | h <;> revert h <;> decide

theorem classKey_noquote (n : Int) : '\'' ∉ classKey n := by
  intro h
  unfold classKey padLeft at h
  rcases List.mem_append.mp h with h | h
  · exact absurd (List.mem_replicate.mp h).2 (by decide)
  · exact showInt_noquote n h

theorem clean_classes (ps : List PointRecord) : Clean (classesObject ps) := by
  apply clean_mapOf
  intro e he
  obtain ⟨e', he', rfl⟩ := List.mem_map.mp he
  refine ⟨?_, by rw [Clean] <;> simp⟩
  unfold classCountMap at he'
  obtain ⟨e'', -, rfl⟩ := List.mem_map.mp (mem_mapOf he')
  exact classKey_noquote _

theorem clean_metrics {ps : List PointRecord} {j : Json} (h : metricsObject ps = .ok j) : Clean j := by
  obtain ⟨m, hm, h⟩ := bind_ok h
  rw [← Res.ok.inj h]
  apply clean_mapOf
  intro e he
  obtain ⟨e', he', rfl⟩ := List.mem_map.mp he
  refine ⟨?_, by rw [Clean] <;> simp⟩
  obtain ⟨vi, -, hm⟩ := bind_ok hm
  rw [← Res.ok.inj hm] at he'
  have := mem_mapOf he'
  simp only [List.mem_cons, List.not_mem_nil, or_false] at this
  rcases this with rfl | rfl | rfl <;> exact clean_keys _ (by simp)

theorem clean_header {h : Header} (hw : '\'' ∉ chars h.wkt) : Clean (headerObject h) := by
  apply clean_mapOf
  intro e he
  simp only [List.mem_cons, List.not_mem_nil, or_false] at he
  rcases he with rfl | rfl | rfl | rfl | rfl
  · exact ⟨clean_keys _ (by simp), by rw [Clean] <;> simp⟩
  · exact ⟨clean_keys _ (by simp), by rw [Clean] <;> simp⟩
  · exact ⟨clean_keys _ (by simp), by rw [Clean]; exact hw⟩
  · exact ⟨clean_keys _ (by simp), by rw [Clean] <;> simp⟩
  · exact ⟨clean_keys _ (by simp), by rw [Clean] <;> simp⟩

/-! ## Numbers -/

theorem isNum_nat (n : Nat) : IsNum (some (.atom (showNat n))) n 0 := by
  obtain ⟨h1, h2, h3⟩ := showNat_numeral n
  refine ⟨natNumeral n, h1, by rw [← h2], ?_⟩
  rw [h3]
  simp

theorem isNum_int (n : Int) : IsNum (some (.atom (showInt n))) n 0 := by
  obtain ⟨h1, h2, h3⟩ := showInt_numeral n
  refine ⟨intNumeral n, h1, by rw [← h2], ?_⟩
  rw [h3]
  simp

theorem isNum_dbl {x : F64} (h : x.isFinite = true) : IsNum (some (.atom (showFixed 15 x))) x.val (1 / 2 / 10 ^ 15) := by
  obtain ⟨h1, h2, h3⟩ := showFixed_numeral (P := 15) (by norm_num) h
  exact ⟨_, h1, by rw [← h2], h3⟩

theorem tree_u8 (n : UInt8) : tree (.u8 n) = .atom (showNat n.toNat) := by rw [tree, scalar] <;> simp
theorem tree_u16 (n : UInt16) : tree (.u16 n) = .atom (showNat n.toNat) := by rw [tree, scalar] <;> simp
theorem tree_u64 (n : UInt64) : tree (.u64 n) = .atom (showNat n.toNat) := by rw [tree, scalar] <;> simp
theorem tree_u32 (n : UInt32) : tree (.u32 n) = .atom "unknown type: j".toList := by rw [tree, scalar] <;> simp
theorem tree_int (n : Int) : tree (.int n) = .atom (showInt n) := by rw [tree, scalar] <;> simp
theorem tree_dbl (x : F64) : tree (.dbl x) = .atom (showFixed 15 x) := by rw [tree, scalar] <;> simp

/-- What is found under the key of a field: the numbers that have been asked for, up to `ε`.  `d` is the difference of two values that is
reported as the range, and `G` the condition that it is a number. -/
def Numbers {α : Type} (quart : Bool) (v : α → ℝ) (d : α → α → ℝ) (G : α → α → Prop) (ε : ℝ) (xs : List α) (t : Tree) : Prop :=
  if quart then
    ∃ q0 q1 q2 q3 q4, IsSummary v xs q0 q1 q2 q3 q4
      ∧ IsNum (t.get [['q', '0']]) (v q0) ε ∧ IsNum (t.get [['q', '1']]) (v q1) ε ∧ IsNum (t.get [['q', '2']]) (v q2) ε
      ∧ IsNum (t.get [['q', '3']]) (v q3) ε ∧ IsNum (t.get [['q', '4']]) (v q4) ε
      ∧ (G q4 q0 → IsNum (t.get [['r', 'a', 'n', 'g', 'e']]) (d q4 q0) ε)
  else
    ∃ mn mx, IsRange v xs mn mx ∧ IsNum (t.get [['m', 'i', 'n']]) (v mn) ε ∧ IsNum (t.get [['m', 'a', 'x']]) (v mx) ε
      ∧ (G mx mn → IsNum (t.get [['r', 'a', 'n', 'g', 'e']]) (d mx mn) ε)

theorem numbers_of_reports {α : Type} {k : Kind α} {v : α → ℝ} {d : α → α → ℝ} {G : α → α → Prop} {ε : ℝ} {xs : List α} {quart : Bool} {j : Json}
    (h : Reports quart k v xs j) (h1 : ∀ a ∈ xs, IsNum (some (tree (k.json a))) (v a) ε)
    (h2 : ∀ a b, a ∈ xs → b ∈ xs → v b ≤ v a → G a b → IsNum (some (tree (k.jsonDiff a b))) (d a b) ε) :
    Numbers quart v d G ε xs (tree j) := by
  unfold Reports at h
  unfold Numbers
  have key : ∀ {l : List (Str × Json)} {k' : Str} {j : Json}, l.lookup k' = some j → (tree (.obj l)).get [k'] = some (tree j) := by
    intro l k' j h
    rw [get_obj, h]
    exact get_nil _
  cases quart with
  | true =>
    rw [if_pos rfl] at h ⊢
    obtain ⟨q0, q1, q2, q3, q4, l, hs, rfl, e0, e1, e2, e3, e4, er⟩ := h
    obtain ⟨m0, m1, m2, m3, m4⟩ := hs.mem
    refine ⟨q0, q1, q2, q3, q4, hs, ?_, ?_, ?_, ?_, ?_, ?_⟩
    · rw [key e0]; exact h1 _ m0
    · rw [key e1]; exact h1 _ m1
    · rw [key e2]; exact h1 _ m2
    · rw [key e3]; exact h1 _ m3
    · rw [key e4]; exact h1 _ m4
    · intro hG; rw [key er]; exact h2 _ _ m4 m0 (hs.bounds q4 m4).1 hG
  | false =>
    rw [if_neg (by simp)] at h ⊢
    obtain ⟨mn, mx, l, hs, rfl, e0, e1, er⟩ := h
    obtain ⟨m0, m1⟩ := hs.mem
    refine ⟨mn, mx, hs, ?_, ?_, ?_⟩
    · rw [key e0]; exact h1 _ m0
    · rw [key e1]; exact h1 _ m1
    · intro hG; rw [key er]; exact h2 _ _ m1 m0 (hs.bounds mx m1).1 hG

/-- Numbers of a field of doubles: up to half a unit in the 15th decimal; the range is the rounded difference, unless it overflows. -/
def NumbersF64 (quart : Bool) (xs : List F64) (t : Option Tree) : Prop :=
  ∃ t', t = some t' ∧ Numbers quart F64.val (fun a b => (F64.sub a b).val) (fun a b => (F64.sub a b).isFinite = true) (1 / 2 / 10 ^ 15) xs t'

/-- Numbers of a field of integers: exact. -/
def NumbersInt {α : Type} (quart : Bool) (v : α → ℝ) (xs : List α) (t : Option Tree) : Prop :=
  ∃ t', t = some t' ∧ Numbers quart v (fun a b => v a - v b) (fun _ _ => True) 0 xs t'

/-- Every coordinate is finite. -/
def AllFinite (ps : List PointRecord) : Prop := ∀ p ∈ ps, p.x.isFinite = true ∧ p.y.isFinite = true ∧ p.z.isFinite = true

theorem finite_noNaN {x : F64} (h : x.isFinite = true) : x.isNaN = false := by
  unfold F64.isFinite at h
  unfold F64.isNaN
  simp only [decide_eq_true_eq, decide_eq_false_iff_not] at *
  omega

theorem numbers_f64 {sort : List F64 → List F64} {quart : Bool} {xs : List F64} {j : Json} (h : Reports quart (kindF64 sort) F64.val xs j)
    (hf : ∀ x ∈ xs, x.isFinite = true) : NumbersF64 quart xs (some (tree j)) := by
  refine ⟨_, rfl, numbers_of_reports h ?_ ?_⟩
  · intro a ha
    show IsNum (some (tree (.dbl a))) _ _
    rw [tree_dbl]
    exact isNum_dbl (hf a ha)
  · intro a b _ _ _ hG
    show IsNum (some (tree (.dbl (F64.sub a b)))) _ _
    rw [tree_dbl]
    exact isNum_dbl hG

theorem numbers_u16 {quart : Bool} {xs : List UInt16} {j : Json} (h : Reports quart kindU16 (fun u => (u.toNat : ℝ)) xs j) :
    NumbersInt quart (fun u => (u.toNat : ℝ)) xs (some (tree j)) := by
  refine ⟨_, rfl, numbers_of_reports h ?_ ?_⟩
  · intro a ha
    show IsNum (some (tree (.u16 a))) _ _
    rw [tree_u16]
    exact isNum_nat _
  · intro a b _ _ _ _
    show IsNum (some (tree (.int ((a.toNat : Int) - b.toNat)))) _ _
    rw [tree_int]
    have := isNum_int ((a.toNat : Int) - b.toNat)
    push_cast at this
    exact this

theorem numbers_u64 {quart : Bool} {xs : List UInt64} {j : Json} (h : Reports quart kindU64 (fun u => (u.toNat : ℝ)) xs j) :
    NumbersInt quart (fun u => (u.toNat : ℝ)) xs (some (tree j)) := by
  refine ⟨_, rfl, numbers_of_reports h ?_ ?_⟩
  · intro a ha
    show IsNum (some (tree (.u64 a))) _ _
    rw [tree_u64]
    exact isNum_nat _
  · intro a b _ _ hab _
    show IsNum (some (tree (.u64 (a - b)))) _ _
    have hle : b.toNat ≤ a.toNat := by exact_mod_cast hab
    have e : (a - b).toNat = a.toNat - b.toNat := UInt64.toNat_sub_of_le _ _ hle
    rw [tree_u64, e]
    have := isNum_nat (a.toNat - b.toNat)
    rw [Nat.cast_sub hle] at this
    exact this

/-! ## The document -/

theorem sections_lookup (h s c m : Option Json) (l : List (Str × Json))
    (hl : l = mapOf ((h.toList.map (fun j => (Key.header, j))) ++ (s.toList.map (fun j => (Key.summary, j)))
      ++ (c.toList.map (fun j => (Key.classifications, j))) ++ (m.toList.map (fun j => (Key.metrics, j))))) :
    l.lookup Key.header = h ∧ l.lookup Key.summary = s ∧ l.lookup Key.classifications = c ∧ l.lookup Key.metrics = m := by
  rw [hl, lookup_mapOf, lookup_mapOf, lookup_mapOf, lookup_mapOf]
  cases h <;> cases s <;> cases c <;> cases m <;> exact ⟨rfl, rfl, rfl, rfl⟩

theorem section_opt {on : Bool} {name : Str} {j : Res Json} {l : List (Str × Json)} (h : section' on name j = .ok l) :
    ∃ o : Option Json, l = o.toList.map (fun v => (name, v)) ∧ (on = true → ∃ v, o = some v ∧ j = .ok v) ∧ (∀ v, o = some v → j = .ok v) := by
  unfold section' at h
  cases on with
  | true =>
    rw [if_pos rfl] at h
    obtain ⟨v, hv, h⟩ := bind_ok h
    exact ⟨some v, by rw [← Res.ok.inj h]; rfl, fun _ => ⟨v, rfl, hv⟩, fun w hw => by rw [← Option.some.inj hw]; exact hv⟩
  | false =>
    rw [if_neg (by simp)] at h
    exact ⟨none, by rw [← Res.ok.inj h]; rfl, fun h => absurd h (by simp), fun v h => absurd h (by simp)⟩

/-- The printed text is read back as a tree with the four sections. -/
theorem document_read {b : Build} {sort : List F64 → List F64} {a : Args} {f : SpocFile} {t : Str} (hj : a.json = true)
    (hw : '\'' ∉ chars f.wkt) (h : process b sort a f = .ok t) :
    ∃ T, Tree.read t = some T
      ∧ (a.headerInfo = true → ∃ hd, f.getHeader = .ok hd ∧ ∀ ks, T.get (Key.header :: ks) = (tree (headerObject hd)).get ks)
      ∧ (a.summaryInfo = true → ∃ j, summariesObject b sort f.prs a.quartiles = .ok j ∧ ∀ ks, T.get (Key.summary :: ks) = (tree j).get ks)
      ∧ (a.classInfo = true → ∀ ks, T.get (Key.classifications :: ks) = (tree (classesObject f.prs)).get ks)
      ∧ (a.metricInfo = true → ∃ j, metricsObject f.prs = .ok j ∧ ∀ ks, T.get (Key.metrics :: ks) = (tree j).get ks) := by
  unfold process at h
  rw [hj, if_pos rfl] at h
  obtain ⟨j, hd, h⟩ := bind_ok h
  unfold document at hd
  obtain ⟨l1, h1, hd⟩ := bind_ok hd
  obtain ⟨l2, h2, hd⟩ := bind_ok hd
  obtain ⟨l3, h3, hd⟩ := bind_ok hd
  obtain ⟨l4, h4, hd⟩ := bind_ok hd
  obtain ⟨o1, rfl, a1, b1⟩ := section_opt h1
  obtain ⟨o2, rfl, a2, b2⟩ := section_opt h2
  obtain ⟨o3, rfl, a3, b3⟩ := section_opt h3
  obtain ⟨o4, rfl, a4, b4⟩ := section_opt h4
  generalize hl : mapOf ((o1.toList.map (fun j => (Key.header, j))) ++ (o2.toList.map (fun j => (Key.summary, j)))
      ++ (o3.toList.map (fun j => (Key.classifications, j))) ++ (o4.toList.map (fun j => (Key.metrics, j)))) = l at hd
  obtain ⟨e1, e2, e3, e4⟩ := sections_lookup o1 o2 o3 o4 l hl.symm
  have hd' := (Res.ok.inj hd).symm
  have hclean : Clean j := by
    rw [hd', ← hl]
    apply clean_mapOf
    intro e he
    rcases List.mem_append.mp he with he | he
    · rcases List.mem_append.mp he with he | he
      · rcases List.mem_append.mp he with he | he
        · obtain ⟨v, hv, rfl⟩ := List.mem_map.mp he
          refine ⟨clean_keys _ (by simp), ?_⟩
          obtain ⟨hd, hh, hv⟩ := bind_ok (b1 v (Option.mem_toList.mp hv))
          rw [← Res.ok.inj hv]
          apply clean_header
          unfold SpocFile.getHeader Header.new at hh
          split at hh
          · cases hh
          · rw [← Res.ok.inj hh]; exact hw
        · obtain ⟨v, hv, rfl⟩ := List.mem_map.mp he
          exact ⟨clean_keys _ (by simp), clean_summaries (b2 v (Option.mem_toList.mp hv))⟩
      · obtain ⟨v, hv, rfl⟩ := List.mem_map.mp he
        refine ⟨clean_keys _ (by simp), ?_⟩
        rw [← Res.ok.inj (b3 v (Option.mem_toList.mp hv))]
        exact clean_classes _
    · obtain ⟨v, hv, rfl⟩ := List.mem_map.mp he
      exact ⟨clean_keys _ (by simp), clean_metrics (b4 v (Option.mem_toList.mp hv))⟩
  refine ⟨tree j, ?_, ?_, ?_, ?_, ?_⟩
  · rw [← Res.ok.inj h]
    split
    · exact read_compact hclean
    · exact read_pretty hclean 0
  · intro on
    obtain ⟨v, hv, hr⟩ := a1 on
    obtain ⟨hd, hh, hr⟩ := bind_ok hr
    refine ⟨hd, hh, fun ks => ?_⟩
    rw [hd', get_obj, e1, hv, ← Res.ok.inj hr]
    rfl
  · intro on
    obtain ⟨v, hv, hr⟩ := a2 on
    refine ⟨v, hr, fun ks => ?_⟩
    rw [hd', get_obj, e2, hv]
    rfl
  · intro on ks
    obtain ⟨v, hv, hr⟩ := a3 on
    rw [hd', get_obj, e3, hv, ← Res.ok.inj hr]
    rfl
  · intro on
    obtain ⟨v, hv, hr⟩ := a4 on
    refine ⟨v, hr, fun ks => ?_⟩
    rw [hd', get_obj, e4, hv]
    rfl

/-! ## C60 -/

/-- **C60**, the header: version, number of points and the compression flag. -/
theorem c60_header_partial (b : Build) (sort : List F64 → List F64) (a : Args) (f : SpocFile) (t : Str) (hj : a.json = true)
    (hw : '\'' ∉ chars f.wkt) (hlen : f.prs.length < 2 ^ 64) (h : process b sort a f = .ok t) (on : a.headerInfo = true) :
    ∃ T, Tree.read t = some T
      ∧ IsNum (T.get [Key.header, Key.majorVersion]) f.major.toNat 0 ∧ IsNum (T.get [Key.header, Key.minorVersion]) f.minor.toNat 0
      ∧ IsNum (T.get [Key.header, Key.totalPoints]) f.prs.length 0
      ∧ IsNum (T.get [Key.header, Key.compressed]) (if f.compressed then 1 else 0) 0
      ∧ T.get [Key.header, Key.wkt] = some (.str (chars f.wkt)) := by
  obtain ⟨T, h1, h2, -⟩ := document_read hj hw h
  refine ⟨T, h1, ?_⟩
  obtain ⟨hd, hh, h2⟩ := h2 on
  unfold SpocFile.getHeader Header.new at hh
  split at hh
  · cases hh
  · have e := (Res.ok.inj hh).symm
    simp only [h2]
    unfold headerObject
    simp only [get_obj, lookup_mapOf]
    have l1 : ((([(Key.majorVersion, Json.u8 hd.major), (Key.minorVersion, .u8 hd.minor), (Key.wkt, .str (chars hd.wkt)),
      (Key.totalPoints, .u64 hd.totalPoints), (Key.compressed, .u8 hd.compressed)] : List (Str × Json)).reverse.lookup Key.majorVersion)
        = some (.u8 hd.major)) := rfl
    have l2 : ((([(Key.majorVersion, Json.u8 hd.major), (Key.minorVersion, .u8 hd.minor), (Key.wkt, .str (chars hd.wkt)),
      (Key.totalPoints, .u64 hd.totalPoints), (Key.compressed, .u8 hd.compressed)] : List (Str × Json)).reverse.lookup Key.minorVersion)
        = some (.u8 hd.minor)) := rfl
    have l3 : ((([(Key.majorVersion, Json.u8 hd.major), (Key.minorVersion, .u8 hd.minor), (Key.wkt, .str (chars hd.wkt)),
      (Key.totalPoints, .u64 hd.totalPoints), (Key.compressed, .u8 hd.compressed)] : List (Str × Json)).reverse.lookup Key.wkt)
        = some (.str (chars hd.wkt))) := rfl
    have l4 : ((([(Key.majorVersion, Json.u8 hd.major), (Key.minorVersion, .u8 hd.minor), (Key.wkt, .str (chars hd.wkt)),
      (Key.totalPoints, .u64 hd.totalPoints), (Key.compressed, .u8 hd.compressed)] : List (Str × Json)).reverse.lookup Key.totalPoints)
        = some (.u64 hd.totalPoints)) := rfl
    have l5 : ((([(Key.majorVersion, Json.u8 hd.major), (Key.minorVersion, .u8 hd.minor), (Key.wkt, .str (chars hd.wkt)),
      (Key.totalPoints, .u64 hd.totalPoints), (Key.compressed, .u8 hd.compressed)] : List (Str × Json)).reverse.lookup Key.compressed)
        = some (.u8 hd.compressed)) := rfl
    rw [l1, l2, l3, l4, l5]
    simp only [Option.bind_some, get_nil, tree_u8, tree_u64]
    subst e
    refine ⟨isNum_nat _, isNum_nat _, ?_, ?_, by rw [tree]⟩
    · have : (UInt64.ofNat f.prs.length).toNat = f.prs.length := UInt64.toNat_ofNat_of_lt' hlen
      simp only [this]
      exact isNum_nat _
    · cases f.compressed
      · have := isNum_nat 0
        rw [Nat.cast_zero] at this
        simpa using this
      · have := isNum_nat 1
        rw [Nat.cast_one] at this
        simpa using this

/-- **C60**, the fields, for files with finite coordinates: all but class and point id. -/
theorem c60_fields_partial (b : Build) (sort : List F64 → List F64) (hs : SortsF64 sort) (a : Args) (f : SpocFile) (t : Str) (hj : a.json = true)
    (hw : '\'' ∉ chars f.wkt) (hne : f.prs ≠ []) (hu : Uniform f.prs) (hf : AllFinite f.prs) (hlen : f.prs.length < 2 ^ 62)
    (h : process b sort a f = .ok t) (on : a.summaryInfo = true) :
    ∃ T, Tree.read t = some T
      ∧ NumbersF64 a.quartiles (f.prs.map (·.x)) (T.get [Key.summary, ['x']])
      ∧ NumbersF64 a.quartiles (f.prs.map (·.y)) (T.get [Key.summary, ['y']])
      ∧ NumbersF64 a.quartiles (f.prs.map (·.z)) (T.get [Key.summary, ['z']])
      ∧ NumbersInt a.quartiles (fun u => (u.toNat : ℝ)) (f.prs.map (·.i)) (T.get [Key.summary, ['i']])
      ∧ NumbersInt a.quartiles (fun u => (u.toNat : ℝ)) (f.prs.map (·.r)) (T.get [Key.summary, ['r']])
      ∧ NumbersInt a.quartiles (fun u => (u.toNat : ℝ)) (f.prs.map (·.g)) (T.get [Key.summary, ['g']])
      ∧ NumbersInt a.quartiles (fun u => (u.toNat : ℝ)) (f.prs.map (·.b)) (T.get [Key.summary, ['b']])
      ∧ ∃ es, T.get [Key.summary, ['e', 'x', 't', 'r', 'a']] = some (.arr es) ∧ es.length = Diff.extraFieldsSize f.prs
        ∧ ∀ (k : Nat) (e : Tree), es[k]? = some e → NumbersInt a.quartiles (fun u => (u.toNat : ℝ)) (extraColumn k f.prs) (some e) := by
  obtain ⟨T, h1, -, h2, -⟩ := document_read hj hw h
  refine ⟨T, h1, ?_⟩
  obtain ⟨j, hh, h2⟩ := h2 on
  obtain ⟨l, x, y, z, c, p, i, r, g, bl, es, e, x1, x2, y1, y2, z1, z2, -, -, -, -, i1, i2, r1, r2, g1, g2, b1, b2, s1, s2, s3⟩ :=
    c59_json_partial b sort hs f.prs hne hu (fun p hp => ⟨finite_noNaN (hf p hp).1, finite_noNaN (hf p hp).2.1, finite_noNaN (hf p hp).2.2⟩)
      hlen a.quartiles
  have hjl : j = .obj l := by
    rw [hh] at e
    exact Res.ok.inj e
  have key : ∀ {k : Str} {v : Json}, l.lookup k = some v → T.get [Key.summary, k] = some (tree v) := by
    intro k v hv
    rw [h2, hjl, get_obj, hv]
    exact get_nil _
  have hx : ∀ {γ : PointRecord → F64}, (∀ p ∈ f.prs, (γ p).isFinite = true) → ∀ q ∈ f.prs.map γ, q.isFinite = true := by
    intro γ hγ q hq
    obtain ⟨p, hp, rfl⟩ := List.mem_map.mp hq
    exact hγ p hp
  rw [key x1, key y1, key z1, key i1, key r1, key g1, key b1, key s1]
  refine ⟨numbers_f64 x2 (hx fun p hp => (hf p hp).1), numbers_f64 y2 (hx fun p hp => (hf p hp).2.1), numbers_f64 z2 (hx fun p hp => (hf p hp).2.2),
    numbers_u16 i2, numbers_u16 r2, numbers_u16 g2, numbers_u16 b2, treeArray es, by rw [tree], ?_, ?_⟩
  · rw [treeArray_eq, List.length_map, s2]
  · intro k e he
    rw [treeArray_eq, List.getElem?_map, Option.map_eq_some_iff] at he
    obtain ⟨v, hv, rfl⟩ := he
    exact numbers_u64 (s3 k v hv)

theorem lookup_entries {γ : Type} (L : UInt32 → Str) (hL : Function.Injective L) (cnt : UInt32 → Nat) (g : Nat → γ) (ls : List UInt32) (hnd : ls.Nodup)
    {c : UInt32} (hc : c ∈ ls) :
    ((ls.map (fun c => (L c, cnt c))).map (fun e => (e.1, g e.2))).reverse.lookup (L c) = some (g (cnt c)) := by
  apply lookup_of_mem
  · rw [List.map_reverse, List.nodup_reverse, List.map_map, List.map_map]
    exact hnd.map_on (fun x _ y _ e => hL e)
  · rw [List.mem_reverse, List.map_map]
    exact List.mem_map.mpr ⟨c, hc, rfl⟩

/-- **C60**, the classes: the number of points of every class, under its label. -/
theorem c60_classes_partial (b : Build) (sort : List F64 → List F64) (a : Args) (f : SpocFile) (t : Str) (hj : a.json = true)
    (hw : '\'' ∉ chars f.wkt) (hlen : f.prs.length < 2 ^ 64) (h : process b sort a f = .ok t) (on : a.classInfo = true) :
    ∃ T, Tree.read t = some T
      ∧ ∀ c ∈ f.prs.map (·.c), IsNum (T.get [Key.classifications, classLabel c]) ((f.prs.map (·.c)).count c) 0 := by
  obtain ⟨T, h1, -, -, h2, -⟩ := document_read hj hw h
  refine ⟨T, h1, ?_⟩
  intro c hc
  rw [h2 on]
  obtain ⟨ls, hnd, hmem, hmap, -⟩ := c57_histogram (f.prs.map (·.c))
  have hlook : ((classCountMap (f.prs.map (·.c))).map (fun e => (e.1, Json.u64 (UInt64.ofNat e.2)))).reverse.lookup (classLabel c)
      = some (.u64 (UInt64.ofNat ((f.prs.map (·.c)).count c))) := by
    rw [hmap]
    exact lookup_entries classLabel c57_labels_partial.1 _ (fun n => Json.u64 (UInt64.ofNat n)) ls hnd ((hmem c).mpr hc)
  unfold classesObject Diff.column
  rw [get_obj, lookup_mapOf, hlook]
  simp only [Option.bind_some, get_nil, tree_u64]
  have hlt : (f.prs.map (·.c)).count c < 2 ^ 64 := by
    have := List.count_le_length (a := c) (l := f.prs.map (·.c))
    rw [List.length_map] at this
    omega
  have : (UInt64.ofNat ((f.prs.map (·.c)).count c)).toNat = (f.prs.map (·.c)).count c := UInt64.toNat_ofNat_of_lt' hlt
  rw [this]
  exact isNum_nat _

/-- **C60**, the densities that are finite. -/
theorem c60_metrics_partial (b : Build) (sort : List F64 → List F64) (a : Args) (f : SpocFile) (t : Str) (hj : a.json = true)
    (hw : '\'' ∉ chars f.wkt) (h : process b sort a f = .ok t) (on : a.metricInfo = true) :
    ∃ T m, Tree.read t = some T ∧ metricValues f.prs = .ok m
      ∧ m.map (·.1) = [Key.extentPointDensity, Key.gridPointDensity, Key.voxelPointDensity]
      ∧ ∀ e ∈ m, e.2.isFinite = true → IsNum (T.get [Key.metrics, e.1]) e.2.val (1 / 2 / 10 ^ 15) := by
  obtain ⟨T, h1, -, -, -, h2⟩ := document_read hj hw h
  obtain ⟨j, hm, h2⟩ := h2 on
  obtain ⟨m, hm, hj⟩ := bind_ok hm
  have hk : m.map (·.1) = [Key.extentPointDensity, Key.gridPointDensity, Key.voxelPointDensity] := by
    obtain ⟨vi, -, hm⟩ := bind_ok hm
    rw [← Res.ok.inj hm]
    rfl
  refine ⟨T, m, h1, hm, hk, ?_⟩
  intro e he hfin
  have hlook : (m.map (fun e => (e.1, Json.dbl e.2))).reverse.lookup e.1 = some (.dbl e.2) := by
    apply lookup_of_mem
    · rw [List.map_reverse, List.nodup_reverse, List.map_map]
      show (m.map (·.1)).Nodup
      rw [hk]
      decide
    · rw [List.mem_reverse]
      exact List.mem_map.mpr ⟨e, he, rfl⟩
  rw [h2, ← Res.ok.inj hj, get_obj, lookup_mapOf, hlook]
  simp only [Option.bind_some, get_nil, tree_dbl]
  exact isNum_dbl hfin

/-- Words are not numbers. -/
theorem not_num_of_char {s : Str} {c : Char} (hc : c ∈ s) (h : ¬ (isDigit c = true ∨ c = '+' ∨ c = '-' ∨ c = '.' ∨ c = 'e' ∨ c = 'E')) (v ε : ℝ) :
    ¬ IsNum (some (.atom s)) v ε := by
  rintro ⟨n, h1, h2, -⟩
  injection h2 with h2
  injection h2 with h2
  rw [h2] at hc
  exact h (numeral_chars h1 c hc)

/-- What is missing in C60: for every file with points, none of the numbers of class and point id is printed; the text is `unknown type: j`. -/
theorem c60_class_and_id_missing (b : Build) (sort : List F64 → List F64) (hs : SortsF64 sort) (a : Args) (f : SpocFile) (t : Str) (hj : a.json = true)
    (hw : '\'' ∉ chars f.wkt) (hne : f.prs ≠ []) (hu : Uniform f.prs) (hn : NoNaN f.prs) (hlen : f.prs.length < 2 ^ 62)
    (h : process b sort a f = .ok t) (on : a.summaryInfo = true) :
    ∃ T, Tree.read t = some T ∧ ∀ fld ∈ [['c'], ['p']],
      (∀ k ∈ (if a.quartiles then [['q', '0'], ['q', '1'], ['q', '2'], ['q', '3'], ['q', '4'], ['r', 'a', 'n', 'g', 'e']]
          else [['m', 'i', 'n'], ['m', 'a', 'x'], ['r', 'a', 'n', 'g', 'e']]),
        T.get [Key.summary, fld, k] = some (.atom "unknown type: j".toList) ∧ ∀ v ε, ¬ IsNum (T.get [Key.summary, fld, k]) v ε) := by
  obtain ⟨T, h1, -, h2, -⟩ := document_read hj hw h
  refine ⟨T, h1, ?_⟩
  obtain ⟨j, hh, h2⟩ := h2 on
  obtain ⟨l, x, y, z, c, p, i, r, g, bl, es, e, -, -, -, -, -, -, c1, c2, p1, p2, -⟩ :=
    c59_json_partial b sort hs f.prs hne hu hn hlen a.quartiles
  have hjl : j = .obj l := by
    rw [hh] at e
    exact Res.ok.inj e
  have main : ∀ {fld : Str} {v : Json} {xs : List UInt32}, l.lookup fld = some v → Reports a.quartiles kindU32 (fun u => (u.toNat : ℝ)) xs v →
      ∀ k ∈ (if a.quartiles then [['q', '0'], ['q', '1'], ['q', '2'], ['q', '3'], ['q', '4'], ['r', 'a', 'n', 'g', 'e']]
          else [['m', 'i', 'n'], ['m', 'a', 'x'], ['r', 'a', 'n', 'g', 'e']]),
        T.get [Key.summary, fld, k] = some (.atom "unknown type: j".toList) := by
    intro fld v xs hv hr k hk
    rw [h2, hjl, get_obj, hv]
    show (tree v).get [k] = _
    have key : ∀ {l : List (Str × Json)} {u : UInt32}, l.lookup k = some (.u32 u) → (tree (.obj l)).get [k] = some (.atom "unknown type: j".toList) := by
      intro l u h
      rw [get_obj, h, ← tree_u32 u]
      exact get_nil _
    unfold Reports at hr
    cases hq : a.quartiles with
    | true =>
      rw [hq, if_pos rfl] at hr hk
      obtain ⟨q0, q1, q2, q3, q4, l, -, rfl, e0, e1, e2, e3, e4, er⟩ := hr
      simp only [List.mem_cons, List.not_mem_nil, or_false] at hk
      rcases hk with rfl | rfl | rfl | rfl | rfl | rfl
      · exact key e0
      · exact key e1
      · exact key e2
      · exact key e3
      · exact key e4
      · exact key er
    | false =>
      rw [hq, if_neg (by simp)] at hr hk
      obtain ⟨mn, mx, l, -, rfl, e0, e1, er⟩ := hr
      simp only [List.mem_cons, List.not_mem_nil, or_false] at hk
      rcases hk with rfl | rfl | rfl
      · exact key e0
      · exact key e1
      · exact key er
  intro fld hfld k hk
  have : T.get [Key.summary, fld, k] = some (.atom "unknown type: j".toList) := by
    simp only [List.mem_cons, List.not_mem_nil, or_false] at hfld
    rcases hfld with rfl | rfl
    · exact main c1 c2 k hk
    · exact main p1 p2 k hk
  refine ⟨this, fun v ε => ?_⟩
  rw [this]
  exact not_num_of_char (c := 'u') (by decide) (by decide) v ε

/-- Infinite and NaN coordinates are not printed as numbers. -/
theorem c60_not_finite (x : F64) (h : x.isFinite = false) (v ε : ℝ) : ¬ IsNum (some (tree (.dbl x))) v ε := by
  rw [tree_dbl]
  apply not_num_of_char (c := 'n') _ (by decide)
  unfold showFixed
  by_cases h1 : x.isNaN = true
  · simp [h1]
  · have h2 : x.isInf = true := by
      unfold F64.isNaN F64.isFinite F64.isInf at *
      simp only [decide_eq_true_eq, decide_eq_false_iff_not] at *
      omega
    simp [h1, h2]

/-- A quote in the spatial reference makes the text unreadable. -/
theorem c60_quote_unreadable : ∃ t, process .release exampleSort { json := true, summaryInfo := false, classInfo := false, metricInfo := false }
    { major := 0, minor := 0, wkt := [0x27], compressed := false, prs := [] } = .ok t ∧ Tree.read t = none := by
  refine ⟨"{ 'header' : { 'compressed' : 0, 'major_version' : 0, 'minor_version' : 0, 'total_points' : 0, 'wkt' : \'\'\' } }".toList, ?_, ?_⟩
  · decide +kernel
  · have h : (Tree.read "{ 'header' : { 'compressed' : 0, 'major_version' : 0, 'minor_version' : 0, 'total_points' : 0, 'wkt' : \'\'\' } }".toList).isNone
        = true := by decide +kernel
    exact Option.isNone_iff_eq_none.mp h

/-- The hypothesis of the theorems about C60 that there is an output: it is met by every file without NaN whose densities are defined. -/
theorem c60_succeeds (b : Build) (sort : List F64 → List F64) (hs : SortsF64 sort) (a : Args) (f : SpocFile) (hj : a.json = true)
    (hw : f.wkt.length ≤ 0xFFFF) (hne : f.prs ≠ []) (hu : Uniform f.prs) (hn : NoNaN f.prs) (hlen : f.prs.length < 2 ^ 62)
    (hm : (metricValues f.prs).isOk = true) : ∃ t, process b sort a f = .ok t := by
  obtain ⟨l, -, -, -, -, -, -, -, -, -, -, e, -⟩ := c59_json_partial b sort hs f.prs hne hu hn hlen a.quartiles
  have hh : ∃ hd, f.getHeader = .ok hd := by
    unfold SpocFile.getHeader Header.new
    rw [if_neg (by omega)]
    exact ⟨_, rfl⟩
  obtain ⟨hd, hh⟩ := hh
  have hm' : ∃ m, metricValues f.prs = .ok m := by
    cases e : metricValues f.prs with
    | ok m => exact ⟨m, rfl⟩
    | throw => rw [e] at hm; exact absurd hm (by simp [Res.isOk])
    | ub => rw [e] at hm; exact absurd hm (by simp [Res.isOk])
    | abort => rw [e] at hm; exact absurd hm (by simp [Res.isOk])
    | hang => rw [e] at hm; exact absurd hm (by simp [Res.isOk])
  obtain ⟨m, hm'⟩ := hm'
  unfold process document section' metricsObject
  rw [hj, if_pos rfl, hh, e, hm']
  cases a.headerInfo <;> cases a.summaryInfo <;> cases a.classInfo <;> cases a.metricInfo <;>
    simp only [if_true, if_false, Res.ok_bind, Bool.false_eq_true] <;> exact ⟨_, rfl⟩

example : '\'' ∉ chars exampleFile.wkt ∧ AllFinite exampleFile.prs ∧ exampleFile.wkt.length ≤ 0xFFFF ∧ exampleFile.prs ≠ []
    ∧ Uniform exampleFile.prs ∧ NoNaN exampleFile.prs ∧ (metricValues exampleFile.prs).isOk = true := by
  unfold AllFinite Uniform NoNaN
  decide +kernel

end Spoc.Props
