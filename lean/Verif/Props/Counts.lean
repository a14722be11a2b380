import Verif.Props.InfoOrder

/-!
# C112: the numbers of points that info reports add up
-/

namespace Spoc.Spec

open Text

/-- `l` is a line of the text `t`. -/
def HasLine (t l : Str) : Prop := '\n' ∉ l ∧ ∃ before after, t = before ++ l ++ '\n' :: after ∧ (before = [] ∨ before.getLast? = some '\n')

/-- How a line on the class with a given label begins. -/
def lineStart (label : Str) : Str := "cls_".toList ++ label ++ ['\t']

/-- The report says that there are `n` points of the class with this label: there is a line with this number, or no line for the class
at all if the number is zero. -/
def ShowsCount (t label : Str) (n : Nat) : Prop :=
  (0 < n ∧ ∃ name, HasLine t (lineStart label ++ Nat.toDigits 10 n ++ ['\t'] ++ name)) ∨ (n = 0 ∧ ∀ l, HasLine t l → ¬ lineStart label <+: l)

end Spoc.Spec

namespace Spoc.Props

open Spec Text Info Main

/-! ## Lines -/

theorem hasLine_nil (l : Str) : ¬ HasLine [] l := by
  rintro ⟨-, a, b, h, -⟩
  simp at h

/-- The lines of a text that begins with a line. -/
theorem hasLine_cons {x t l : Str} (hx : '\n' ∉ x) : HasLine (x ++ '\n' :: t) l ↔ l = x ∨ HasLine t l := by
  constructor
  · rintro ⟨hl, a, b, h, ha⟩
    rcases ha with rfl | ha
    · left
      rw [List.nil_append] at h
      rcases List.append_eq_append_iff.mp h with ⟨c, h1, h2⟩ | ⟨c, h1, h2⟩
      · cases c with
        | nil => simpa using h1
        | cons d c =>
          rw [List.cons_append] at h2
          obtain ⟨rfl, -⟩ := List.cons.inj h2
          exact absurd (by rw [h1]; simp) hl
      · cases c with
        | nil => simpa using h1.symm
        | cons d c =>
          rw [List.cons_append] at h2
          obtain ⟨rfl, -⟩ := List.cons.inj h2
          exact absurd (by rw [h1]; simp) hx
    · right
      rw [List.append_assoc] at h
      obtain ⟨a', rfl⟩ : ∃ a', a = a' ++ ['\n'] := List.getLast?_eq_some_iff.mp ha
      rcases List.append_eq_append_iff.mp h with ⟨c, h1, h2⟩ | ⟨c, h1, h2⟩
      · cases c with
        | nil =>
          rw [List.append_nil] at h1
          exact absurd (by rw [← h1]; simp) hx
        | cons d c =>
          rw [List.cons_append] at h2
          obtain ⟨rfl, -⟩ := List.cons.inj h2
          refine ⟨hl, c, b, by rw [(List.cons.inj h2).2, List.append_assoc], ?_⟩
          cases hc : c with
          | nil => exact .inl rfl
          | cons e c' =>
            right
            have := ha
            rw [h1, hc, List.getLast?_append_cons, List.getLast?_cons_cons] at this
            exact this
      · exact absurd (by rw [h1]; simp) hx
  · rintro (rfl | ⟨hl, a, b, rfl, ha⟩)
    · exact ⟨hx, [], t, by simp, .inl rfl⟩
    · refine ⟨hl, x ++ '\n' :: a, b, by simp, .inr ?_⟩
      rcases ha with rfl | ha
      · simp
      · rw [List.getLast?_append_cons]
        cases a with
        | nil => simp at ha
        | cons d a => rw [List.getLast?_cons_cons]; exact ha

theorem hasLine_lines {ls : List Str} (h : ∀ x ∈ ls, '\n' ∉ x) (l : Str) : HasLine (ls.map (· ++ ['\n'])).flatten l ↔ l ∈ ls := by
  induction ls with
  | nil => simp [hasLine_nil]
  | cons x r ih =>
    rw [List.map_cons, List.flatten_cons, List.append_assoc, List.singleton_append, hasLine_cons (h x (by simp)),
      ih (fun y hy => h y (by simp [hy])), List.mem_cons]

/-! ## The lines on the classes -/

theorem cut_tab {a b x y : Str} (ha : '\t' ∉ a) (hb : '\t' ∉ b) (h : a ++ '\t' :: x = b ++ '\t' :: y) : a = b ∧ x = y := by
  rcases List.append_eq_append_iff.mp h with ⟨c, h1, h2⟩ | ⟨c, h1, h2⟩
  · cases c with
    | nil => exact ⟨by simpa using h1.symm, by simpa using h2⟩
    | cons d c =>
      rw [List.cons_append] at h2
      obtain ⟨rfl, -⟩ := List.cons.inj h2
      exact absurd (by rw [h1]; simp) hb
  · cases c with
    | nil => exact ⟨by simpa using h1, by simpa using h2.symm⟩
    | cons d c =>
      rw [List.cons_append] at h2
      obtain ⟨rfl, -⟩ := List.cons.inj h2
      exact absurd (by rw [h1]; simp) ha

theorem showNat_plain {n : Nat} {x : Char} (hx : isDigit x = false) : x ∉ showNat n := fun h => by
  have := showNat_digits n x h
  rw [hx] at this
  simp at this

theorem label_plain (c : UInt32) {x : Char} (hx : isDigit x = false) (hm : x ≠ '-') : x ∉ classLabel c := by
  have h0 : isDigit '0' = true := by decide
  have key : ∀ n, x ∉ showNat n := fun n => showNat_plain hx
  unfold classLabel classKey padLeft showInt
  intro h
  rcases List.mem_append.mp h with h | h
  · obtain rfl := List.eq_of_mem_replicate h
    rw [h0] at hx
    simp at hx
  · split at h
    · rcases List.mem_cons.mp h with rfl | h
      · exact hm rfl
      · exact key _ h
    · exact key _ h

theorem asprsName_plain (n : Nat) : '\n' ∉ (asprsName n).toList := by
  unfold asprsName
  split <;> first | decide | skip
  split
  · decide
  · split <;> decide

theorem printedName_plain (c : UInt32) : ∃ name, className (classLabel c) = .ok name ∧ '\n' ∉ name := by
  by_cases h : c.toNat < 2 ^ 31
  · exact ⟨_, c58_names_partial c h, asprsName_plain _⟩
  · refine ⟨_, c58_large_names c (by omega), ?_⟩
    split <;> decide

/-- The report on the classes alone. -/
def ClassesOnly (d : Info.Args) : Prop :=
  d.version = false ∧ d.help = false ∧ d.json = false ∧ d.headerInfo = false ∧ d.summaryInfo = false ∧ d.metricInfo = false ∧ d.classInfo = true

/-- The number of points of a class. -/
def pointsOf (c : UInt32) (ps : List PointRecord) : Nat := ps.countP (fun q => decide (q.c = c))

theorem pointsOf_eq (c : UInt32) (ps : List PointRecord) : (ps.map (·.c)).count c = pointsOf c ps := by
  unfold pointsOf List.count
  rw [List.countP_map]
  congr 1

theorem report_counts (b : Build) (sort : List F64 → List F64) {d : Info.Args} (hd : ClassesOnly d) (f : SpocFile) :
    ∃ t, Info.process b sort d f = .ok t ∧ ∀ c n, ShowsCount t (classLabel c) n ↔ n = pointsOf c f.prs := by
  obtain ⟨ls, h1, h2, h3, -⟩ := c57_histogram (f.prs.map (·.c))
  choose name hname hplain using printedName_plain
  have ht := classes_text f name hname ls h3
  obtain ⟨-, -, d1, d2, d3, d4, d5⟩ := hd
  refine ⟨_, by unfold Info.process sectionText; simp only [d1, d2, d3, d4, d5, Bool.false_eq_true, if_false, if_true, ht, Res.ok_bind]; rfl, ?_⟩
  intro c n
  -- the text is made of lines
  have hl : ∀ c, '\n' ∉ lineStart (classLabel c) ++ showNat (pointsOf c f.prs) ++ ['\t'] ++ name c := by
    intro c h
    simp only [lineStart, List.mem_append, List.mem_singleton] at h
    rcases h with ((((h | h) | h) | h) | h) | h
    · revert h; decide
    · exact label_plain c (by decide) (by decide) h
    · revert h; decide
    · exact showNat_plain (by decide) h
    · revert h; decide
    · exact hplain c h
  have e : ([] ++ [] ++ (ls.map (fun c => "cls_".toList ++ classLabel c ++ ['\t'] ++ showNat ((f.prs.map (·.c)).count c) ++ ['\t'] ++ name c ++ ['\n'])).flatten ++ [] : Str)
      = ((ls.map (fun c => lineStart (classLabel c) ++ showNat (pointsOf c f.prs) ++ ['\t'] ++ name c)).map (· ++ ['\n'])).flatten := by
    rw [List.map_map, List.append_nil, List.append_nil, List.nil_append]
    simp only [pointsOf_eq]
    rfl
  rw [e]
  have lines : ∀ l, HasLine ((ls.map (fun c => lineStart (classLabel c) ++ showNat (pointsOf c f.prs) ++ ['\t'] ++ name c)).map (· ++ ['\n'])).flatten l
      ↔ ∃ c ∈ ls, lineStart (classLabel c) ++ showNat (pointsOf c f.prs) ++ ['\t'] ++ name c = l := by
    intro l
    rw [hasLine_lines (fun x hx => by
      obtain ⟨c, -, rfl⟩ := List.mem_map.mp hx
      exact hl c), List.mem_map]
  have start : ∀ {c c' : UInt32} {x y : Str}, lineStart (classLabel c) ++ x = lineStart (classLabel c') ++ y → c = c' ∧ x = y := by
    intro c c' x y h
    simp only [lineStart, List.append_assoc, List.append_cancel_left_eq, List.singleton_append] at h
    obtain ⟨h, hxy⟩ := cut_tab (label_plain c (by decide) (by decide)) (label_plain c' (by decide) (by decide)) h
    exact ⟨c57_labels_partial.1 h, hxy⟩
  have mem : c ∈ ls ↔ 0 < pointsOf c f.prs := by rw [h2, ← List.count_pos_iff, pointsOf_eq]
  constructor
  · rintro (⟨h0, nm, hn⟩ | ⟨rfl, hn⟩)
    · obtain ⟨c', -, h'⟩ := (lines _).mp hn
      simp only [List.append_assoc] at h'
      obtain ⟨rfl, h''⟩ := start h'
      have := (cut_tab (showNat_plain (by decide)) (showNat_plain (by decide)) h'').1
      have h3 := congrArg decVal this
      rw [decVal_showNat, decVal_showNat] at h3
      exact h3.symm
    · by_contra hne
      have hc := mem.mpr (Nat.pos_of_ne_zero (fun h => hne h.symm))
      exact hn _ ((lines _).mpr ⟨c, hc, rfl⟩) (by simp only [List.append_assoc]; exact List.prefix_append _ _)
  · rintro rfl
    by_cases h0 : 0 < pointsOf c f.prs
    · exact .inl ⟨h0, name c, (lines _).mpr ⟨c, mem.mpr h0, rfl⟩⟩
    · refine .inr ⟨by omega, fun l hl hp => ?_⟩
      obtain ⟨c', hc', rfl⟩ := (lines _).mp hl
      obtain ⟨y, hy⟩ := hp
      simp only [List.append_assoc] at hy
      obtain ⟨rfl, -⟩ := start hy
      exact h0 (mem.mp hc')

/-! ## The application -/

/-- The command line asks for the report on the classes of the file `n` alone. -/
def AsksClasses (line : List Str) (n : Str) : Prop :=
  Cmd.info.operands line = [n] ∧ ∃ d, Info.getArgs ((Cmd.info.options line).map (·.1)) {} = .ok d ∧ ClassesOnly d

/-- What `info` prints. -/
def Prints (p : Params) (w : World) (line : List Str) (t : Str) : Prop :=
  (Name.info.run p line w).out = Main.bytes t ∧ (Name.info.run p line w).res = .ok 0

/-- **C112**: the report on a file shows for every class how many points there are. -/
theorem c112_report (p : Params) (w : World) (line : List Str) (n : Str) (hl : AsksClasses line n) (f : SpocFile) (hf : HasCloud p w.fs n f) :
    ∃ t, Prints p w line t ∧ ∀ c k, ShowsCount t (classLabel c) k ↔ k = pointsOf c f.prs := by
  obtain ⟨ho, d, hd, hc⟩ := hl
  obtain ⟨t, h1, h2⟩ := report_counts p.build p.sort hc f
  have e := c76_info p w line d hd hc.1 hc.2.1 (by rw [ho]; simp) [(f, t)] (by rw [ho]; exact .cons ⟨hf, h1⟩ .nil)
  exact ⟨t, ⟨by rw [e]; simp, by rw [e]⟩, h2⟩

theorem pointsOf_withoutId (c : UInt32) (ps : List PointRecord) : pointsOf c (ps.map withoutId) = pointsOf c ps := by
  unfold pointsOf
  rw [List.countP_map]
  rfl

theorem pointsOf_merged (c : UInt32) (id : Nat → UInt32) (fs : List SpocFile) :
    pointsOf c (mergedPoints id fs) = (fs.map (fun f => pointsOf c f.prs)).sum := by
  rw [← pointsOf_withoutId, mergedPoints_withoutId, pointsOf_withoutId]
  unfold pointsOf allPoints
  rw [List.countP_flatMap]
  rfl

/-- The reports on several files. -/
theorem reports (p : Params) (w : World) (lines : Str → List Str) {ns : List Str} (hl : ∀ n ∈ ns, AsksClasses (lines n) n) {fs : List SpocFile}
    (hf : List.Forall₂ (fun n f => HasCloud p w.fs n f) ns fs) :
    ∃ ts, List.Forall₂ (fun n t => Prints p w (lines n) t) ns ts
      ∧ ∀ c ks, List.Forall₂ (fun t k => ShowsCount t (classLabel c) k) ts ks ↔ ks = fs.map (fun f => pointsOf c f.prs) := by
  induction hf with
  | nil => exact ⟨[], .nil, fun c ks => ⟨fun h => by cases h; rfl, fun h => by rw [h]; exact .nil⟩⟩
  | @cons n f ns fs h _ ih =>
    obtain ⟨t, h1, h2⟩ := c112_report p w (lines n) n (hl n (by simp)) f h
    obtain ⟨ts, h3, h4⟩ := ih (fun m hm => hl m (by simp [hm]))
    refine ⟨t :: ts, .cons h1 h3, fun c ks => ⟨fun hk => ?_, fun hk => ?_⟩⟩
    · cases hk with
      | cons hk hks => rw [List.map_cons, (h2 c _).mp hk, (h4 c _).mp hks]
    · rw [hk, List.map_cons]
      exact .cons ((h2 c _).mpr rfl) ((h4 c _).mpr rfl)

/-- **C112**, merge: the report on what merge writes shows for each class the sum of the numbers that the reports on the files show. -/
theorem c112_merge (p : Params) (hz : p.zlib.Correct) (w : World) (argv : List Str) (quiet : Bool) (asked : Option Nat)
    (ha : ∀ n ∈ asked, n < 2 ^ 31) (hopt : Cmd.merge.options argv = mergeOptions quiet asked) (f : SpocFile) (fs : List SpocFile)
    (hf : List.Forall₂ (fun n f => HasCloud p w.fs n f) (Cmd.merge.operands argv) (f :: fs)) (h2 : fs ≠ [])
    (hu : Uniform (allPoints (f :: fs))) (hs : Survives p.zlib (mergedCloud asked f fs))
    (lines : Str → List Str) (hl : ∀ n ∈ Cmd.merge.operands argv, AsksClasses (lines n) n) (m : Str) (line : List Str) (hm : AsksClasses line m) :
    (Name.merge.run p argv w).res = .ok 0
      ∧ ∃ ts t, List.Forall₂ (fun n t => Prints p w (lines n) t) (Cmd.merge.operands argv) ts
        ∧ (∀ w' : World, w'.fs = putFile w.fs m (Name.merge.run p argv w).out → Prints p w' line t)
        ∧ (∀ c, ∃ ks, List.Forall₂ (fun t k => ShowsCount t (classLabel c) k) ts ks)
        ∧ ∀ c ks, List.Forall₂ (fun t k => ShowsCount t (classLabel c) k) ts ks → ∀ n, ShowsCount t (classLabel c) n ↔ n = ks.sum := by
  obtain ⟨h3, -, s, h4⟩ := c76_merge_partial p hz w argv quiet asked ha hopt f fs hf h2 hu hs
  refine ⟨h3, ?_⟩
  obtain ⟨ts, t1, t2⟩ := reports p w lines hl hf
  have cloud : ∀ w' : World, w'.fs = putFile w.fs m (Name.merge.run p argv w).out → HasCloud p w'.fs m (mergedCloud asked f fs) := by
    intro w' hw
    refine ⟨{ content := (Name.merge.run p argv w).out, readable := true, writable := true }, s, ?_, rfl, h4⟩
    rw [hw]
    simp [putFile]
  obtain ⟨d, hd, hc⟩ := hm.2
  obtain ⟨t, r1, r2⟩ := report_counts p.build p.sort hc (mergedCloud asked f fs)
  refine ⟨ts, t, t1, fun w' hw => ?_, fun c => ⟨_, (t2 c _).mpr rfl⟩, fun c ks hk n => ?_⟩
  · have e := c76_info p w' line d hd hc.1 hc.2.1 (by rw [hm.1]; simp) [(mergedCloud asked f fs, t)] (by
      rw [hm.1]; exact .cons ⟨cloud w' hw, r1⟩ .nil)
    exact ⟨by rw [e]; simp, by rw [e]⟩
  · rw [r2 c, (t2 c ks).mp hk]
    show n = pointsOf c (mergedPoints (idOf asked) (f :: fs)) ↔ _
    rw [pointsOf_merged]

/-- **C112**, filter: if only classes are selected, the report on what filter writes shows the same numbers for the selected classes and
nothing for the other ones. -/
theorem c112_filter (p : Params) (hz : p.zlib.Correct) (hsh : p.shuffle.Lawful) (w : World) (argv : List Str) (i o : Str) (keep remove : List Nat)
    (hopt : Asks (Cmd.filter.options argv) { keep := keep, remove := remove }) (hops : Cmd.filter.operands argv = [i, o]) (hi : i ≠ [])
    (ho : o ≠ []) (hc : CanReplace w o) (f : SpocFile) (hf : HasCloud p w.fs i f) (hs : Survives p.zlib f) (hu : f.compressed = false)
    (line line' : List Str) (hl : AsksClasses line i) (hl' : AsksClasses line' o) :
    (Name.filter.run p argv w).res = .ok 0
      ∧ ∃ t t', Prints p w line t ∧ Prints p (after .filter p argv w) line' t'
        ∧ (∀ c, ∃ n, ShowsCount t (classLabel c) n)
        ∧ ∀ c n, ShowsCount t (classLabel c) n →
          ∀ k, ShowsCount t' (classLabel c) k ↔ k = if (keep = [] ∨ c.toNat ∈ keep) ∧ c.toNat ∉ remove then n else 0 := by
  set qs := (if keep = [] then f.prs else f.prs.filter (fun p => decide (p.c.toNat ∈ keep))).filter (fun p => decide (p.c.toNat ∉ remove)) with hqs
  have hsub : qs.Sublist f.prs := by
    refine List.filter_sublist.trans ?_
    split
    · exact List.Sublist.refl _
    · exact List.filter_sublist
  have made := c76_filter_partial p hz hsh w argv i o _ hopt hops hi ho hc f hf qs ⟨_, _, _, _, rfl, rfl, rfl, rfl, rfl⟩
    (survives_sublist hs hu hsub)
  obtain ⟨t, t1, t2⟩ := c112_report p w line i hl f hf
  obtain ⟨t', t3, t4⟩ := c112_report p (after .filter p argv w) line' o hl' { f with prs := qs } made.2.2.1
  refine ⟨made.1, t, t', t1, t3, fun c => ⟨_, (t2 c _).mpr rfl⟩, fun c n hn k => ?_⟩
  rw [t4 c, (t2 c n).mp hn]
  suffices h : (if (keep = [] ∨ c.toNat ∈ keep) ∧ c.toNat ∉ remove then pointsOf c f.prs else 0) = pointsOf c qs by rw [h]
  rw [hqs]
  unfold pointsOf
  rw [List.countP_filter]
  by_cases hr : c.toNat ∈ remove
  · rw [if_neg (fun h => h.2 hr), eq_comm, List.countP_eq_zero]
    intro q _ h
    simp only [Bool.and_eq_true, decide_eq_true_eq] at h
    exact h.2 (h.1 ▸ hr)
  · have e : ∀ l : List PointRecord, l.countP (fun q => decide (q.c = c) && decide (q.c.toNat ∉ remove)) = l.countP (fun q => decide (q.c = c)) := by
      intro l
      apply List.countP_congr
      intro q _
      simp only [Bool.and_eq_true, decide_eq_true_eq]
      exact ⟨fun h => h.1, fun h => ⟨h, h ▸ hr⟩⟩
    rw [e]
    by_cases hk : keep = []
    · rw [if_pos hk, if_pos ⟨.inl hk, hr⟩]
    · rw [if_neg hk, List.countP_filter]
      by_cases hm : c.toNat ∈ keep
      · rw [if_pos ⟨.inr hm, hr⟩]
        apply List.countP_congr
        intro q _
        simp only [Bool.and_eq_true, decide_eq_true_eq]
        exact ⟨fun h => ⟨h, h ▸ hm⟩, fun h => h.1⟩
      · rw [if_neg (fun h => h.1.elim hk hm), eq_comm, List.countP_eq_zero]
        intro q _ h
        simp only [Bool.and_eq_true, decide_eq_true_eq] at h
        exact hm (h.1 ▸ h.2)

/-- **C112**, tile: the numbers that the reports on the tiles show add up to the numbers that the report on the file shows. -/
theorem c112_tile (p : Params) (hz : p.zlib.Correct) (w : World) (argv : List Str) (i : Str)
    (hops : Cmd.tile.operands argv = [i]) (hi : i ≠ []) (f : SpocFile) (hf : HasCloud p w.fs i f)
    (a : Tile.Args) (ha : Tile.getArgs (Cmd.tile.options argv) {} = .ok a) (hv : a.version = false)
    (hh : a.help = false) {sx sy : F64} {numbers : List UInt64} (hsz : Tile.tileSizes a (Extent.ofPoints f.prs) = .ok (sx, sy))
    (hn : Tile.getTileIndexes f.prs (Extent.ofPoints f.prs) sx sy = .ok numbers)
    (hs : (f.compressed = false → ∀ q ∈ f.prs, q.extra.length ≤ 123)
      ∧ (f.compressed = true → FitsZlib p.zlib f.prs.length ∧ ∀ k ∈ numbers, NoHiddenNegZero (pointsNumbered f.prs numbers k)))
    (hpre : (if a.pre.isEmpty then Tile.stem i else a.pre) ≠ [])
    (hfree : ∀ k ∈ numbers, Tile.Free w.canCreate a.force w.fs (tileName { a with fn := i } f k))
    (ks : List UInt64) (hnd : ks.Nodup) (hk : ∀ k, k ∈ ks ↔ k ∈ numbers)
    (lines : Str → List Str) (hl : ∀ n, n = i ∨ n ∈ ks.map (tileName { a with fn := i } f) → AsksClasses (lines n) n) :
    (Name.tile.run p argv w).res = .ok 0
      ∧ ∃ t ts, Prints p w (lines i) t
        ∧ List.Forall₂ (fun n t => Prints p (after .tile p argv w) (lines n) t) (ks.map (tileName { a with fn := i } f)) ts
        ∧ (∀ c, ∃ ns, List.Forall₂ (fun t n => ShowsCount t (classLabel c) n) ts ns)
        ∧ ∀ c ns, List.Forall₂ (fun t n => ShowsCount t (classLabel c) n) ts ns → ∀ n, ShowsCount t (classLabel c) n ↔ n = ns.sum := by
  obtain ⟨h3, -, h5, -⟩ := c76_tile p hz w argv i hops hi f hf a ha hv hh hsz hn hs hpre hfree
  have hlen : numbers.length = f.prs.length := by
    unfold Tile.getTileIndexes at hn
    rw [Res.bind_eq_ok] at hn
    obtain ⟨st, _, hm⟩ := hn
    exact mapM_length hm
  have hperm := Tile.tiles_perm f.prs numbers hlen ks hnd hk
  obtain ⟨t, t1, t2⟩ := c112_report p w (lines i) i (hl i (.inl rfl)) f hf
  have clouds : List.Forall₂ (fun n f => HasCloud p (after .tile p argv w).fs n f) (ks.map (tileName { a with fn := i } f)) (ks.map (tileOf f numbers)) := by
    rw [List.forall₂_map_left_iff, List.forall₂_map_right_iff, List.forall₂_same]
    exact fun k hm => h5 k ((hk k).mp hm)
  obtain ⟨ts, t3, t4⟩ := reports p (after .tile p argv w) lines (fun n hn => hl n (.inr hn)) clouds
  refine ⟨h3, t, ts, t1, t3, fun c => ⟨_, (t4 c _).mpr rfl⟩, fun c ns hns n => ?_⟩
  rw [t2 c, (t4 c ns).mp hns, List.map_map]
  have e := hperm.countP_eq (fun q => decide (q.c = c))
  unfold pointsOf
  rw [← e, List.countP_flatMap]
  rfl

/-! ## Examples -/

/-- The command line with which the other three parts are switched off. -/
def classLine (n : Str) : List Str := ["-a".toList, "-s".toList, "-m".toList, n]

theorem classLine_asks {n : Str} (h : Cmd.info.operands (classLine n) = [n])
    (h' : (Cmd.info.options (classLine n)).map (·.1) = ["header-info", "summary-info", "metric-info"]) : AsksClasses (classLine n) n :=
  ⟨h, { headerInfo := false, summaryInfo := false, metricInfo := false }, by rw [h']; rfl, rfl, rfl, rfl, rfl, rfl, rfl, rfl⟩

theorem asks_a : AsksClasses (classLine ['a']) ['a'] := classLine_asks (by decide +kernel) (by decide +kernel)
theorem asks_d : AsksClasses (classLine ['d']) ['d'] := classLine_asks (by decide +kernel) (by decide +kernel)
theorem asks_o : AsksClasses (classLine ['o']) ['o'] := classLine_asks (by decide +kernel) (by decide +kernel)

/-- The report on the three points of class 0 of the examples. -/
theorem shows_three (w : World) (n : Str) (hl : AsksClasses (classLine n) n) (hf : HasCloud exampleParams w.fs n cloudA) :
    ∃ t, Prints exampleParams w (classLine n) t ∧ ShowsCount t (classLabel 0) 3 := by
  obtain ⟨t, h1, h2⟩ := c112_report exampleParams w (classLine n) n hl cloudA hf
  exact ⟨t, h1, (h2 0 3).mpr (by decide +kernel)⟩

example : classLabel 0 = "000".toList := by decide +kernel

/-- Two files with points of class 0 are merged. -/
example : ∃ t, (∀ w' : World, w'.fs = putFile exampleDisk.fs ['o'] (Name.merge.run exampleParams [['a'], ['d']] exampleDisk).out →
    Prints exampleParams w' (classLine ['o']) t) ∧ ∃ n, ShowsCount t (classLabel 0) n := by
  obtain ⟨-, ts, t, h1, h2, h3, h4⟩ := c112_merge exampleParams toyZlib_correct exampleDisk [['a'], ['d']] false none (by simp) (by decide +kernel) cloudA [cloudA]
    (.cons cloudA_on_disk.1 (.cons cloudA_on_disk.2 .nil)) (by simp) (by unfold Uniform; decide +kernel)
    ⟨⟨rfl, rfl, by decide, by unfold Uniform; decide +kernel, by decide +kernel, by decide +kernel⟩, fun _ => by decide +kernel,
      fun h => by simp [mergedCloud, cloudA, SpocFile.empty] at h⟩ classLine (by
      have e : Cmd.merge.operands [['a'], ['d']] = [['a'], ['d']] := by decide +kernel
      rw [e]
      intro n hn
      rcases List.mem_cons.mp hn with rfl | hn
      · exact asks_a
      · rw [List.mem_singleton.mp hn]; exact asks_d) ['o'] (classLine ['o']) asks_o
  obtain ⟨ks, hk⟩ := h3 0
  exact ⟨t, h2, _, (h4 0 ks hk _).mpr rfl⟩

/-- Only class 5 is kept: the report shows no point of class 0. -/
example : ∃ t', Prints exampleParams (after .filter exampleParams ["--keep-class=5".toList, ['a'], ['o']] exampleDisk) (classLine ['o']) t'
    ∧ ShowsCount t' (classLabel 0) 0 := by
  have e : Cmd.filter.options ["--keep-class=5".toList, ['a'], ['o']] = [("keep-class", ['5'])] := by decide +kernel
  obtain ⟨-, t, t', h1, h2, h3, h4⟩ := c112_filter exampleParams toyZlib_correct (fun _ l => List.Perm.refl l) exampleDisk
    ["--keep-class=5".toList, ['a'], ['o']] ['a'] ['o'] [5] [] (by
      rw [e]
      exact ⟨by decide, by decide, by decide, by decide, by decide, by simp, rfl, .inr ⟨rfl, rfl⟩, by decide, .inl rfl⟩)
    (by decide +kernel) (by decide) (by decide) rfl cloudA cloudA_on_disk.1 cloudA_survives rfl (classLine ['a']) (classLine ['o']) asks_a asks_o
  obtain ⟨n, hn⟩ := h3 0
  exact ⟨t', h2, (h4 0 n hn 0).mpr (if_neg (by decide)).symm⟩

/-- The file of the examples is split into three tiles. -/
example : ∃ t ts, Prints exampleParams exampleDisk (classLine ['a']) t
    ∧ List.Forall₂ (fun n t => Prints exampleParams (after .tile exampleParams ["-s10".toList, "-d3".toList, ['a']] exampleDisk) (classLine n) t)
      ["a000".toList, "a001".toList, "a003".toList] ts := by
  have e : ([0, 1, 3] : List UInt64).map (tileName { ({ tileSize := num 10 } : Tile.Args) with fn := ['a'] } cloudA)
      = ["a000".toList, "a001".toList, "a003".toList] := by decide +kernel
  have hl : ∀ n ∈ ["a000".toList, "a001".toList, "a003".toList], AsksClasses (classLine n) n ∧ exampleDisk.fs n = none := by
    intro n hn
    rcases List.mem_cons.mp hn with rfl | hn
    · exact ⟨classLine_asks (by decide +kernel) (by decide +kernel), rfl⟩
    · rcases List.mem_cons.mp hn with rfl | hn
      · exact ⟨classLine_asks (by decide +kernel) (by decide +kernel), rfl⟩
      · rw [List.mem_singleton.mp hn]
        exact ⟨classLine_asks (by decide +kernel) (by decide +kernel), rfl⟩
  obtain ⟨-, t, ts, h1, h2, -⟩ := c112_tile exampleParams toyZlib_correct exampleDisk ["-s10".toList, "-d3".toList, ['a']] ['a'] (by decide +kernel)
    (by decide) cloudA cloudA_on_disk.1 { tileSize := num 10 } (by decide +kernel) rfl rfl (sx := num 10) (sy := num 10)
    (numbers := [0, 1, 3]) (by decide +kernel) (by decide +kernel) ⟨fun _ => by decide, fun h => by simp [cloudA, SpocFile.empty] at h⟩
    (by decide +kernel) (fun k hk => .inl ⟨(hl _ (e ▸ List.mem_map_of_mem hk)).2, rfl⟩) [0, 1, 3] (by decide) (fun _ => Iff.rfl) classLine
    (fun n hn => hn.elim (fun h => h ▸ asks_a) (fun h => (hl n (e ▸ h)).1))
  rw [e] at h2
  exact ⟨t, ts, h1, h2⟩

end Spoc.Props
