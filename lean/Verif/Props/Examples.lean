import Verif.Model.Examples
import Verif.Props.ToolPoints

/-!
# C81: the example programs that talk through a pipe
-/

namespace Spoc.Props

open Examples Spec

/-- The three values are the means of the coordinates, up to the rounding of the sum and of the quotient. -/
def NearMeans (l : Line) (ps : List PointRecord) (B : ℝ) : Prop :=
  |l.x.val - mean (·.x) ps| ≤ meanBound ps.length B ∧ |l.y.val - mean (·.y) ps| ≤ meanBound ps.length B ∧
    |l.z.val - mean (·.z) ps| ≤ meanBound ps.length B

/-- The numbers of points at which a line is due. -/
def due (tick : Nat → Bool) (n : Nat) : List Nat := ((List.range n).map (· + 1)).filter tick

/-- The line for the points `ps`. -/
def lineOf (ps : List PointRecord) : Line :=
  { total := ps.length, x := F64.div (Tool.sumOf (·.x) ps) (F64.ofNat ps.length), y := F64.div (Tool.sumOf (·.y) ps) (F64.ofNat ps.length),
    z := F64.div (Tool.sumOf (·.z) ps) (F64.ofNat ps.length) }

theorem sumOf_append (c : PointRecord → F64) (ps : List PointRecord) (q : PointRecord) :
    Tool.sumOf c (ps ++ [q]) = F64.add (Tool.sumOf c ps) (c q) := by
  simp [Tool.sumOf]

theorem averagingLoop_eq (tick : Nat → Bool) (ef : Nat) (recs : List PointRecord) (tl : Bytes) :
    ∀ (ps : List PointRecord) (left : Nat), (∀ q ∈ recs, q.extra.length = ef) → recs.length ≤ left →
    averagingLoop tick ef left ps.length (Tool.sumOf (·.x) ps) (Tool.sumOf (·.y) ps) (Tool.sumOf (·.z) ps)
      { rest := recs.flatMap PointRecord.bytes ++ tl }
    = ((List.range' (ps.length + 1) recs.length).filter tick).map (fun n => lineOf ((ps ++ recs).take n))
      ++ averagingLoop tick ef (left - recs.length) (ps ++ recs).length (Tool.sumOf (·.x) (ps ++ recs)) (Tool.sumOf (·.y) (ps ++ recs))
        (Tool.sumOf (·.z) (ps ++ recs)) { rest := tl } := by
  induction recs with
  | nil => intro ps left _ _; simp
  | cons q qs ih =>
    intro ps left hrec hl
    obtain ⟨left, rfl⟩ : ∃ k, left = k + 1 := ⟨left - 1, by simp only [List.length_cons] at hl; omega⟩
    have hq : q.extra.length = ef := hrec q List.mem_cons_self
    have hread : PointRecord.read { rest := (q :: qs).flatMap PointRecord.bytes ++ tl } ef = (q, { rest := qs.flatMap PointRecord.bytes ++ tl }) := by
      have := PointRecord.read_bytes q (qs.flatMap PointRecord.bytes ++ tl)
      rw [hq] at this
      rw [List.flatMap_cons, List.append_assoc, this]
    have hstep := ih (ps ++ [q]) left (fun p hp => hrec p (List.mem_cons_of_mem _ hp)) (by simp only [List.length_cons] at hl; omega)
    rw [averagingLoop, hread]
    dsimp only
    have e1 : ps.length + 1 = (ps ++ [q]).length := by simp
    have e2 : ps ++ [q] ++ qs = ps ++ q :: qs := by simp
    rw [← sumOf_append (·.x), ← sumOf_append (·.y), ← sumOf_append (·.z), e1, hstep, e2]
    have e3 : left - qs.length = left + 1 - (q :: qs).length := by simp
    rw [e3]
    have e4 : (ps ++ q :: qs).take (ps ++ [q]).length = ps ++ [q] := by rw [← e2, List.take_left]
    rw [List.length_cons, List.range'_succ, List.filter_cons]
    split
    · rw [List.map_cons, e4]
      rfl
    · rfl

theorem averagingLoop_totals (tick : Nat → Bool) (ef left total : Nat) (sx sy sz : F64) (s : IStream) :
    (averagingLoop tick ef left total sx sy sz s).map (·.total) = (List.range' (total + 1) left).filter tick := by
  induction left generalizing total sx sy sz s with
  | zero => rfl
  | succ left ih =>
    rw [averagingLoop, List.range'_succ, List.filter_cons]
    split
    · rw [List.map_cons, ih]
    · exact ih _ _ _ _ _

theorem due_eq (tick : Nat → Bool) (n : Nat) : (List.range' 1 n).filter tick = due tick n := by
  rw [due]
  congr 1
  rw [List.range'_eq_map_range]
  simp [Nat.add_comm]

theorem lineOf_near (ps : List PointRecord) (hne : ps ≠ []) (hn : ps.length < 2 ^ 53) (hf : ∀ p ∈ ps, Spec.Fin (pt p)) {B : ℝ} (hB : 0 ≤ B)
    (hb : ∀ p ∈ ps, |p.x.val| ≤ B ∧ |p.y.val| ≤ B ∧ |p.z.val| ≤ B) (hs : ps.length * B ≤ 2 ^ 998) : NearMeans (lineOf ps) ps B := by
  have hlen : ps.length ≠ 0 := by simpa using hne
  have hw : ((ps.length : ℝ) + 2) * B / 2 ^ 53 + (⟨1⟩ : F64).val ≤ meanBound ps.length B := by
    unfold meanBound
    generalize (⟨1⟩ : F64).val = w
    have : ((ps.length : ℝ) + 2) * B / 2 ^ 53 ≤ (ps.length + 6) * B / 2 ^ 53 :=
      div_le_div_of_nonneg_right (mul_le_mul_of_nonneg_right (by linarith) hB) (by norm_num)
    exact add_le_add this le_rfl
  obtain ⟨-, hx, -, -⟩ := c51_one ps (·.x) (fun p => { p with x := F64.sub p.x (Tool.meanOf (Tool.sumOf (·.x) ps) ps.length) }) hne hn
    (fun p hp => (hf p hp).1) hB (fun p hp => (hb p hp).1) hs (fun p => rfl)
  obtain ⟨-, hy, -, -⟩ := c51_one ps (·.y) (fun p => { p with y := F64.sub p.y (Tool.meanOf (Tool.sumOf (·.y) ps) ps.length) }) hne hn
    (fun p hp => (hf p hp).2.1) hB (fun p hp => (hb p hp).2.1) hs (fun p => rfl)
  obtain ⟨-, hz, -, -⟩ := c51_one ps (·.z) (fun p => { p with z := F64.sub p.z (Tool.meanOf (Tool.sumOf (·.z) ps) ps.length) }) hne hn
    (fun p hp => (hf p hp).2.2) hB (fun p hp => (hb p hp).2.2) hs (fun p => rfl)
  have e : ∀ c : PointRecord → F64, Tool.meanOf (Tool.sumOf c ps) ps.length = F64.div (Tool.sumOf c ps) (F64.ofNat ps.length) := by
    intro c
    rw [Tool.meanOf, if_neg hlen]
  rw [e] at hx hy hz
  exact ⟨hx.trans hw, hy.trans hw, hz.trans hw⟩

/-- **C81** (partial: up to rounding; the end of the stream goes unnoticed, see `c81_end_unnoticed`).  As long as the points last, a line is
printed when it is due, it says how many points have been read, and its values are their means. -/
theorem c81_average_partial (tick : Nat → Bool) (h : Header) (s : IStream) (recs : List PointRecord) (tl : Bytes)
    (hr : Header.read s = .ok (h, { rest := recs.flatMap PointRecord.bytes ++ tl })) (hc : h.compressed = 0)
    (hrec : ∀ q ∈ recs, q.extra.length = h.extraFields.toNat) (hl : recs.length ≤ h.totalPoints.toNat) (hn : recs.length < 2 ^ 53)
    (hf : ∀ p ∈ recs, Spec.Fin (pt p)) (B : ℝ) (hB : 0 ≤ B) (hb : ∀ p ∈ recs, |p.x.val| ≤ B ∧ |p.y.val| ≤ B ∧ |p.z.val| ≤ B)
    (hs : recs.length * B ≤ 2 ^ 998) :
    ∃ lines more, averaging tick s = (lines ++ more, .ok ()) ∧ lines.map (·.total) = due tick recs.length ∧
      (∀ l ∈ lines, NearMeans l (recs.take l.total) B) ∧ (∀ l ∈ more, recs.length < l.total ∧ l.total ≤ h.totalPoints.toNat) := by
  have key := averagingLoop_eq tick h.extraFields.toNat recs tl [] h.totalPoints.toNat hrec hl
  have hrange : ∀ n ∈ (List.range' 1 recs.length).filter tick, 1 ≤ n ∧ n ≤ recs.length := by
    intro n hn
    have := (List.mem_filter.mp hn).1
    rw [List.mem_range'_1] at this
    omega
  refine ⟨((List.range' 1 recs.length).filter tick).map (fun n => lineOf (([] ++ recs).take n)),
    averagingLoop tick h.extraFields.toNat (h.totalPoints.toNat - recs.length) ([] ++ recs).length (Tool.sumOf (·.x) ([] ++ recs))
      (Tool.sumOf (·.y) ([] ++ recs)) (Tool.sumOf (·.z) ([] ++ recs)) { rest := tl }, ?_, ?_, ?_, ?_⟩
  · unfold averaging
    rw [hr]
    simp only [hc, ne_eq, not_true_eq_false, if_false]
    rw [show averagingLoop tick h.extraFields.toNat h.totalPoints.toNat 0 F64.zero F64.zero F64.zero
      { rest := recs.flatMap PointRecord.bytes ++ tl } = _ from key]
    rfl
  · rw [List.map_map, ← due_eq]
    refine (List.map_congr_left ?_).trans (List.map_id _)
    intro n hn
    have := hrange n hn
    simp [lineOf]
    omega
  · intro l hl
    obtain ⟨n, hn', rfl⟩ := List.mem_map.mp hl
    have h1 := hrange n hn'
    have e : (lineOf (([] ++ recs).take n)).total = n := by simp [lineOf]; omega
    rw [e, List.nil_append]
    refine lineOf_near _ ?_ ?_ (fun p hp => hf p (List.mem_of_mem_take hp)) hB (fun p hp => hb p (List.mem_of_mem_take hp)) ?_
    · rw [← List.length_pos_iff, List.length_take]
      omega
    · rw [List.length_take]
      omega
    · refine le_trans (mul_le_mul_of_nonneg_right ?_ hB) hs
      exact_mod_cast List.length_take_le' _ _
  · intro l hl
    have h1 : l.total ∈ (averagingLoop tick h.extraFields.toNat (h.totalPoints.toNat - recs.length) ([] ++ recs).length _ _ _ _).map (·.total) :=
      List.mem_map_of_mem hl
    rw [averagingLoop_totals] at h1
    have := (List.mem_filter.mp h1).1
    rw [List.mem_range'_1, List.nil_append] at this
    omega

/-- **C81**: a compressed file is rejected and nothing is printed. -/
theorem c81_rejects_compressed (tick : Nat → Bool) (s s' : IStream) (h : Header) (hr : Header.read s = .ok (h, s')) (hc : h.compressed ≠ 0) :
    ∃ e, averaging tick s = ([], .throw e) := by
  unfold averaging
  rw [hr]
  simp only [hc, ne_eq, not_false_eq_true, if_true]
  exact ⟨_, rfl⟩

/-- The points of the generator. -/
def generatedPoints (draw : Nat → F64) (n : Nat) : List PointRecord := (List.range n).map (generated draw)

theorem generateLoop_eq (draw : Nat → F64) (rounds i : Nat) :
    generateLoop draw rounds i = ⟨((List.range' i rounds).map (generated draw)).flatMap PointRecord.bytes, .ok ()⟩ := by
  induction rounds generalizing i with
  | zero => rfl
  | succ rounds ih =>
    rw [generateLoop, PointRecord.write_eq, Out.mk_ok_bind, ih, List.range'_succ]
    simp

/-- The header of the generator. -/
def generatorHeader : Header :=
  { signature := Header.sig, major := majorVersion, minor := minorVersion, wkt := testWkt, extraFields := 4,
    totalPoints := UInt64.ofNat (2 ^ 64 - 1), compressed := 0 }

theorem generate_eq (draw : Nat → F64) (rounds : Nat) :
    generate draw rounds = ⟨generatorHeader.bytes ++ (generatedPoints draw rounds).flatMap PointRecord.bytes, .ok ()⟩ := by
  unfold generate
  have : Header.new majorVersion minorVersion testWkt 4 (UInt64.ofNat (2 ^ 64 - 1)) false = .ok generatorHeader := by
    unfold Header.new
    rw [if_neg (by decide)]
    rfl
  rw [this, Out.lift_ok_bind, Header.write_ok rfl, Out.mk_ok_bind, generateLoop_eq, generatedPoints, List.range_eq_range']

/-- The coordinates of points in the order in which they are stored. -/
def coordinates (ps : List PointRecord) : List F64 := ps.flatMap (fun p => [p.x, p.y, p.z])

theorem coordinates_generatedPoints (draw : Nat → F64) (n : Nat) : coordinates (generatedPoints draw n) = (List.range (3 * n)).map draw := by
  induction n with
  | zero => rfl
  | succ n ih =>
    rw [coordinates, generatedPoints] at ih ⊢
    rw [List.range_succ, List.map_append, List.flatMap_append, ih, show 3 * (n + 1) = 3 * n + 1 + 1 + 1 by omega, List.range_succ, List.range_succ,
      List.range_succ]
    simp [generated]

/-- **C81**: the generator connected to the averaging program.  The coordinates of its points are the draws one after the other.  Whenever the
generator is interrupted, the lines for the points that it has completed are right. -/
theorem c81_pipe_partial (draw : Nat → F64) (hd : ∀ i, (draw i).isFinite = true ∧ |(draw i).val| ≤ 500) (tick : Nat → Bool) (rounds : Nat)
    (hn : rounds < 2 ^ 53) (tl : Bytes) :
    ∃ ps lines more, coordinates ps = (List.range (3 * rounds)).map draw ∧
      averaging tick { rest := (generate draw rounds).bytes ++ tl } = (lines ++ more, .ok ()) ∧
      lines.map (·.total) = due tick rounds ∧ (∀ l ∈ lines, NearMeans l (ps.take l.total) 500) ∧ (∀ l ∈ more, rounds < l.total) := by
  have hlen : (generatedPoints draw rounds).length = rounds := by simp [generatedPoints]
  have hmem : ∀ p ∈ generatedPoints draw rounds, ∃ i, p = generated draw i := by
    intro p hp
    obtain ⟨i, -, rfl⟩ := List.mem_map.mp hp
    exact ⟨i, rfl⟩
  obtain ⟨lines, more, h1, h2, h3, h4⟩ := c81_average_partial tick generatorHeader { rest := (generate draw rounds).bytes ++ tl }
    (generatedPoints draw rounds) tl (by
      rw [generate_eq, List.append_assoc]
      exact Header.read_bytes rfl rfl rfl (by decide) _) rfl (by
      intro p hp
      obtain ⟨i, rfl⟩ := hmem p hp
      rfl) (by
      rw [hlen]
      have : generatorHeader.totalPoints.toNat = 2 ^ 64 - 1 := by decide
      omega) (by rw [hlen]; exact hn) (by
      intro p hp
      obtain ⟨i, rfl⟩ := hmem p hp
      exact ⟨(hd _).1, (hd _).1, (hd _).1⟩) 500 (by norm_num) (by
      intro p hp
      obtain ⟨i, rfl⟩ := hmem p hp
      exact ⟨(hd _).2, (hd _).2, (hd _).2⟩) (by
      rw [hlen]
      have e1 : (rounds : ℝ) ≤ 2 ^ 53 := by exact_mod_cast hn.le
      have e2 : (2 : ℝ) ^ 62 ≤ 2 ^ 998 := pow_le_pow_right₀ (by norm_num) (by norm_num)
      have e3 : (rounds : ℝ) * 500 ≤ 2 ^ 62 := by
        refine le_trans (mul_le_mul_of_nonneg_right e1 (by norm_num)) ?_
        norm_num
      exact e3.trans e2)
  rw [hlen] at h2 h4
  exact ⟨_, lines, more, coordinates_generatedPoints draw rounds, h1, h2, h3, fun l hl => (h4 l hl).1⟩

/-- Draws that alternate between 3 and -7. -/
example : ∃ draw : Nat → F64, (∀ i, (draw i).isFinite = true ∧ |(draw i).val| ≤ 500) ∧ draw 0 ≠ draw 1 := by
  refine ⟨fun i => if i % 2 = 0 then num 3 else num (-7), fun i => ?_, by decide +kernel⟩
  dsimp only
  split
  · refine ⟨by decide +kernel, ?_⟩
    rw [num_val (by decide)]
    norm_num
  · refine ⟨by decide +kernel, ?_⟩
    rw [num_val (by decide)]
    norm_num [abs_le]

/-- **C81, negation**: the end of the stream is never noticed.  Whatever follows the header, the program prints a line for every due number of
points up to the number in the header and reports success. -/
theorem c81_end_unnoticed (tick : Nat → Bool) (h : Header) (s s' : IStream) (hr : Header.read s = .ok (h, s')) (hc : h.compressed = 0) :
    (averaging tick s).1.map (·.total) = due tick h.totalPoints.toNat ∧ (averaging tick s).2 = .ok () := by
  unfold averaging
  rw [hr]
  simp only [hc, ne_eq, not_true_eq_false, if_false, and_true]
  rw [averagingLoop_totals, due_eq]

/-- A stream with a header that promises two points and one point at (2, 2, 2). -/
def shortStream : IStream :=
  { rest := { Header.default with totalPoints := 2 }.bytes ++ ({ x := ⟨0x4000000000000000⟩, y := ⟨0x4000000000000000⟩, z := ⟨0x4000000000000000⟩ } : PointRecord).bytes }

/-- **C81, negation**: the missing point is counted as a point at the origin. -/
theorem c81_wrong_mean : averaging (fun _ => true) shortStream =
    ([⟨1, ⟨0x4000000000000000⟩, ⟨0x4000000000000000⟩, ⟨0x4000000000000000⟩⟩, ⟨2, ⟨0x3FF0000000000000⟩, ⟨0x3FF0000000000000⟩, ⟨0x3FF0000000000000⟩⟩],
      .ok ()) := by
  decide +kernel

example : ∃ h s', Header.read shortStream = .ok (h, s') ∧ h.compressed = 0 :=
  ⟨{ Header.default with totalPoints := 2 }, _, Header.read_bytes rfl rfl rfl (by decide) _, rfl⟩

end Spoc.Props
