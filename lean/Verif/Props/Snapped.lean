import Verif.Props.ToOrigin
import Verif.Props.ExactCenter
import Verif.Props.QuantizeFile
import Verif.Props.Multiples

/-!
# C143: a cloud that is quantised to a power of two is on a grid
-/

namespace Spoc.Props

open Getopt Cmd Main Spec Spec.Cmd Text AppUtils
open Transform (parseCommand applyOps)

/-- The coordinate is less than 2^31 steps of size 2^k. -/
def FewSteps (k : ℤ) (x : F64) : Prop := x.isFinite = true ∧ |x.val| ≤ (2 ^ 31 - 1) * (2 : ℝ) ^ k

/-- The coordinate `x` is moved towards zero, by less than a step of size 2^k, to a multiple of the step. -/
def Snapped (k : ℤ) (x y : F64) : Prop := OnGrid k 32 y ∧ |y.val| ≤ |x.val| ∧ |x.val - y.val| < (2 : ℝ) ^ k ∧ 0 ≤ x.val * y.val

theorem OnGrid.mono {k : ℤ} {b c : Nat} (h : b ≤ c) {x : F64} (hx : OnGrid k b x) : OnGrid k c x := by
  obtain ⟨h1, m, h2, h3⟩ := hx
  exact ⟨h1, m, lt_of_lt_of_le h2 (pow_le_pow_right₀ (by norm_num) h), h3⟩

/-- The step in units of the smallest double. -/
theorem step_fv {k : ℤ} (hk0 : -1074 ≤ k) {v : F64} (hv : v.isFinite = true) (e : v.val = (2 : ℝ) ^ k) : v.fv = 2 ^ (k + 1074).toNat := by
  obtain ⟨m, -, h⟩ := F64.grid_fv hk0 (show OnGrid k 1 v from ⟨hv, 1, by norm_num, by rw [e]; simp⟩)
  have h1 := F64.val_units hk0 h
  rw [e] at h1
  have h2 : (m : ℝ) = 1 := by
    have hp : (0 : ℝ) < 2 ^ k := zpow_pos (by norm_num) k
    nlinarith
  have h3 : m = 1 := by exact_mod_cast h2
  rw [h, h3, one_mul]

theorem snap_abs (x : F64) : |x.val| = (|x.fv| : ℤ) / (F64.one1074 : ℝ) := by
  unfold F64.val
  rw [abs_div, abs_of_pos F64.one1074_pos', Int.cast_abs]

theorem FewSteps.quantisable {k : ℤ} (hk0 : -1074 ≤ k) (hk : k ≤ 970) {v x : F64} (hv : v.isFinite = true) (e : v.val = (2 : ℝ) ^ k) (h : FewSteps k x) :
    Quantisable v x := by
  obtain ⟨hf, hx⟩ := h
  have hs := step_fv hk0 hv e
  have hle : |x.fv| ≤ (2 ^ 31 - 1) * v.fv := by
    rw [snap_abs, ← e] at hx
    unfold F64.val at hx
    rw [← mul_div_assoc, div_le_div_iff_of_pos_right F64.one1074_pos'] at hx
    exact_mod_cast hx
  have h0 : 0 ≤ v.fv := by rw [hs]; positivity
  obtain ⟨l1, l2⟩ := abs_le.mp hle
  refine ⟨hf, by linarith, by linarith, ?_⟩
  have hb := F64.units_bound (m := 2 ^ 32) (k := k) (by norm_num) (by omega)
  have h2 : (F64.two1023.fv.natAbs : ℤ) = F64.two1023.fv := by
    refine Int.natAbs_of_nonneg ?_
    unfold F64.fv
    rw [if_neg (by decide)]
    exact Int.natCast_nonneg _
  have h3 := (F64.fv_le_maxVal F64.two1023_finite).1
  have h4 : (2 ^ 32 : ℤ) * v.fv ≤ F64.maxVal.fv := by
    refine le_trans ?_ h3
    rw [← h2, hs]
    have h5 : ((2 ^ 32 : ℤ).natAbs : ℤ) * 2 ^ (k + 1074).toNat ≤ (F64.two1023.fv.natAbs : ℤ) := by exact_mod_cast hb
    rwa [show ((2 ^ 32 : ℤ).natAbs : ℤ) = 2 ^ 32 by norm_num] at h5
  linarith

theorem snap_one {k : ℤ} (hk0 : -1074 ≤ k) (hk : k ≤ 970) {v x : F64} (hv : v.isFinite = true) (e : v.val = (2 : ℝ) ^ k) (h : FewSteps k x) :
    ∃ y, Utils.quantize1 v x = .ok y ∧ Snapped k x y := by
  have hq := h.quantisable hk0 hk hv e
  have hs := step_fv hk0 hv e
  have h0 : 0 < v.fv := by rw [hs]; positivity
  obtain ⟨y, h1, h2, h3, h4, h5, h6, -⟩ := c38_power_of_two_partial hv hs hq
  obtain ⟨y', h1', h7⟩ := quantize1_ok hv h0 hq
  obtain rfl := Res.ok.inj (h1.symm.trans h1')
  have hU := F64.one1074_pos'
  refine ⟨y, h1, ⟨h7.1, x.fv.tdiv v.fv, ?_, ?_⟩, ?_, ?_, ?_⟩
  · have : |x.fv.tdiv v.fv| * v.fv ≤ (2 ^ 31) * v.fv := by
      have e2 : |y.fv| = |x.fv.tdiv v.fv| * v.fv := by rw [h2, abs_mul, abs_of_pos h0]
      rw [← e2]
      refine h3.trans (abs_le.mpr ⟨by linarith [hq.2.1], by linarith [hq.2.2.1]⟩)
    have := le_of_mul_le_mul_right this h0
    norm_num at this ⊢
    omega
  · exact F64.val_units hk0 (by rw [h2, hs])
  · rw [snap_abs, snap_abs, div_le_div_iff_of_pos_right hU]
    exact_mod_cast h3
  · rw [← e]
    unfold F64.val
    rw [← sub_div, abs_div, abs_of_pos hU, div_lt_div_iff_of_pos_right hU]
    exact_mod_cast h4
  · unfold F64.val
    rw [div_mul_div_comm]
    refine div_nonneg ?_ (by positivity)
    rcases le_total 0 x.fv with hx | hx
    · exact_mod_cast mul_nonneg hx (h5 hx)
    · exact_mod_cast mul_nonneg_of_nonpos_of_nonpos hx (h6 hx)

section

variable {α : Type} [HasXYZ α]

open Utils in
/-- **C143** (partial: steps that are powers of two; see `c143_tenth`): quantising a cloud to steps of size 2^k moves every coordinate towards zero, by less than
a step, to a multiple of the step. -/
theorem c143_quantize_partial {k : ℤ} (hk0 : -1074 ≤ k) (hk : k ≤ 970) (b : Build) (ps : List α) {v : F64} (hv : v.isFinite = true) (e : v.val = (2 : ℝ) ^ k)
    (hin : ∀ a ∈ ps, FewSteps k (pt a).x ∧ FewSteps k (pt a).y ∧ FewSteps k (pt a).z) :
    ∃ qs, quantize b ps v = .ok qs ∧ List.Forall₂ (fun a q => ∃ r, q = withPt a r ∧ OnPoint (Snapped k) (pt a) r) ps qs := by
  have h0 : 0 < v.fv := by rw [step_fv hk0 hv e]; positivity
  obtain ⟨qs, h1, h2, h3⟩ := c38_quantise_partial b ps v hv h0 (fun a ha => ⟨(hin a ha).1.quantisable hk0 hk hv e,
    (hin a ha).2.1.quantisable hk0 hk hv e, (hin a ha).2.2.quantisable hk0 hk hv e⟩)
  refine ⟨qs, h1, ?_⟩
  unfold quantize at h1
  obtain ⟨-, -, h1⟩ := Res.bind_eq_ok.mp h1
  refine (forall₂_left (mapM_eq_ok.mp h1) hin).imp (fun a q hq => ?_)
  obtain ⟨hq, i1, i2, i3⟩ := hq
  obtain ⟨x, e1, x1⟩ := snap_one hk0 hk hv e i1
  obtain ⟨y, e2, y1⟩ := snap_one hk0 hk hv e i2
  obtain ⟨z, e3, z1⟩ := snap_one hk0 hk hv e i3
  refine ⟨⟨x, y, z⟩, ?_, x1, y1, z1⟩
  simp only [quantizePt, e1, e2, e3, Res.ok_bind, Res.ok.injEq] at hq
  exact hq.symm

/-- **C143**, values (partial: as before): a quantised value is a multiple of the step, and the difference of two of them is the exact difference, and again a multiple of the step;
quantising that difference does not change it. -/
theorem c143_difference_partial {k : ℤ} (hk0 : -1074 ≤ k) (hk : k ≤ 970) {v x y : F64} (hv : v.isFinite = true) (e : v.val = (2 : ℝ) ^ k) (hx : FewSteps k x)
    (hy : FewSteps k y) (hd : |x.val - y.val| ≤ (2 ^ 31 - 3) * (2 : ℝ) ^ k) :
    ∃ a b c, Utils.quantize1 v x = .ok a ∧ Utils.quantize1 v y = .ok b ∧ (F64.sub a b).val = a.val - b.val
      ∧ Utils.quantize1 v (F64.sub a b) = .ok c ∧ c.val = (F64.sub a b).val := by
  obtain ⟨a, a1, a2, a3, a4, a5⟩ := snap_one hk0 hk hv e hx
  obtain ⟨b, b1, b2, b3, b4, b5⟩ := snap_one hk0 hk hv e hy
  obtain ⟨f1, f2⟩ := sub_grid_val hk0 hk (OnGrid.mono (by norm_num) a2) (OnGrid.mono (by norm_num) b2)
  obtain ⟨m, g1, g2, g3⟩ := F64.sub_grid hk0 hk (OnGrid.mono (c := 52) (by norm_num) a2) (OnGrid.mono (c := 52) (by norm_num) b2)
  have hs := step_fv hk0 hv e
  have hp : (0 : ℝ) < 2 ^ k := zpow_pos (by norm_num) k
  have hin : FewSteps k (F64.sub a b) := by
    refine ⟨f1, ?_⟩
    rw [f2]
    rw [abs_lt] at a4 b4
    rw [abs_le] at hd ⊢
    constructor <;> nlinarith
  obtain ⟨c, c1, c2, -⟩ := c38_power_of_two_partial hv hs (hin.quantisable hk0 hk hv e)
  refine ⟨a, b, c, a1, b1, by rw [f2, sub_eq_add_neg], c1, ?_⟩
  have h0 : v.fv ≠ 0 := by rw [hs]; positivity
  have : c.fv = (F64.sub a b).fv := by
    rw [c2, g2, hs, Int.mul_tdiv_cancel _ (by positivity)]
  unfold F64.val
  rw [this]

end

theorem snapped_cloud {k : ℤ} {ps qs : List PointRecord} (h : List.Forall₂ (fun p q => SameExcept [.x, .y, .z] p q ∧ OnPoint (Snapped k) (pt p) (pt q)) ps qs) :
    CloudOnGrid k qs ∧ (qs.length < 2 ^ 21 → FineCloud k 32 qs) := by
  have key : ∀ q ∈ qs, OnGrid k 32 (pt q).x ∧ OnGrid k 32 (pt q).y ∧ OnGrid k 32 (pt q).z := by
    intro q hq
    obtain ⟨p, -, -, h1, h2, h3⟩ := forall₂_right h q hq
    exact ⟨h1.1, h2.1, h3.1⟩
  refine ⟨fun q hq => ?_, fun hl => ⟨key, ?_⟩⟩
  · obtain ⟨h1, h2, h3⟩ := key q hq
    exact ⟨OnGrid.mono (by norm_num) h1, OnGrid.mono (by norm_num) h2, OnGrid.mono (by norm_num) h3⟩
  · calc qs.length * 2 ^ 32 < 2 ^ 21 * 2 ^ 32 := Nat.mul_lt_mul_of_pos_right hl (by norm_num)
      _ = 2 ^ 53 := by norm_num

/-- **C143**, transform (partial: as before): `transform --quantize-xyz` with a power of two writes a cloud on the grid; nothing but the coordinates changes. -/
theorem c143_transform_partial {k : ℤ} (hk0 : -1074 ≤ k) (hk : k ≤ 970) (p : Params) (hz : p.zlib.Correct) (henv : p.env.stod = Text.stod) (w : World)
    (argv : List Str) (i o : Str) (n : Numeral) (hn : n.Ok) (hir : NumeralInRange n) (hdbl : IsDouble n.value) (hval : n.value = (2 : ℝ) ^ k)
    (hopt : Cmd.transform.options argv = [("quantize-xyz", n.text)]) (hops : Cmd.transform.operands argv = [i, o]) (hi : i ≠ []) (ho : o ≠ [])
    (hio : i ≠ o) (hc : CanReplace w o) (f : SpocFile) (hf : Holds p w.fs i f)
    (hin : ∀ q ∈ f.prs, FewSteps k q.x ∧ FewSteps k q.y ∧ FewSteps k q.z) :
    ∃ qs, Makes .transform p w argv o { f with prs := qs } ∧ CloudOnGrid k qs ∧ (qs.length < 2 ^ 21 → FineCloud k 32 qs)
      ∧ List.Forall₂ (fun p q => SameExcept [.x, .y, .z] p q ∧ OnPoint (Snapped k) (pt p) (pt q)) f.prs qs := by
  obtain ⟨v, h1, h2⟩ := stod_numeral hn hir
  obtain ⟨fv, ev⟩ := nearest_double hdbl h2
  rw [hval] at ev
  obtain ⟨hu, hs, x, tl, x1, x2, x3⟩ := hf
  have hparse : (commandsOf [("quantize-xyz", n.text)]).mapM (parseCommand p.build p.env 0 f.extraFields) = .ok [Transform.quantizeOp v] := by
    rw [← henv] at h1
    simp [commandsOf, List.mapM_cons, parseCommand, consumeDouble, h1, Res.ok_bind, pure]
  have hall : ∃ qs, applyAll [Transform.quantizeOp v] 0 f.prs = .ok qs
      ∧ List.Forall₂ (fun p q => SameExcept [.x, .y, .z] p q ∧ OnPoint (Snapped k) (pt p) (pt q)) f.prs qs := by
    generalize f.prs = ps at hin
    clear hparse
    generalize 0 = j
    induction ps generalizing j with
    | nil => exact ⟨[], rfl, .nil⟩
    | cons q ps ih =>
      obtain ⟨qs, k1, k2⟩ := ih (fun r hr => hin r (List.mem_cons_of_mem _ hr)) (j + 1)
      obtain ⟨i1, i2, i3⟩ := hin q (by simp)
      obtain ⟨x', e1, x1'⟩ := snap_one hk0 hk fv ev i1
      obtain ⟨y', e2, y1'⟩ := snap_one hk0 hk fv ev i2
      obtain ⟨z', e3, z1'⟩ := snap_one hk0 hk fv ev i3
      refine ⟨{ q with x := x', y := y', z := z' } :: qs, ?_, .cons ⟨⟨rfl, fun fld hg => ?_⟩, x1', y1', z1'⟩ k2⟩
      · have : applyOps j [Transform.quantizeOp v] q = .ok { q with x := x', y := y', z := z' } := by
          simp only [applyOps, Transform.quantizeOp]
          rw [quantizeCoord_eq, quantizeCoord_eq, quantizeCoord_eq, e1, e2, e3]
          rfl
        simp only [applyAll, this, k1, Res.ok_bind]
      · cases fld <;> first | rfl | (simp at hg)
  obtain ⟨qs, k1, k2⟩ := hall
  obtain ⟨s1, s2⟩ := changed hs hu hparse k1
  refine ⟨qs, ?_, (snapped_cloud k2).1, (snapped_cloud k2).2, k2⟩
  refine outputStream_cloud hz ho hc s1 ?_
  rw [transform_run p w argv _ hopt (by simp) (by simp [commandOptions]) i o hops hi hio x x1 x2, x3, s2]
  rw [(apply_written p.build p.zlib p.env f hs.1 hu tl _ 0 _).mpr ⟨_, qs, hparse, k1, rfl⟩]

/-- **C143**, then the tool (partial: as before): after `transform --quantize-xyz` with a power of two, `tool --subtract-min-xy` or `--subtract-min-xyz` on the file moves the
cloud as a whole, by exactly the least coordinates. -/
theorem c143_then_origin_partial {k : ℤ} (hk0 : -1074 ≤ k) (hk : k ≤ 970) (p : Params) (hz : p.zlib.Correct) (henv : p.env.stod = Text.stod) (w : World)
    (argv argv' : List Str) (i o o' : Str) (n : Numeral) (hn : n.Ok) (hir : NumeralInRange n) (hdbl : IsDouble n.value) (hval : n.value = (2 : ℝ) ^ k)
    (hopt : Cmd.transform.options argv = [("quantize-xyz", n.text)]) (hops : Cmd.transform.operands argv = [i, o]) (hi : i ≠ []) (ho : o ≠ [])
    (hio : i ≠ o) (hc : CanReplace w o) (f : SpocFile) (hf : Holds p w.fs i f) (hne : f.prs ≠ [])
    (hin : ∀ q ∈ f.prs, FewSteps k q.x ∧ FewSteps k q.y ∧ FewSteps k q.z) (zFlag : Bool)
    (hopt' : Cmd.tool.options argv' = [(if zFlag then "subtract-min-xyz" else "subtract-min-xy", [])]) (hops' : Cmd.tool.operands argv' = [o, o'])
    (ho' : o' ≠ []) (w' : World) (hw : w'.fs = (Name.transform.run p argv w).fs) (hc' : CanReplace w' o') :
    ∃ g mx my mz, Makes .tool p w' argv' o' g ∧ List.Forall₂ (fun q r => SameExcept [.x, .y, .z] q r
        ∧ |r.x.val - (q.x.val - mx)| < (2 : ℝ) ^ k ∧ |r.y.val - (q.y.val - my)| < (2 : ℝ) ^ k ∧ |r.z.val - (q.z.val - mz)| < (2 : ℝ) ^ k
        ∧ (∃ m : ℤ, r.x.val = m * (2 : ℝ) ^ k) ∧ (∃ m : ℤ, r.y.val = m * (2 : ℝ) ^ k) ∧ ∃ m : ℤ, r.z.val = m * (2 : ℝ) ^ k) f.prs g.prs := by
  obtain ⟨qs, h1, h2, -, h3⟩ := c143_transform_partial hk0 hk p hz henv w argv i o n hn hir hdbl hval hopt hops hi ho hio hc f hf hin
  have hq0 : qs ≠ [] := by
    rintro rfl
    exact hne (List.length_eq_zero_iff.mp h3.length_eq)
  obtain ⟨g, mx, my, mz, g1, -, g2, ⟨⟨px, lx, ex⟩, -⟩, ⟨⟨py, ly, ey⟩, -⟩, ⟨⟨pz, lz, ez⟩, -⟩, g3⟩ := c142_tool_partial hk0 hk p hz w' argv' o o' zFlag hopt' hops' ho ho' hc'
    { f with prs := qs } (by rw [hw]; exact h1.2.2.1) hf.1 hq0 h2
  refine ⟨g, mx, my, if zFlag then mz else 0, g1, ?_⟩
  obtain ⟨n1, m1⟩ := List.forall₂_iff_get.mp h3
  obtain ⟨n2, m2⟩ := List.forall₂_iff_get.mp g3
  have unit : ∀ {x : F64} {m : ℝ}, x.val = m → (∃ b, OnGrid k b x) → ∃ j : ℤ, m = j * (2 : ℝ) ^ k := by
    rintro x m e ⟨b, -, j, -, hj⟩
    exact ⟨j, e.symm.trans hj⟩
  obtain ⟨jx, ux⟩ := unit ex ⟨52, (h2 px lx).1⟩
  obtain ⟨jy, uy⟩ := unit ey ⟨52, (h2 py ly).2.1⟩
  obtain ⟨jz, uz⟩ := unit ez ⟨52, (h2 pz lz).2.2⟩
  have one : ∀ {a b c : F64} {m d : ℝ} {j : ℤ}, Snapped k a b → c.val = b.val + d → d = -m → m = j * (2 : ℝ) ^ k →
      |c.val - (a.val - m)| < (2 : ℝ) ^ k ∧ ∃ j : ℤ, c.val = j * (2 : ℝ) ^ k := by
    rintro a b c m d j ⟨⟨-, l, -, hl⟩, -, hlt, -⟩ hc rfl hm
    refine ⟨?_, l - j, ?_⟩
    · rw [hc, show b.val + -m - (a.val - m) = -(a.val - b.val) by ring, abs_neg]
      exact hlt
    · rw [hc, hl, hm]
      push_cast
      ring
  refine List.forall₂_iff_get.mpr ⟨n1.trans n2, fun t t1 t2 => ?_⟩
  obtain ⟨⟨s1, s2⟩, a1, a2, a3⟩ := m1 t t1 (n1 ▸ t1)
  obtain ⟨⟨-, -, d1, d2, d3⟩, s3, s4⟩ := m2 t (n1 ▸ t1) t2
  obtain ⟨x1, x2⟩ := one a1 d1 rfl ux
  obtain ⟨y1, y2⟩ := one a2 d2 rfl uy
  obtain ⟨z1, z2⟩ := one (m := if zFlag then mz else 0) (j := if zFlag then jz else 0) a3 d3 (by cases zFlag <;> simp) (by cases zFlag <;> simp [uz])
  refine ⟨⟨s3.trans s1, fun fld hf => ?_⟩, x1, y1, z1, x2, y2, z2⟩
  refine (s4 fld ?_).trans (s2 fld hf)
  cases zFlag <;> simp_all [shiftedFields]

/-- **C143, negation**: with steps of 0.1, the quantised coordinates 0.3 and 0.4 are moved to 0 and something less than 0.1, and quantising that gives 0. -/
theorem c143_tenth (b : Build) : ∃ f g h : SpocFile, Utils.quantize b f.prs ⟨0x3fb999999999999a⟩ = .ok f.prs ∧ Tool.subtractMin b f true = .ok g
    ∧ Utils.quantize b g.prs ⟨0x3fb999999999999a⟩ = .ok h.prs ∧ f.prs.map (·.x) = [⟨0x3fd3333333333334⟩, ⟨0x3fd999999999999a⟩]
    ∧ g.prs.map (·.x) = [num 0, ⟨0x3fb9999999999998⟩] ∧ h.prs.map (·.x) = [num 0, num 0] := by
  refine ⟨{ SpocFile.empty with prs := [⟨0x3fd3333333333334⟩, ⟨0x3fd999999999999a⟩].map pointX }, { SpocFile.empty with prs := [num 0, ⟨0x3fb9999999999998⟩].map pointX },
    { SpocFile.empty with prs := [num 0, num 0].map pointX }, ?_⟩
  cases b <;> decide +kernel

/-! ## examples -/

/-- Four. -/
def four : Numeral := { ip := "4".toList }

theorem four_value : four.value = (2 : ℝ) ^ (2 : ℤ) := by
  have h1 : four.mantissa = 4 := by decide +kernel
  have h2 : four.exponent = 0 := by decide +kernel
  have h3 : four.negative = false := by decide
  unfold Numeral.value
  rw [h1, h2, h3]
  norm_num

theorem four_ok : four.Ok := ⟨.inl rfl, by decide, by decide, by decide, by intro e s d h; cases h⟩

theorem four_double : IsDouble four.value := by
  refine ⟨num 4, F64.ofInt_finite (by decide), ?_⟩
  rw [four_value, val_num (by decide)]
  norm_num

theorem four_inRange : NumeralInRange four := by
  obtain ⟨x, h1, h2⟩ := four_double
  right
  have h4 : |four.value| = 4 := by rw [four_value]; norm_num
  rw [h4]
  constructor
  · have h1 : (1 : ℝ) / 2 ^ 1022 ≤ 1 := by
      rw [div_le_one (pow_pos (by norm_num) _)]
      exact one_le_pow₀ (by norm_num)
    exact h1.trans (by norm_num)
  · have h5 := le_maxVal h1
    have h6 : x.val = 4 := by rw [h2, four_value]; norm_num
    rw [h6] at h5
    exact h5

theorem fewSteps_num {n : ℤ} (h : |n| < 2 ^ 31) : FewSteps 2 (num n) := by
  have h' : n.natAbs < 2 ^ 53 := by rw [Int.abs_eq_natAbs] at h; omega
  refine ⟨F64.ofInt_finite h', ?_⟩
  rw [val_num h', ← Int.cast_abs]
  have : ((|n| : ℤ) : ℝ) < 2 ^ 31 := by exact_mod_cast h
  norm_num at this ⊢
  linarith

theorem cloudA_fewSteps : ∀ q ∈ cloudA.prs, FewSteps 2 q.x ∧ FewSteps 2 q.y ∧ FewSteps 2 q.z := by
  have key : ∀ a b : F64, FewSteps 2 a → FewSteps 2 b → FewSteps 2 ({ x := a, y := b } : PointRecord).x
      ∧ FewSteps 2 ({ x := a, y := b } : PointRecord).y ∧ FewSteps 2 ({ x := a, y := b } : PointRecord).z := by
    intro a b h1 h2
    refine ⟨h1, h2, (by decide : F64.zero.isFinite = true), ?_⟩
    have : (({ x := a, y := b } : PointRecord).z).val = 0 := by
      unfold F64.val
      rw [show ({ x := a, y := b } : PointRecord).z = F64.zero from rfl, F64.zero_fv, Int.cast_zero, zero_div]
    rw [this, abs_zero]
    positivity
  intro p hp
  simp only [cloudA, tilePoints, List.mem_cons, List.not_mem_nil, or_false] at hp
  rcases hp with rfl | rfl | rfl
  · exact key (num 0) (num 0) (fewSteps_num (by norm_num)) (fewSteps_num (by norm_num))
  · exact key (num 15) (num 3) (fewSteps_num (by norm_num)) (fewSteps_num (by norm_num))
  · exact key (num 12) (num 17) (fewSteps_num (by norm_num)) (fewSteps_num (by norm_num))

theorem four_val : (num 4).val = (2 : ℝ) ^ (2 : ℤ) := by
  rw [val_num (by decide)]
  norm_num

/-- The hypotheses of `c143_quantize_partial` hold. -/
example (b : Build) : ∃ qs, Utils.quantize b cloudA.prs (num 4) = .ok qs ∧ qs.length = 3 := by
  obtain ⟨qs, h1, h2⟩ := c143_quantize_partial (k := 2) (by norm_num) (by norm_num) b cloudA.prs (v := num 4) (F64.ofInt_finite (by decide)) four_val cloudA_fewSteps
  exact ⟨qs, h1, h2.length_eq.symm⟩

/-- The hypotheses of `c143_difference_partial` hold. -/
example : ∃ a b c, Utils.quantize1 (num 4) (num 17) = .ok a ∧ Utils.quantize1 (num 4) (num 3) = .ok b ∧ (F64.sub a b).val = a.val - b.val
    ∧ Utils.quantize1 (num 4) (F64.sub a b) = .ok c ∧ c.val = (F64.sub a b).val :=
  c143_difference_partial (k := 2) (by norm_num) (by norm_num) (F64.ofInt_finite (by decide)) four_val (fewSteps_num (by norm_num)) (fewSteps_num (by norm_num))
    (by rw [val_num (by decide), val_num (by decide)]; norm_num)

theorem quantised_from : Holds textParams exampleDisk.fs ['a'] cloudA :=
  ⟨rfl, cloudA_survives, _, [], rfl, rfl, (List.append_nil _).symm⟩

/-- The hypotheses of `c143_transform_partial` hold. -/
example : ∃ qs, Makes .transform textParams exampleDisk ["--quantize-xyz=4".toList, ['a'], ['o']] ['o'] { cloudA with prs := qs } ∧ CloudOnGrid 2 qs := by
  obtain ⟨qs, h1, h2, -⟩ := c143_transform_partial (k := 2) (by norm_num) (by norm_num) textParams toyZlib_correct rfl exampleDisk
    ["--quantize-xyz=4".toList, ['a'], ['o']] ['a'] ['o'] four four_ok four_inRange four_double four_value (by decide +kernel) (by decide +kernel) (by decide)
    (by decide) (by decide) rfl cloudA quantised_from cloudA_fewSteps
  exact ⟨qs, h1, h2⟩

/-- The hypotheses of `c143_then_origin_partial` hold. -/
example (w' : World) (hw : w'.fs = (Name.transform.run textParams ["--quantize-xyz=4".toList, ['a'], ['o']] exampleDisk).fs) (hc : CanReplace w' ['u']) :
    ∃ g, Makes .tool textParams w' ["--subtract-min-xyz".toList, ['o'], ['u']] ['u'] g ∧ g.prs.length = 3 := by
  obtain ⟨g, mx, my, mz, h1, h2⟩ := c143_then_origin_partial (k := 2) (by norm_num) (by norm_num) textParams toyZlib_correct rfl exampleDisk
    ["--quantize-xyz=4".toList, ['a'], ['o']] ["--subtract-min-xyz".toList, ['o'], ['u']] ['a'] ['o'] ['u'] four four_ok four_inRange four_double four_value
    (by decide +kernel) (by decide +kernel) (by decide) (by decide) (by decide) rfl cloudA quantised_from (by decide) cloudA_fewSteps true
    (by decide +kernel) (by decide +kernel) (by decide) w' hw hc
  exact ⟨g, h1, h2.length_eq.symm⟩

end Spoc.Props
