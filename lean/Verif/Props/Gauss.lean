import Verif.Proofs.Gauss
import Verif.Proofs.ThereAndBack
import Verif.Props.Noise

/-!
# C94: Gaussian noise
-/

namespace Spoc.Props

open Spec F64 Transform TestUtils AppUtils

/-- The commands and the fields they change. -/
def gaussCommands : List (String × List Field) :=
  [("gaussian-noise", [.x, .y, .z]), ("gaussian-noise-x", [.x]), ("gaussian-noise-y", [.y]), ("gaussian-noise-z", [.z])]

/-- The deviations that a command passes on. -/
def deviations (name : String) (v : F64) : F64 × F64 × F64 :=
  if name = "gaussian-noise" then (v, v, v) else if name = "gaussian-noise-x" then (v, zero, zero)
  else if name = "gaussian-noise-y" then (zero, v, zero) else (zero, zero, v)

theorem parse_gauss (b : Build) (env : Env) (seed ef : Nat) {name : String} {axes : List Field} (hn : (name, axes) ∈ gaussCommands)
    {arg : Str} {v : F64} {rest : Str} (hv : consumeDouble env.stod arg = .ok (v, rest)) :
    parseCommand b env seed ef ⟨name, arg⟩
      = .ok (gaussianOp env.noise seed (deviations name v).1 (deviations name v).2.1 (deviations name v).2.2) := by
  simp only [gaussCommands, List.mem_cons, Prod.mk.injEq, List.not_mem_nil, or_false] at hn
  rcases hn with ⟨rfl, -⟩ | ⟨rfl, -⟩ | ⟨rfl, -⟩ | ⟨rfl, -⟩ <;>
  · unfold parseCommand
    simp only [hv, Res.ok_bind, deviations, String.reduceEq, if_true, if_false]

theorem drawGauss_spec {log : F64 → F64} (hl : Noise.LogOk log) {m : F64} (hm : Noise.Deviation m) {o : Option F64} (ho : Noise.SavedOk o)
    {g : Nat} (hg : Noise.State g) :
    ((Noise.drawGauss log m o g).1.isFinite = true ∧ |(Noise.drawGauss log m o g).1.val| ≤ 13 * m.val)
      ∧ Noise.SavedOk (Noise.drawGauss log m o g).2.1 ∧ Noise.State (Noise.drawGauss log m o g).2.2 := by
  unfold Noise.drawGauss
  by_cases h : fne m zero = true
  · rw [if_pos h]
    exact Noise.normal_spec hl hm h ho hg
  · rw [if_neg h]
    have z : zero.val = 0 := by unfold val; rw [zero_fv, Int.cast_zero, zero_div]
    refine ⟨⟨(by decide +kernel : zero.isFinite = true), ?_⟩, ho, hg⟩
    dsimp only
    rw [z, abs_zero]
    exact mul_nonneg (by norm_num) hm.2

/-- The engine and the saved numbers are in order. -/
def GaussOk (s : Noise.GaussState) : Prop := Noise.State s.g ∧ Noise.SavedOk s.x ∧ Noise.SavedOk s.y ∧ Noise.SavedOk s.z

theorem gauss3_spec {log : F64 → F64} (hl : Noise.LogOk log) {mx my mz : F64} (hx : Noise.Deviation mx) (hy : Noise.Deviation my)
    (hz : Noise.Deviation mz) {s : Noise.GaussState} (hs : GaussOk s) :
    GaussOk (Noise.gauss3 log mx my mz s).2
      ∧ ((Noise.gauss3 log mx my mz s).1.x.isFinite = true ∧ |(Noise.gauss3 log mx my mz s).1.x.val| ≤ 13 * mx.val)
      ∧ ((Noise.gauss3 log mx my mz s).1.y.isFinite = true ∧ |(Noise.gauss3 log mx my mz s).1.y.val| ≤ 13 * my.val)
      ∧ ((Noise.gauss3 log mx my mz s).1.z.isFinite = true ∧ |(Noise.gauss3 log mx my mz s).1.z.val| ≤ 13 * mz.val) := by
  obtain ⟨h0, h1, h2, h3⟩ := hs
  have a := drawGauss_spec hl hx h1 h0
  have b := drawGauss_spec hl hy h2 a.2.2
  have c := drawGauss_spec hl hz h3 b.2.2
  unfold Noise.gauss3
  generalize Noise.drawGauss log mx s.x s.g = A at *
  obtain ⟨a1, a2, a3⟩ := A
  dsimp only at *
  generalize Noise.drawGauss log my s.y a3 = B at *
  obtain ⟨b1, b2, b3⟩ := B
  dsimp only at *
  generalize Noise.drawGauss log mz s.z b3 = C at *
  obtain ⟨c1, c2, c3⟩ := C
  dsimp only at *
  exact ⟨⟨c.2.2, a.2.1, b.2.1, c.2.1⟩, a.1, b.1, c.1⟩

theorem gaussState_ok {log : F64 → F64} (hl : Noise.LogOk log) (s : Nat) {mx my mz : F64} (hx : Noise.Deviation mx)
    (hy : Noise.Deviation my) (hz : Noise.Deviation mz) (n : Nat) : GaussOk (Noise.gaussState log s mx my mz n) := by
  induction n with
  | zero => exact ⟨Noise.seed_state s, fun _ h => absurd h.symm (Option.some_ne_none _), fun _ h => absurd h.symm (Option.some_ne_none _),
    fun _ h => absurd h.symm (Option.some_ne_none _)⟩
  | succ n ih => exact (gauss3_spec hl hx hy hz ih).1

theorem moved_by {M : ℝ} {a d : F64} (hM : M ≤ 2 ^ 1000) (ha : Below 1000 a) (hd : d.isFinite = true) (hb : |d.val| ≤ M) :
    Moved M a (add a d) := by
  have p2 := Noise.pow_1000_1002
  have hab := ha.2
  have hs : |a.val + d.val| ≤ |a.val| + M := (abs_add_le _ _).trans (by linarith only [hb])
  have hf : (add a d).isFinite = true := by
    refine add_finite_of ha.1 hd two1002_finite ?_
    rw [two1002_val, abs_of_nonneg (show (0 : ℝ) ≤ 2 ^ 1002 from pow_nonneg (by norm_num) 1002)]
    generalize (2 : ℝ) ^ 1000 = X at *
    generalize (2 : ℝ) ^ 1002 = Y at *
    linarith only [hs, hM, hab, p2]
  refine ⟨hf, ?_⟩
  have h := add_val ha.1 hd hf
  have tri : |(add a d).val - a.val| ≤ |(add a d).val - (a.val + d.val)| + |d.val| := by
    have e := abs_add_le ((add a d).val - (a.val + d.val)) d.val
    have e2 : (add a d).val - (a.val + d.val) + d.val = (add a d).val - a.val := by ring
    rwa [e2] at e
  have h2 : |(add a d).val - (a.val + d.val)| ≤ (|a.val| + M) / 2 ^ 53 := by
    rw [le_div_iff₀ (by norm_num)]
    linarith only [h, hs]
  linarith only [tri, h2, hb]

theorem addNoise_by {M : ℝ} (h0 : 0 ≤ M) (hM : M ≤ 2 ^ 1000) {sx sy sz : F64} {d : Pt F64} {p : PointRecord}
    (hp : Below 1000 p.x ∧ Below 1000 p.y ∧ Below 1000 p.z)
    (hd : (d.x.isFinite = true ∧ |d.x.val| ≤ M) ∧ (d.y.isFinite = true ∧ |d.y.val| ≤ M) ∧ (d.z.isFinite = true ∧ |d.z.val| ≤ M)) :
    Moved M p.x (addNoise sx sy sz d p).x ∧ Moved M p.y (addNoise sx sy sz d p).y ∧ Moved M p.z (addNoise sx sy sz d p).z := by
  have key : ∀ {s a e : F64}, Below 1000 a → e.isFinite = true ∧ |e.val| ≤ M →
      Moved M a (if fne s zero = true then add a e else a) := by
    intro s a e ha he
    split
    · exact moved_by hM ha he.1 he.2
    · exact moved_self h0 ha.1
  exact ⟨key hp.1 hd.1, key hp.2.1 hd.2.1, key hp.2.2 hd.2.2⟩

theorem zero_deviation : Noise.Deviation zero := by
  have z : zero.val = 0 := by unfold val; rw [zero_fv, Int.cast_zero, zero_div]
  refine ⟨⟨(by decide +kernel : zero.isFinite = true), ?_⟩, z.ge⟩
  rw [z, abs_zero]
  exact pow_nonneg (by norm_num) _

theorem thirteen {m : F64} (hm : Noise.Deviation m) : 0 ≤ 13 * m.val ∧ 13 * m.val ≤ 2 ^ 1000 := by
  obtain ⟨⟨-, h1⟩, h2⟩ := hm
  rw [abs_of_nonneg h2] at h1
  refine ⟨mul_nonneg (by norm_num) h2, ?_⟩
  rw [show (1000 : Nat) = 990 + 10 from rfl, pow_add]
  generalize hX : (2 : ℝ) ^ 990 = X at *
  have h0 : 0 ≤ X := hX ▸ pow_nonneg (by norm_num) _
  linarith only [h0, h1]

/-- **C94**, Gaussian noise, for any logarithm with an error of at most 1/4: the loop that rejects points outside of the unit disk
ends for every seed and every number of points; as many points, in the same order; only the named coordinates change; no
coordinate becomes infinite or NaN, and none moves by more than 13 deviations (up to the rounding of the sum). -/
theorem c94_gauss (b : Build) (env : Env) (log : F64 → F64) (hl : Noise.LogOk log) (henv : env.noise = Noise.std log) (seed : Nat) (h : Header)
    (prs : List PointRecord) (hu : Uncompressed h prs) (hb : ∀ p ∈ prs, Below 1000 p.x ∧ Below 1000 p.y ∧ Below 1000 p.z) (tl : Bytes)
    {name : String} {axes : List Field} (hn : (name, axes) ∈ gaussCommands) {arg rest : Str} {m : F64}
    (hv : consumeDouble env.stod arg = .ok (m, rest)) (hm : Noise.Deviation m) :
    ∃ qs, Transform.apply b env { rest := image h prs ++ tl } [⟨name, arg⟩] seed = ⟨image h qs, .ok ()⟩ ∧ qs.length = prs.length
      ∧ ∀ (i : Nat) (p q : PointRecord), prs[i]? = some p → qs[i]? = some q →
          SameExcept axes p q ∧ Moved (13 * m.val) p.x q.x ∧ Moved (13 * m.val) p.y q.y ∧ Moved (13 * m.val) p.z q.z := by
  have hop := parse_gauss b env seed h.extraFields.toNat hn hv
  refine ⟨_, apply_one b env seed _ _ (fun n p => addNoise (deviations name m).1 (deviations name m).2.1 (deviations name m).2.2
    (env.noise.gauss seed (deviations name m).1 (deviations name m).2.1 (deviations name m).2.2 n) p) h prs hu tl hop (fun n p => rfl),
    by simp, fun i p q hp hq => ?_⟩
  rw [List.getElem?_mapIdx, hp, Option.map_some, Option.some.injEq] at hq
  subst hq
  have hz := zero_deviation
  have z : zero.val = 0 := by unfold val; rw [zero_fv, Int.cast_zero, zero_div]
  have hdev : (Noise.Deviation (deviations name m).1 ∧ Noise.Deviation (deviations name m).2.1 ∧ Noise.Deviation (deviations name m).2.2)
      ∧ (deviations name m).1.val ≤ m.val ∧ (deviations name m).2.1.val ≤ m.val ∧ (deviations name m).2.2.val ≤ m.val := by
    have hzm : zero.val ≤ m.val := z.le.trans hm.2
    unfold deviations
    split
    · exact ⟨⟨hm, hm, hm⟩, le_refl _, le_refl _, le_refl _⟩
    · split
      · exact ⟨⟨hm, hz, hz⟩, le_refl _, hzm, hzm⟩
      · split
        · exact ⟨⟨hz, hm, hz⟩, hzm, le_refl _, hzm⟩
        · exact ⟨⟨hz, hz, hm⟩, hzm, hzm, le_refl _⟩
  have ho := (gauss3_spec hl hdev.1.1 hdev.1.2.1 hdev.1.2.2 (gaussState_ok hl seed hdev.1.1 hdev.1.2.1 hdev.1.2.2 i)).2
  obtain ⟨t0, t1⟩ := thirteen hm
  have scale : ∀ {u v : ℝ}, u ≤ v → 13 * u ≤ 13 * v := fun h => mul_le_mul_of_nonneg_left h (by norm_num)
  rw [henv]
  refine ⟨?_, addNoise_by t0 t1 (hb p (List.mem_of_getElem? hp)) ⟨⟨ho.1.1, ho.1.2.trans (scale hdev.2.1)⟩,
    ⟨ho.2.1.1, ho.2.1.2.trans (scale hdev.2.2.1)⟩, ⟨ho.2.2.1, ho.2.2.2.trans (scale hdev.2.2.2)⟩⟩⟩
  clear ho hdev
  generalize (Noise.std log).gauss seed (deviations name m).1 (deviations name m).2.1 (deviations name m).2.2 i = d
  refine ⟨rfl, fun f hf => ?_⟩
  simp only [gaussCommands, List.mem_cons, Prod.mk.injEq, List.not_mem_nil, or_false] at hn
  rcases hn with ⟨rfl, rfl⟩ | ⟨rfl, rfl⟩ | ⟨rfl, rfl⟩ | ⟨rfl, rfl⟩ <;> cases f <;>
    first
    | rfl
    | (exfalso; simp at hf)

/-- **C94**: the engine runs through all its states, so that no loop that waits for a number waits forever. -/
theorem c94_engine {g t : Nat} (hg : 0 < g ∧ g < 2147483647) (ht : 0 < t ∧ t < 2147483647) :
    (∃ j < 2147483646, next^[j] g = t) ∧ next^[2147483646] g = g :=
  ⟨Noise.reach hg ht, Noise.next_period hg⟩

/-! ## Examples -/

/-- There are such logarithms: the logarithm rounded down to a multiple of 1/4. -/
theorem exists_log : ∃ log, Noise.LogOk log := by
  have key : ∀ r : F64, ∃ l : F64, 1 / 2 ^ 106 ≤ r.val → r.val ≤ 1 →
      l.isFinite = true ∧ l.val ≤ 0 ∧ |l.val - Real.log r.val| ≤ 1 / 4 := by
    intro r
    by_cases h : 1 / 2 ^ 106 ≤ r.val ∧ r.val ≤ 1
    · obtain ⟨h1, h2⟩ := h
      have h3 : -74 ≤ Real.log r.val := Noise.log_bound h1 (by rw [sub_self, abs_zero]; norm_num)
      have h4 : Real.log r.val ≤ 0 := Real.log_nonpos (le_trans (by norm_num) h1) h2
      have h5 := Int.floor_le (4 * Real.log r.val)
      have h6 := Int.lt_floor_add_one (4 * Real.log r.val)
      have h7 : ⌊4 * Real.log r.val⌋ ≤ 0 := by
        have : ((⌊4 * Real.log r.val⌋ : ℤ) : ℝ) ≤ (0 : ℤ) := by push_cast; linarith only [h4, h5]
        exact_mod_cast this
      have h8 : -300 ≤ ⌊4 * Real.log r.val⌋ := by
        rw [Int.le_floor]
        push_cast
        linarith only [h3]
      obtain ⟨l, lf, lv⟩ := exists_grid (k := -2) (by norm_num) (by norm_num) (m := ⌊4 * Real.log r.val⌋) (by omega)
      refine ⟨l, fun _ _ => ⟨lf, ?_⟩⟩
      rw [show (2 : ℝ) ^ (-2 : ℤ) = 1 / 4 by norm_num] at lv
      rw [lv]
      have h7' : ((⌊4 * Real.log r.val⌋ : ℤ) : ℝ) ≤ 0 := by exact_mod_cast h7
      refine ⟨by linarith only [h7'], abs_le.mpr ⟨by linarith only [h6], by linarith only [h5]⟩⟩
    · exact ⟨r, fun h1 h2 => absurd ⟨h1, h2⟩ h⟩
  choose log hlog using key
  exact ⟨log, fun r _ h1 h2 => hlog r h1 h2⟩

theorem one_deviation : Noise.Deviation F64.one := by
  obtain ⟨h1, h2⟩ := one_val'
  refine ⟨⟨h1, ?_⟩, by rw [h2]; norm_num⟩
  rw [h2, abs_one]
  exact one_le_pow₀ (by norm_num)

example : ∃ log qs, Transform.apply .debug { exampleEnv with noise := Noise.std log } { rest := image exampleHeader exampleRecords ++ [] }
      [⟨"gaussian-noise-z", "1".toList⟩] 3 = ⟨image exampleHeader qs, .ok ()⟩ ∧ qs.length = exampleRecords.length := by
  obtain ⟨log, hl⟩ := exists_log
  obtain ⟨qs, h1, h2, -⟩ := c94_gauss .debug { exampleEnv with noise := Noise.std log } log hl rfl 3 exampleHeader exampleRecords
    example_uncompressed example_below [] (name := "gaussian-noise-z") (axes := [.z]) (by simp [gaussCommands]) noisy_one one_deviation
  exact ⟨log, qs, h1, h2⟩

example : ∃ j < 2147483646, next^[j] 1 = 12345 := (c94_engine (by norm_num) (by norm_num)).1

end Spoc.Props
