import Verif.Proofs.Noise
import Verif.Props.Transform

/-!
# C94: the noise of transform

The commands `uniform-noise`, `uniform-noise-x`, `-y`, `-z` and the Gaussian ones, as `apply` executes them with the random
numbers of libstdc++ (`Noise.std`).  The application rejects these commands (C35); programs that use `apply` can give them.
-/

namespace Spoc.Props

open Spec F64 Transform TestUtils AppUtils

/-- The coordinate moved by at most `m`, up to one rounding. -/
def Moved (m : ℝ) (a b : F64) : Prop := b.isFinite = true ∧ |b.val - a.val| ≤ m + (|a.val| + m) / 2 ^ 53

/-- The commands and the fields they change. -/
def uniformCommands : List (String × List Field) :=
  [("uniform-noise", [.x, .y, .z]), ("uniform-noise-x", [.x]), ("uniform-noise-y", [.y]), ("uniform-noise-z", [.z])]

theorem draw_spec {m : F64} (hm : Noise.Magnitude m) {g : Nat} (hg : Noise.State g) :
    Noise.State (Noise.drawUniform m g).2 ∧ (Noise.drawUniform m g).1.isFinite = true
      ∧ |(Noise.drawUniform m g).1.val| ≤ m.val := by
  unfold Noise.drawUniform
  by_cases h : fne m zero = true
  · rw [if_pos h]
    obtain ⟨h1, h2, h3, h4⟩ := Noise.uniform_range hm hg
    refine ⟨h1, h2, ?_⟩
    rw [abs_le, ← negate_val]
    exact ⟨val_le_of_fv h3, val_le_of_fv h4⟩
  · rw [if_neg h]
    have z : zero.val = 0 := by unfold val; rw [zero_fv, Int.cast_zero, zero_div]
    refine ⟨hg, (by decide +kernel : zero.isFinite = true), ?_⟩
    dsimp only
    rw [z, abs_zero]
    exact hm.2

theorem draw3_spec {mx my mz : F64} (hx : Noise.Magnitude mx) (hy : Noise.Magnitude my) (hz : Noise.Magnitude mz) {g : Nat} (hg : Noise.State g) :
    Noise.State (Noise.uniform3 mx my mz g).2
      ∧ ((Noise.uniform3 mx my mz g).1.x.isFinite = true ∧ |(Noise.uniform3 mx my mz g).1.x.val| ≤ mx.val)
      ∧ ((Noise.uniform3 mx my mz g).1.y.isFinite = true ∧ |(Noise.uniform3 mx my mz g).1.y.val| ≤ my.val)
      ∧ ((Noise.uniform3 mx my mz g).1.z.isFinite = true ∧ |(Noise.uniform3 mx my mz g).1.z.val| ≤ mz.val) := by
  obtain ⟨a1, a2⟩ := draw_spec hx hg
  obtain ⟨b1, b2⟩ := draw_spec hy a1
  obtain ⟨c1, c2⟩ := draw_spec hz b1
  exact ⟨c1, a2, b2, c2⟩

theorem repeat_state {f : Nat → Nat} (hf : ∀ g, Noise.State g → Noise.State (f g)) (n : Nat) {g : Nat} (hg : Noise.State g) :
    Noise.State (n.repeat f g) := by
  induction n with
  | zero => exact hg
  | succ n ih => exact hf _ ih

theorem uniform_offsets (log : F64 → F64) (s : Nat) {mx my mz : F64} (hx : Noise.Magnitude mx) (hy : Noise.Magnitude my)
    (hz : Noise.Magnitude mz) (n : Nat) :
    (((Noise.std log).uniform s mx my mz n).x.isFinite = true ∧ |((Noise.std log).uniform s mx my mz n).x.val| ≤ mx.val)
      ∧ (((Noise.std log).uniform s mx my mz n).y.isFinite = true ∧ |((Noise.std log).uniform s mx my mz n).y.val| ≤ my.val)
      ∧ (((Noise.std log).uniform s mx my mz n).z.isFinite = true ∧ |((Noise.std log).uniform s mx my mz n).z.val| ≤ mz.val) :=
  (draw3_spec hx hy hz (repeat_state (fun _ hg => (draw3_spec hx hy hz hg).1) n (Noise.seed_state s))).2

theorem moved_add {m a d : F64} (hm : Noise.Magnitude m) (ha : Below 1000 a) (hd : d.isFinite = true) (hb : |d.val| ≤ m.val) :
    Moved m.val a (add a d) := by
  have p2 := Noise.pow_1000_1002
  have hmb := hm.1.2
  rw [abs_of_nonneg hm.2] at hmb
  have hab := ha.2
  have hs : |a.val + d.val| ≤ |a.val| + m.val := (abs_add_le _ _).trans (by linarith only [hb])
  have hf : (add a d).isFinite = true := by
    refine add_finite_of ha.1 hd two1002_finite ?_
    rw [two1002_val, abs_of_nonneg (show (0 : ℝ) ≤ 2 ^ 1002 from pow_nonneg (by norm_num) 1002)]
    generalize (2 : ℝ) ^ 1000 = X at *
    generalize (2 : ℝ) ^ 1002 = Y at *
    linarith only [hs, hmb, hab, p2]
  refine ⟨hf, ?_⟩
  have h := add_val ha.1 hd hf
  have tri : |(add a d).val - a.val| ≤ |(add a d).val - (a.val + d.val)| + |d.val| := by
    have e := abs_add_le ((add a d).val - (a.val + d.val)) d.val
    have e2 : (add a d).val - (a.val + d.val) + d.val = (add a d).val - a.val := by ring
    rwa [e2] at e
  have h2 : |(add a d).val - (a.val + d.val)| ≤ (|a.val| + m.val) / 2 ^ 53 := by
    rw [le_div_iff₀ (by norm_num)]
    linarith only [h, hs]
  linarith only [tri, h2, hb]

theorem moved_self {m : ℝ} (hm : 0 ≤ m) {a : F64} (ha : a.isFinite = true) : Moved m a a := by
  refine ⟨ha, ?_⟩
  rw [sub_self, abs_zero]
  have := abs_nonneg a.val
  have h : 0 ≤ (|a.val| + m) / 2 ^ 53 := div_nonneg (add_nonneg this hm) (by norm_num)
  linarith only [h, hm]

/-- Adding noise with magnitudes that are `m` or 0. -/
theorem addNoise_moved {m : F64} (hm : Noise.Magnitude m) {sx sy sz : F64} {d : Pt F64} {p : PointRecord}
    (hp : Below 1000 p.x ∧ Below 1000 p.y ∧ Below 1000 p.z)
    (hd : (d.x.isFinite = true ∧ |d.x.val| ≤ m.val) ∧ (d.y.isFinite = true ∧ |d.y.val| ≤ m.val) ∧ (d.z.isFinite = true ∧ |d.z.val| ≤ m.val)) :
    Moved m.val p.x (addNoise sx sy sz d p).x ∧ Moved m.val p.y (addNoise sx sy sz d p).y ∧ Moved m.val p.z (addNoise sx sy sz d p).z := by
  have key : ∀ {s a e : F64}, Below 1000 a → e.isFinite = true ∧ |e.val| ≤ m.val →
      Moved m.val a (if fne s zero = true then add a e else a) := by
    intro s a e ha he
    split
    · exact moved_add hm ha he.1 he.2
    · exact moved_self hm.2 ha.1
  exact ⟨key hp.1 hd.1, key hp.2.1 hd.2.1, key hp.2.2 hd.2.2⟩

theorem zero_magnitude : Noise.Magnitude zero := by
  have z : zero.val = 0 := by unfold val; rw [zero_fv, Int.cast_zero, zero_div]
  refine ⟨⟨(by decide +kernel : zero.isFinite = true), ?_⟩, z.ge⟩
  rw [z, abs_zero]
  exact pow_nonneg (by norm_num) _

/-- One operation on a file. -/
theorem apply_one (b : Build) (env : Env) (seed : Nat) (c : Command) (op : Op) (f : Nat → PointRecord → PointRecord)
    (h : Header) (prs : List PointRecord) (hu : Uncompressed h prs) (tl : Bytes)
    (hop : parseCommand b env seed h.extraFields.toNat c = .ok op) (hf : ∀ n p, op n p = .ok (f n p)) :
    Transform.apply b env { rest := image h prs ++ tl } [c] seed = ⟨image h (prs.mapIdx f), .ok ()⟩ := by
  have hops : [c].mapM (parseCommand b env seed h.extraFields.toNat) = .ok [op] := by
    rw [List.mapM_cons, hop]; rfl
  have hall : applyAll [op] 0 prs = .ok (prs.mapIdx f) := by
    rw [applyAll_ok]
    refine ⟨by simp, fun i p hp => ⟨f i p, by simp [hp], ?_⟩⟩
    rw [Nat.zero_add, applyOps, hf]
    rfl
  rw [apply_ok]
  refine ⟨fun _ => rfl, h, _, [op], _, image_read hu tl, hu.flag, hops, ?_, image_eq (applyAll_uncompressed hu hops hall)⟩
  rw [← hu.count, readRecords_bytes _ _ hu.extra tl]
  exact hall

/-- The magnitudes that a command passes on. -/
def magnitudes (name : String) (v : F64) : F64 × F64 × F64 :=
  if name = "uniform-noise" then (v, v, v) else if name = "uniform-noise-x" then (v, zero, zero)
  else if name = "uniform-noise-y" then (zero, v, zero) else (zero, zero, v)

theorem parse_uniform (b : Build) (env : Env) (seed ef : Nat) {name : String} {axes : List Field} (hn : (name, axes) ∈ uniformCommands)
    {arg : Str} {v : F64} {rest : Str} (hv : consumeDouble env.stod arg = .ok (v, rest)) :
    parseCommand b env seed ef ⟨name, arg⟩
      = .ok (uniformOp env.noise seed (magnitudes name v).1 (magnitudes name v).2.1 (magnitudes name v).2.2) := by
  simp only [uniformCommands, List.mem_cons, Prod.mk.injEq, List.not_mem_nil, or_false] at hn
  rcases hn with ⟨rfl, -⟩ | ⟨rfl, -⟩ | ⟨rfl, -⟩ | ⟨rfl, -⟩ <;>
  · unfold parseCommand
    simp only [hv, Res.ok_bind, magnitudes, String.reduceEq, if_true, if_false]

theorem fne_zero : fne zero zero = false := by decide +kernel

/-- **C94**, uniform noise: as many points, in the same order; only the named coordinates change; no coordinate moves by more
than the magnitude, up to the rounding of the sum. -/
theorem c94_uniform (b : Build) (env : Env) (log : F64 → F64) (henv : env.noise = Noise.std log) (seed : Nat) (h : Header)
    (prs : List PointRecord) (hu : Uncompressed h prs) (hb : ∀ p ∈ prs, Below 1000 p.x ∧ Below 1000 p.y ∧ Below 1000 p.z) (tl : Bytes)
    {name : String} {axes : List Field} (hn : (name, axes) ∈ uniformCommands) {arg rest : Str} {m : F64}
    (hv : consumeDouble env.stod arg = .ok (m, rest)) (hm : Noise.Magnitude m) :
    ∃ qs, Transform.apply b env { rest := image h prs ++ tl } [⟨name, arg⟩] seed = ⟨image h qs, .ok ()⟩ ∧ qs.length = prs.length
      ∧ ∀ (i : Nat) (p q : PointRecord), prs[i]? = some p → qs[i]? = some q →
          SameExcept axes p q ∧ Moved m.val p.x q.x ∧ Moved m.val p.y q.y ∧ Moved m.val p.z q.z := by
  have hop := parse_uniform b env seed h.extraFields.toNat hn hv
  refine ⟨_, apply_one b env seed _ _ (fun n p => addNoise (magnitudes name m).1 (magnitudes name m).2.1 (magnitudes name m).2.2
    (env.noise.uniform seed (magnitudes name m).1 (magnitudes name m).2.1 (magnitudes name m).2.2 n) p) h prs hu tl hop (fun n p => rfl),
    by simp, fun i p q hp hq => ?_⟩
  rw [List.getElem?_mapIdx, hp, Option.map_some, Option.some.injEq] at hq
  subst hq
  have hz := zero_magnitude
  have z : zero.val = 0 := by unfold val; rw [zero_fv, Int.cast_zero, zero_div]
  have hmags : (Noise.Magnitude (magnitudes name m).1 ∧ Noise.Magnitude (magnitudes name m).2.1 ∧ Noise.Magnitude (magnitudes name m).2.2)
      ∧ (magnitudes name m).1.val ≤ m.val ∧ (magnitudes name m).2.1.val ≤ m.val ∧ (magnitudes name m).2.2.val ≤ m.val := by
    have hzm : zero.val ≤ m.val := z.le.trans hm.2
    unfold magnitudes
    split
    · exact ⟨⟨hm, hm, hm⟩, le_refl _, le_refl _, le_refl _⟩
    · split
      · exact ⟨⟨hm, hz, hz⟩, le_refl _, hzm, hzm⟩
      · split
        · exact ⟨⟨hz, hm, hz⟩, hzm, le_refl _, hzm⟩
        · exact ⟨⟨hz, hz, hm⟩, hzm, hzm, le_refl _⟩
  have ho := uniform_offsets log seed hmags.1.1 hmags.1.2.1 hmags.1.2.2 i
  rw [henv]
  refine ⟨?_, addNoise_moved hm (hb p (List.mem_of_getElem? hp)) ⟨⟨ho.1.1, ho.1.2.trans hmags.2.1⟩,
    ⟨ho.2.1.1, ho.2.1.2.trans hmags.2.2.1⟩, ⟨ho.2.2.1, ho.2.2.2.trans hmags.2.2.2⟩⟩⟩
  clear ho hmags
  generalize (Noise.std log).uniform seed (magnitudes name m).1 (magnitudes name m).2.1 (magnitudes name m).2.2 i = d
  refine ⟨rfl, fun f hf => ?_⟩
  simp only [uniformCommands, List.mem_cons, Prod.mk.injEq, List.not_mem_nil, or_false] at hn
  rcases hn with ⟨rfl, rfl⟩ | ⟨rfl, rfl⟩ | ⟨rfl, rfl⟩ | ⟨rfl, rfl⟩ <;> cases f <;>
    first
    | rfl
    | (exfalso; simp at hf)

/-! ## Seeds -/

/-- **C94**: the seed matters only through the initial state of the engine.  Seeds that are equal modulo 2147483647 give the same
result, and so do 0 and 1. -/
theorem c94_equal_seeds (b : Build) (env : Env) (log : F64 → F64) (henv : env.noise = Noise.std log) (s t : Nat)
    (hst : s % 2147483647 = t % 2147483647 ∨ (s = 0 ∧ t = 1)) (input : IStream) (cs : List Command) :
    Transform.apply b env input cs s = Transform.apply b env input cs t := by
  have e : seed s = seed t := by
    rcases hst with h | ⟨rfl, rfl⟩
    · unfold seed; rw [h]
    · rfl
  have h1 : gaussianOp env.noise s = gaussianOp env.noise t := by
    rw [henv]
    funext x y z n p
    simp only [gaussianOp, Noise.std, Noise.gaussState, e]
  have h2 : uniformOp env.noise s = uniformOp env.noise t := by
    rw [henv]
    funext x y z n p
    simp only [uniformOp, Noise.std, Noise.uniformState, e]
  have h3 : ∀ ef, parseCommand b env s ef = parseCommand b env t ef := by
    intro ef
    funext c
    simp only [parseCommand, h1, h2]
  unfold Transform.apply
  simp only [h3]

theorem draw_state (m : F64) {g h : Nat} (hg : Noise.State g) (hh : Noise.State h) (hne : g ≠ h) :
    Noise.State (Noise.drawUniform m g).2 ∧ Noise.State (Noise.drawUniform m h).2
      ∧ (Noise.drawUniform m g).2 ≠ (Noise.drawUniform m h).2 := by
  have e : ∀ g, (uniformReal (negate m) m g).2 = next (next g) := fun g => by
    unfold uniformReal
    rw [Noise.canonical_fraction]
  unfold Noise.drawUniform
  split
  · rw [e, e]
    have g1 := Noise.next_state hg
    have h1 := Noise.next_state hh
    exact ⟨Noise.next_state g1, Noise.next_state h1, fun x => hne (Noise.next_injective hg hh (Noise.next_injective g1 h1 x))⟩
  · exact ⟨hg, hh, hne⟩

theorem states_differ (mx my mz : F64) {s t : Nat} (hne : seed s ≠ seed t) (n : Nat) :
    Noise.State (Noise.uniformState s mx my mz n) ∧ Noise.State (Noise.uniformState t mx my mz n)
      ∧ Noise.uniformState s mx my mz n ≠ Noise.uniformState t mx my mz n := by
  induction n with
  | zero => exact ⟨Noise.seed_state s, Noise.seed_state t, hne⟩
  | succ n ih =>
    obtain ⟨a1, a2, a3⟩ := draw_state mx ih.1 ih.2.1 ih.2.2
    obtain ⟨b1, b2, b3⟩ := draw_state my a1 a2 a3
    exact draw_state mz b1 b2 b3

theorem draw_differ {m : F64} (hm : Noise.Magnitude m) (hs : 1 / 2 ^ 900 ≤ m.val) {g h : Nat} (hg : Noise.State g) (hh : Noise.State h)
    (hne : g ≠ h) : (Noise.drawUniform m g).1.val ≠ (Noise.drawUniform m h).1.val := by
  have hz : fne m zero = true := by
    unfold fne
    rw [Bool.not_eq_true', ← Bool.not_eq_true, feq_iff]
    rintro ⟨-, -, e⟩
    have hpos : 0 < m.val := lt_of_lt_of_le (div_pos one_pos (pow_pos (by norm_num) _)) hs
    have : m.val = 0 := by unfold val; rw [e, zero_fv, Int.cast_zero, zero_div]
    exact hpos.ne' this
  unfold Noise.drawUniform
  rw [if_pos hz, if_pos hz]
  exact Noise.uniform_differ hm hs hg hh hne

/-- **C94**: different seeds move every point differently: seeds that are different and not 0 modulo 2147483647 give points at
the origin different coordinates, each of the three of every such point. -/
theorem c94_different_seeds (b : Build) (env : Env) (log : F64 → F64) (henv : env.noise = Noise.std log) (s t : Nat)
    (hst : s % 2147483647 ≠ t % 2147483647) (hs0 : s % 2147483647 ≠ 0) (ht0 : t % 2147483647 ≠ 0) (h : Header)
    (prs : List PointRecord) (hu : Uncompressed h prs) (tl : Bytes) {arg rest : Str} {m : F64}
    (hv : consumeDouble env.stod arg = .ok (m, rest)) (hm : Noise.Magnitude m) (hsm : 1 / 2 ^ 900 ≤ m.val) :
    ∃ qs rs, Transform.apply b env { rest := image h prs ++ tl } [⟨"uniform-noise", arg⟩] s = ⟨image h qs, .ok ()⟩
      ∧ Transform.apply b env { rest := image h prs ++ tl } [⟨"uniform-noise", arg⟩] t = ⟨image h rs, .ok ()⟩
      ∧ ∀ (i : Nat) (p q r : PointRecord), prs[i]? = some p → qs[i]? = some q → rs[i]? = some r →
          p.x.val = 0 → p.y.val = 0 → p.z.val = 0 → q.x.val ≠ r.x.val ∧ q.y.val ≠ r.y.val ∧ q.z.val ≠ r.z.val := by
  have hne : seed s ≠ seed t := by
    unfold seed
    rw [if_neg hs0, if_neg ht0]
    exact hst
  have hp : ∀ u, parseCommand b env u h.extraFields.toNat ⟨"uniform-noise", arg⟩ = .ok (uniformOp env.noise u m m m) := fun u =>
    parse_uniform b env u h.extraFields.toNat (axes := [.x, .y, .z]) (by simp [uniformCommands]) hv
  refine ⟨_, _, apply_one b env s _ _ (fun n p => addNoise m m m (env.noise.uniform s m m m n) p) h prs hu tl (hp s) (fun n p => rfl),
    apply_one b env t _ _ (fun n p => addNoise m m m (env.noise.uniform t m m m n) p) h prs hu tl (hp t) (fun n p => rfl), ?_⟩
  intro i p q r hpi hq hr x0 y0 z0
  rw [List.getElem?_mapIdx, hpi, Option.map_some, Option.some.injEq] at hq hr
  subst hq hr
  rw [henv]
  have hz : fne m zero = true := by
    unfold fne
    rw [Bool.not_eq_true', ← Bool.not_eq_true, feq_iff]
    rintro ⟨-, -, e⟩
    have hpos : 0 < m.val := lt_of_lt_of_le (div_pos one_pos (pow_pos (by norm_num) _)) hsm
    have : m.val = 0 := by unfold val; rw [e, zero_fv, Int.cast_zero, zero_div]
    exact hpos.ne' this
  obtain ⟨ox, oy, oz⟩ := uniform_offsets log s hm hm hm i
  obtain ⟨ox', oy', oz'⟩ := uniform_offsets log t hm hm hm i
  have z0' : ∀ {a : F64}, a.val = 0 → a.isFinite = true ∧ a.fv = 0 := by
    intro a ha
    have hf : a.fv = 0 := by
      unfold val at ha
      rw [div_eq_zero_iff] at ha
      rcases ha with ha | ha
      · exact_mod_cast ha
      · exact absurd ha one1074_pos'.ne'
    exact ⟨finite_of_fv_le (y := zero) (by decide +kernel) (by rw [hf]; exact Nat.zero_le _), hf⟩
  have sum : ∀ {a d : F64}, a.val = 0 → d.isFinite = true → (add a d).val = d.val := by
    intro a d ha hd
    obtain ⟨af, a0⟩ := z0' ha
    unfold val
    rw [add_fv af hd, a0, zero_add]
    have := rfv_exact (not_nan_of_finite hd) (B := 1) (by norm_num)
    rw [Nat.cast_one, mul_one] at this
    rw [this]
  have ex : ∀ d : Pt F64, (addNoise m m m d p).x = add p.x d.x ∧ (addNoise m m m d p).y = add p.y d.y
      ∧ (addNoise m m m d p).z = add p.z d.z := by
    intro d
    unfold addNoise
    rw [if_pos hz, if_pos hz, if_pos hz]
    exact ⟨rfl, rfl, rfl⟩
  obtain ⟨e1, e2, e3⟩ := ex ((Noise.std log).uniform s m m m i)
  obtain ⟨f1, f2, f3⟩ := ex ((Noise.std log).uniform t m m m i)
  rw [e1, e2, e3, f1, f2, f3, sum x0 ox.1, sum y0 oy.1, sum z0 oz.1, sum x0 ox'.1, sum y0 oy'.1, sum z0 oz'.1]
  obtain ⟨c1, c2, c3⟩ := states_differ m m m hne i
  obtain ⟨a1, a2, a3⟩ := draw_state m c1 c2 c3
  obtain ⟨b1, b2, b3⟩ := draw_state m a1 a2 a3
  exact ⟨draw_differ hm hsm c1 c2 c3, draw_differ hm hsm a1 a2 a3, draw_differ hm hsm b1 b2 b3⟩

/-! ## Separate commands -/

/-- The state of the noise in x alone and that of the noise in y alone. -/
theorem gauss_states (log : F64 → F64) (s : Nat) (v : F64) (n : Nat) :
    ∃ g o, Noise.gaussState log s v zero zero n = ⟨g, o, none, none⟩ ∧ Noise.gaussState log s zero v zero n = ⟨g, none, o, none⟩ := by
  have f0 := fne_zero
  induction n with
  | zero => exact ⟨seed s, none, rfl, rfl⟩
  | succ n ih =>
    obtain ⟨g, o, h1, h2⟩ := ih
    refine ⟨(Noise.drawGauss log v o g).2.2, (Noise.drawGauss log v o g).2.1, ?_, ?_⟩
    · show (Noise.gauss3 log v zero zero (Noise.gaussState log s v zero zero n)).2 = _
      rw [h1]
      simp only [Noise.gauss3, Noise.drawGauss, f0, Bool.false_eq_true, if_false]
    · show (Noise.gauss3 log zero v zero (Noise.gaussState log s zero v zero n)).2 = _
      rw [h2]
      simp only [Noise.gauss3, Noise.drawGauss, f0, Bool.false_eq_true, if_false]

theorem gauss_same (log : F64 → F64) (s : Nat) (v : F64) (n : Nat) :
    ((Noise.std log).gauss s v zero zero n).x = ((Noise.std log).gauss s zero v zero n).y := by
  have f0 := fne_zero
  obtain ⟨g, o, h1, h2⟩ := gauss_states log s v n
  simp only [Noise.std, h1, h2, Noise.gauss3, Noise.drawGauss, f0, Bool.false_eq_true, if_false]

theorem uniform_states (s : Nat) (v : F64) (n : Nat) : Noise.uniformState s v zero zero n = Noise.uniformState s zero v zero n := by
  have f0 := fne_zero
  induction n with
  | zero => rfl
  | succ n ih =>
    show (Noise.uniform3 v zero zero (Noise.uniformState s v zero zero n)).2 = (Noise.uniform3 zero v zero (Noise.uniformState s zero v zero n)).2
    rw [ih]
    simp only [Noise.uniform3, Noise.drawUniform, f0, Bool.false_eq_true, if_false]

theorem uniform_same (log : F64 → F64) (s : Nat) (v : F64) (n : Nat) :
    ((Noise.std log).uniform s v zero zero n).x = ((Noise.std log).uniform s zero v zero n).y := by
  have f0 := fne_zero
  simp only [Noise.std, uniform_states, Noise.uniform3, Noise.drawUniform, f0, Bool.false_eq_true, if_false]

/-- Commands for the noise of x and of y. -/
def separateCommands : List (String × String) :=
  [("gaussian-noise-x", "gaussian-noise-y"), ("uniform-noise-x", "uniform-noise-y")]

/-- **C94**, negation of "the noise of the coordinates is independent": separate commands for x and y start from the same seed,
so that every point gets the same offset in x and in y.  The points move along a diagonal. -/
theorem c94_separate_commands (b : Build) (env : Env) (log : F64 → F64) (henv : env.noise = Noise.std log) (seed : Nat) (h : Header)
    (prs : List PointRecord) (hu : Uncompressed h prs) {nx ny : String} (hn : (nx, ny) ∈ separateCommands) {arg rest : Str} {m : F64}
    (hv : consumeDouble env.stod arg = .ok (m, rest)) (hm : fne m zero = true) :
    ∃ d : Nat → F64, Transform.apply b env { rest := image h prs } [⟨nx, arg⟩, ⟨ny, arg⟩] seed
      = ⟨image h (prs.mapIdx fun i p => { p with x := add p.x (d i), y := add p.y (d i) }), .ok ()⟩ := by
  have f0 := fne_zero
  have key : ∃ (d : Nat → F64) (o1 o2 : Op),
      parseCommand b env seed h.extraFields.toNat ⟨nx, arg⟩ = .ok o1 ∧ parseCommand b env seed h.extraFields.toNat ⟨ny, arg⟩ = .ok o2
      ∧ (∀ n p, o1 n p = .ok { p with x := add p.x (d n) }) ∧ (∀ n p, o2 n p = .ok { p with y := add p.y (d n) }) := by
    simp only [separateCommands, List.mem_cons, Prod.mk.injEq, List.not_mem_nil, or_false] at hn
    rcases hn with ⟨rfl, rfl⟩ | ⟨rfl, rfl⟩
    · refine ⟨fun n => ((Noise.std log).gauss seed m zero zero n).x, gaussianOp env.noise seed m zero zero, gaussianOp env.noise seed zero m zero,
        ?_, ?_, ?_, ?_⟩
      · unfold parseCommand
        simp only [hv, Res.ok_bind, String.reduceEq, if_true, if_false]
      · unfold parseCommand
        simp only [hv, Res.ok_bind, String.reduceEq, if_true, if_false]
      · intro n p
        simp only [gaussianOp, addNoise, hm, f0, if_true, Bool.false_eq_true, if_false, henv]
      · intro n p
        simp only [gaussianOp, addNoise, hm, f0, if_true, Bool.false_eq_true, if_false, henv, gauss_same]
    · refine ⟨fun n => ((Noise.std log).uniform seed m zero zero n).x, uniformOp env.noise seed m zero zero, uniformOp env.noise seed zero m zero,
        ?_, ?_, ?_, ?_⟩
      · unfold parseCommand
        simp only [hv, Res.ok_bind, String.reduceEq, if_true, if_false]
      · unfold parseCommand
        simp only [hv, Res.ok_bind, String.reduceEq, if_true, if_false]
      · intro n p
        simp only [uniformOp, addNoise, hm, f0, if_true, Bool.false_eq_true, if_false, henv]
      · intro n p
        simp only [uniformOp, addNoise, hm, f0, if_true, Bool.false_eq_true, if_false, henv, uniform_same]
  obtain ⟨d, o1, o2, h1, h2, h3, h4⟩ := key
  refine ⟨d, ?_⟩
  have a1 := apply_one b env seed ⟨nx, arg⟩ o1 (fun n p => { p with x := add p.x (d n) }) h prs hu [] h1 h3
  rw [List.append_nil] at a1
  have hu2 : Uncompressed h (prs.mapIdx fun n p => { p with x := add p.x (d n) }) := by
    refine ⟨hu.signature, hu.major, hu.minor, hu.wkt, hu.flag, fun q hq => ?_, by rw [List.length_mapIdx]; exact hu.count⟩
    rw [List.mem_mapIdx] at hq
    obtain ⟨i, hi, rfl⟩ := hq
    exact hu.extra prs[i] (List.getElem_mem hi)
  have a2 := apply_one b env seed ⟨ny, arg⟩ o2 (fun n p => { p with y := add p.y (d n) }) h _ hu2 [] h2 h4
  rw [List.append_nil] at a2
  have := (c34_compose b env seed [⟨nx, arg⟩] [⟨ny, arg⟩] { rest := image h prs } _).mpr ⟨_, a1, a2⟩
  rw [List.mapIdx_mapIdx] at this
  exact this

/-! ## The application -/

/-- The arguments without the seed. -/
def unseeded (a : Args) : Args := { a with seed := 0 }

theorem dispatch_unseeded (a a' : Args) (h : unseeded a = unseeded a') (v : Option Val) (arg : Str) (r : Args) (hr : dispatch a v arg = .ok r) :
    ∃ r', dispatch a' v arg = .ok r' ∧ unseeded r = unseeded r' := by
  obtain ⟨h1, h2, h3, cs, s⟩ := a
  obtain ⟨h1', h2', h3', cs', s'⟩ := a'
  simp only [unseeded, Args.mk.injEq, and_true] at h
  obtain ⟨rfl, rfl, rfl, rfl⟩ := h
  rcases v with _ | v
  · simp [dispatch] at hr
  · cases v <;> simp only [dispatch, Res.ok.injEq, reduceCtorEq] at hr ⊢ <;> subst hr <;> exact ⟨_, rfl, rfl⟩

theorem dispatch_fails (a a' : Args) (v : Option Val) (arg : Str) (hr : ∀ r, dispatch a v arg ≠ .ok r) : dispatch a v arg = dispatch a' v arg := by
  rcases v with _ | v
  · rfl
  · cases v <;> first | rfl | exact absurd rfl (hr _)

theorem dispatch_allowed (a r : Args) (v : Option Val) (arg : Str) (ha : ∀ c ∈ a.commands, c.name ∈ commandOptions) (hr : dispatch a v arg = .ok r) :
    ∀ c ∈ r.commands, c.name ∈ commandOptions := by
  have push : ∀ name : String, name ∈ commandOptions → ∀ c ∈ a.commands ++ [(⟨name, arg⟩ : Command)], c.name ∈ commandOptions := by
    intro name hn c hc
    rw [List.mem_append, List.mem_singleton] at hc
    rcases hc with hc | rfl
    · exact ha c hc
    · exact hn
  rcases v with _ | v
  · simp [dispatch] at hr
  · cases v <;> simp only [dispatch, Res.ok.injEq, reduceCtorEq] at hr <;> subst hr <;> first | exact ha | exact push _ (by decide)

/-- The results of reading the options agree but for the seed. -/
theorem getArgs_unseeded (os : List (String × Str)) (a a' : Args) (h : unseeded a = unseeded a')
    (ha : ∀ c ∈ a.commands, c.name ∈ commandOptions) :
    (∃ r r', getArgs os a = .ok r ∧ getArgs os a' = .ok r' ∧ unseeded r = unseeded r' ∧ ∀ c ∈ r.commands, c.name ∈ commandOptions)
      ∨ (getArgs os a = getArgs os a' ∧ ∀ r, getArgs os a ≠ .ok r) := by
  induction os generalizing a a' with
  | nil => exact Or.inl ⟨a, a', rfl, rfl, h, ha⟩
  | cons o os ih =>
    obtain ⟨name, arg⟩ := o
    by_cases hd : ∃ r, dispatch a (lookup name) arg = .ok r
    · obtain ⟨r, hr⟩ := hd
      obtain ⟨r', hr', hrr⟩ := dispatch_unseeded a a' h _ _ r hr
      have hal := dispatch_allowed a r _ _ ha hr
      simp only [getArgs, hr, hr', Res.ok_bind]
      by_cases hh : lookup name = some .help
      · rw [if_pos hh, if_pos hh]
        exact Or.inl ⟨r, r', rfl, rfl, hrr, hal⟩
      · rw [if_neg hh, if_neg hh]
        exact ih r r' hrr hal
    · have hd' : ∀ r, dispatch a (lookup name) arg ≠ .ok r := fun r hr => hd ⟨r, hr⟩
      right
      have e := dispatch_fails a a' (lookup name) arg hd'
      simp only [getArgs, ← e]
      refine ⟨?_, ?_⟩
      · generalize dispatch a (lookup name) arg = x at *
        cases x <;> first | exact absurd rfl (hd' _) | simp
      · intro r hr
        generalize dispatch a (lookup name) arg = x at *
        cases x <;> first | exact absurd rfl (hd' _) | (simp at hr)

theorem parse_unseeded (b : Build) (env : Env) (x y ef : Nat) (c : Command) (hm : c.name ∈ commandOptions) :
    parseCommand b env x ef c = parseCommand b env y ef c := by
  obtain ⟨name, arg⟩ := c
  have all : ∀ n ∈ noiseOptions, n ∉ commandOptions := by decide +kernel
  have key : ∀ n ∈ noiseOptions, name ≠ n := by
    intro n hn e
    rw [e] at hm
    exact all n hn hm
  simp only [noiseOptions, List.mem_cons, List.not_mem_nil, or_false, forall_eq_or_imp, forall_eq] at key
  obtain ⟨k1, k2, k3, k4, k5, k6, k7, k8⟩ := key
  simp only [parseCommand, k1, k2, k3, k4, k5, k6, k7, k8, if_false]

theorem mapM_unseeded (b : Build) (env : Env) (x y ef : Nat) (cs : List Command) (h : ∀ c ∈ cs, c.name ∈ commandOptions) :
    cs.mapM (parseCommand b env x ef) = cs.mapM (parseCommand b env y ef) := by
  induction cs with
  | nil => rw [List.mapM_nil, List.mapM_nil]
  | cons c cs ih =>
    rw [List.mapM_cons, List.mapM_cons, parse_unseeded b env x y ef c (h c (by simp)), ih fun c hc => h c (by simp [hc])]

theorem apply_unseeded (b : Build) (env : Env) (s : IStream) (cs : List Command) (h : ∀ c ∈ cs, c.name ∈ commandOptions) (x y : Nat) :
    Transform.apply b env s cs x = Transform.apply b env s cs y := by
  unfold Transform.apply
  simp only [mapM_unseeded b env x y _ cs h]

/-- **C94**, the application: since it rejects the noise commands (C35), the option `random-seed` has no effect, wherever it stands and
whatever its argument is. -/
theorem c94_seed_without_effect (b : Build) (env : Env) (os1 os2 : List (String × Str)) (arg : Str) (s : IStream) :
    Transform.main b env (os1 ++ ("random-seed", arg) :: os2) s = Transform.main b env (os1 ++ os2) s := by
  have key : ∀ os a a', unseeded a = unseeded a' → (∀ c ∈ a.commands, c.name ∈ commandOptions) →
      (∃ r r', getArgs (os ++ ("random-seed", arg) :: os2) a = .ok r ∧ getArgs (os ++ os2) a' = .ok r' ∧ unseeded r = unseeded r'
        ∧ ∀ c ∈ r.commands, c.name ∈ commandOptions)
      ∨ (getArgs (os ++ ("random-seed", arg) :: os2) a = getArgs (os ++ os2) a' ∧ ∀ r, getArgs (os ++ ("random-seed", arg) :: os2) a ≠ .ok r) := by
    intro os
    induction os with
    | nil =>
      intro a a' h ha
      have e : getArgs ([] ++ ("random-seed", arg) :: os2) a = getArgs os2 { a with seed := Text.strtol arg } := rfl
      rw [e, List.nil_append]
      refine getArgs_unseeded os2 _ a' ?_ ha
      rw [← h]
      rfl
    | cons o os ih =>
      intro a a' h ha
      obtain ⟨name, x⟩ := o
      by_cases hd : ∃ r, dispatch a (lookup name) x = .ok r
      · obtain ⟨r, hr⟩ := hd
        obtain ⟨r', hr', hrr⟩ := dispatch_unseeded a a' h _ _ r hr
        have hal := dispatch_allowed a r _ _ ha hr
        simp only [List.cons_append, getArgs, hr, hr', Res.ok_bind]
        by_cases hh : lookup name = some .help
        · rw [if_pos hh, if_pos hh]
          exact Or.inl ⟨r, r', rfl, rfl, hrr, hal⟩
        · rw [if_neg hh, if_neg hh]
          exact ih r r' hrr hal
      · have hd' : ∀ r, dispatch a (lookup name) x ≠ .ok r := fun r hr => hd ⟨r, hr⟩
        right
        have e := dispatch_fails a a' (lookup name) x hd'
        simp only [List.cons_append, getArgs, ← e]
        refine ⟨?_, ?_⟩
        · generalize dispatch a (lookup name) x = x at *
          cases x <;> first | exact absurd rfl (hd' _) | simp
        · intro r hr
          generalize dispatch a (lookup name) x = x at *
          cases x <;> first | exact absurd rfl (hd' _) | (simp at hr)
  unfold Transform.main
  rcases key os1 {} {} rfl (by simp) with ⟨r, r', h1, h2, h3, h4⟩ | ⟨h1, h2⟩
  · rw [h1, h2, Out.lift_ok_bind, Out.lift_ok_bind]
    obtain ⟨a1, a2, a3, cs, s1⟩ := r
    obtain ⟨a1', a2', a3', cs', s1'⟩ := r'
    simp only [unseeded, Args.mk.injEq, and_true] at h3
    obtain ⟨rfl, rfl, rfl, rfl⟩ := h3
    dsimp only at *
    rw [apply_unseeded b env s cs h4 (UInt64.ofInt s1).toNat (UInt64.ofInt s1').toNat]
  · rw [h1]

theorem first_offset (m : F64) (log : F64 → F64) : ((Noise.std log).uniform 0 m m m 0).x = (Noise.drawUniform m (seed 0)).1 := rfl

/-- **C94**, limit: with a magnitude of 2^1023 the width of the distribution is infinite, and so is the offset. -/
theorem c94_infinite : ∃ m : F64, m.isFinite = true ∧ ∀ log, ((Noise.std log).uniform 0 m m m 0).x = inf false :=
  ⟨⟨0x7FE0000000000000⟩, by decide +kernel, fun log => by
    rw [first_offset]
    decide +kernel⟩

/-! ## Examples -/

/-- The random numbers of libstdc++, with some function in place of the logarithm. -/
def noisyEnv : Env := { exampleEnv with noise := Noise.std fun x => x }

theorem noisy_one : consumeDouble noisyEnv.stod "1".toList = .ok (F64.one, []) := by decide +kernel

theorem one_val' : F64.one.isFinite = true ∧ F64.one.val = 1 := by
  refine ⟨by decide +kernel, ?_⟩
  unfold val
  rw [one_fv, Int.cast_natCast]
  exact div_self one1074_pos'.ne'

theorem one_magnitude : Noise.Magnitude F64.one := by
  obtain ⟨h1, h2⟩ := one_val'
  refine ⟨⟨h1, ?_⟩, by rw [h2]; norm_num⟩
  rw [h2, abs_one]
  exact one_le_pow₀ (by norm_num)

theorem example_below : ∀ p ∈ exampleRecords, Below 1000 p.x ∧ Below 1000 p.y ∧ Below 1000 p.z := by
  have h0 := zero_magnitude.1
  have h1 := one_magnitude.1
  intro p hp
  simp only [exampleRecords, List.mem_cons, List.not_mem_nil, or_false] at hp
  rcases hp with rfl | rfl
  · exact ⟨h0, h0, h0⟩
  · exact ⟨h1, h0, h0⟩

example : ∃ qs, Transform.apply .release noisyEnv { rest := image exampleHeader exampleRecords ++ [] } [⟨"uniform-noise-y", "1".toList⟩] 7
      = ⟨image exampleHeader qs, .ok ()⟩ ∧ qs.length = exampleRecords.length
    ∧ ∀ (i : Nat) (p q : PointRecord), exampleRecords[i]? = some p → qs[i]? = some q →
        SameExcept [.y] p q ∧ Moved F64.one.val p.x q.x ∧ Moved F64.one.val p.y q.y ∧ Moved F64.one.val p.z q.z :=
  c94_uniform .release noisyEnv _ rfl 7 exampleHeader exampleRecords example_uncompressed example_below [] (by simp [uniformCommands]) noisy_one
    one_magnitude

/-- The noise is not zero. -/
example : Transform.apply .release noisyEnv { rest := image exampleHeader exampleRecords } [⟨"uniform-noise-y", "1".toList⟩] 7
    ≠ ⟨image exampleHeader exampleRecords, .ok ()⟩ := by decide +kernel

example : Transform.apply .debug noisyEnv { rest := image exampleHeader exampleRecords } [⟨"uniform-noise-y", "1".toList⟩] 0
    = Transform.apply .debug noisyEnv { rest := image exampleHeader exampleRecords } [⟨"uniform-noise-y", "1".toList⟩] 1 :=
  c94_equal_seeds .debug noisyEnv _ rfl 0 1 (Or.inr ⟨rfl, rfl⟩) _ _

example : ∃ qs rs, Transform.apply .debug noisyEnv { rest := image exampleHeader exampleRecords ++ [] } [⟨"uniform-noise", "1".toList⟩] 3
      = ⟨image exampleHeader qs, .ok ()⟩
    ∧ Transform.apply .debug noisyEnv { rest := image exampleHeader exampleRecords ++ [] } [⟨"uniform-noise", "1".toList⟩] 4
      = ⟨image exampleHeader rs, .ok ()⟩
    ∧ ∀ (i : Nat) (p q r : PointRecord), exampleRecords[i]? = some p → qs[i]? = some q → rs[i]? = some r →
        p.x.val = 0 → p.y.val = 0 → p.z.val = 0 → q.x.val ≠ r.x.val ∧ q.y.val ≠ r.y.val ∧ q.z.val ≠ r.z.val :=
  c94_different_seeds .debug noisyEnv _ rfl 3 4 (by decide) (by decide) (by decide) exampleHeader exampleRecords example_uncompressed []
    noisy_one one_magnitude (by
      rw [one_val'.2, div_le_one (pow_pos (by norm_num) _)]
      exact one_le_pow₀ (by norm_num))

example : ∃ d : Nat → F64, Transform.apply .debug noisyEnv { rest := image exampleHeader exampleRecords }
    [⟨"uniform-noise-x", "1".toList⟩, ⟨"uniform-noise-y", "1".toList⟩] 3
    = ⟨image exampleHeader (exampleRecords.mapIdx fun i p => { p with x := add p.x (d i), y := add p.y (d i) }), .ok ()⟩ :=
  c94_separate_commands .debug noisyEnv _ rfl 3 exampleHeader exampleRecords example_uncompressed (by simp [separateCommands]) noisy_one
    (by decide +kernel)

end Spoc.Props
