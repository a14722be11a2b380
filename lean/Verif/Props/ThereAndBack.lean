import Verif.Proofs.ThereAndBack
import Verif.Props.Special
import Verif.Props.Numbers

/-!
# C101: moving a cloud, scaling it, and undoing it
-/

namespace Spoc.Props

open Spec Transform AppUtils Text

/-- The result of two commands. -/
theorem apply_two (b : Build) (env : Env) (seed : Nat) (c1 c2 : Command) (op1 op2 : Op) (f g : PointRecord → PointRecord)
    (h : Header) (prs : List PointRecord) (hu : Uncompressed h prs) (tl : Bytes)
    (h1 : parseCommand b env seed h.extraFields.toNat c1 = .ok op1) (h2 : parseCommand b env seed h.extraFields.toNat c2 = .ok op2)
    (hf : ∀ n p, op1 n p = .ok (f p)) (hg : ∀ n p, op2 n p = .ok (g p)) :
    Transform.apply b env { rest := image h prs ++ tl } [c1, c2] seed = ⟨image h (prs.map (fun p => g (f p))), .ok ()⟩ := by
  have hops : [c1, c2].mapM (parseCommand b env seed h.extraFields.toNat) = .ok [op1, op2] := by
    rw [List.mapM_cons, h1, List.mapM_cons, h2]; rfl
  have hall : applyAll [op1, op2] 0 prs = .ok (prs.map (fun p => g (f p))) := by
    rw [applyAll_ok]
    refine ⟨by simp, fun i p hp => ⟨g (f p), by simp [hp], ?_⟩⟩
    rw [applyOps, hf, Res.ok_bind, applyOps, hg]
    rfl
  rw [apply_ok]
  refine ⟨fun _ => rfl, h, _, [op1, op2], _, image_read hu tl, hu.flag, hops, ?_, image_eq (applyAll_uncompressed hu hops hall)⟩
  rw [← hu.count, readRecords_bytes _ _ hu.extra tl]
  exact hall

theorem opposite_ok {n : Numeral} (h : n.Ok) : n.opposite.Ok := by
  refine ⟨?_, h.ip, h.fp, h.ne, h.ex⟩
  unfold Numeral.opposite
  dsimp only
  split
  · exact Or.inl rfl
  · exact Or.inr (Or.inr rfl)

theorem opposite_negative (n : Numeral) : n.opposite.negative = !n.negative := by
  unfold Numeral.opposite Numeral.negative
  dsimp only
  by_cases h : n.sg = ['-']
  · rw [if_pos h, decide_eq_true h]; rfl
  · rw [if_neg h, decide_eq_false h]; rfl

theorem opposite_value (n : Numeral) : n.opposite.value = - n.value := by
  have h : n.opposite.value = (if n.opposite.negative then -1 else 1) * n.mantissa * (10 : ℝ) ^ n.exponent := rfl
  rw [h, opposite_negative]
  unfold Numeral.value
  cases n.negative
  · simp only [Bool.not_false, if_true, Bool.false_eq_true, if_false]; ring
  · simp only [Bool.not_true, if_true, Bool.false_eq_true, if_false]; ring

theorem opposite_range {n : Numeral} (h : NumeralInRange n) : NumeralInRange n.opposite := by
  unfold NumeralInRange at *
  rw [opposite_value, abs_neg]
  exact h

/-- The two numbers that are read. -/
theorem stod_opposite {n : Numeral} (h : n.Ok) (hr : NumeralInRange n) :
    ∃ v, Nearest v n.value ∧ Text.stod n.text = some (v, n.text.length)
      ∧ Text.stod n.opposite.text = some (F64.negate v, n.opposite.text.length) := by
  have key : ∀ {n : Numeral}, n.Ok → NumeralInRange n →
      Text.stod n.text = some (F64.ofScaled n.negative 10 n.mantissa n.exponent, n.text.length) := by
    intro n h hr
    unfold Text.stod
    rw [strtod_numeral h]
    have hl : n.text.length ≠ 0 := by
      have := text_ne h
      unfold Numeral.text
      rw [List.length_append]
      have := List.length_pos_iff.mpr this
      omega
    simp only [hl, if_false, range_ok hr, Bool.false_eq_true]
  refine ⟨F64.ofScaled n.negative 10 n.mantissa n.exponent, ofScaled_value n, key h hr, ?_⟩
  rw [key (opposite_ok h) (opposite_range hr), opposite_negative]
  have e : F64.ofScaled (!n.negative) 10 n.opposite.mantissa n.opposite.exponent
      = F64.negate (F64.ofScaled n.negative 10 n.mantissa n.exponent) := F64.ofScaled_opposite _ _ _
  rw [e]

/-- One of the three translations. -/
theorem translation_ops {b : Build} {env : Env} {seed ef : Nat} {name : String} {fld : Field} (hn : (name, fld) ∈ translations) :
    ∃ (put : F64 → PointRecord → PointRecord) (get : PointRecord → F64),
      (∀ p, fld.get p = some (get p).bits.toNat) ∧ (∀ v p, get (put v p) = v) ∧ (∀ v p, SameExcept [fld] p (put v p))
      ∧ ∀ (arg : Str) (v : F64) (k : Nat), env.stod arg = some (v, k) →
          ∃ op, parseCommand b env seed ef ⟨name, arg⟩ = .ok op ∧ ∀ n p, op n p = .ok (put (F64.add (get p) v) p) := by
  simp only [translations, List.mem_cons, List.not_mem_nil, or_false, Prod.mk.injEq] at hn
  rcases hn with ⟨rfl, rfl⟩ | ⟨rfl, rfl⟩ | ⟨rfl, rfl⟩
  · refine ⟨fun v p => { p with x := v }, PointRecord.x, fun _ => rfl, fun _ _ => rfl,
      fun v p => ⟨rfl, fun f hf => by cases f <;> first | rfl | simp at hf⟩, fun arg v k hv => ⟨addXOp v, ?_, fun _ _ => rfl⟩⟩
    simp only [parseCommand, String.reduceEq, if_false, if_true, consumeDouble, hv]; rfl
  · refine ⟨fun v p => { p with y := v }, PointRecord.y, fun _ => rfl, fun _ _ => rfl,
      fun v p => ⟨rfl, fun f hf => by cases f <;> first | rfl | simp at hf⟩, fun arg v k hv => ⟨addYOp v, ?_, fun _ _ => rfl⟩⟩
    simp only [parseCommand, String.reduceEq, if_false, if_true, consumeDouble, hv]; rfl
  · refine ⟨fun v p => { p with z := v }, PointRecord.z, fun _ => rfl, fun _ _ => rfl,
      fun v p => ⟨rfl, fun f hf => by cases f <;> first | rfl | simp at hf⟩, fun arg v k hv => ⟨addZOp v, ?_, fun _ _ => rfl⟩⟩
    simp only [parseCommand, String.reduceEq, if_false, if_true, consumeDouble, hv]; rfl

/-- One of the three scalings. -/
theorem scaling_ops {b : Build} {env : Env} {seed ef : Nat} {name : String} {fld : Field} (hn : (name, fld) ∈ scalings) :
    ∃ (put : F64 → PointRecord → PointRecord) (get : PointRecord → F64),
      (∀ p, fld.get p = some (get p).bits.toNat) ∧ (∀ v p, get (put v p) = v) ∧ (∀ v p, SameExcept [fld] p (put v p))
      ∧ ∀ (arg : Str) (v : F64) (k : Nat), env.stod arg = some (v, k) →
          ∃ op, parseCommand b env seed ef ⟨name, arg⟩ = .ok op ∧ ∀ n p, op n p = .ok (put (F64.mul (get p) v) p) := by
  simp only [scalings, List.mem_cons, List.not_mem_nil, or_false, Prod.mk.injEq] at hn
  rcases hn with ⟨rfl, rfl⟩ | ⟨rfl, rfl⟩ | ⟨rfl, rfl⟩
  · refine ⟨fun v p => { p with x := v }, PointRecord.x, fun _ => rfl, fun _ _ => rfl,
      fun v p => ⟨rfl, fun f hf => by cases f <;> first | rfl | simp at hf⟩, fun arg v k hv => ⟨scaleXOp v, ?_, fun _ _ => rfl⟩⟩
    simp only [parseCommand, String.reduceEq, if_false, if_true, consumeDouble, hv]; rfl
  · refine ⟨fun v p => { p with y := v }, PointRecord.y, fun _ => rfl, fun _ _ => rfl,
      fun v p => ⟨rfl, fun f hf => by cases f <;> first | rfl | simp at hf⟩, fun arg v k hv => ⟨scaleYOp v, ?_, fun _ _ => rfl⟩⟩
    simp only [parseCommand, String.reduceEq, if_false, if_true, consumeDouble, hv]; rfl
  · refine ⟨fun v p => { p with z := v }, PointRecord.z, fun _ => rfl, fun _ _ => rfl,
      fun v p => ⟨rfl, fun f hf => by cases f <;> first | rfl | simp at hf⟩, fun arg v k hv => ⟨scaleZOp v, ?_, fun _ _ => rfl⟩⟩
    simp only [parseCommand, String.reduceEq, if_false, if_true, consumeDouble, hv]; rfl

theorem sameExcept_trans {fs : List Field} {p q r : PointRecord} (h1 : SameExcept fs p q) (h2 : SameExcept fs q r) : SameExcept fs p r :=
  ⟨h2.1.trans h1.1, fun f hf => (h2.2 f hf).trans (h1.2 f hf)⟩

theorem main_two (b : Build) (env : Env) {name : String} (hn : name ∈ commandOptions) (s t : Str) (input : IStream) :
    Transform.main b env [(name, s), (name, t)] input = Transform.apply b env input [⟨name, s⟩, ⟨name, t⟩] 0 := by
  rw [main_commands b env [(name, s), (name, t)] (by simp) (by simpa using hn)]
  rfl

/-- **C101**, translations (partial: up to rounding, exact on a binary grid; see `c101_lost`, `c101_rounded` and `c101_negative_zero`).
One run of the transform application that adds a number to a coordinate and then its opposite succeeds, changes nothing but that
coordinate, and changes it by no more than one unit in the last place of the shifted coordinate.  If the coordinates and the number are
multiples of the same power of two, and less than 2^52 of these units in size, then all is as it was. -/
theorem c101_translate_partial (b : Build) (env : Env) (henv : env.stod = Text.stod) (h : Header) (prs : List PointRecord)
    (hu : Uncompressed h prs) (tl : Bytes) {name : String} {fld : Field} (hn : (name, fld) ∈ translations) (n : Numeral) (hok : n.Ok)
    (hr : NumeralInRange n) :
    ∃ v qs, Nearest v n.value
      ∧ Transform.main b env [(name, n.text), (name, n.opposite.text)] { rest := image h prs ++ tl } = ⟨image h qs, .ok ()⟩
      ∧ qs.length = prs.length
      ∧ ∀ (i : Nat) (p q : PointRecord), prs[i]? = some p → qs[i]? = some q → SameExcept [fld] p q
          ∧ ∀ x y : F64, fld.get p = some x.bits.toNat → fld.get q = some y.bits.toNat →
              (Below 1000 x → |n.value| ≤ 2 ^ 1000 → y.isFinite = true ∧ 2 ^ 52 * |y.val - x.val| ≤ |x.val + v.val|)
              ∧ ∀ (k m : ℤ), -1074 ≤ k → k ≤ 970 → OnGrid k 52 x → |m| < 2 ^ 52 → n.value = m * (2 : ℝ) ^ k →
                  y.val = x.val ∧ (x ≠ F64.negZero → y = x) := by
  obtain ⟨v, hv, s1, s2⟩ := stod_opposite hok hr
  have hname : name ∈ commandOptions := by
    simp only [translations, List.mem_cons, List.not_mem_nil, or_false, Prod.mk.injEq] at hn
    rcases hn with ⟨rfl, _⟩ | ⟨rfl, _⟩ | ⟨rfl, _⟩ <;> decide
  obtain ⟨put, get, hget, hput, hsame, hops⟩ := translation_ops (b := b) (env := env) (seed := 0) (ef := h.extraFields.toNat) hn
  obtain ⟨op1, o1, r1⟩ := hops n.text v _ (by rw [henv]; exact s1)
  obtain ⟨op2, o2, r2⟩ := hops n.opposite.text (F64.negate v) _ (by rw [henv]; exact s2)
  refine ⟨v, _, hv, (main_two b env hname _ _ _).trans (apply_two b env 0 _ _ op1 op2 (fun p => put (F64.add (get p) v) p)
    (fun p => put (F64.add (get p) (F64.negate v)) p) h prs hu tl o1 o2 r1 r2), by simp, fun i p q hp hq => ?_⟩
  rw [List.getElem?_map, hp, Option.map_some, Option.some.injEq] at hq
  subst hq
  refine ⟨sameExcept_trans (hsame _ _) (hsame _ _), fun x y hx hy => ?_⟩
  rw [hget, Option.some.injEq] at hx hy
  have ex := bits_inj hx
  have ey := bits_inj hy
  rw [hput, hput] at ey
  subst ex ey
  refine ⟨fun hb hq => ?_, fun k m hk0 hk hx hm hval => ?_⟩
  · have := F64.add_back_near hb (F64.nearest_below hq hv)
    exact this.2
  · have hm' : m.natAbs < 2 ^ 52 := by
      rw [Int.abs_eq_natAbs] at hm
      exact_mod_cast hm
    rw [hval] at hv
    obtain ⟨f, e⟩ := F64.nearest_grid hk0 hk (by omega) hv
    have hg : OnGrid k 52 v := ⟨f, m, hm, e⟩
    have h1 := (F64.add_back_fv hk0 hk hx hg).2.2
    refine ⟨by unfold F64.val; rw [h1], fun hz => ?_⟩
    rw [F64.add_back hk0 hk hx hg, if_neg hz]

/-- Powers of two are doubles. -/
theorem two_pow_double {i : ℤ} (h0 : -1022 ≤ i) (h1 : i ≤ 1022) : ∃ x : F64, x.isFinite = true ∧ x.val = (2 : ℝ) ^ i := by
  by_cases h : i ≤ 970
  · obtain ⟨x, hx, e⟩ := F64.exists_grid (k := i) (m := 1) (by omega) h (by norm_num)
    exact ⟨x, hx, by rw [e, Int.cast_one, one_mul]⟩
  · obtain ⟨d, hd⟩ := Int.eq_ofNat_of_zero_le (show 0 ≤ i - 970 by omega)
    have hd' : d < 53 := by omega
    obtain ⟨x, hx, e⟩ := F64.exists_grid (k := 970) (m := 2 ^ d) (by norm_num) le_rfl (by
      rw [Int.natAbs_pow]
      exact Nat.pow_lt_pow_right (by norm_num) hd')
    refine ⟨x, hx, ?_⟩
    rw [e, Int.cast_pow, Int.cast_ofNat, ← zpow_natCast, ← zpow_add₀ (by norm_num : (2 : ℝ) ≠ 0)]
    congr 1
    omega

theorem le_maxVal {x : F64} (hx : x.isFinite = true) : x.val ≤ F64.maxVal.val := by
  have h1 : x.mag ≤ F64.maxVal.mag := by
    have := F64.isFinite_iff.mp hx
    have e : F64.infMag = F64.maxVal.mag + 1 := by decide
    omega
  have h2 := F64.fixMag_le_iff.mpr h1
  have h3 : x.fv ≤ F64.maxVal.fv := by
    have e1 : F64.maxVal.fv = (F64.fixMag F64.maxVal.mag : ℤ) := by
      unfold F64.fv
      rw [show F64.maxVal.neg = false from by decide]
      rfl
    rw [e1]
    have e2 : x.fv ≤ (x.fv.natAbs : ℤ) := Int.le_natAbs
    rw [F64.fv_natAbs] at e2
    exact e2.trans (by exact_mod_cast h2)
  unfold F64.val
  rw [div_le_div_iff_of_pos_right F64.one1074_pos']
  exact_mod_cast h3

/-- **C101**, scalings (partial: for powers of two, see `c101_scale_rounded`, and within the range of the doubles).  Scaling by a power of
two and then by its inverse restores every coordinate bit by bit, as long as no bits are lost on the way. -/
theorem c101_scale_partial (b : Build) (env : Env) (henv : env.stod = Text.stod) (h : Header) (prs : List PointRecord)
    (hu : Uncompressed h prs) (tl : Bytes) {name : String} {fld : Field} (hn : (name, fld) ∈ scalings) (n1 n2 : Numeral) (hok1 : n1.Ok)
    (hok2 : n2.Ok) (j : ℤ) (hj0 : -1022 ≤ j) (hj : j ≤ 1022) (hv1 : n1.value = (2 : ℝ) ^ j) (hv2 : n2.value = (2 : ℝ) ^ (-j)) :
    ∃ qs, Transform.main b env [(name, n1.text), (name, n2.text)] { rest := image h prs ++ tl } = ⟨image h qs, .ok ()⟩
      ∧ qs.length = prs.length
      ∧ ∀ (i : Nat) (p q : PointRecord), prs[i]? = some p → qs[i]? = some q → SameExcept [fld] p q
          ∧ ∀ x y : F64, fld.get p = some x.bits.toNat → fld.get q = some y.bits.toNat →
              ∀ k : ℤ, -1074 ≤ k → k ≤ 970 → -1074 ≤ k + j → k + j ≤ 970 → OnGrid k 53 x → y = x := by
  have range : ∀ (n : Numeral) (i : ℤ), -1022 ≤ i → i ≤ 1022 → n.value = (2 : ℝ) ^ i → NumeralInRange n := by
    intro n i h0 h1 e
    have hp : (0 : ℝ) < (2 : ℝ) ^ i := zpow_pos (by norm_num) _
    right
    rw [e, abs_of_pos hp]
    refine ⟨?_, ?_⟩
    · rw [one_div, ← zpow_natCast, ← zpow_neg]
      exact zpow_le_zpow_right₀ (by norm_num) h0
    · obtain ⟨x, hx, ex⟩ := two_pow_double h0 h1
      rw [← ex]
      exact le_maxVal hx
  obtain ⟨v, s1, hv⟩ := stod_numeral hok1 (range n1 j hj0 hj hv1)
  obtain ⟨w, s2, hw⟩ := stod_numeral hok2 (range n2 (-j) (by omega) (by omega) hv2)
  have hname : name ∈ commandOptions := by
    simp only [scalings, List.mem_cons, List.not_mem_nil, or_false, Prod.mk.injEq] at hn
    rcases hn with ⟨rfl, _⟩ | ⟨rfl, _⟩ | ⟨rfl, _⟩ <;> decide
  obtain ⟨put, get, hget, hput, hsame, hops⟩ := scaling_ops (b := b) (env := env) (seed := 0) (ef := h.extraFields.toNat) hn
  obtain ⟨op1, o1, r1⟩ := hops n1.text v _ (by rw [henv]; exact s1)
  obtain ⟨op2, o2, r2⟩ := hops n2.text w _ (by rw [henv]; exact s2)
  refine ⟨_, (main_two b env hname _ _ _).trans (apply_two b env 0 _ _ op1 op2 (fun p => put (F64.mul (get p) v) p)
    (fun p => put (F64.mul (get p) w) p) h prs hu tl o1 o2 r1 r2), by simp, fun i p q hp hq => ?_⟩
  rw [List.getElem?_map, hp, Option.map_some, Option.some.injEq] at hq
  subst hq
  refine ⟨sameExcept_trans (hsame _ _) (hsame _ _), fun x y hx hy => ?_⟩
  rw [hget, Option.some.injEq] at hx hy
  have ex := bits_inj hx
  have ey := bits_inj hy
  rw [hput, hput] at ey
  subst ex ey
  intro k hk0 hk hs0 hs hx
  have near : ∀ {u : F64} {i : ℤ}, -1022 ≤ i → i ≤ 1022 → Nearest u ((2 : ℝ) ^ i) → u.isFinite = true ∧ u.val = (2 : ℝ) ^ i := by
    intro u i h0 h1 hu
    obtain ⟨x, hx, ex⟩ := two_pow_double h0 h1
    have h2 := hu.2 x (F64.not_nan_of_finite hx)
    rw [ex, sub_self, abs_zero] at h2
    have h3 : u.val = (2 : ℝ) ^ i := sub_eq_zero.mp (abs_nonpos_iff.mp h2)
    exact ⟨F64.finite_of_val_le hx (by rw [h3, ex]), h3⟩
  rw [hv1] at hv
  rw [hv2] at hw
  obtain ⟨f1, e1⟩ := near hj0 hj hv
  obtain ⟨f2, e2⟩ := near (by omega) (by omega) hw
  exact F64.mul_back hk0 hk hs0 hs hj0 hj hx f1 f2 e1 e2

/-- Two commands for x, with the numbers as they are read. -/
theorem add_twice (b : Build) (env : Env) (henv : env.stod = Text.stod) (h : Header) (prs : List PointRecord) (hu : Uncompressed h prs)
    (s t : Str) {v w : F64} {k l : Nat} (hs : Text.stod s = some (v, k)) (ht : Text.stod t = some (w, l)) :
    Transform.main b env [("add-x", s), ("add-x", t)] { rest := image h prs }
      = ⟨image h (prs.map (fun p => { p with x := F64.add (F64.add p.x v) w })), .ok ()⟩ := by
  have key := apply_two b env 0 ⟨"add-x", s⟩ ⟨"add-x", t⟩ (addXOp v) (addXOp w) (fun p => { p with x := F64.add p.x v })
    (fun p => { p with x := F64.add p.x w }) h prs hu []
    (by simp only [parseCommand, if_true, consumeDouble, henv, hs]; rfl)
    (by simp only [parseCommand, if_true, consumeDouble, henv, ht]; rfl) (fun _ _ => rfl) (fun _ _ => rfl)
  rw [List.append_nil] at key
  exact (main_two b env (by decide) _ _ _).trans key

theorem scale_twice (b : Build) (env : Env) (henv : env.stod = Text.stod) (h : Header) (prs : List PointRecord) (hu : Uncompressed h prs)
    (s t : Str) {v w : F64} {k l : Nat} (hs : Text.stod s = some (v, k)) (ht : Text.stod t = some (w, l)) :
    Transform.main b env [("scale-x", s), ("scale-x", t)] { rest := image h prs }
      = ⟨image h (prs.map (fun p => { p with x := F64.mul (F64.mul p.x v) w })), .ok ()⟩ := by
  have key := apply_two b env 0 ⟨"scale-x", s⟩ ⟨"scale-x", t⟩ (scaleXOp v) (scaleXOp w) (fun p => { p with x := F64.mul p.x v })
    (fun p => { p with x := F64.mul p.x w }) h prs hu []
    (by simp only [parseCommand, String.reduceEq, if_false, if_true, consumeDouble, henv, hs]; rfl)
    (by simp only [parseCommand, String.reduceEq, if_false, if_true, consumeDouble, henv, ht]; rfl) (fun _ _ => rfl) (fun _ _ => rfl)
  rw [List.append_nil] at key
  exact (main_two b env (by decide) _ _ _).trans key

/-- 10^300 as it is read. -/
def tenTo300 : F64 := ⟨0x7E37E43C8800759C⟩

/-- **C101, negation**: far away the coordinates are lost.  Every coordinate that is 1 comes back as 0. -/
theorem c101_lost (b : Build) (env : Env) (henv : env.stod = Text.stod) (h : Header) (prs : List PointRecord) (hu : Uncompressed h prs)
    (hx : ∀ p ∈ prs, p.x = F64.one) :
    Transform.main b env [("add-x", "1e300".toList), ("add-x", "-1e300".toList)] { rest := image h prs }
      = ⟨image h (prs.map (fun p => { p with x := F64.zero })), .ok ()⟩ := by
  rw [add_twice b env henv h prs hu _ _ (v := tenTo300) (w := F64.negate tenTo300) (k := 5) (l := 6) (by decide +kernel) (by decide +kernel)]
  congr 2
  apply List.map_congr_left
  intro p hp
  rw [hx p hp, show F64.add (F64.add F64.one tenTo300) (F64.negate tenTo300) = F64.zero from by decide +kernel]

/-- One tenth. -/
def tenth : F64 := ⟨0x3FB999999999999A⟩

/-- **C101, negation**: with usual numbers the coordinates change a little.  0.1 moved by a million and back is 0.09999999997671694. -/
theorem c101_rounded (b : Build) (env : Env) (henv : env.stod = Text.stod) (h : Header) (prs : List PointRecord) (hu : Uncompressed h prs)
    (hx : ∀ p ∈ prs, p.x = tenth) :
    Transform.main b env [("add-x", "1000000".toList), ("add-x", "-1000000".toList)] { rest := image h prs }
        = ⟨image h (prs.map (fun p => { p with x := ⟨0x3FB9999999800000⟩ })), .ok ()⟩
      ∧ (⟨0x3FB9999999800000⟩ : F64).val < tenth.val := by
  constructor
  · rw [add_twice b env henv h prs hu _ _ (v := num 1000000) (w := num (-1000000)) (k := 7) (l := 8) (by decide +kernel) (by decide +kernel)]
    congr 2
    apply List.map_congr_left
    intro p hp
    rw [hx p hp, show F64.add (F64.add tenth (num 1000000)) (num (-1000000)) = ⟨0x3FB9999999800000⟩ from by decide +kernel]
  · have : (⟨0x3FB9999999800000⟩ : F64).fv < tenth.fv := by decide +kernel
    unfold F64.val
    rw [div_lt_div_iff_of_pos_right F64.one1074_pos']
    exact_mod_cast this

/-- **C101, negation**: a negative zero comes back as zero, even if nothing is added. -/
theorem c101_negative_zero (b : Build) (env : Env) (henv : env.stod = Text.stod) (h : Header) (prs : List PointRecord)
    (hu : Uncompressed h prs) (hx : ∀ p ∈ prs, p.x = F64.negZero) :
    Transform.main b env [("add-x", "0".toList), ("add-x", "-0".toList)] { rest := image h prs }
      = ⟨image h (prs.map (fun p => { p with x := F64.zero })), .ok ()⟩ := by
  rw [add_twice b env henv h prs hu _ _ (v := F64.zero) (w := F64.negZero) (k := 1) (l := 2) (by decide +kernel) (by decide +kernel)]
  congr 2
  apply List.map_congr_left
  intro p hp
  rw [hx p hp, show F64.add (F64.add F64.negZero F64.zero) F64.negZero = F64.zero from by decide +kernel]

/-- **C101, negation**: scaling by 0.1 and then by 10 makes 3.0000000000000004 of 3. -/
theorem c101_scale_rounded (b : Build) (env : Env) (henv : env.stod = Text.stod) (h : Header) (prs : List PointRecord)
    (hu : Uncompressed h prs) (hx : ∀ p ∈ prs, p.x = num 3) :
    Transform.main b env [("scale-x", "0.1".toList), ("scale-x", "10".toList)] { rest := image h prs }
        = ⟨image h (prs.map (fun p => { p with x := ⟨0x4008000000000001⟩ })), .ok ()⟩
      ∧ (num 3).val < (⟨0x4008000000000001⟩ : F64).val := by
  constructor
  · rw [scale_twice b env henv h prs hu _ _ (v := tenth) (w := num 10) (k := 3) (l := 2) (by decide +kernel) (by decide +kernel)]
    congr 2
    apply List.map_congr_left
    intro p hp
    rw [hx p hp, show F64.mul (F64.mul (num 3) tenth) (num 10) = ⟨0x4008000000000001⟩ from by decide +kernel]
  · have : (num 3).fv < (⟨0x4008000000000001⟩ : F64).fv := by decide +kernel
    unfold F64.val
    rw [div_lt_div_iff_of_pos_right F64.one1074_pos']
    exact_mod_cast this

/-- 1234.5. -/
def n1234 : Numeral := { ip := "1234".toList, fp := some "5".toList }

theorem n1234_ok : n1234.Ok :=
  ⟨Or.inl rfl, by decide, by decide, by decide, fun e s d h => by simp [n1234] at h⟩

theorem n1234_value : n1234.value = 2469 * (2 : ℝ) ^ (-1 : ℤ) := by
  have h1 : n1234.mantissa = 12345 := by decide
  have h2 : n1234.exponent = -1 := by decide
  have h3 : n1234.negative = false := by decide
  unfold Numeral.value
  rw [h1, h2, h3]
  norm_num

theorem one_grid : OnGrid (-1) 52 F64.one := by
  refine ⟨by decide, 2, by norm_num, ?_⟩
  unfold F64.val
  rw [F64.one_fv]
  have := F64.one1074_pos'
  rw [Int.cast_natCast, div_self this.ne']
  norm_num

/-- The premises can be met: a cloud with coordinates 0 and 1, moved by 1234.5 and back. -/
example : Uncompressed exampleHeader exampleRecords ∧ n1234.Ok ∧ NumeralInRange n1234 ∧ |n1234.value| ≤ 2 ^ 1000
    ∧ OnGrid (-1) 52 F64.one ∧ n1234.value = ((2469 : ℤ) : ℝ) * (2 : ℝ) ^ (-1 : ℤ) ∧ |(2469 : ℤ)| < 2 ^ 52
    ∧ n1234.text = "1234.5".toList ∧ n1234.opposite.text = "-1234.5".toList := by
  have hv := n1234_value
  have hb : |n1234.value| ≤ 2 ^ 12 := by rw [hv]; norm_num [abs_of_pos]
  refine ⟨example_uncompressed, n1234_ok, Or.inr ⟨?_, ?_⟩, hb.trans (pow_le_pow_right₀ (by norm_num) (by norm_num)), one_grid, ?_, by norm_num,
    by decide, by decide⟩
  · have h1 : (1 : ℝ) / 2 ^ 1022 ≤ 1 := by
      rw [div_le_one (pow_pos (by norm_num) _)]
      exact one_le_pow₀ (by norm_num)
    refine h1.trans ?_
    rw [hv]; norm_num [abs_of_pos]
  · obtain ⟨x, hx, e⟩ := two_pow_double (i := 12) (by norm_num) (by norm_num)
    refine hb.trans ?_
    have := le_maxVal hx
    rw [e] at this
    exact_mod_cast this
  · rw [hv]; norm_num

/-- The premises for scaling can be met: by 0.5 and by 2. -/
example : ∃ n1 n2 : Numeral, n1.Ok ∧ n2.Ok ∧ n1.text = "0.5".toList ∧ n2.text = "2".toList ∧ n1.value = (2 : ℝ) ^ (-1 : ℤ)
    ∧ n2.value = (2 : ℝ) ^ (-(-1) : ℤ) := by
  refine ⟨{ ip := "0".toList, fp := some "5".toList }, { ip := "2".toList },
    ⟨Or.inl rfl, by decide, by decide, by decide, fun e s d h => by simp at h⟩,
    ⟨Or.inl rfl, by decide, by decide, by decide, fun e s d h => by simp at h⟩, by decide, by decide, ?_, ?_⟩
  · unfold Numeral.value
    rw [show Numeral.mantissa { ip := "0".toList, fp := some "5".toList } = 5 from by decide,
      show Numeral.exponent { ip := "0".toList, fp := some "5".toList } = -1 from by decide,
      show Numeral.negative { ip := "0".toList, fp := some "5".toList } = false from by decide]
    norm_num
  · unfold Numeral.value
    rw [show Numeral.mantissa { ip := "2".toList } = 2 from by decide, show Numeral.exponent { ip := "2".toList } = 0 from by decide,
      show Numeral.negative { ip := "2".toList } = false from by decide]
    norm_num

end Spoc.Props
