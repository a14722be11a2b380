import Verif.Spec.Commute
import Verif.Props.Transform
import Verif.Props.Tool

/-!
# Operations that look at some fields and change some fields
-/

namespace Spoc.Transform

open Spec Props AppUtils Text

/-- The operation looks at the fields `R` (and at the number of extra fields) and changes the fields `W` only. -/
structure Local (R W : List Field) (op : Op) : Prop where
  frame : ∀ n p q, op n p = .ok q → SameExcept W p q
  same : ∀ n p q p', op n p = .ok q → p'.extra.length = p.extra.length → (∀ f ∈ R, f.get p' = f.get p) →
    ∃ q', op n p' = .ok q' ∧ ∀ f ∈ W, f.get q' = f.get q

/-- Operations that spare each other commute. -/
theorem local_commute {R1 W1 R2 W2 : List Field} {op1 op2 : Op} (h1 : Local R1 W1 op1) (h2 : Local R2 W2 op2)
    (d12 : ∀ f ∈ W1, f ∉ W2) (d1 : ∀ f ∈ W1, f ∉ R2) (d2 : ∀ f ∈ W2, f ∉ R1) {n : Nat} {p m q : PointRecord}
    (hm : op1 n p = .ok m) (hq : op2 n m = .ok q) : ∃ m', op2 n p = .ok m' ∧ op1 n m' = .ok q := by
  have f1 := h1.frame n p m hm
  have f2 := h2.frame n m q hq
  obtain ⟨m', hm', e2⟩ := h2.same n m q p hq f1.1.symm (fun f hf => (f1.2 f (fun h => d1 f h hf)).symm)
  have f2' := h2.frame n p m' hm'
  obtain ⟨q', hq', e1⟩ := h1.same n p m m' hm f2'.1 (fun f hf => f2'.2 f (fun h => d2 f h hf))
  have f1' := h1.frame n m' q' hq'
  refine ⟨m', hm', ?_⟩
  have : q' = q := by
    apply eq_of_get
    intro f
    by_cases hf1 : f ∈ W1
    · rw [e1 f hf1, f2.2 f (d12 f hf1)]
    · rw [f1'.2 f hf1]
      by_cases hf2 : f ∈ W2
      · exact e2 f hf2
      · rw [f2'.2 f hf2, f2.2 f hf2, f1.2 f hf1]
  rw [← this]
  exact hq'

theorem get_x {p q : PointRecord} (h : Field.x.get p = Field.x.get q) : p.x = q.x := bits_inj (Option.some.inj h)
theorem get_y {p q : PointRecord} (h : Field.y.get p = Field.y.get q) : p.y = q.y := bits_inj (Option.some.inj h)
theorem get_z {p q : PointRecord} (h : Field.z.get p = Field.z.get q) : p.z = q.z := bits_inj (Option.some.inj h)

/-- An operation that always succeeds. -/
theorem local_total {W : List Field} {op : Op} (k : Nat → PointRecord → PointRecord) (hop : ∀ n p, op n p = .ok (k n p))
    (hf : ∀ n p, SameExcept W p (k n p))
    (hs : ∀ n p p', (∀ f ∈ W, f.get p' = f.get p) → ∀ f ∈ W, f.get (k n p') = f.get (k n p)) : Local W W op where
  frame n p q h := by rw [hop, Res.ok.injEq] at h; rw [← h]; exact hf n p
  same n p q p' h _ hR := by
    rw [hop, Res.ok.injEq] at h
    exact ⟨_, hop n p', by rw [← h]; exact hs n p p' hR⟩

theorem local_addX (v : F64) : Local [.x] [.x] (addXOp v) :=
  local_total (fun _ p => { p with x := F64.add p.x v }) (fun _ _ => rfl)
    (fun _ _ => same_xyz _ _ _ _ _ (by simp) (by simp) (by simp)) (fun _ p p' h f hf => by
      have hx := get_x (h .x (by simp))
      rw [List.mem_singleton] at hf; subst hf; simp only [Field.get, hx])
theorem local_addY (v : F64) : Local [.y] [.y] (addYOp v) :=
  local_total (fun _ p => { p with y := F64.add p.y v }) (fun _ _ => rfl)
    (fun _ _ => same_xyz _ _ _ _ _ (by simp) (by simp) (by simp)) (fun _ p p' h f hf => by
      have hx := get_y (h .y (by simp))
      rw [List.mem_singleton] at hf; subst hf; simp only [Field.get, hx])
theorem local_addZ (v : F64) : Local [.z] [.z] (addZOp v) :=
  local_total (fun _ p => { p with z := F64.add p.z v }) (fun _ _ => rfl)
    (fun _ _ => same_xyz _ _ _ _ _ (by simp) (by simp) (by simp)) (fun _ p p' h f hf => by
      have hx := get_z (h .z (by simp))
      rw [List.mem_singleton] at hf; subst hf; simp only [Field.get, hx])
theorem local_scaleX (v : F64) : Local [.x] [.x] (scaleXOp v) :=
  local_total (fun _ p => { p with x := F64.mul p.x v }) (fun _ _ => rfl)
    (fun _ _ => same_xyz _ _ _ _ _ (by simp) (by simp) (by simp)) (fun _ p p' h f hf => by
      have hx := get_x (h .x (by simp))
      rw [List.mem_singleton] at hf; subst hf; simp only [Field.get, hx])
theorem local_scaleY (v : F64) : Local [.y] [.y] (scaleYOp v) :=
  local_total (fun _ p => { p with y := F64.mul p.y v }) (fun _ _ => rfl)
    (fun _ _ => same_xyz _ _ _ _ _ (by simp) (by simp) (by simp)) (fun _ p p' h f hf => by
      have hx := get_y (h .y (by simp))
      rw [List.mem_singleton] at hf; subst hf; simp only [Field.get, hx])
theorem local_scaleZ (v : F64) : Local [.z] [.z] (scaleZOp v) :=
  local_total (fun _ p => { p with z := F64.mul p.z v }) (fun _ _ => rfl)
    (fun _ _ => same_xyz _ _ _ _ _ (by simp) (by simp) (by simp)) (fun _ p p' h f hf => by
      have hx := get_z (h .z (by simp))
      rw [List.mem_singleton] at hf; subst hf; simp only [Field.get, hx])

theorem local_rotateX (t : Trig) (v : F64) : Local [.y, .z] [.y, .z] (rotateXOp t v) :=
  local_total _ (fun _ _ => rfl) (fun _ _ => same_xyz _ _ _ _ _ (by simp) (by simp) (by simp)) (fun _ p p' h f hf => by
    have h1 := get_y (h .y (by simp))
    have h2 := get_z (h .z (by simp))
    simp only [List.mem_cons, List.not_mem_nil, or_false] at hf
    rcases hf with rfl | rfl <;> simp only [Field.get, h1, h2])
theorem local_rotateY (t : Trig) (v : F64) : Local [.x, .z] [.x, .z] (rotateYOp t v) :=
  local_total _ (fun _ _ => rfl) (fun _ _ => same_xyz _ _ _ _ _ (by simp) (by simp) (by simp)) (fun _ p p' h f hf => by
    have h1 := get_x (h .x (by simp))
    have h2 := get_z (h .z (by simp))
    simp only [List.mem_cons, List.not_mem_nil, or_false] at hf
    rcases hf with rfl | rfl <;> simp only [Field.get, h1, h2])
theorem local_rotateZ (t : Trig) (v : F64) : Local [.x, .y] [.x, .y] (rotateZOp t v) :=
  local_total _ (fun _ _ => rfl) (fun _ _ => same_xyz _ _ _ _ _ (by simp) (by simp) (by simp)) (fun _ p p' h f hf => by
    have h1 := get_x (h .x (by simp))
    have h2 := get_y (h .y (by simp))
    simp only [List.mem_cons, List.not_mem_nil, or_false] at hf
    rcases hf with rfl | rfl <;> simp only [Field.get, h1, h2])

/-- Adding noise. -/
theorem local_noise {W : List Field} (sx sy sz : F64) (d : Nat → Pt F64) (hx : .x ∈ W ∨ sx = F64.zero)
    (hy : .y ∈ W ∨ sy = F64.zero) (hz : .z ∈ W ∨ sz = F64.zero) (hW : ∀ f ∈ W, f = .x ∨ f = .y ∨ f = .z) :
    Local W W (fun n p => .ok (addNoise sx sy sz (d n) p)) :=
  local_total (fun n p => addNoise sx sy sz (d n) p) (fun _ _ => rfl)
    (fun _ _ => addNoise_same _ _ _ _ _ _ hx hy hz) (fun n p p' h f hf => by
      rcases hW f hf with rfl | rfl | rfl
      · have := get_x (h _ hf); simp only [Field.get, addNoise, this]
      · have := get_y (h _ hf); simp only [Field.get, addNoise, this]
      · have := get_z (h _ hf); simp only [Field.get, addNoise, this])

theorem local_quantize (v : F64) : Local [.x, .y, .z] [.x, .y, .z] (quantizeOp v) where
  frame n p q hq := by
    simp only [quantizeOp] at hq
    rw [Res.bind_eq_ok] at hq
    obtain ⟨x, _, hq⟩ := hq
    rw [Res.bind_eq_ok] at hq
    obtain ⟨y, _, hq⟩ := hq
    rw [Res.bind_eq_ok] at hq
    obtain ⟨z, _, hq⟩ := hq
    simp only [Res.ok.injEq] at hq
    rw [← hq]
    exact same_xyz _ _ _ _ _ (by simp) (by simp) (by simp)
  same n p q p' hq _ hR := by
    have h1 := get_x (hR .x (by simp))
    have h2 := get_y (hR .y (by simp))
    have h3 := get_z (hR .z (by simp))
    simp only [quantizeOp] at hq ⊢
    rw [Res.bind_eq_ok] at hq
    obtain ⟨x, hx, hq⟩ := hq
    rw [Res.bind_eq_ok] at hq
    obtain ⟨y, hy, hq⟩ := hq
    rw [Res.bind_eq_ok] at hq
    obtain ⟨z, hz, hq⟩ := hq
    simp only [Res.ok.injEq] at hq
    rw [h1, h2, h3, hx, hy, hz]
    refine ⟨_, rfl, fun f hf => ?_⟩
    rw [← hq]
    simp only [List.mem_cons, List.not_mem_nil, or_false] at hf
    rcases hf with rfl | rfl | rfl <;> rfl

theorem copyDst_defined {t : Str} {f : Field} (h : Selects t f) (hf : f.isCoord = false) (ef src : Nat) {p p' q : PointRecord}
    (hl : p'.extra.length = p.extra.length) (hq : copyDst t (extraIndex t ef) src p = .ok q) :
    ∃ q', copyDst t (extraIndex t ef) src p' = .ok q' := by
  cases h with
  | x => simp [Field.isCoord] at hf
  | y => simp [Field.isCoord] at hf
  | z => simp [Field.isCoord] at hf
  | e h1 h2 =>
    simp only [copyDst, h1, h2, hl] at hq ⊢
    split at hq
    · simp at hq
    · rename_i hn
      exact ⟨_, if_neg hn⟩
  | _ => exact ⟨_, rfl⟩

theorem local_copy {t1 t2 : Str} {f1 f2 : Field} (h1 : Selects t1 f1) (h2 : Selects t2 f2) (ef : Nat) {op : Op}
    (hop : copyFieldOp t1 t2 ef = .ok op) : Local [f1] [f2] op := by
  simp only [copyFieldOp, isXYZ_iff h1, isXYZ_iff h2] at hop
  split at hop
  · simp at hop
  · split at hop
    · simp at hop
    · rename_i hc1 hc2
      rw [Bool.not_eq_true] at hc1 hc2
      simp only [Res.ok.injEq] at hop
      rw [← hop]
      constructor
      · intro n p q hq
        rw [Res.bind_eq_ok] at hq
        obtain ⟨src, _, hq⟩ := hq
        exact (copyDst_spec h2 hc2 ef src p q hq).1
      · intro n p q p' hq hl hR
        rw [Res.bind_eq_ok] at hq
        obtain ⟨src, hsrc, hq⟩ := hq
        have hsrc' := (copySrc_spec h1 hc1 ef p src).mp hsrc
        rw [← hR f1 (by simp)] at hsrc'
        rw [(copySrc_spec h1 hc1 ef p' src).mpr hsrc', Res.ok_bind]
        obtain ⟨q', hq'⟩ := copyDst_defined h2 hc2 ef src hl hq
        refine ⟨q', hq', fun f hf => ?_⟩
        rw [List.mem_singleton] at hf
        subst hf
        rw [(copyDst_spec h2 hc2 ef src p q hq).2, (copyDst_spec h2 hc2 ef src p' q' hq').2]

theorem replaceBody_some {t : Str} {f : Field} (h : Selects t f) (hf : f.isCoord = false) (ef : Nat)
    {v1 v2 : UInt32} {p q : PointRecord} (hq : replaceBody t v1 v2 (extraIndex t ef) p = .ok q) : (f.get p).isSome := by
  cases h with
  | e h1 h2 =>
    simp only [replaceBody, h1, h2] at hq
    split at hq
    · simp at hq
    · rename_i v hv
      simp [Field.get, hv]
  | _ => rfl

theorem local_replace {t : Str} {f : Field} (h : Selects t f) (v1 v2 : UInt32) (ef : Nat) {op : Op}
    (hop : replaceOp t v1 v2 ef = .ok op) : Local [f] [f] op := by
  simp only [replaceOp, isXYZ_iff h] at hop
  split at hop
  · simp at hop
  · rename_i hc
    rw [Bool.not_eq_true] at hc
    simp only [Res.ok.injEq] at hop
    rw [← hop]
    constructor
    · intro n p q hq
      exact (replaceBody_spec h hc ef v1 v2 p q hq).1
    · intro n p q p' hq hl hR
      have hg := hR f (by simp)
      obtain ⟨q', hq'⟩ := replaceBody_defined h hc ef v1 v2 p' (by rw [hg]; exact replaceBody_some h hc ef hq)
      refine ⟨q', hq', fun f' hf => ?_⟩
      rw [List.mem_singleton] at hf
      subst hf
      have s1 := replaceBody_spec h hc ef v1 v2 p q hq
      have s2 := replaceBody_spec h hc ef v1 v2 p' q' hq'
      by_cases he : f'.get p = some v1.toNat
      · rw [s1.2.1 he, s2.2.1 (by rw [hg]; exact he)]
      · rw [s1.2.2 he, s2.2.2 (by rw [hg]; exact he), hg]

theorem local_set {t : Str} {f : Field} (h : Selects t f) (v : F64) (ef : Nat) : Local [] [f] (setOp t v ef) := by
  constructor
  · intro n p q hq
    exact setOp_spec h ef n v p q hq
  · intro n p q p' hq hl _
    cases h with
    | e h1 h2 =>
      simp only [setOp, h1, h2, hl] at hq ⊢
      split at hq
      · simp at hq
      · rename_i hn
        rw [if_neg hn]
        rw [Res.bind_eq_ok] at hq
        obtain ⟨w, hw, hq⟩ := hq
        rw [hw, Res.ok_bind]
        refine ⟨_, rfl, fun f hf => ?_⟩
        simp only [Res.ok.injEq] at hq
        rw [List.mem_singleton] at hf
        subst hf
        rw [← hq, get_set_extra (by omega), get_set_extra (by omega)]
    | x | y | z =>
      simp only [setOp, label, List.headD_cons, Res.ok.injEq] at hq ⊢
      refine ⟨_, rfl, fun f hf => ?_⟩
      rw [List.mem_singleton] at hf
      subst hf
      rw [← hq]; rfl
    | _ =>
      simp only [setOp, label, List.headD_cons] at hq ⊢
      rw [Res.bind_eq_ok] at hq
      obtain ⟨w, hw, hq⟩ := hq
      rw [hw, Res.ok_bind]
      refine ⟨_, rfl, fun f hf => ?_⟩
      simp only [Res.ok.injEq] at hq
      rw [List.mem_singleton] at hf
      subst hf
      rw [← hq]; rfl

theorem local_replaceNot {t : Str} {f : Field} (h : Selects t f) (hf : f ∉ wrongFields) (ef : Nat) (vs : List UInt32) {op : Op}
    (hop : replaceNotOp t vs ef = .ok op) : Local [f] [f] op := by
  constructor
  · intro n p q hq
    exact (replaceNot_spec h hf ef vs op hop n p q hq).2.1
  · intro n p q p' hq hl hR
    have hg := hR f (by simp)
    obtain ⟨hc, -, w, hw, -⟩ := replaceNot_spec h hf ef vs op hop n p q hq
    unfold replaceNotOp at hop
    rw [isXYZ_iff h, hc] at hop
    simp only [Bool.false_eq_true, if_false] at hop
    split at hop
    · simp at hop
    simp only [Res.ok.injEq] at hop
    rw [← hop] at hq ⊢
    simp only [replaceNotLoop_spec h hc ef p vs.dropLast w hw, Res.ok_bind] at hq
    simp only [replaceNotLoop_spec h hc ef p' vs.dropLast w (by rw [hg]; exact hw), Res.ok_bind]
    split at hq
    · rename_i hd
      rw [if_pos hd]
      cases h with
      | e h1 h2 =>
        simp only [replaceNotAssign, h1, h2, hl] at hq ⊢
        split at hq
        · rename_i hlt
          rw [if_pos hlt]
          simp only [Res.ok.injEq] at hq
          refine ⟨_, rfl, fun f hf => ?_⟩
          rw [List.mem_singleton] at hf
          subst hf
          rw [← hq, get_set_extra (by omega), get_set_extra (by omega)]
        · simp at hq
      | c =>
        simp only [replaceNotAssign, label, List.headD_cons, Res.ok.injEq] at hq ⊢
        refine ⟨_, rfl, fun f hf => ?_⟩
        rw [List.mem_singleton] at hf
        subst hf
        rw [← hq]; rfl
      | x => simp [Field.isCoord] at hc
      | y => simp [Field.isCoord] at hc
      | z => simp [Field.isCoord] at hc
      | _ => simp [wrongFields] at hf
    · rename_i hd
      rw [if_neg hd]
      simp only [Res.ok.injEq] at hq
      refine ⟨_, rfl, fun f hf => ?_⟩
      rw [List.mem_singleton] at hf
      subst hf
      rw [← hq, hg]

set_option linter.unusedSimpArgs false in
/-- Every command is local. -/
theorem local_command (b : Build) (env : Env) (seed ef : Nat) (c : Command) (op : Op)
    (hop : parseCommand b env seed ef c = .ok op)
    (hwrong : c.name = "replace-not" → ∀ f ∈ wrongFields, ¬ Named c.name c.params [f]) :
    ∃ R W, Uses c.name c.params R ∧ Named c.name c.params W ∧ Local R W op := by
  unfold parseCommand at hop
  extract_lets num z0 at hop
  have hnum : ∀ k op, num k = .ok op → ∃ v, op = k v := fun k op h => num_ok h
  have hz0 : z0 = F64.zero := rfl
  have geo : ∀ fs, (c.name, fs) ∈ geometric → Local fs fs op →
      ∃ R W, Uses c.name c.params R ∧ Named c.name c.params W ∧ Local R W op :=
    fun fs h1 h2 => ⟨fs, fs, .number h1, .number h1, h2⟩
  clear_value num z0
  by_cases hn : c.name = "add-x"
  · rw [if_pos hn] at hop
    obtain ⟨v, rfl⟩ := hnum _ _ hop
    exact geo [.x] (by rw [hn]; simp [geometric]) (local_addX v)
  rw [if_neg hn] at hop
  by_cases hn : c.name = "add-y"
  · rw [if_pos hn] at hop
    obtain ⟨v, rfl⟩ := hnum _ _ hop
    exact geo [.y] (by rw [hn]; simp [geometric]) (local_addY v)
  rw [if_neg hn] at hop
  by_cases hn : c.name = "add-z"
  · rw [if_pos hn] at hop
    obtain ⟨v, rfl⟩ := hnum _ _ hop
    exact geo [.z] (by rw [hn]; simp [geometric]) (local_addZ v)
  rw [if_neg hn] at hop
  by_cases hn : c.name = "copy-field"
  · rw [if_pos hn] at hop
    rw [Res.bind_eq_ok] at hop
    obtain ⟨⟨t1, r1⟩, h1, hop⟩ := hop
    simp only at hop
    rw [Res.bind_eq_ok] at hop
    obtain ⟨⟨t2, r2⟩, h2, hop⟩ := hop
    obtain ⟨rest1, f1, ht1, hr1, hd1, hs1⟩ := consumeFieldName_ok h1
    obtain ⟨rest2, f2, ht2, _, hd2, hs2⟩ := consumeFieldName_ok h2
    rw [hr1] at ht2
    exact ⟨[f1], [f2], .first (by rw [hn]; simp) ht1 hd1, by rw [hn]; exact .second ht1 ht2 hd2, local_copy hs1 hs2 ef hop⟩
  rw [if_neg hn] at hop
  by_cases hn : c.name = "gaussian-noise"
  · rw [if_pos hn] at hop
    obtain ⟨v, rfl⟩ := hnum _ _ hop
    exact geo [.x, .y, .z] (by rw [hn]; simp [geometric]) (local_noise _ _ _ _ (by simp [hz0]) (by simp [hz0]) (by simp [hz0]) (by simp))
  rw [if_neg hn] at hop
  by_cases hn : c.name = "gaussian-noise-x"
  · rw [if_pos hn] at hop
    obtain ⟨v, rfl⟩ := hnum _ _ hop
    exact geo [.x] (by rw [hn]; simp [geometric]) (local_noise _ _ _ _ (by simp [hz0]) (by simp [hz0]) (by simp [hz0]) (by simp))
  rw [if_neg hn] at hop
  by_cases hn : c.name = "gaussian-noise-y"
  · rw [if_pos hn] at hop
    obtain ⟨v, rfl⟩ := hnum _ _ hop
    exact geo [.y] (by rw [hn]; simp [geometric]) (local_noise _ _ _ _ (by simp [hz0]) (by simp [hz0]) (by simp [hz0]) (by simp))
  rw [if_neg hn] at hop
  by_cases hn : c.name = "gaussian-noise-z"
  · rw [if_pos hn] at hop
    obtain ⟨v, rfl⟩ := hnum _ _ hop
    exact geo [.z] (by rw [hn]; simp [geometric]) (local_noise _ _ _ _ (by simp [hz0]) (by simp [hz0]) (by simp [hz0]) (by simp))
  rw [if_neg hn] at hop
  by_cases hn : c.name = "quantize-xyz"
  · rw [if_pos hn] at hop
    obtain ⟨v, rfl⟩ := hnum _ _ hop
    exact geo [.x, .y, .z] (by rw [hn]; simp [geometric]) (local_quantize v)
  rw [if_neg hn] at hop
  by_cases hn : c.name = "replace"
  · rw [if_pos hn] at hop
    rw [Res.bind_eq_ok] at hop
    obtain ⟨⟨t1, r1⟩, h1, hop⟩ := hop
    simp only at hop
    rw [Res.bind_eq_ok] at hop
    obtain ⟨⟨v1, r2⟩, _, hop⟩ := hop
    simp only at hop
    rw [Res.bind_eq_ok] at hop
    obtain ⟨⟨v2, r3⟩, _, hop⟩ := hop
    obtain ⟨rest1, f1, ht1, hr1, hd1, hs1⟩ := consumeFieldName_ok h1
    exact ⟨[f1], [f1], .first (by rw [hn]; simp) ht1 hd1, .first (by rw [hn]; simp) ht1 hd1, local_replace hs1 v1 v2 ef hop⟩
  rw [if_neg hn] at hop
  by_cases hn : c.name = "replace-not"
  · rw [if_pos hn] at hop
    rw [Res.bind_eq_ok] at hop
    obtain ⟨⟨t1, r1⟩, h1, hop⟩ := hop
    simp only at hop
    rw [Res.bind_eq_ok] at hop
    obtain ⟨⟨vs, r2⟩, _, hop⟩ := hop
    obtain ⟨rest1, f1, ht1, hr1, hd1, hs1⟩ := consumeFieldName_ok h1
    have hnm : Named c.name c.params [f1] := .first (by rw [hn]; simp) ht1 hd1
    exact ⟨[f1], [f1], .first (by rw [hn]; simp) ht1 hd1, hnm,
      local_replaceNot hs1 (fun hw => hwrong hn f1 hw hnm) ef vs hop⟩
  rw [if_neg hn] at hop
  by_cases hn : c.name = "rotate-x"
  · rw [if_pos hn] at hop
    obtain ⟨v, rfl⟩ := hnum _ _ hop
    exact geo [.y, .z] (by rw [hn]; simp [geometric]) (local_rotateX _ v)
  rw [if_neg hn] at hop
  by_cases hn : c.name = "rotate-y"
  · rw [if_pos hn] at hop
    obtain ⟨v, rfl⟩ := hnum _ _ hop
    exact geo [.x, .z] (by rw [hn]; simp [geometric]) (local_rotateY _ v)
  rw [if_neg hn] at hop
  by_cases hn : c.name = "rotate-z"
  · rw [if_pos hn] at hop
    obtain ⟨v, rfl⟩ := hnum _ _ hop
    exact geo [.x, .y] (by rw [hn]; simp [geometric]) (local_rotateZ _ v)
  rw [if_neg hn] at hop
  by_cases hn : c.name = "scale-x"
  · rw [if_pos hn] at hop
    obtain ⟨v, rfl⟩ := hnum _ _ hop
    exact geo [.x] (by rw [hn]; simp [geometric]) (local_scaleX v)
  rw [if_neg hn] at hop
  by_cases hn : c.name = "scale-y"
  · rw [if_pos hn] at hop
    obtain ⟨v, rfl⟩ := hnum _ _ hop
    exact geo [.y] (by rw [hn]; simp [geometric]) (local_scaleY v)
  rw [if_neg hn] at hop
  by_cases hn : c.name = "scale-z"
  · rw [if_pos hn] at hop
    obtain ⟨v, rfl⟩ := hnum _ _ hop
    exact geo [.z] (by rw [hn]; simp [geometric]) (local_scaleZ v)
  rw [if_neg hn] at hop
  by_cases hn : c.name = "set"
  · rw [if_pos hn] at hop
    rw [Res.bind_eq_ok] at hop
    obtain ⟨⟨t1, r1⟩, h1, hop⟩ := hop
    simp only at hop
    rw [Res.bind_eq_ok] at hop
    obtain ⟨⟨v, r2⟩, _, hop⟩ := hop
    obtain ⟨rest1, f1, ht1, hr1, hd1, hs1⟩ := consumeFieldName_ok h1
    simp only [Res.ok.injEq] at hop
    rw [← hop]
    exact ⟨[], [f1], by rw [hn]; exact .set, .first (by rw [hn]; simp) ht1 hd1, local_set hs1 v ef⟩
  rw [if_neg hn] at hop
  by_cases hn : c.name = "uniform-noise"
  · rw [if_pos hn] at hop
    obtain ⟨v, rfl⟩ := hnum _ _ hop
    exact geo [.x, .y, .z] (by rw [hn]; simp [geometric]) (local_noise _ _ _ _ (by simp [hz0]) (by simp [hz0]) (by simp [hz0]) (by simp))
  rw [if_neg hn] at hop
  by_cases hn : c.name = "uniform-noise-x"
  · rw [if_pos hn] at hop
    obtain ⟨v, rfl⟩ := hnum _ _ hop
    exact geo [.x] (by rw [hn]; simp [geometric]) (local_noise _ _ _ _ (by simp [hz0]) (by simp [hz0]) (by simp [hz0]) (by simp))
  rw [if_neg hn] at hop
  by_cases hn : c.name = "uniform-noise-y"
  · rw [if_pos hn] at hop
    obtain ⟨v, rfl⟩ := hnum _ _ hop
    exact geo [.y] (by rw [hn]; simp [geometric]) (local_noise _ _ _ _ (by simp [hz0]) (by simp [hz0]) (by simp [hz0]) (by simp))
  rw [if_neg hn] at hop
  by_cases hn : c.name = "uniform-noise-z"
  · rw [if_pos hn] at hop
    obtain ⟨v, rfl⟩ := hnum _ _ hop
    exact geo [.z] (by rw [hn]; simp [geometric]) (local_noise _ _ _ _ (by simp [hz0]) (by simp [hz0]) (by simp [hz0]) (by simp))
  rw [if_neg hn] at hop
  simp at hop

/-- replace-not for the fields that it does not change. -/
theorem local_replaceNot_wrong {t : Str} {f : Field} (h : Selects t f) (hf : f ∈ misdirected) (ef : Nat) (vs : List UInt32) {op : Op}
    (hop : replaceNotOp t vs ef = .ok op) : Local [f, .c] [.c] op := by
  have hco : f.isCoord = false := by
    simp only [misdirected, List.mem_cons, List.not_mem_nil, or_false] at hf
    rcases hf with rfl | rfl | rfl | rfl | rfl <;> rfl
  have hget : ∀ p : PointRecord, ∃ w, f.get p = some w := by
    intro p
    simp only [misdirected, List.mem_cons, List.not_mem_nil, or_false] at hf
    rcases hf with rfl | rfl | rfl | rfl | rfl <;> exact ⟨_, rfl⟩
  have hassign : ∀ j r, ∃ v, ∀ p, replaceNotAssign t j r p = .ok { p with c := v } := by
    intro j r
    refine ⟨UInt32.ofInt r, fun p => ?_⟩
    simp only [misdirected, List.mem_cons, List.not_mem_nil, or_false] at hf
    rcases hf with rfl | rfl | rfl | rfl | rfl <;> (cases h; rfl)
  choose v hassign using hassign
  unfold replaceNotOp at hop
  rw [isXYZ_iff h, hco] at hop
  simp only [Bool.false_eq_true, if_false] at hop
  split at hop
  · simp at hop
  simp only [Res.ok.injEq] at hop
  subst hop
  constructor
  · intro n p q hq
    obtain ⟨w, hw⟩ := hget p
    simp only [replaceNotLoop_spec h hco ef p vs.dropLast w hw, Res.ok_bind, hassign] at hq
    split at hq
    · simp only [Res.ok.injEq] at hq
      subst hq
      refine ⟨rfl, fun k hk => ?_⟩
      by_cases hkc : k = .c
      · exact absurd (List.mem_singleton.mpr hkc) hk
      · cases k <;> first | exact absurd rfl hkc | rfl
    · simp only [Res.ok.injEq] at hq
      subst hq
      exact ⟨rfl, fun _ _ => rfl⟩
  · intro n p q p' hq hl hR
    obtain ⟨w, hw⟩ := hget p
    have hg := hR f (by simp)
    have hcl := hR .c (by simp)
    simp only [replaceNotLoop_spec h hco ef p vs.dropLast w hw, Res.ok_bind, hassign] at hq
    simp only [replaceNotLoop_spec h hco ef p' vs.dropLast w (by rw [hg]; exact hw), Res.ok_bind, hassign]
    split at hq
    · rename_i hd
      rw [if_pos hd]
      simp only [Res.ok.injEq] at hq
      refine ⟨_, rfl, fun k hk => ?_⟩
      rw [List.mem_singleton] at hk
      subst hk
      rw [← hq]; rfl
    · rename_i hd
      rw [if_neg hd]
      simp only [Res.ok.injEq] at hq
      refine ⟨_, rfl, fun k hk => ?_⟩
      rw [List.mem_singleton] at hk
      subst hk
      rw [← hq, hcl]

/-- Commands other than replace-not change what they name. -/
theorem changes_named {name : String} {params : Str} {fs : List Field} (hn : name ≠ "replace-not") (h : Changes name params fs) :
    Named name params fs := by
  cases h with
  | named h _ => exact h
  | replaceNot => exact absurd rfl hn

/-- Every command is local, in terms of the fields that it changes in fact. -/
theorem local_changes (b : Build) (env : Env) (seed ef : Nat) (c : Command) (op : Op) (hop : parseCommand b env seed ef c = .ok op) :
    ∃ R W, DependsOn c.name c.params R ∧ Changes c.name c.params W ∧ Local R W op := by
  by_cases hn : c.name = "replace-not"
  · have hop' := hop
    simp only [parseCommand, hn, String.reduceEq, if_false, if_true] at hop'
    rw [Res.bind_eq_ok] at hop'
    obtain ⟨⟨t1, r1⟩, h1, hop'⟩ := hop'
    simp only at hop'
    rw [Res.bind_eq_ok] at hop'
    obtain ⟨⟨vs, r2⟩, _, hop'⟩ := hop'
    obtain ⟨rest1, f1, ht1, hr1, hd1, hs1⟩ := consumeFieldName_ok h1
    have hnm : Named "replace-not" c.params [f1] := .first (by simp) ht1 hd1
    by_cases hm : f1 ∈ misdirected
    · rw [hn]
      exact ⟨[f1, .c], [.c], .replaceNot hnm hm, .replaceNot hnm hm, local_replaceNot_wrong hs1 hm ef vs hop'⟩
    · rw [hn]
      have hne : ∀ f ∈ misdirected, [f1] ≠ [f] := by
        intro f hf e
        simp only [List.cons.injEq, and_true] at e
        exact hm (e ▸ hf)
      exact ⟨[f1], [f1], .uses (.first (by simp) ht1 hd1) (fun _ => hne), .named hnm (fun _ => hne), local_replaceNot hs1 hm ef vs hop'⟩
  · obtain ⟨R, W, u, w, l⟩ := local_command b env seed ef c op hop (fun h => absurd h hn)
    exact ⟨R, W, .uses u (fun h => absurd h hn), .named w (fun h => absurd h hn), l⟩


/-- Swapping two operations that commute in a list of operations. -/
theorem applyOps_swap {o1 o2 : Op} (hc : ∀ n p m q, o1 n p = .ok m → o2 n m = .ok q → ∃ m', o2 n p = .ok m' ∧ o1 n m' = .ok q)
    (before after : List Op) (n : Nat) (p q : PointRecord) (h : applyOps n (before ++ o1 :: o2 :: after) p = .ok q) :
    applyOps n (before ++ o2 :: o1 :: after) p = .ok q := by
  induction before generalizing p with
  | nil =>
    simp only [List.nil_append, applyOps, Res.bind_eq_ok] at h ⊢
    obtain ⟨m, hm, k, hk, h⟩ := h
    obtain ⟨m', h1, h2⟩ := hc n p m k hm hk
    exact ⟨m', h1, k, h2, h⟩
  | cons o os ih =>
    simp only [List.cons_append, applyOps, Res.bind_eq_ok] at h ⊢
    obtain ⟨m, hm, h⟩ := h
    exact ⟨m, hm, ih m h⟩

/-- The field that a word denotes. -/
def meaning : Str → Field
  | 'e' :: r => .e (Nat.ofDigitChars 10 (r.takeWhile Text.isDigit) 0)
  | ['x'] => .x
  | ['y'] => .y
  | ['z'] => .z
  | ['p'] => .p
  | ['i'] => .i
  | ['r'] => .r
  | ['g'] => .g
  | ['b'] => .b
  | _ => .c

theorem denotes_meaning {t : Str} {f : Field} (h : Denotes t f) : f = meaning t := by
  rcases h with rfl | ⟨ds, more, rfl, rfl, _, hd, hm⟩
  · cases f with
    | e n =>
      simp only [Field.name, meaning]
      have h : (Nat.toDigits 10 n).takeWhile Text.isDigit = Nat.toDigits 10 n :=
        List.takeWhile_eq_self_iff.mpr (fun c hc => showNat_digits n c hc)
      rw [h, Nat.ofDigitChars_ten_toDigits]
    | _ => rfl
  · simp only [meaning]
    rw [takeWhile_append_stop (fun c hc => (digit_iff c).mpr (hd c hc)) (fun c hc => by
      rw [← Bool.not_eq_true, digit_iff]; exact hm c hc)]

/-- The fields that a command with a field name names. -/
theorem named_first {name : String} {params : Str} {fs : List Field} (hn : name ∈ ["set", "replace", "replace-not"])
    (h : Named name params fs) : fs = [meaning (params.takeWhile isAlnum)] := by
  cases h with
  | number hg =>
    exfalso
    simp only [List.mem_cons, List.not_mem_nil, or_false] at hn
    simp only [geometric, List.mem_cons, List.not_mem_nil, or_false, Prod.mk.injEq] at hg
    rcases hn with rfl | rfl | rfl <;> simp at hg
  | first _ ht hd => rw [denotes_meaning hd, (token_unique ht).1]
  | second => simp at hn

theorem named_copy {params : Str} {fs : List Field} (h : Named "copy-field" params fs) :
    fs = [meaning (((params.dropWhile isAlnum).drop 1).takeWhile isAlnum)] := by
  generalize hn : "copy-field" = name at h
  cases h with
  | number hg => subst hn; simp [geometric] at hg
  | first hn' _ _ => subst hn; simp at hn'
  | second ht ht' hd => rw [denotes_meaning hd, (token_unique ht').1, (token_unique ht).2]

theorem uses_first {name : String} {params : Str} {fs : List Field} (hn : name ∈ ["replace", "replace-not", "copy-field"])
    (h : Uses name params fs) : fs = [meaning (params.takeWhile isAlnum)] := by
  cases h with
  | number hg =>
    exfalso
    simp only [List.mem_cons, List.not_mem_nil, or_false] at hn
    simp only [geometric, List.mem_cons, List.not_mem_nil, or_false, Prod.mk.injEq] at hg
    rcases hn with rfl | rfl | rfl <;> simp at hg
  | set => simp at hn
  | first _ ht hd => rw [denotes_meaning hd, (token_unique ht).1]

theorem uses_set {params : Str} {fs : List Field} (h : Uses "set" params fs) : fs = [] := by
  generalize hn : "set" = name at h
  cases h with
  | number hg => subst hn; simp [geometric] at hg
  | set => rfl
  | first hn' _ _ => subst hn; simp at hn'

theorem geometric_unique {name : String} {fs gs : List Field} (h1 : (name, fs) ∈ geometric) (h2 : (name, gs) ∈ geometric) :
    fs = gs := by
  simp only [geometric, List.mem_cons, List.not_mem_nil, or_false, Prod.mk.injEq] at h1
  rcases h1 with h1 | h1 | h1 | h1 | h1 | h1 | h1 | h1 | h1 | h1 | h1 | h1 | h1 | h1 | h1 | h1 | h1 | h1 <;>
    (obtain ⟨rfl, rfl⟩ := h1; simp [geometric] at h2; exact h2.symm)

theorem geometric_names {name : String} {fs : List Field} (h : (name, fs) ∈ geometric) :
    name ∉ ["set", "replace", "replace-not", "copy-field"] := by
  simp only [geometric, List.mem_cons, List.not_mem_nil, or_false, Prod.mk.injEq] at h
  rcases h with h | h | h | h | h | h | h | h | h | h | h | h | h | h | h | h | h | h <;> (rw [h.1]; decide)

theorem named_geometric {name : String} {params : Str} {fs gs : List Field} (hg : (name, gs) ∈ geometric)
    (h : Named name params fs) : fs = gs := by
  have hn := geometric_names hg
  cases h with
  | number h => exact geometric_unique h hg
  | first h => simp only [List.mem_cons, List.not_mem_nil, or_false] at h hn; tauto
  | second => simp at hn

theorem uses_geometric {name : String} {params : Str} {fs gs : List Field} (hg : (name, gs) ∈ geometric)
    (h : Uses name params fs) : fs = gs := by
  have hn := geometric_names hg
  cases h with
  | number h => exact geometric_unique h hg
  | first h => simp only [List.mem_cons, List.not_mem_nil, or_false] at h hn; tauto
  | set => simp at hn

end Spoc.Transform
