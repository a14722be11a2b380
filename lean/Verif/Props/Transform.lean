import Verif.Proofs.Transform
import Verif.Proofs.ResList

/-!
# Properties of the transform application (C31 - C36)
-/

set_option linter.unusedSimpArgs false

namespace Spoc.Props

open Spoc Spec Text AppUtils Transform

/-! ## C31 -/

theorem num_ok {stod : Stod} {s : Str} {k : F64 → Op} {op : Op}
    (h : (do let (v, _) ← consumeDouble stod s; Res.ok (k v)) = .ok op) : ∃ v, op = k v := by
  rw [Res.bind_eq_ok] at h
  obtain ⟨⟨v, r⟩, _, h⟩ := h
  simp only [Res.ok.injEq] at h
  exact ⟨v, h.symm⟩

theorem addNoise_same (fs : List Field) (sx sy sz : F64) (d : Pt F64) (p : PointRecord)
    (hx : .x ∈ fs ∨ sx = F64.zero) (hy : .y ∈ fs ∨ sy = F64.zero) (hz : .z ∈ fs ∨ sz = F64.zero) :
    SameExcept fs p (addNoise sx sy sz d p) := by
  have h0 : F64.fne F64.zero F64.zero = false := by decide
  apply same_xyz
  · rcases hx with h | h
    · exact Or.inl h
    · right; rw [h, h0]; rfl
  · rcases hy with h | h
    · exact Or.inl h
    · right; rw [h, h0]; rfl
  · rcases hz with h | h
    · exact Or.inl h
    · right; rw [h, h0]; rfl

/-- The fields for which the replace-not command is implemented wrongly. -/
def wrongFields : List Field := [.p, .i, .r, .g, .b]

theorem setOp_spec {t : Str} {f : Field} (h : Selects t f) (ef n : Nat) (v : F64) (p q : PointRecord)
    (hq : setOp t v ef n p = .ok q) : SameExcept [f] p q := by
  cases h with
  | e h1 h2 =>
    simp only [setOp, h1, h2] at hq
    split at hq
    · simp at hq
    · rw [Res.bind_eq_ok] at hq
      obtain ⟨k, _, hq⟩ := hq
      simp only [Res.ok.injEq] at hq
      rw [← hq]
      exact same_extra _ _ _
  | x => simp only [setOp, label, List.headD_cons, Res.ok.injEq] at hq; rw [← hq]; apply same_plain <;> simp
  | y => simp only [setOp, label, List.headD_cons, Res.ok.injEq] at hq; rw [← hq]; apply same_plain <;> simp
  | z => simp only [setOp, label, List.headD_cons, Res.ok.injEq] at hq; rw [← hq]; apply same_plain <;> simp
  | _ =>
    simp only [setOp, label, List.headD_cons] at hq
    rw [Res.bind_eq_ok] at hq
    obtain ⟨k, _, hq⟩ := hq
    simp only [Res.ok.injEq] at hq
    rw [← hq]
    apply same_plain <;> simp

/-- What replace-not does, as far as it is implemented correctly. -/
theorem replaceNot_spec {t : Str} {f : Field} (h : Selects t f) (hf : f ∉ wrongFields) (ef : Nat)
    (vs : List UInt32) (op : Op) (hop : replaceNotOp t vs ef = .ok op) (n : Nat) (p q : PointRecord)
    (hq : op n p = .ok q) :
    f.isCoord = false ∧ SameExcept [f] p q ∧ ∃ w, f.get p = some w ∧
      (w ∈ vs.dropLast.map UInt32.toNat → q = p) ∧
      (w ∉ vs.dropLast.map UInt32.toNat → (vs.getLastD 0).toNat < 2 ^ 31 →
        f.get q = some (vs.getLastD 0).toNat) := by
  unfold replaceNotOp at hop
  rw [isXYZ_iff h] at hop
  split at hop
  · simp at hop
  · rename_i hc
    split at hop
    · simp at hop
    · rename_i hlen
      have hc' : f.isCoord = false := by simpa using hc
      simp only [Res.ok.injEq] at hop
      rw [← hop] at hq
      simp only at hq
      rw [Res.bind_eq_ok] at hq
      obtain ⟨r, hr, hq⟩ := hq
      obtain ⟨v, vs', hvs⟩ : ∃ v vs', vs.dropLast = v :: vs' := by
        cases hd : vs.dropLast with
        | nil =>
          have := congrArg List.length hd
          rw [List.length_dropLast, List.length_nil] at this
          omega
        | cons a l => exact ⟨a, l, rfl⟩
      rw [hvs] at hr ⊢
      obtain ⟨w, hw, hrw⟩ := replaceNotLoop_ok h hc' ef p v vs' r hr
      refine ⟨hc', ?_⟩
      have hlast : ∀ u : UInt32, u.toNat < 2 ^ 31 → toInt u = u.toNat := by
        intro u hu
        unfold toInt Int.bmod
        simp only
        rw [if_pos (by omega)]
        omega
      by_cases hmem : w ∈ (v :: vs').map UInt32.toNat
      · have hrf : r = false := by rw [hrw, decide_eq_false_iff_not, not_not]; exact hmem
        rw [hrf] at hq
        simp only [Bool.false_eq_true, if_false, Res.ok.injEq] at hq
        rw [← hq]
        exact ⟨same_refl _ _, w, hw, fun _ => rfl, fun h' => absurd hmem h'⟩
      · have hrf : r = true := by rw [hrw, decide_eq_true_eq]; exact hmem
        rw [hrf] at hq
        simp only [if_true] at hq
        cases h with
        | x => simp [Field.isCoord] at hc'
        | y => simp [Field.isCoord] at hc'
        | z => simp [Field.isCoord] at hc'
        | p => simp [wrongFields] at hf
        | i => simp [wrongFields] at hf
        | r => simp [wrongFields] at hf
        | g => simp [wrongFields] at hf
        | b => simp [wrongFields] at hf
        | c =>
          simp only [replaceNotAssign, label, List.headD_cons, Res.ok.injEq] at hq
          rw [← hq]
          refine ⟨by apply same_plain <;> simp, w, hw, fun h' => absurd h' hmem, fun _ hl => ?_⟩
          simp only [Field.get, Option.some.injEq]
          rw [hlast _ hl]
          simp only [UInt32.ofInt, UInt32.toNat_ofNat']
          omega
        | e h1 h2 =>
          simp only [replaceNotAssign, h1, h2] at hq
          split at hq
          · rename_i hlt
            simp only [Res.ok.injEq] at hq
            rw [← hq]
            refine ⟨same_extra _ _ _, w, hw, fun h' => absurd h' hmem, fun _ hl => ?_⟩
            rw [get_set_extra hlt, hlast _ hl]
            simp only [UInt64.ofInt, UInt64.toNat_ofNat']
            congr 1
            omega
          · simp at hq

theorem ofInt_toInt (u : UInt32) : UInt32.ofInt (toInt u) = u := by
  apply UInt32.toNat_inj.mp
  have h := u.toNat_lt
  unfold toInt UInt32.ofInt
  rw [UInt32.toNat_ofNat', Int.bmod_def]
  split <;> omega

/-- What replace-not does to the other fields, as implemented. -/
theorem replaceNot_wrong {t : Str} {f : Field} (h : Selects t f) (hf : f ∈ wrongFields) (ef : Nat)
    (vs : List UInt32) (op : Op) (hop : replaceNotOp t vs ef = .ok op) (n : Nat) (p q : PointRecord)
    (hq : op n p = .ok q) :
    SameExcept [.c] p q ∧ ∃ w, f.get p = some w ∧
      (w ∈ vs.dropLast.map UInt32.toNat → q = p) ∧
      (w ∉ vs.dropLast.map UInt32.toNat → q = { p with c := vs.getLastD 0 }) := by
  have hc : f.isCoord = false := by
    simp only [wrongFields, List.mem_cons, List.not_mem_nil, or_false] at hf
    rcases hf with rfl | rfl | rfl | rfl | rfl <;> rfl
  unfold replaceNotOp at hop
  rw [isXYZ_iff h, hc] at hop
  simp only [Bool.false_eq_true, if_false] at hop
  split at hop
  · simp at hop
  · rename_i hlen
    simp only [Res.ok.injEq] at hop
    rw [← hop] at hq
    simp only at hq
    rw [Res.bind_eq_ok] at hq
    obtain ⟨r, hr, hq⟩ := hq
    obtain ⟨v, vs', hvs⟩ : ∃ v vs', vs.dropLast = v :: vs' := by
      cases hd : vs.dropLast with
      | nil =>
        have := congrArg List.length hd
        rw [List.length_dropLast, List.length_nil] at this
        omega
      | cons a l => exact ⟨a, l, rfl⟩
    rw [hvs] at hr ⊢
    obtain ⟨w, hw, hrw⟩ := replaceNotLoop_ok h hc ef p v vs' r hr
    by_cases hmem : w ∈ (v :: vs').map UInt32.toNat
    · have hrf : r = false := by rw [hrw, decide_eq_false_iff_not, not_not]; exact hmem
      rw [hrf] at hq
      simp only [Bool.false_eq_true, if_false, Res.ok.injEq] at hq
      rw [← hq]
      exact ⟨same_refl _ _, w, hw, fun _ => rfl, fun h' => absurd hmem h'⟩
    · have hrf : r = true := by rw [hrw, decide_eq_true_eq]; exact hmem
      rw [hrf] at hq
      simp only [if_true] at hq
      have hback := ofInt_toInt (vs.getLastD 0)
      have hq' : q = { p with c := vs.getLastD 0 } := by
        simp only [wrongFields, List.mem_cons, List.not_mem_nil, or_false] at hf
        rcases hf with rfl | rfl | rfl | rfl | rfl <;> cases h <;>
          simp only [replaceNotAssign, label, List.headD_cons, Res.ok.injEq, hback] at hq <;> exact hq.symm
      refine ⟨by rw [hq']; apply same_plain <;> simp, w, hw, fun h' => absurd h' hmem, fun _ => hq'⟩

/-- The effect of every command on the fields. -/
theorem command_frame (b : Build) (env : Env) (seed ef : Nat) (c : Command) (op : Op)
    (hop : parseCommand b env seed ef c = .ok op) (n : Nat) (p q : PointRecord) (hq : op n p = .ok q) :
    ∃ fs, Named c.name c.params fs ∧ (SameExcept fs p q ∨
      (c.name = "replace-not" ∧ ∃ f ∈ wrongFields, fs = [f] ∧ SameExcept [.c] p q)) := by
  suffices h : (∃ fs, Named c.name c.params fs ∧ SameExcept fs p q) ∨
      (c.name = "replace-not" ∧ ∃ f ∈ wrongFields, Named c.name c.params [f] ∧ SameExcept [.c] p q) by
    rcases h with ⟨fs, h1, h2⟩ | ⟨h1, f, hf, h2, h3⟩
    · exact ⟨fs, h1, Or.inl h2⟩
    · exact ⟨[f], h2, Or.inr ⟨h1, f, hf, rfl, h3⟩⟩
  by_cases hrn : c.name = "replace-not"
  · unfold parseCommand at hop
    rw [hrn] at hop ⊢
    simp only [String.reduceEq, if_false, if_true] at hop
    rw [Res.bind_eq_ok] at hop
    obtain ⟨⟨t1, r1⟩, h1, hop⟩ := hop
    simp only at hop
    rw [Res.bind_eq_ok] at hop
    obtain ⟨⟨vs, r2⟩, _, hop⟩ := hop
    obtain ⟨rest1, f1, ht1, hr1, hd1, hs1⟩ := consumeFieldName_ok h1
    have hnm : Named "replace-not" c.params [f1] := .first (by decide) ht1 hd1
    by_cases hnw : f1 ∈ wrongFields
    · exact Or.inr ⟨rfl, f1, hnw, hnm, (replaceNot_wrong hs1 hnw ef vs op hop n p q hq).1⟩
    · exact Or.inl ⟨[f1], hnm, (replaceNot_spec hs1 hnw ef vs op hop n p q hq).2.1⟩
  left
  unfold parseCommand at hop
  extract_lets num z0 at hop
  have hnum : ∀ k op, num k = .ok op → ∃ v, op = k v := fun k op h => num_ok h
  have hz0 : z0 = F64.zero := rfl
  clear_value num z0
  by_cases hn : c.name = "add-x"
  · rw [if_pos hn] at hop
    obtain ⟨v, rfl⟩ := hnum _ _ hop
    simp only [addXOp, Res.ok.injEq] at hq
    rw [← hq]
    exact ⟨[.x], .number (by rw [hn]; simp [geometric]), same_xyz _ _ _ _ _ (by simp) (by simp) (by simp)⟩
  rw [if_neg hn] at hop
  by_cases hn : c.name = "add-y"
  · rw [if_pos hn] at hop
    obtain ⟨v, rfl⟩ := hnum _ _ hop
    simp only [addYOp, Res.ok.injEq] at hq
    rw [← hq]
    exact ⟨[.y], .number (by rw [hn]; simp [geometric]), same_xyz _ _ _ _ _ (by simp) (by simp) (by simp)⟩
  rw [if_neg hn] at hop
  by_cases hn : c.name = "add-z"
  · rw [if_pos hn] at hop
    obtain ⟨v, rfl⟩ := hnum _ _ hop
    simp only [addZOp, Res.ok.injEq] at hq
    rw [← hq]
    exact ⟨[.z], .number (by rw [hn]; simp [geometric]), same_xyz _ _ _ _ _ (by simp) (by simp) (by simp)⟩
  rw [if_neg hn] at hop
  by_cases hn : c.name = "copy-field"
  · rw [if_pos hn] at hop
    rw [Res.bind_eq_ok] at hop
    obtain ⟨⟨t1, r1⟩, h1, hop⟩ := hop
    simp only at hop
    rw [Res.bind_eq_ok] at hop
    obtain ⟨⟨t2, r2⟩, h2, hop⟩ := hop
    obtain ⟨rest1, f1, ht1, hr1, _, hs1⟩ := consumeFieldName_ok h1
    obtain ⟨rest2, f2, ht2, _, hd2, hs2⟩ := consumeFieldName_ok h2
    rw [hr1] at ht2
    refine ⟨[f2], by rw [hn]; exact .second ht1 ht2 hd2, ?_⟩
    simp only [copyFieldOp, isXYZ_iff hs1, isXYZ_iff hs2] at hop
    split at hop
    · simp at hop
    · split at hop
      · simp at hop
      · rename_i hc2
        simp only [Res.ok.injEq] at hop
        rw [← hop] at hq
        simp only at hq
        rw [Res.bind_eq_ok] at hq
        obtain ⟨src, _, hq⟩ := hq
        exact (copyDst_spec hs2 (by simpa using hc2) ef src p q hq).1
  rw [if_neg hn] at hop
  by_cases hn : c.name = "gaussian-noise"
  · rw [if_pos hn] at hop
    obtain ⟨v, rfl⟩ := hnum _ _ hop
    simp only [gaussianOp, Res.ok.injEq] at hq
    rw [← hq]
    exact ⟨[.x, .y, .z], .number (by rw [hn]; simp [geometric]),
      addNoise_same _ _ _ _ _ _ (by simp [hz0]) (by simp [hz0]) (by simp [hz0])⟩
  rw [if_neg hn] at hop
  by_cases hn : c.name = "gaussian-noise-x"
  · rw [if_pos hn] at hop
    obtain ⟨v, rfl⟩ := hnum _ _ hop
    simp only [gaussianOp, Res.ok.injEq] at hq
    rw [← hq]
    exact ⟨[.x], .number (by rw [hn]; simp [geometric]),
      addNoise_same _ _ _ _ _ _ (by simp [hz0]) (by simp [hz0]) (by simp [hz0])⟩
  rw [if_neg hn] at hop
  by_cases hn : c.name = "gaussian-noise-y"
  · rw [if_pos hn] at hop
    obtain ⟨v, rfl⟩ := hnum _ _ hop
    simp only [gaussianOp, Res.ok.injEq] at hq
    rw [← hq]
    exact ⟨[.y], .number (by rw [hn]; simp [geometric]),
      addNoise_same _ _ _ _ _ _ (by simp [hz0]) (by simp [hz0]) (by simp [hz0])⟩
  rw [if_neg hn] at hop
  by_cases hn : c.name = "gaussian-noise-z"
  · rw [if_pos hn] at hop
    obtain ⟨v, rfl⟩ := hnum _ _ hop
    simp only [gaussianOp, Res.ok.injEq] at hq
    rw [← hq]
    exact ⟨[.z], .number (by rw [hn]; simp [geometric]),
      addNoise_same _ _ _ _ _ _ (by simp [hz0]) (by simp [hz0]) (by simp [hz0])⟩
  rw [if_neg hn] at hop
  by_cases hn : c.name = "quantize-xyz"
  · rw [if_pos hn] at hop
    obtain ⟨v, rfl⟩ := hnum _ _ hop
    simp only [quantizeOp] at hq
    rw [Res.bind_eq_ok] at hq
    obtain ⟨x, _, hq⟩ := hq
    rw [Res.bind_eq_ok] at hq
    obtain ⟨y, _, hq⟩ := hq
    rw [Res.bind_eq_ok] at hq
    obtain ⟨z, _, hq⟩ := hq
    simp only [Res.ok.injEq] at hq
    rw [← hq]
    exact ⟨[.x, .y, .z], .number (by rw [hn]; simp [geometric]),
      same_xyz _ _ _ _ _ (by simp) (by simp) (by simp)⟩
  rw [if_neg hn] at hop
  by_cases hn : c.name = "replace"
  · rw [if_pos hn] at hop
    rw [Res.bind_eq_ok] at hop
    obtain ⟨⟨t1, r1⟩, h1, hop⟩ := hop
    simp only at hop
    rw [Res.bind_eq_ok] at hop
    obtain ⟨⟨v1, r2⟩, _, hop⟩ := hop
    simp only at hop
    rw [Res.bind_eq_ok] at hop
    obtain ⟨⟨v2, r3⟩, _, hop⟩ := hop
    obtain ⟨rest1, f1, ht1, hr1, hd1, hs1⟩ := consumeFieldName_ok h1
    refine ⟨[f1], .first (by rw [hn]; simp) ht1 hd1, ?_⟩
    simp only [replaceOp, isXYZ_iff hs1] at hop
    split at hop
    · simp at hop
    · rename_i hc
      simp only [Res.ok.injEq] at hop
      rw [← hop] at hq
      exact (replaceBody_spec hs1 (by simpa using hc) ef v1 v2 p q hq).1
  rw [if_neg hn] at hop
  rw [if_neg hrn] at hop
  by_cases hn : c.name = "rotate-x"
  · rw [if_pos hn] at hop
    obtain ⟨v, rfl⟩ := hnum _ _ hop
    simp only [rotateXOp, Res.ok.injEq] at hq
    rw [← hq]
    exact ⟨[.y, .z], .number (by rw [hn]; simp [geometric]),
      same_xyz _ _ _ _ _ (by simp) (by simp) (by simp)⟩
  rw [if_neg hn] at hop
  by_cases hn : c.name = "rotate-y"
  · rw [if_pos hn] at hop
    obtain ⟨v, rfl⟩ := hnum _ _ hop
    simp only [rotateYOp, Res.ok.injEq] at hq
    rw [← hq]
    exact ⟨[.x, .z], .number (by rw [hn]; simp [geometric]),
      same_xyz _ _ _ _ _ (by simp) (by simp) (by simp)⟩
  rw [if_neg hn] at hop
  by_cases hn : c.name = "rotate-z"
  · rw [if_pos hn] at hop
    obtain ⟨v, rfl⟩ := hnum _ _ hop
    simp only [rotateZOp, Res.ok.injEq] at hq
    rw [← hq]
    exact ⟨[.x, .y], .number (by rw [hn]; simp [geometric]),
      same_xyz _ _ _ _ _ (by simp) (by simp) (by simp)⟩
  rw [if_neg hn] at hop
  by_cases hn : c.name = "scale-x"
  · rw [if_pos hn] at hop
    obtain ⟨v, rfl⟩ := hnum _ _ hop
    simp only [scaleXOp, Res.ok.injEq] at hq
    rw [← hq]
    exact ⟨[.x], .number (by rw [hn]; simp [geometric]), same_xyz _ _ _ _ _ (by simp) (by simp) (by simp)⟩
  rw [if_neg hn] at hop
  by_cases hn : c.name = "scale-y"
  · rw [if_pos hn] at hop
    obtain ⟨v, rfl⟩ := hnum _ _ hop
    simp only [scaleYOp, Res.ok.injEq] at hq
    rw [← hq]
    exact ⟨[.y], .number (by rw [hn]; simp [geometric]), same_xyz _ _ _ _ _ (by simp) (by simp) (by simp)⟩
  rw [if_neg hn] at hop
  by_cases hn : c.name = "scale-z"
  · rw [if_pos hn] at hop
    obtain ⟨v, rfl⟩ := hnum _ _ hop
    simp only [scaleZOp, Res.ok.injEq] at hq
    rw [← hq]
    exact ⟨[.z], .number (by rw [hn]; simp [geometric]), same_xyz _ _ _ _ _ (by simp) (by simp) (by simp)⟩
  rw [if_neg hn] at hop
  by_cases hn : c.name = "set"
  · rw [if_pos hn] at hop
    rw [Res.bind_eq_ok] at hop
    obtain ⟨⟨t1, r1⟩, h1, hop⟩ := hop
    simp only at hop
    rw [Res.bind_eq_ok] at hop
    obtain ⟨⟨v, r2⟩, _, hop⟩ := hop
    obtain ⟨rest1, f1, ht1, hr1, hd1, hs1⟩ := consumeFieldName_ok h1
    refine ⟨[f1], .first (by rw [hn]; simp) ht1 hd1, ?_⟩
    simp only [Res.ok.injEq] at hop
    rw [← hop] at hq
    exact setOp_spec hs1 ef n v p q hq
  rw [if_neg hn] at hop
  by_cases hn : c.name = "uniform-noise"
  · rw [if_pos hn] at hop
    obtain ⟨v, rfl⟩ := hnum _ _ hop
    simp only [uniformOp, Res.ok.injEq] at hq
    rw [← hq]
    exact ⟨[.x, .y, .z], .number (by rw [hn]; simp [geometric]),
      addNoise_same _ _ _ _ _ _ (by simp [hz0]) (by simp [hz0]) (by simp [hz0])⟩
  rw [if_neg hn] at hop
  by_cases hn : c.name = "uniform-noise-x"
  · rw [if_pos hn] at hop
    obtain ⟨v, rfl⟩ := hnum _ _ hop
    simp only [uniformOp, Res.ok.injEq] at hq
    rw [← hq]
    exact ⟨[.x], .number (by rw [hn]; simp [geometric]),
      addNoise_same _ _ _ _ _ _ (by simp [hz0]) (by simp [hz0]) (by simp [hz0])⟩
  rw [if_neg hn] at hop
  by_cases hn : c.name = "uniform-noise-y"
  · rw [if_pos hn] at hop
    obtain ⟨v, rfl⟩ := hnum _ _ hop
    simp only [uniformOp, Res.ok.injEq] at hq
    rw [← hq]
    exact ⟨[.y], .number (by rw [hn]; simp [geometric]),
      addNoise_same _ _ _ _ _ _ (by simp [hz0]) (by simp [hz0]) (by simp [hz0])⟩
  rw [if_neg hn] at hop
  by_cases hn : c.name = "uniform-noise-z"
  · rw [if_pos hn] at hop
    obtain ⟨v, rfl⟩ := hnum _ _ hop
    simp only [uniformOp, Res.ok.injEq] at hq
    rw [← hq]
    exact ⟨[.z], .number (by rw [hn]; simp [geometric]),
      addNoise_same _ _ _ _ _ _ (by simp [hz0]) (by simp [hz0]) (by simp [hz0])⟩
  rw [if_neg hn] at hop
  simp at hop

/-- **C31** (partial: except for replace-not on the fields p, i, r, g, b, see
`c31_replace_not_touches_class`).  Whatever the argument string is, if the command is accepted and can be
applied to the record, then it changes no other field than those it names, and keeps the number of extra
fields.  `n` is the number of the point (the noise depends on it). -/
theorem c31_touches_only_named_partial (b : Build) (env : Env) (seed ef : Nat) (c : Command) (op : Op)
    (hop : parseCommand b env seed ef c = .ok op) (n : Nat) (p q : PointRecord) (hq : op n p = .ok q)
    (hwrong : c.name = "replace-not" → ∀ f ∈ wrongFields, ¬ Named c.name c.params [f]) :
    ∃ fs, Named c.name c.params fs ∧ SameExcept fs p q := by
  obtain ⟨fs, h1, h2 | ⟨h2, f, hf, rfl, _⟩⟩ := command_frame b env seed ef c op hop n p q hq
  · exact ⟨fs, h1, h2⟩
  · exact absurd h1 (hwrong h2 f hf)

/-- Numbers are read as integers; no noise; rotation by nothing (for examples). -/
def exampleEnv : Env :=
  { trig := ⟨fun _ => F64.zero, fun _ => F64.one⟩
    noise := ⟨fun _ _ _ _ _ => ⟨F64.zero, F64.zero, F64.zero⟩, fun _ _ _ _ _ => ⟨F64.zero, F64.zero, F64.zero⟩⟩
    stod := fun s => (stoi s).map (fun r => (F64.ofInt r.1, r.2)) }

example : ∃ op, parseCommand .debug exampleEnv 0 2 ⟨"set", "e1,17".toList⟩ = .ok op ∧
    op 0 { c := 3, extra := [5, 6] } = .ok { c := 3, extra := [5, 17] } :=
  ⟨_, rfl, by decide +kernel⟩

/-- **C31, negation.**  `replace-not p,1,2` changes the class and not the point id. -/
theorem c31_replace_not_touches_class (b : Build) (env : Env) (seed ef : Nat) :
    ∃ op, parseCommand b env seed ef ⟨"replace-not", "p,1,2".toList⟩ = .ok op ∧
      Named "replace-not" "p,1,2".toList [.p] ∧
      op 0 { c := 5, p := 7 } = .ok { c := 2, p := 7 } := by
  have h : parseCommand b env seed ef ⟨"replace-not", "p,1,2".toList⟩ = replaceNotOp ['p'] [1, 2] ef := by
    cases b <;> rfl
  refine ⟨_, by rw [h]; rfl, .first (by decide) (token_takeWhile "p,1,2".toList) (Or.inl rfl), ?_⟩
  rw [replaceNotLoop_spec Selects.p rfl ef _ _ 7 rfl, Res.ok_bind, if_pos (by decide)]
  simp only [replaceNotAssign, label, List.headD_cons, ofInt_toInt]
  rfl

/-! ## C32 -/

theorem image_eq {h : Header} {prs : List PointRecord} (hu : Uncompressed h prs) :
    image h prs = h.bytes ++ prs.flatMap PointRecord.bytes := by
  have hs : h.checkSignature = true := (Header.checkSignature_iff h).mpr (by rw [hu.signature]; rfl)
  unfold image
  rw [Header.write_ok hs]
  simp only [PointRecord.write_eq]

theorem image_read {h : Header} {prs : List PointRecord} (hu : Uncompressed h prs) (tl : Bytes) :
    Header.read { rest := image h prs ++ tl } =
      .ok (h, { rest := prs.flatMap PointRecord.bytes ++ tl }) := by
  rw [image_eq hu, List.append_assoc]
  exact Header.read_bytes hu.signature hu.major hu.minor hu.wkt _

theorem ops_keep_extra {b : Build} {env : Env} {seed ef : Nat} {cs : List Command} {ops : List Op}
    (hops : cs.mapM (parseCommand b env seed ef) = .ok ops) {n : Nat} {p q : PointRecord}
    (hq : applyOps n ops p = .ok q) : q.extra.length = p.extra.length := by
  have h := mapM_eq_ok.mp hops
  induction h generalizing p with
  | nil => simp only [applyOps, Res.ok.injEq] at hq; rw [hq]
  | @cons c op cs ops hc _ ih =>
    simp only [applyOps] at hq
    rw [Res.bind_eq_ok] at hq
    obtain ⟨m, hm, hq⟩ := hq
    have h1 : m.extra.length = p.extra.length := by
      obtain ⟨fs, _, h2 | ⟨_, _, _, _, h2⟩⟩ := command_frame b env seed ef c op hc n p m hm
      · exact h2.1
      · exact h2.1
    rw [List.mapM_cons, Res.bind_eq_ok] at hops
    obtain ⟨_, _, hops⟩ := hops
    rw [Res.bind_eq_ok] at hops
    obtain ⟨r, hr, hops⟩ := hops
    simp only [Res.pure_def, Res.ok.injEq, List.cons.injEq] at hops
    rw [hops.2] at hr
    rw [← h1]
    exact ih hr hq

theorem applyAll_uncompressed {b : Build} {env : Env} {seed : Nat} {cs : List Command} {ops : List Op}
    {h : Header} {prs qs : List PointRecord} (hu : Uncompressed h prs)
    (hops : cs.mapM (parseCommand b env seed h.extraFields.toNat) = .ok ops)
    (hall : applyAll ops 0 prs = .ok qs) : Uncompressed h qs := by
  obtain ⟨hl, hi⟩ := (applyAll_ok ops 0 prs qs).mp hall
  refine ⟨hu.signature, hu.major, hu.minor, hu.wkt, hu.flag, fun q hq => ?_, by rw [hl]; exact hu.count⟩
  obtain ⟨i, hi1, hi2⟩ := List.getElem_of_mem hq
  have hlt : i < prs.length := by rw [← hl]; exact hi1
  obtain ⟨q', h1, h2⟩ := hi i prs[i] (List.getElem?_eq_getElem hlt)
  rw [List.getElem?_eq_getElem hi1, Option.some.injEq, hi2] at h1
  rw [← h1] at h2
  rw [ops_keep_extra hops h2]
  exact hu.extra _ (List.getElem_mem hlt)

/-- **C32.**  For every command list there is a function from point numbers and records to records (the
commands, applied one after the other) such that for every well-formed uncompressed file the
application, if it succeeds, writes the same header and, for each record in order, what that function makes
of it; the result is again a well-formed uncompressed file with as many points. -/
theorem c32_header_order_count (b : Build) (env : Env) (cs : List Command) (seed ef : Nat) :
    ∃ F : Nat → PointRecord → Res PointRecord,
      (∀ ops, cs.mapM (parseCommand b env seed ef) = .ok ops →
        ∀ n p, F n p = ops.foldlM (fun q op => op n q) p) ∧
      ∀ (h : Header) (prs : List PointRecord), Uncompressed h prs → h.extraFields.toNat = ef →
        ∀ (tl out : Bytes), Transform.apply b env { rest := image h prs ++ tl } cs seed = ⟨out, .ok ()⟩ →
          ∃ qs, out = image h qs ∧ Uncompressed h qs ∧ qs.length = prs.length ∧
            ∀ (i : Nat) (p : PointRecord), prs[i]? = some p → ∃ q, qs[i]? = some q ∧ F i p = .ok q := by
  refine ⟨fun n p => match cs.mapM (parseCommand b env seed ef) with
    | .ok ops => ops.foldlM (fun q op => op n q) p
    | _ => .hang, fun ops hops n p => by rw [hops], ?_⟩
  intro h prs hu hef tl out hout
  obtain ⟨_, h', s', ops, qs, hr, hc, hops, hall, rfl⟩ := (apply_ok _ _ _ _ _ _).mp hout
  rw [image_read hu tl] at hr
  simp only [Res.ok.injEq, Prod.mk.injEq] at hr
  obtain ⟨rfl, rfl⟩ := hr
  rw [← hu.count, readRecords_bytes _ _ hu.extra tl] at hall
  have hu' := applyAll_uncompressed hu hops hall
  obtain ⟨hl, hi⟩ := (applyAll_ok ops 0 prs qs).mp hall
  refine ⟨qs, (image_eq hu').symm, hu', hl, fun i p hp => ?_⟩
  obtain ⟨q, h1, h2⟩ := hi i p hp
  refine ⟨q, h1, ?_⟩
  rw [← hef, hops]
  simp only
  rw [← applyOps_eq_fold]
  rw [Nat.zero_add] at h2
  exact h2

/-- **C32**: without commands the output is the input, byte for byte; what follows the file in the stream is
not copied. -/
theorem c32_no_commands (b : Build) (env : Env) (seed : Nat) (h : Header) (prs : List PointRecord)
    (hu : Uncompressed h prs) (tl : Bytes) :
    Transform.apply b env { rest := image h prs ++ tl } [] seed = ⟨image h prs, .ok ()⟩ := by
  rw [apply_ok]
  refine ⟨fun _ => rfl, h, _, [], prs, image_read hu tl, hu.flag, rfl, ?_, image_eq hu⟩
  rw [← hu.count, readRecords_bytes _ _ hu.extra tl, applyAll_ok]
  exact ⟨rfl, fun i p hp => ⟨p, hp, rfl⟩⟩

/-- A header and records that satisfy the premises. -/
def exampleHeader : Header :=
  { signature := [0x53, 0x50, 0x4F, 0x43], major := 0, minor := 1, wkt := [0x57], extraFields := 1,
    totalPoints := 2, compressed := 0 }

/-- Two records. -/
def exampleRecords : List PointRecord := [{ c := 3, extra := [5] }, { x := F64.one, c := 4, extra := [6] }]

theorem example_uncompressed : Uncompressed exampleHeader exampleRecords :=
  ⟨rfl, rfl, rfl, by decide, rfl, by decide, rfl⟩

/-- The application succeeds on a concrete file with two commands, and the result is as expected. -/
example : Transform.apply .debug exampleEnv { rest := image exampleHeader exampleRecords }
    [⟨"replace", "c,3,7".toList⟩, ⟨"set", "e0,1".toList⟩] 0 =
    ⟨image exampleHeader [{ c := 7, extra := [1] }, { x := F64.one, c := 4, extra := [1] }], .ok ()⟩ := by
  decide +kernel

/-! ## C34 -/

/-- **C34.**  For every input stream, well-formed or not: one run with the commands `cs1 ++ cs2` produces
a result exactly if a run with `cs1` followed by a run with `cs2` on its output does, and the results
are the same. -/
theorem c34_compose (b : Build) (env : Env) (seed : Nat) (cs1 cs2 : List Command) (s : IStream) (out : Bytes) :
    Transform.apply b env s (cs1 ++ cs2) seed = ⟨out, .ok ()⟩ ↔
      ∃ mid, Transform.apply b env s cs1 seed = ⟨mid, .ok ()⟩ ∧
        Transform.apply b env { rest := mid } cs2 seed = ⟨out, .ok ()⟩ := by
  simp only [apply_ok]
  constructor
  · rintro ⟨hg, h, s', ops, qs, hr, hc, hops, hall, rfl⟩
    rw [List.mapM_append, Res.bind_eq_ok] at hops
    obtain ⟨o1, h1, hops⟩ := hops
    rw [Res.bind_eq_ok] at hops
    obtain ⟨o2, h2, hops⟩ := hops
    simp only [Res.pure_def, Res.ok.injEq] at hops
    rw [← hops] at hall
    obtain ⟨ms, hm1, hm2⟩ := (applyAll_append o1 o2 0 _ qs).mp hall
    refine ⟨h.bytes ++ ms.flatMap PointRecord.bytes, ⟨hg, h, s', o1, ms, hr, hc, h1, hm1, rfl⟩, fun _ => trivial,
      h, { rest := ms.flatMap PointRecord.bytes ++ [] }, o2, qs, ?_, hc, h2, ?_, rfl⟩
    · have := (read_reread hr (ms.flatMap PointRecord.bytes)).2
      rw [List.append_nil]
      exact this
    · obtain ⟨hl, hi⟩ := (applyAll_ok o1 0 _ ms).mp hm1
      have hlen : h.totalPoints.toNat = ms.length := by rw [hl, readRecords_length]
      have hex : ∀ q ∈ ms, q.extra.length = h.extraFields.toNat := by
        intro q hq
        obtain ⟨i, hi1, hi2⟩ := List.getElem_of_mem hq
        have hlt : i < (readRecords h.extraFields.toNat h.totalPoints.toNat s').length := by rw [← hl]; exact hi1
        obtain ⟨q', h3, h4⟩ := hi i _ (List.getElem?_eq_getElem hlt)
        rw [List.getElem?_eq_getElem hi1, Option.some.injEq, hi2] at h3
        rw [← h3] at h4
        rw [ops_keep_extra h1 h4]
        exact readRecords_extra _ _ _ _ (List.getElem_mem hlt)
      rw [hlen, readRecords_bytes _ _ hex []]
      exact hm2
  · rintro ⟨mid, ⟨hg, h, s', o1, ms, hr, hc, h1, hm1, rfl⟩, _, h', s'', o2, qs, hr', hc', h2, hm2, rfl⟩
    rw [(read_reread hr (ms.flatMap PointRecord.bytes)).2] at hr'
    simp only [Res.ok.injEq, Prod.mk.injEq] at hr'
    obtain ⟨rfl, rfl⟩ := hr'
    obtain ⟨hl, hi⟩ := (applyAll_ok o1 0 _ ms).mp hm1
    have hlen : h.totalPoints.toNat = ms.length := by rw [hl, readRecords_length]
    have hex : ∀ q ∈ ms, q.extra.length = h.extraFields.toNat := by
      intro q hq
      obtain ⟨i, hi1, hi2⟩ := List.getElem_of_mem hq
      have hlt : i < (readRecords h.extraFields.toNat h.totalPoints.toNat s').length := by rw [← hl]; exact hi1
      obtain ⟨q', h3, h4⟩ := hi i _ (List.getElem?_eq_getElem hlt)
      rw [List.getElem?_eq_getElem hi1, Option.some.injEq, hi2] at h3
      rw [← h3] at h4
      rw [ops_keep_extra h1 h4]
      exact readRecords_extra _ _ _ _ (List.getElem_mem hlt)
    have hrec := readRecords_bytes _ _ hex []
    rw [List.append_nil] at hrec
    rw [hlen, hrec] at hm2
    refine ⟨hg, h, s', o1 ++ o2, qs, hr, hc, ?_, ?_, rfl⟩
    · rw [List.mapM_append, h1, Res.ok_bind, h2]; rfl
    · exact (applyAll_append o1 o2 0 _ qs).mpr ⟨ms, hm1, hm2⟩

/-- The options of the application that are commands, with the noise commands left out (they are not accepted,
see C35). -/
def commandOptions : List String :=
  ["add-x", "add-y", "add-z", "copy-field", "quantize-xyz", "replace", "replace-not", "rotate-x", "rotate-y",
   "rotate-z", "scale-x", "scale-y", "scale-z", "set"]

theorem getArgs_commands (os : List (String × Str)) (a : Args) (h : ∀ o ∈ os, o.1 ∈ commandOptions) :
    getArgs os a = .ok { a with commands := a.commands ++ os.map (fun o => ⟨o.1, o.2⟩) } := by
  induction os generalizing a with
  | nil => simp [getArgs]
  | cons o os ih =>
    obtain ⟨name, arg⟩ := o
    have hn : name ∈ commandOptions := h (name, arg) (by simp)
    have key : dispatch a (lookup name) arg = .ok { a with commands := a.commands ++ [⟨name, arg⟩] } ∧
        lookup name ≠ some .help := by
      simp only [commandOptions, List.mem_cons, List.not_mem_nil, or_false] at hn
      rcases hn with rfl | rfl | rfl | rfl | rfl | rfl | rfl | rfl | rfl | rfl | rfl | rfl | rfl | rfl <;>
        exact ⟨rfl, by decide⟩
    rw [getArgs, key.1, Res.ok_bind, if_neg key.2, ih _ (fun o ho => h o (by simp [ho]))]
    simp

theorem main_commands (b : Build) (env : Env) (os : List (String × Str)) (hne : os ≠ [])
    (h : ∀ o ∈ os, o.1 ∈ commandOptions) (s : IStream) :
    Transform.main b env os s = Transform.apply b env s (os.map (fun o => ⟨o.1, o.2⟩)) 0 := by
  unfold Transform.main
  rw [getArgs_commands os {} h, Out.lift_ok_bind]
  simp only [List.nil_append, Bool.false_eq_true, if_false, List.isEmpty_map]
  rw [if_neg (by simpa using hne)]
  rfl

/-- Running the application once for each command option, each time on the output of the run before. -/
inductive Runs (b : Build) (env : Env) : List (String × Str) → Bytes → Bytes → Prop
  | nil (bs : Bytes) : Runs b env [] bs bs
  | cons {o : String × Str} {os : List (String × Str)} {bs mid out : Bytes} :
      Transform.main b env [o] { rest := bs } = ⟨mid, .ok ()⟩ → Runs b env os mid out →
      Runs b env (o :: os) bs out

/-- **C34** on the command line: several command options in one invocation have the same effect as one
invocation per option. -/
theorem c34_several_runs (b : Build) (env : Env) (os : List (String × Str)) (hne : os ≠ [])
    (h : ∀ o ∈ os, o.1 ∈ commandOptions) (bs out : Bytes) :
    Transform.main b env os { rest := bs } = ⟨out, .ok ()⟩ ↔ Runs b env os bs out := by
  induction os generalizing bs with
  | nil => exact absurd rfl hne
  | cons o os ih =>
    have h1 : ∀ o' ∈ [o], o'.1 ∈ commandOptions := fun o' ho' => h o' (by simp at ho'; simp [ho'])
    have h2 : ∀ o' ∈ os, o'.1 ∈ commandOptions := fun o' ho' => h o' (by simp [ho'])
    rw [main_commands b env (o :: os) hne h]
    by_cases hos : os = []
    · subst hos
      rw [← main_commands b env [o] hne h]
      constructor
      · intro hm; exact .cons hm (.nil _)
      · rintro (_ | ⟨hm, hr⟩)
        cases hr
        exact hm
    · have := c34_compose b env 0 [⟨o.1, o.2⟩] (os.map (fun o => ⟨o.1, o.2⟩)) { rest := bs } out
      rw [List.map_cons]
      rw [show (⟨o.1, o.2⟩ : Command) :: os.map (fun o => (⟨o.1, o.2⟩ : Command)) =
        [⟨o.1, o.2⟩] ++ os.map (fun o => ⟨o.1, o.2⟩) from rfl, this]
      have hm1 := main_commands b env [o] (by simp) h1 { rest := bs }
      simp only [List.map_cons, List.map_nil] at hm1
      constructor
      · rintro ⟨mid, hx, hy⟩
        rw [← hm1] at hx
        rw [← main_commands b env os hos h2] at hy
        exact .cons hx ((ih hos h2 mid).mp hy)
      · rintro (_ | ⟨hx, hr⟩)
        rename_i mid
        refine ⟨mid, by rw [← hm1]; exact hx, ?_⟩
        rw [← main_commands b env os hos h2]
        exact (ih hos h2 mid).mpr hr

example : ∀ o ∈ [("replace", "c,3,7".toList), ("set", "e0,1".toList)], o.1 ∈ commandOptions := by decide

/-- **C34**, limit: an invocation without any command is rejected, so "no run" and "a run with no command"
are not the same. -/
theorem c34_no_command_rejected (b : Build) (env : Env) (s : IStream) :
    Transform.main b env [] s = ⟨[], .throw "No command was specified"⟩ := rfl

/-! ## C33 -/

/-- **C33** for replace (partial: the values must be below 2^31, see `c33_large_values_rejected`).  The
argument consists of the name of the field and the decimal values, separated by commas. -/
theorem c33_replace_partial (b : Build) (env : Env) (seed ef : Nat) (f : Field) (hf : f.isCoord = false)
    (hidx : ∀ n, f = .e n → n < 2 ^ 31) (v1 v2 : Nat) (h1 : v1 < 2 ^ 31) (h2 : v2 < 2 ^ 31)
    (hfit : v2 < 2 ^ f.width) :
    ∃ op, parseCommand b env seed ef
        ⟨"replace", f.name ++ ',' :: (showNat v1 ++ ',' :: showNat v2)⟩ = .ok op ∧
      ∀ n p, (f.get p = none → ∃ e, op n p = .throw e) ∧
        (f.get p ≠ none → ∃ q, op n p = .ok q ∧ SameExcept [f] p q ∧
          (f.get p = some v1 → f.get q = some v2) ∧ (f.get p ≠ some v1 → q = p)) := by
  have hsel := selects_name f hidx
  have hparse : parseCommand b env seed ef
      ⟨"replace", f.name ++ ',' :: (showNat v1 ++ ',' :: showNat v2)⟩ =
      .ok (fun _ p => replaceBody f.name (UInt32.ofNat v1) (UInt32.ofNat v2) (extraIndex f.name ef) p) := by
    unfold parseCommand
    simp only [String.reduceEq, if_false, if_true]
    rw [consumeFieldName_name b f hidx ',' (by decide), Res.ok_bind]
    simp only
    rw [consumeInt_showNat h1 (by decide), Res.ok_bind]
    simp only
    rw [consumeInt_showNat_end h2, Res.ok_bind]
    simp only [replaceOp, isXYZ_iff hsel, hf, Bool.false_eq_true, if_false]
  have e1 : (UInt32.ofNat v1).toNat = v1 := by rw [UInt32.toNat_ofNat']; omega
  have e2 : (UInt32.ofNat v2).toNat = v2 := by rw [UInt32.toNat_ofNat']; omega
  refine ⟨_, hparse, fun n p => ⟨fun hnone => ?_, fun hsome => ?_⟩⟩
  · revert hnone hf
    cases f with
    | e m =>
      intro hf hnone
      simp only [Field.get, Option.map_eq_none_iff] at hnone
      cases hsel with
      | e hl hx =>
        simp only [replaceBody, hl, hx, hnone]
        exact ⟨_, rfl⟩
    | _ => simp [Field.get]
  · obtain ⟨q, hq⟩ := replaceBody_defined hsel hf ef (UInt32.ofNat v1) (UInt32.ofNat v2) p
      (Option.isSome_iff_ne_none.mpr hsome)
    obtain ⟨ha, hb, hc⟩ := replaceBody_spec hsel hf ef _ _ p q hq
    rw [e1] at hb hc
    rw [e2, Nat.mod_eq_of_lt hfit] at hb
    exact ⟨q, hq, ha, hb, hc⟩

example : Field.i.isCoord = false ∧ (7 : Nat) < 2 ^ Field.i.width ∧
    Field.i.name ++ ',' :: (showNat 65535 ++ ',' :: showNat 7) = "i,65535,7".toList := by decide

/-- **C33, negation.**  Values of 2^31 and more, which fit the fields c, p and the extra fields, are rejected. -/
theorem c33_large_values_rejected (b : Build) (env : Env) (seed ef v : Nat) (hv : 2 ^ 31 ≤ v) :
    ∃ e, parseCommand b env seed ef ⟨"replace", "c,".toList ++ showNat v ++ ",1".toList⟩ = .throw e := by
  refine ⟨"Could not parse int value string", ?_⟩
  unfold parseCommand
  simp only [String.reduceEq, if_false, if_true]
  have h := consumeFieldName_name b .c (by simp) ',' (by decide) (showNat v ++ ",1".toList)
  rw [show "c,".toList ++ showNat v ++ ",1".toList = Field.c.name ++ ',' :: (showNat v ++ ",1".toList) from rfl,
    h, Res.ok_bind]
  simp only
  have : stoi (showNat v ++ ",1".toList) = none := stoi_showNat_big hv (noDigit_cons (by decide))
  unfold consumeInt
  rw [this]
  rfl

example : 2 ^ 31 ≤ 4000000000 := by decide

/-- Numbers separated by commas. -/
def commaSeparated : List Nat → Str
  | [] => []
  | [v] => showNat v
  | v :: w :: vs => showNat v ++ ',' :: commaSeparated (w :: vs)

theorem consumeInt_nil : ∃ e, consumeInt [] = .throw e := ⟨_, rfl⟩

theorem consumeIntsLoop_comma (vs : List Nat) (hvs : ∀ v ∈ vs, v < 2 ^ 31) (fuel : Nat)
    (hfuel : (commaSeparated vs).length < fuel) :
    consumeIntsLoop fuel (commaSeparated vs) = .ok (vs.map UInt32.ofNat, []) := by
  induction vs generalizing fuel with
  | nil =>
    cases fuel with
    | zero => simp at hfuel
    | succ k => rfl
  | cons v vs ih =>
    cases fuel with
    | zero => simp at hfuel
    | succ k =>
      have hv : v < 2 ^ 31 := hvs v (by simp)
      cases vs with
      | nil =>
        simp only [commaSeparated, consumeIntsLoop]
        rw [consumeInt_showNat_end hv]
        simp only
        have hk : 0 < k := by
          have := List.length_pos_iff.mpr (showNat_ne v)
          simp only [commaSeparated] at hfuel
          omega
        obtain ⟨k', rfl⟩ : ∃ k', k = k' + 1 := ⟨k - 1, by omega⟩
        rfl
      | cons w vs =>
        simp only [commaSeparated, consumeIntsLoop]
        rw [consumeInt_showNat hv (by decide)]
        simp only
        rw [ih (fun x hx => hvs x (by simp [hx])) k (by
          simp only [commaSeparated, List.length_append, List.length_cons] at hfuel
          omega)]
        rfl

theorem consumeInts_comma (v : Nat) (vs : List Nat) (hvs : ∀ x ∈ v :: vs, x < 2 ^ 31) :
    consumeInts (commaSeparated (v :: vs)) = .ok ((v :: vs).map UInt32.ofNat, []) := by
  have hv : v < 2 ^ 31 := hvs v (by simp)
  unfold consumeInts
  cases vs with
  | nil =>
    simp only [commaSeparated]
    rw [consumeInt_showNat_end hv]
    rfl
  | cons w vs =>
    simp only [commaSeparated]
    rw [consumeInt_showNat hv (by decide), Res.ok_bind]
    simp only
    rw [consumeIntsLoop_comma (w :: vs) (fun x hx => hvs x (by simp at hx; simp [hx])) _ (by omega)]
    rfl

theorem map_toNat_ofNat (vs : List Nat) (hvs : ∀ v ∈ vs, v < 2 ^ 31) :
    (vs.map UInt32.ofNat).map UInt32.toNat = vs := by
  rw [List.map_map]
  conv => rhs; rw [← List.map_id vs]
  apply List.map_congr_left
  intro v hv
  have := hvs v hv
  simp only [Function.comp_apply, UInt32.toNat_ofNat', id]
  omega

theorem parse_replaceNot (b : Build) (env : Env) (seed ef : Nat) (f : Field)
    (hidx : ∀ n, f = .e n → n < 2 ^ 31) (olds : List Nat) (new : Nat)
    (hv : ∀ v ∈ olds, v < 2 ^ 31) (hn : new < 2 ^ 31) :
    parseCommand b env seed ef ⟨"replace-not", f.name ++ ',' :: commaSeparated (olds ++ [new])⟩ =
      replaceNotOp f.name ((olds ++ [new]).map UInt32.ofNat) ef := by
  unfold parseCommand
  simp only [String.reduceEq, if_false, if_true]
  rw [consumeFieldName_name b f hidx ',' (by decide), Res.ok_bind]
  simp only
  obtain ⟨v, vs, hvs⟩ : ∃ v vs, olds ++ [new] = v :: vs := by
    cases olds with
    | nil => exact ⟨new, [], rfl⟩
    | cons a l => exact ⟨a, l ++ [new], rfl⟩
  rw [hvs, consumeInts_comma v vs (by
    rw [← hvs]
    intro x hx
    rcases List.mem_append.mp hx with h | h
    · exact hv x h
    · simp only [List.mem_singleton] at h; rw [h]; exact hn), Res.ok_bind]

/-- **C33** for replace-not (partial: only for the class and the extra fields, see `c33_replace_not_wrong`,
and for values below 2^31).  The last value is the new one. -/
theorem c33_replace_not_partial (b : Build) (env : Env) (seed ef : Nat) (f : Field)
    (hf : f = .c ∨ ∃ n, f = .e n ∧ n < 2 ^ 31) (olds : List Nat) (hne : olds ≠ []) (new : Nat)
    (hv : ∀ v ∈ olds, v < 2 ^ 31) (hn : new < 2 ^ 31) :
    ∃ op, parseCommand b env seed ef
        ⟨"replace-not", f.name ++ ',' :: commaSeparated (olds ++ [new])⟩ = .ok op ∧
      ∀ n p w, f.get p = some w → ∃ q, op n p = .ok q ∧ SameExcept [f] p q ∧
        (w ∉ olds → f.get q = some new) ∧ (w ∈ olds → q = p) := by
  have hidx : ∀ n, f = .e n → n < 2 ^ 31 := by
    intro n hfe
    rcases hf with rfl | ⟨m, rfl, hm⟩
    · simp at hfe
    · simp only [Field.e.injEq] at hfe; omega
  have hsel := selects_name f hidx
  have hcoord : f.isCoord = false := by rcases hf with rfl | ⟨m, rfl, hm⟩ <;> rfl
  have hnw : f ∉ wrongFields := by rcases hf with rfl | ⟨m, rfl, hm⟩ <;> simp [wrongFields]
  have hlen : ¬ ((olds ++ [new]).map UInt32.ofNat).length < 2 := by
    have := List.length_pos_iff.mpr hne
    simp only [List.length_map, List.length_append, List.length_singleton]
    omega
  have hlast : ((olds ++ [new]).map UInt32.ofNat).getLastD 0 = UInt32.ofNat new := by
    rw [List.map_append, List.map_singleton, List.getLastD_eq_getLast?]; simp
  have hinit : ((olds ++ [new]).map UInt32.ofNat).dropLast = olds.map UInt32.ofNat := by simp
  have hnew : (UInt32.ofNat new).toNat = new := by rw [UInt32.toNat_ofNat']; omega
  have hop : ∃ op, replaceNotOp f.name ((olds ++ [new]).map UInt32.ofNat) ef = .ok op ∧
      ∀ n p w, f.get p = some w → ∃ q, op n p = .ok q := by
    unfold replaceNotOp
    rw [isXYZ_iff hsel, hcoord]
    simp only [Bool.false_eq_true, if_false]
    rw [if_neg hlen]
    refine ⟨_, rfl, fun n p w hw => ?_⟩
    simp only [hinit]
    rw [replaceNotLoop_spec hsel hcoord ef p _ w hw, Res.ok_bind]
    split
    · rcases hf with rfl | ⟨m, rfl, hm⟩
      · exact ⟨_, rfl⟩
      · cases hsel with
        | e hl hx =>
          simp only [Field.get, Option.map_eq_some_iff] at hw
          obtain ⟨u, hu, _⟩ := hw
          simp only [replaceNotAssign, hl, hx]
          rw [if_pos (List.getElem?_eq_some_iff.mp hu).1]
          exact ⟨_, rfl⟩
    · exact ⟨_, rfl⟩
  obtain ⟨op, hop, hdef⟩ := hop
  refine ⟨op, by rw [parse_replaceNot b env seed ef f hidx olds new hv hn, hop], fun n p w hw => ?_⟩
  obtain ⟨q, hq⟩ := hdef n p w hw
  obtain ⟨_, h1, w', hw', h2, h3⟩ := replaceNot_spec hsel hnw ef _ op hop n p q hq
  rw [hw, Option.some.injEq] at hw'
  subst hw'
  rw [hinit, map_toNat_ofNat olds hv] at h2 h3
  rw [hlast, hnew] at h3
  exact ⟨q, hq, h1, fun h => h3 h hn, h2⟩

example : (Field.c).name ++ ',' :: commaSeparated ([2, 9] ++ [1]) = "c,2,9,1".toList ∧
    ∀ v ∈ [2, 9], v < 2 ^ 31 := by decide

/-- **C33, negation.**  For the fields p, i, r, g, b replace-not never changes the field it names; in exactly
the records in which the field should have been replaced the class is overwritten instead. -/
theorem c33_replace_not_wrong (b : Build) (env : Env) (seed ef : Nat) (f : Field) (hf : f ∈ wrongFields)
    (olds : List Nat) (hne : olds ≠ []) (new : Nat) (hv : ∀ v ∈ olds, v < 2 ^ 31) (hn : new < 2 ^ 31) :
    ∃ op, parseCommand b env seed ef
        ⟨"replace-not", f.name ++ ',' :: commaSeparated (olds ++ [new])⟩ = .ok op ∧
      ∀ n p w, f.get p = some w → ∃ q, op n p = .ok q ∧ f.get q = some w ∧
        (w ∉ olds → q = { p with c := UInt32.ofNat new }) ∧ (w ∈ olds → q = p) := by
  have hne' : f ≠ .c := by
    simp only [wrongFields, List.mem_cons, List.not_mem_nil, or_false] at hf
    rcases hf with rfl | rfl | rfl | rfl | rfl <;> simp
  have hidx : ∀ n, f = .e n → n < 2 ^ 31 := by
    intro n hfe
    rw [hfe] at hf
    simp [wrongFields] at hf
  have hsel := selects_name f hidx
  have hcoord : f.isCoord = false := by
    simp only [wrongFields, List.mem_cons, List.not_mem_nil, or_false] at hf
    rcases hf with rfl | rfl | rfl | rfl | rfl <;> rfl
  have hlen : ¬ ((olds ++ [new]).map UInt32.ofNat).length < 2 := by
    have := List.length_pos_iff.mpr hne
    simp only [List.length_map, List.length_append, List.length_singleton]
    omega
  have hlast : ((olds ++ [new]).map UInt32.ofNat).getLastD 0 = UInt32.ofNat new := by
    rw [List.map_append, List.map_singleton, List.getLastD_eq_getLast?]; simp
  have hinit : ((olds ++ [new]).map UInt32.ofNat).dropLast = olds.map UInt32.ofNat := by simp
  have hop : ∃ op, replaceNotOp f.name ((olds ++ [new]).map UInt32.ofNat) ef = .ok op ∧
      ∀ n p w, f.get p = some w → ∃ q, op n p = .ok q := by
    unfold replaceNotOp
    rw [isXYZ_iff hsel, hcoord]
    simp only [Bool.false_eq_true, if_false]
    rw [if_neg hlen]
    refine ⟨_, rfl, fun n p w hw => ?_⟩
    simp only [hinit]
    rw [replaceNotLoop_spec hsel hcoord ef p _ w hw, Res.ok_bind]
    split
    · simp only [wrongFields, List.mem_cons, List.not_mem_nil, or_false] at hf
      rcases hf with rfl | rfl | rfl | rfl | rfl <;> exact ⟨_, rfl⟩
    · exact ⟨_, rfl⟩
  obtain ⟨op, hop, hdef⟩ := hop
  refine ⟨op, by rw [parse_replaceNot b env seed ef f hidx olds new hv hn, hop], fun n p w hw => ?_⟩
  obtain ⟨q, hq⟩ := hdef n p w hw
  obtain ⟨h1, w', hw', h2, h3⟩ := replaceNot_wrong hsel hf ef _ op hop n p q hq
  rw [hw, Option.some.injEq] at hw'
  subst hw'
  rw [hinit, map_toNat_ofNat olds hv] at h2 h3
  rw [hlast] at h3
  exact ⟨q, hq, by rw [h1.2 f (by simpa using hne')]; exact hw, h3, h2⟩

example : Field.r ∈ wrongFields ∧ Field.r.get { r := 4 } = some 4 := by decide

/-! ## C35 -/

/-- The noise options. -/
def noiseOptions : List String :=
  ["gaussian-noise", "gaussian-noise-x", "gaussian-noise-y", "gaussian-noise-z",
   "uniform-noise", "uniform-noise-x", "uniform-noise-y", "uniform-noise-z"]

/-- **C35** (partial: without the eight noise options, see `c35_noise_rejected`).  Every option of the table is
accepted with every argument; the command options append the command of the same name with the
argument. -/
theorem c35_options_partial (name : String) (harg : Bool) (v : Val) (h : (name, harg, v) ∈ longOptions)
    (hn : name ∉ noiseOptions) (a : Args) (arg : Str) :
    lookup name = some v ∧ ∃ a', dispatch a (lookup name) arg = .ok a' ∧
      (name ∈ commandOptions → a' = { a with commands := a.commands ++ [⟨name, arg⟩] }) ∧
      (name ∉ commandOptions → a'.commands = a.commands) := by
  simp only [longOptions, List.mem_cons, Prod.mk.injEq, List.not_mem_nil, or_false] at h
  rcases h with ⟨rfl, rfl, rfl⟩ | ⟨rfl, rfl, rfl⟩ | ⟨rfl, rfl, rfl⟩ | ⟨rfl, rfl, rfl⟩ | ⟨rfl, rfl, rfl⟩ |
    ⟨rfl, rfl, rfl⟩ | ⟨rfl, rfl, rfl⟩ | ⟨rfl, rfl, rfl⟩ | ⟨rfl, rfl, rfl⟩ | ⟨rfl, rfl, rfl⟩ | ⟨rfl, rfl, rfl⟩ |
    ⟨rfl, rfl, rfl⟩ | ⟨rfl, rfl, rfl⟩ | ⟨rfl, rfl, rfl⟩ | ⟨rfl, rfl, rfl⟩ | ⟨rfl, rfl, rfl⟩ | ⟨rfl, rfl, rfl⟩ |
    ⟨rfl, rfl, rfl⟩ | ⟨rfl, rfl, rfl⟩ | ⟨rfl, rfl, rfl⟩ | ⟨rfl, rfl, rfl⟩ | ⟨rfl, rfl, rfl⟩ | ⟨rfl, rfl, rfl⟩ |
    ⟨rfl, rfl, rfl⟩ | ⟨rfl, rfl, rfl⟩ | ⟨rfl, rfl, rfl⟩ <;>
  first
  | exact ⟨rfl, _, rfl, fun _ => rfl, fun h => absurd (by decide) h⟩
  | exact ⟨rfl, _, rfl, fun h => absurd h (by decide), fun _ => rfl⟩
  | exact absurd (by decide) hn

example : ("set", true, Val.set) ∈ longOptions ∧ "set" ∉ noiseOptions := by decide

/-- **C35, negation.**  The noise commands are in the option table and are implemented, but the switch does not
know them: the application rejects them. -/
theorem c35_noise_rejected (name : String)
    (hn : name ∈ noiseOptions) (a : Args) (arg : Str) (b : Build) (env : Env) (seed ef : Nat) :
    (∃ o ∈ longOptions, o.1 = name ∧ o.2.1 = true) ∧ (dispatch a (lookup name) arg = .throw "Invalid option") ∧
      (∀ v k, env.stod arg = some (v, k) → ∃ op, parseCommand b env seed ef ⟨name, arg⟩ = .ok op) := by
  simp only [noiseOptions, List.mem_cons, List.not_mem_nil, or_false] at hn
  rcases hn with rfl | rfl | rfl | rfl | rfl | rfl | rfl | rfl <;>
    exact ⟨by decide, rfl, fun v k h => ⟨_, by
      simp only [parseCommand, String.reduceEq, if_false, if_true, consumeDouble, h]
      rfl⟩⟩

/-! ## C36 -/

/-- The functions of the library that have a counterpart among the commands. -/
def libraryFunctions (t : Trig) (v : F64) : List (String × (Pt F64 → Pt F64)) :=
  [("add-x", Affine.addX v), ("add-y", Affine.addY v), ("add-z", Affine.addZ v),
   ("scale-x", Affine.scaleX v), ("scale-y", Affine.scaleY v), ("scale-z", Affine.scaleZ v),
   ("rotate-x", Affine.rotateX t v), ("rotate-y", Affine.rotateY t v), ("rotate-z", Affine.rotateZ t v)]

theorem onAll_uncompressed {h : Header} {prs qs : List PointRecord} (hu : Uncompressed h prs)
    (hl : qs.length = prs.length) (hq : ∀ q ∈ qs, ∃ p ∈ prs, q.extra = p.extra) : Uncompressed h qs := by
  refine ⟨hu.signature, hu.major, hu.minor, hu.wkt, hu.flag, fun q h' => ?_, by rw [hl]; exact hu.count⟩
  obtain ⟨p, hp, he⟩ := hq q h'
  rw [he]; exact hu.extra p hp

/-- **C36.**  Running the transform application with one geometric command on a file has the same effect as
calling the library function on the vector of records and writing the file. -/
theorem c36_library_and_app_agree (b : Build) (env : Env) (seed : Nat) (h : Header) (prs : List PointRecord)
    (hu : Uncompressed h prs) (tl : Bytes) (arg : Str) (v : F64) (k : Nat) (hv : env.stod arg = some (v, k))
    (name : String) (g : Pt F64 → Pt F64) (hg : (name, g) ∈ libraryFunctions env.trig v) :
    Transform.apply b env { rest := image h prs ++ tl } [⟨name, arg⟩] seed =
      ⟨image h (Affine.onAll g prs), .ok ()⟩ := by
  have hu' : Uncompressed h (Affine.onAll g prs) := by
    apply onAll_uncompressed hu
    · simp [Affine.onAll]
    · intro q hq
      obtain ⟨p, hp, rfl⟩ := List.mem_map.mp hq
      exact ⟨p, hp, rfl⟩
  have hop : ∃ op, parseCommand b env seed h.extraFields.toNat ⟨name, arg⟩ = .ok op ∧
      ∀ n p, op n p = .ok (withPt p (g (pt p))) := by
    simp only [libraryFunctions, List.mem_cons, Prod.mk.injEq, List.not_mem_nil, or_false] at hg
    rcases hg with ⟨rfl, rfl⟩ | ⟨rfl, rfl⟩ | ⟨rfl, rfl⟩ | ⟨rfl, rfl⟩ | ⟨rfl, rfl⟩ | ⟨rfl, rfl⟩ | ⟨rfl, rfl⟩ |
      ⟨rfl, rfl⟩ | ⟨rfl, rfl⟩ <;>
    exact ⟨_, by simp only [parseCommand, String.reduceEq, if_false, if_true, consumeDouble, hv]; rfl,
      fun _ _ => rfl⟩
  obtain ⟨op, hp, hrun⟩ := hop
  rw [apply_ok]
  refine ⟨fun _ => rfl, h, _, [op], Affine.onAll g prs, image_read hu tl, hu.flag, ?_, ?_, image_eq hu'⟩
  · rw [List.mapM_cons, hp]; rfl
  · rw [← hu.count, readRecords_bytes _ _ hu.extra tl, applyAll_ok]
    refine ⟨by simp [Affine.onAll], fun i p hp => ⟨withPt p (g (pt p)), ?_, ?_⟩⟩
    · simp [Affine.onAll, hp]
    · simp [applyOps, hrun]

example : exampleEnv.stod "12".toList = some (F64.ofInt 12, 2) ∧
    Uncompressed exampleHeader exampleRecords := ⟨by decide +kernel, example_uncompressed⟩

/-- **C36** for quantisation: when the library function succeeds, the command produces the same cloud; when the
command succeeds, so does the library function. -/
theorem c36_quantize_agrees (b : Build) (env : Env) (seed : Nat) (h : Header) (prs : List PointRecord)
    (hu : Uncompressed h prs) (tl : Bytes) (arg : Str) (v : F64) (k : Nat) (hv : env.stod arg = some (v, k))
    (hne : F64.fne v F64.zero = true) :
    (∀ qs, Utils.quantize b prs v = .ok qs →
      Transform.apply b env { rest := image h prs ++ tl } [⟨"quantize-xyz", arg⟩] seed =
        ⟨image h qs, .ok ()⟩) ∧
    (∀ out, Transform.apply b env { rest := image h prs ++ tl } [⟨"quantize-xyz", arg⟩] seed = ⟨out, .ok ()⟩ →
      ∃ qs, Utils.quantize b prs v = .ok qs ∧ out = image h qs) := by
  have hparse : parseCommand b env seed h.extraFields.toNat ⟨"quantize-xyz", arg⟩ = .ok (quantizeOp v) := by
    simp only [parseCommand, String.reduceEq, if_false, if_true, consumeDouble, hv]; rfl
  have hrun : ∀ n p, quantizeOp v n p = (do
      let q ← Utils.quantizePt v (pt p)
      .ok (withPt p q)) := by
    intro n p
    simp only [quantizeOp, Utils.quantizePt, bind_assoc, Res.ok_bind]
    rfl
  have hq : ∀ qs, Utils.quantize b prs v = .ok qs ↔ applyAll [quantizeOp v] 0 prs = .ok qs := by
    intro qs
    unfold Utils.quantize
    rw [hne, require_true, Res.ok_bind, applyAll_ok]
    constructor
    · intro hm
      refine ⟨mapM_length hm, fun i p hp => ?_⟩
      obtain ⟨q, h1, h2⟩ := mapM_get hm hp
      refine ⟨q, h1, ?_⟩
      simp only [applyOps]
      rw [hrun, h2]; rfl
    · rintro ⟨hl, hall⟩
      rw [mapM_eq_ok, List.forall₂_iff_get]
      refine ⟨hl.symm, fun i h1 h2 => ?_⟩
      obtain ⟨q, h3, h4⟩ := hall i prs[i] (List.getElem?_eq_getElem h1)
      rw [List.getElem?_eq_getElem h2, Option.some.injEq] at h3
      simp only [applyOps] at h4
      rw [Res.bind_eq_ok] at h4
      obtain ⟨q', h5, h6⟩ := h4
      simp only [Res.ok.injEq] at h6
      rw [hrun] at h5
      simp only [List.get_eq_getElem]
      rw [h3, ← h6]
      exact h5
  have hops : [(⟨"quantize-xyz", arg⟩ : Command)].mapM (parseCommand b env seed h.extraFields.toNat) =
      .ok [quantizeOp v] := by rw [List.mapM_cons, hparse]; rfl
  constructor
  · intro qs hqs
    have hall := (hq qs).mp hqs
    rw [apply_ok]
    refine ⟨fun _ => rfl, h, _, [quantizeOp v], qs, image_read hu tl, hu.flag, hops, ?_, ?_⟩
    · rw [← hu.count, readRecords_bytes _ _ hu.extra tl]; exact hall
    · exact image_eq (applyAll_uncompressed hu hops hall)
  · intro out hout
    obtain ⟨_, h', s', ops, qs, hr, hc, hops', hall, rfl⟩ := (apply_ok _ _ _ _ _ _).mp hout
    rw [image_read hu tl] at hr
    simp only [Res.ok.injEq, Prod.mk.injEq] at hr
    obtain ⟨rfl, rfl⟩ := hr
    rw [hops, Res.ok.injEq] at hops'
    rw [← hu.count, readRecords_bytes _ _ hu.extra tl, ← hops'] at hall
    exact ⟨qs, (hq qs).mpr hall, (image_eq (applyAll_uncompressed hu hops hall)).symm⟩

example : ∃ qs, Utils.quantize .debug exampleRecords F64.one = .ok qs := by
  refine ⟨exampleRecords, ?_⟩
  decide +kernel

end Spoc.Props
