import Verif.Props.Quantize
import Verif.Props.SetCopy
import Verif.Props.Tool

/-!
# C38: quantisation of whole files by the transform application
-/

namespace Spoc.Props

open Spec F64 Transform AppUtils Io

theorem quantizeCoord_eq (v x : F64) : quantizeCoord v x = Utils.quantize1 v x := rfl

/-- **C38**, the application (partial as `c38_quantise_partial`): `--quantize-xyz` with a positive number succeeds on every uncompressed file
whose coordinates are in range.  The output has the same header and the same points in the same order; only the coordinates change, and
they are rounded to multiples of the double that is nearest to the number. -/
theorem c38_file_partial (b : Build) (env : Env) (henv : env.stod = Text.stod) {h : Header} {prs : List PointRecord} (hu : Uncompressed h prs)
    (tl : Bytes) {n : Numeral} (hn : n.Ok) (hlo : 1 / 2 ^ 1022 ≤ n.value) (hhi : n.value ≤ maxVal.val) :
    ∃ y, Nearest y n.value ∧ 0 < y.val
      ∧ ((∀ p ∈ prs, Quantisable y p.x ∧ Quantisable y p.y ∧ Quantisable y p.z) →
          ∃ qs, Transform.main b env [("quantize-xyz", n.text)] { rest := image h prs ++ tl } = ⟨image h qs, .ok ()⟩
            ∧ List.Forall₂ (fun p q => SameExcept [.x, .y, .z] p q ∧ Quantised y p.x q.x ∧ Quantised y p.y q.y ∧ Quantised y p.z q.z) prs qs) := by
  have h0 : 0 ≤ n.value := le_trans (div_nonneg zero_le_one (pow_nonneg (by norm_num) _)) hlo
  have ha : |n.value| = n.value := abs_of_nonneg h0
  obtain ⟨y, h1, h2⟩ := stod_numeral hn (Or.inr ⟨by rw [ha]; exact hlo, by rw [ha]; exact hhi⟩)
  have hp := nearest_pos hlo h2
  have hf : y.isFinite = true := nearest_finite maxVal_finite (by rw [ha]; exact hhi) h2
  refine ⟨y, h2, hp, fun hq => ?_⟩
  have hpos : 0 < y.fv := by
    unfold val at hp
    rw [lt_div_iff₀ one1074_pos', zero_mul] at hp
    exact_mod_cast hp
  have hop : parseCommand b env 0 h.extraFields.toNat ⟨"quantize-xyz", n.text⟩ = .ok (quantizeOp y) := by
    have hc : consumeDouble env.stod n.text = .ok (y, n.text.drop (n.text.length + 1)) := by
      unfold consumeDouble
      rw [henv, h1]
    simp only [parseCommand, String.reduceEq, if_false, if_true, hc]
    rfl
  rw [main_commands b env [("quantize-xyz", n.text)] (by simp) (by simp [commandOptions])]
  refine apply_good b env 0 _ _ hu tl hop (fun m p hm => ?_)
  obtain ⟨x1, x2, x3⟩ := hq p hm
  obtain ⟨x, ex, hx⟩ := quantize1_ok hf hpos x1
  obtain ⟨y', ey, hy⟩ := quantize1_ok hf hpos x2
  obtain ⟨z, ez, hz⟩ := quantize1_ok hf hpos x3
  refine ⟨{ p with x := x, y := y', z := z }, ?_, ⟨rfl, fun f hf => ?_⟩, hx, hy, hz⟩
  · unfold quantizeOp
    rw [quantizeCoord_eq, quantizeCoord_eq, quantizeCoord_eq, ex, ey, ez]
    rfl
  · cases f <;> first | rfl | (simp at hf)

/-- Such a file, and what becomes of it. -/
example : Uncompressed exampleHeader [{ x := num 7, extra := [1] }, { y := num (-4), c := 2, extra := [2] }] ∧ n250.text = "2.50".toList
    ∧ Quantisable ⟨0x4004000000000000⟩ (num 7) ∧ Quantisable ⟨0x4004000000000000⟩ (num (-4))
    ∧ Transform.main .release { exampleEnv with stod := Text.stod } [("quantize-xyz", n250.text)]
        { rest := image exampleHeader [{ x := num 7, extra := [1] }, { y := num (-4), c := 2, extra := [2] }] }
      = ⟨image exampleHeader [{ x := num 5, extra := [1] }, { y := ⟨0xC004000000000000⟩, c := 2, extra := [2] }], .ok ()⟩ := by
  refine ⟨⟨rfl, rfl, rfl, by decide, rfl, by decide, rfl⟩, by decide, ?_, ?_, by decide +kernel⟩
  · unfold Quantisable
    decide +kernel
  · unfold Quantisable
    decide +kernel

end Spoc.Props
