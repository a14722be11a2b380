import Verif.Spec.Metrics
import Verif.Proofs.ToolPoints
import Verif.Props.Voxel
import Verif.Model.Info

/-!
# Lemmas about the densities of the info application
-/

namespace Spoc

open Spec F64

theorem getSet_spec (vs : List VoxelIndex) : (Voxel.getSet vs).length = vs.toFinset.card := by
  have key : ∀ (vs s : List VoxelIndex), s.Nodup → (vs.foldl (fun s v => if v ∈ s then s else s ++ [v]) s).Nodup
      ∧ ∀ v, v ∈ vs.foldl (fun s v => if v ∈ s then s else s ++ [v]) s ↔ v ∈ s ∨ v ∈ vs := by
    intro vs
    induction vs with
    | nil => intro s hs; exact ⟨hs, fun v => by simp⟩
    | cons a r ih =>
      intro s hs
      rw [List.foldl_cons]
      by_cases h : a ∈ s
      · rw [if_pos h]
        refine ⟨(ih s hs).1, fun v => ?_⟩
        rw [(ih s hs).2, List.mem_cons]
        constructor
        · rintro (h | h)
          · exact Or.inl h
          · exact Or.inr (Or.inr h)
        · rintro (h' | rfl | h')
          · exact Or.inl h'
          · exact Or.inl h
          · exact Or.inr h'
      · rw [if_neg h]
        have hs' : (s ++ [a]).Nodup := by
          rw [List.nodup_append]
          refine ⟨hs, by simp, ?_⟩
          intro x hx y hy
          rw [List.mem_singleton.mp hy]
          rintro rfl
          exact h hx
        refine ⟨(ih _ hs').1, fun v => ?_⟩
        rw [(ih _ hs').2, List.mem_append, List.mem_singleton, List.mem_cons]
        tauto
  obtain ⟨h1, h2⟩ := key vs [] List.nodup_nil
  unfold Voxel.getSet
  rw [← List.toFinset_card_of_nodup h1]
  congr 1
  ext v
  rw [List.mem_toFinset, List.mem_toFinset, h2]
  simp

/-- Equal as far as one function can tell means as many different values. -/
theorem card_map_eq {α β γ : Type} [DecidableEq β] [DecidableEq γ] {l : List α} {f : α → β} {g : α → γ}
    (h : ∀ a ∈ l, ∀ b ∈ l, f a = f b ↔ g a = g b) : (l.map f).toFinset.card = (l.map g).toFinset.card := by
  classical
  induction l with
  | nil => rfl
  | cons a r ih =>
    have ih' := ih (fun x hx y hy => h x (by simp [hx]) y (by simp [hy]))
    rw [List.map_cons, List.map_cons, List.toFinset_cons, List.toFinset_cons, Finset.card_insert_eq_ite, Finset.card_insert_eq_ite, ih']
    have : f a ∈ (r.map f).toFinset ↔ g a ∈ (r.map g).toFinset := by
      rw [List.mem_toFinset, List.mem_toFinset, List.mem_map, List.mem_map]
      constructor
      · rintro ⟨b, hb, e⟩
        exact ⟨b, hb, (h b (by simp [hb]) a (by simp)).mp e⟩
      · rintro ⟨b, hb, e⟩
        exact ⟨b, hb, (h b (by simp [hb]) a (by simp)).mpr e⟩
    by_cases hf : f a ∈ (r.map f).toFinset
    · rw [if_pos hf, if_pos (this.mp hf)]
    · rw [if_neg hf, if_neg (fun hg => hf (this.mpr hg))]

theorem card_map_le {α β γ : Type} [DecidableEq β] [DecidableEq γ] {l : List α} {f : α → β} {g : β → γ} :
    (l.map (fun a => g (f a))).toFinset.card ≤ (l.map f).toFinset.card := by
  have : (l.map (fun a => g (f a))).toFinset = (l.map f).toFinset.image g := by
    ext v
    simp
  rw [this]
  exact Finset.card_image_le

theorem div_one_fv {x : F64} (hx : x.isNaN = false) : (div x one).fv = x.fv := by
  have h1 : one.isFinite = true := by decide +kernel
  have h2 : 0 < one.fv := by rw [one_fv]; exact_mod_cast one1074_pos
  by_cases hf : x.isFinite = true
  · rw [(div_fv hf h1 h2).1]
    have e : one.fv.natAbs = one1074 := by rw [one_fv]; exact Int.natAbs_natCast _
    rw [e]
    exact rfv_exact hx one1074_pos
  · rw [eq_inf_of_not_finite hx (by simpa using hf), div_inf _ h1 h2]

theorem floor_val {x : F64} (h : 0 ≤ x.fv) : ⌊x.val⌋ = x.trunc := by
  unfold val
  have e : x.trunc = x.fv / (one1074 : Int) := by
    unfold trunc
    exact Int.tdiv_eq_ediv_of_nonneg h
  rw [e]
  rw [Int.floor_div_natCast, Int.floor_intCast]

/-- The voxel index at resolution 1 is the integral part of the difference. -/
theorem index1_one {p m : F64} (hp : p.isFinite = true) (hm : m.isFinite = true) (h : m.fv ≤ p.fv) {u : UInt64}
    (hu : Voxel.index1 p m one = .ok u) : (u.toNat : ℤ) = ⌊(sub p m).val⌋ := by
  have h1 : one.isFinite = true := by decide +kernel
  have h2 : 0 < one.fv := by rw [one_fv]; exact_mod_cast one1074_pos
  have hs := sub_not_nan hp hm
  have h0 : 0 ≤ (sub p m).fv := by rw [sub_fv hp hm]; exact rfv_nonneg (by omega)
  have e := div_one_fv hs
  have hv : (div (sub p m) one).val = (sub p m).val := by unfold val; rw [e]
  rw [← hv, floor_val (by rw [e]; exact h0)]
  exact toU64_toNat hu

theorem mul_nearest {x y : F64} (hx : x.isFinite = true) (hy : y.isFinite = true) : Nearest (mul x y) (x.val * y.val) := by
  have h := rnd_nearest false (x.fv * y.fv) one1074_pos
  have hv : (rnd false (x.fv * y.fv) one1074).val = (mul x y).val := by
    unfold val; rw [mul_fv hx hy, rnd_fv _ _ one1074_pos]
  have e2 : ((x.fv * y.fv : Int) : ℝ) / (one1074 : ℕ) / (one1074 : ℝ) = x.val * y.val := by
    unfold val
    have hU := one1074_pos'
    push_cast
    generalize (one1074 : ℝ) = U at *
    field_simp
  rw [e2] at h
  refine ⟨mul_not_nan hx hy, fun z hz => ?_⟩
  rw [← hv]
  exact h.2 z hz

end Spoc
