import Verif.Proofs.Info
import Verif.Proofs.Metrics
import Verif.Props.Format
import Verif.Props.Info
import Verif.Proofs.Accept

/-!
# Lemmas about the report of the info application and the order of the points
-/

namespace Spoc

open Text

/-! ## Sorted maps -/

namespace Text

theorem strLt_irrefl (s : Str) : strLt s s = false := by
  induction s with
  | nil => rfl
  | cons a s ih => simp [strLt, ih]

theorem strLt_trans {r s t : Str} (h1 : strLt r s = true) (h2 : strLt s t = true) : strLt r t = true := by
  induction r generalizing s t with
  | nil =>
    cases t with
    | nil => cases s <;> simp [strLt] at h2
    | cons c t => rfl
  | cons a r ih =>
    cases s with
    | nil => simp [strLt] at h1
    | cons b s =>
      cases t with
      | nil => simp [strLt] at h2
      | cons c t =>
        unfold strLt at h1 h2 ⊢
        by_cases a1 : a.toNat < b.toNat
        · by_cases b1 : b.toNat < c.toNat
          · rw [if_pos (by omega)]
          · rw [if_neg b1] at h2
            by_cases b2 : c.toNat < b.toNat
            · simp [b2] at h2
            · rw [if_pos (by omega)]
        · rw [if_neg a1] at h1
          by_cases a2 : b.toNat < a.toNat
          · simp [a2] at h1
          · rw [if_neg a2] at h1
            by_cases b1 : b.toNat < c.toNat
            · rw [if_pos (by omega)]
            · rw [if_neg b1] at h2
              by_cases b2 : c.toNat < b.toNat
              · simp [b2] at h2
              · rw [if_neg b2] at h2
                rw [if_neg (by omega), if_neg (by omega)]
                exact ih h1 h2

theorem strLt_total {s t : Str} (h1 : strLt s t ≠ true) (h2 : s ≠ t) : strLt t s = true := by
  induction s generalizing t with
  | nil =>
    cases t with
    | nil => exact absurd rfl h2
    | cons c t => exact absurd rfl h1
  | cons a s ih =>
    cases t with
    | nil => rfl
    | cons b t =>
      unfold strLt at h1 ⊢
      by_cases a1 : a.toNat < b.toNat
      · simp [a1] at h1
      · rw [if_neg a1] at h1
        by_cases a2 : b.toNat < a.toNat
        · rw [if_pos a2]
        · rw [if_neg a2] at h1
          rw [if_neg a2, if_neg a1]
          refine ih h1 (fun e => h2 ?_)
          have : a = b := Char.toNat_inj.mp (by omega)
          rw [this, e]

variable {β : Type}

theorem mem_mapSet {m : List (Str × β)} {k : Str} {v : β} {e : Str × β} (h : e ∈ mapSet m k v) : e = (k, v) ∨ e ∈ m := by
  induction m with
  | nil => left; simpa [mapSet] using h
  | cons a r ih =>
    obtain ⟨k1, v1⟩ := a
    unfold mapSet at h
    by_cases h1 : strLt k k1 = true
    · rw [if_pos h1] at h
      rcases List.mem_cons.mp h with h | h
      · exact Or.inl h
      · exact Or.inr h
    · rw [if_neg h1] at h
      by_cases h2 : k = k1
      · rw [if_pos h2] at h
        rcases List.mem_cons.mp h with h | h
        · exact Or.inl h
        · exact Or.inr (List.mem_cons_of_mem _ h)
      · rw [if_neg h2] at h
        rcases List.mem_cons.mp h with h | h
        · exact Or.inr (by simp [h])
        · rcases ih h with h | h
          · exact Or.inl h
          · exact Or.inr (List.mem_cons_of_mem _ h)

/-- The entries are in the order of their keys. -/
def Ascending (m : List (Str × β)) : Prop := m.Pairwise (fun a b => strLt a.1 b.1 = true)

theorem ascending_mapSet {m : List (Str × β)} (h : Ascending m) (k : Str) (v : β) : Ascending (mapSet m k v) := by
  induction m with
  | nil => simp [mapSet, Ascending]
  | cons a r ih =>
    obtain ⟨k1, v1⟩ := a
    obtain ⟨h3, h4⟩ := List.pairwise_cons.mp h
    unfold mapSet
    by_cases h1 : strLt k k1 = true
    · rw [if_pos h1]
      refine List.pairwise_cons.mpr ⟨?_, h⟩
      intro e he
      rcases List.mem_cons.mp he with rfl | he
      · exact h1
      · exact strLt_trans h1 (h3 e he)
    · rw [if_neg h1]
      by_cases h2 : k = k1
      · rw [if_pos h2]
        subst h2
        exact List.pairwise_cons.mpr ⟨h3, h4⟩
      · rw [if_neg h2]
        refine List.pairwise_cons.mpr ⟨?_, ih h4⟩
        intro e he
        rcases mem_mapSet he with rfl | he
        · exact strLt_total h1 h2
        · exact h3 e he

theorem ascending_mapOf (l : List (Str × β)) : Ascending (mapOf l) := by
  have key : ∀ (l m : List (Str × β)), Ascending m → Ascending (l.foldl (fun m e => mapSet m e.1 e.2) m) := by
    intro l
    induction l with
    | nil => intro m h; exact h
    | cons a r ih => intro m h; exact ih _ (ascending_mapSet h _ _)
  exact key l [] List.Pairwise.nil

/-- A map does not depend on the order of assignments to different keys. -/
theorem mapOf_congr {l l' : List (Str × β)} (h : l.Perm l') (hn : (l.map (·.1)).Nodup) : mapOf l = mapOf l' := by
  have hn' : (l'.map (·.1)).Nodup := (h.map _).nodup_iff.mp hn
  have hp : (mapOf l).Perm (mapOf l') := (mapOf_perm l hn).trans (h.trans (mapOf_perm l' hn').symm)
  refine hp.eq_of_pairwise ?_ (ascending_mapOf l) (ascending_mapOf l')
  intro a b _ _ h1 h2
  have := strLt_trans h1 h2
  rw [strLt_irrefl] at this
  exact absurd this (by simp)

end Text

/-! ## Classes -/

namespace Info

theorem counts_perm {cs ds : List UInt32} (h : cs.Perm ds) : (counts cs).Perm (counts ds) := by
  obtain ⟨a1, a2, a3, _⟩ := counts_spec cs
  obtain ⟨b1, b2, b3, _⟩ := counts_spec ds
  refine (List.perm_ext_iff_of_nodup (List.Nodup.of_map _ a3) (List.Nodup.of_map _ b3)).mpr ?_
  have key : ∀ {cs ds : List UInt32}, cs.Perm ds → ∀ e, e ∈ counts cs → e ∈ counts ds := by
    intro cs ds h e he
    obtain ⟨k, n⟩ := e
    obtain ⟨a1, a2, a3, _⟩ := counts_spec cs
    obtain ⟨c, hc, hk⟩ := (a2 k).mp (List.mem_map_of_mem (f := (·.1)) he)
    have hl := lookup_of_mem a3 he
    rw [← hk, a1 c, if_pos hc] at hl
    apply mem_of_lookup
    rw [← hk, (counts_spec ds).1 c, if_pos (h.mem_iff.mp hc), ← h.count_eq c]
    exact hl
  exact fun e => ⟨key h e, key h.symm e⟩

theorem classCountMap_order {cs ds : List UInt32} (h : cs.Perm ds) : classCountMap cs = classCountMap ds :=
  mapOf_congr ((counts_perm h).map _) (nodup_keys cs)

/-! ## Summaries -/

section

variable {α : Type}

theorem minElement_order {k : Kind α} {v : α → ℝ} {good : α → Prop} (hk : Lawful k v good) {x y : α} {r s : List α}
    (h : (x :: r).Perm (y :: s)) (hg : ∀ a ∈ x :: r, good a) (hi : ∀ a ∈ x :: r, ∀ b ∈ x :: r, v a = v b → a = b) :
    minElement k.lt x r = minElement k.lt y s := by
  obtain ⟨a1, a2⟩ := minElement_spec hk x r (hg x (by simp)) (fun a ha => hg a (by simp [ha]))
  have hg' : ∀ a ∈ y :: s, good a := fun a ha => hg a (h.mem_iff.mpr ha)
  obtain ⟨b1, b2⟩ := minElement_spec hk y s (hg' y (by simp)) (fun a ha => hg' a (by simp [ha]))
  exact hi _ a1 _ (h.mem_iff.mpr b1) (le_antisymm (a2 _ (h.mem_iff.mpr b1)) (b2 _ (h.mem_iff.mp a1)))

theorem maxElement_order {k : Kind α} {v : α → ℝ} {good : α → Prop} (hk : Lawful k v good) {x y : α} {r s : List α}
    (h : (x :: r).Perm (y :: s)) (hg : ∀ a ∈ x :: r, good a) (hi : ∀ a ∈ x :: r, ∀ b ∈ x :: r, v a = v b → a = b) :
    maxElement k.lt x r = maxElement k.lt y s := by
  obtain ⟨a1, a2⟩ := maxElement_spec hk x r (hg x (by simp)) (fun a ha => hg a (by simp [ha]))
  have hg' : ∀ a ∈ y :: s, good a := fun a ha => hg a (h.mem_iff.mpr ha)
  obtain ⟨b1, b2⟩ := maxElement_spec hk y s (hg' y (by simp)) (fun a ha => hg' a (by simp [ha]))
  exact hi _ a1 _ (h.mem_iff.mpr b1) (le_antisymm (b2 _ (h.mem_iff.mp a1)) (a2 _ (h.mem_iff.mpr b1)))

theorem sort_order {k : Kind α} {v : α → ℝ} {good : α → Prop} (hk : Lawful k v good) {xs ys : List α}
    (h : xs.Perm ys) (hg : ∀ a ∈ xs, good a) (hi : ∀ a ∈ xs, ∀ b ∈ xs, v a = v b → a = b) : k.sort xs = k.sort ys := by
  obtain ⟨zs, a1, a2, a3⟩ := hk.sort xs hg
  obtain ⟨ws, b1, b2, b3⟩ := hk.sort ys (fun a ha => hg a (h.mem_iff.mpr ha))
  rw [a1, b1, (a2.trans (h.trans b2.symm)).eq_of_pairwise (fun a b ha hb h1 h2 => ?_) a3 b3]
  exact hi a (a2.mem_iff.mp ha) b (h.mem_iff.mpr (b2.mem_iff.mp hb)) (le_antisymm h1 h2)

theorem quartiles_order {k : Kind α} {v : α → ℝ} {good : α → Prop} (hk : Lawful k v good) {xs ys : List α}
    (h : xs.Perm ys) (hg : ∀ a ∈ xs, good a) (hi : ∀ a ∈ xs, ∀ b ∈ xs, v a = v b → a = b) : quartiles k xs = quartiles k ys := by
  unfold quartiles
  rw [sort_order hk h hg hi, h.length_eq]

theorem summaryObject_order {k : Kind α} {v : α → ℝ} {good : α → Prop} (hk : Lawful k v good) {xs ys : List α}
    (h : xs.Perm ys) (hg : ∀ a ∈ xs, good a) (hi : ∀ a ∈ xs, ∀ b ∈ xs, v a = v b → a = b) (q : Bool) :
    summaryObject k xs q = summaryObject k ys q := by
  cases xs with
  | nil => rw [List.nil_perm.mp h]
  | cons x r =>
    cases ys with
    | nil => exact absurd h.length_eq (by simp)
    | cons y s =>
      unfold summaryObject
      simp only
      rw [quartiles_order hk h hg hi, minElement_order hk h hg hi, maxElement_order hk h hg hi]

theorem summaryString_order {k : Kind α} {v : α → ℝ} {good : α → Prop} (hk : Lawful k v good) (l : Str) {xs ys : List α}
    (h : xs.Perm ys) (hg : ∀ a ∈ xs, good a) (hi : ∀ a ∈ xs, ∀ b ∈ xs, v a = v b → a = b) (c q : Bool) :
    summaryString k l xs c q = summaryString k l ys c q := by
  cases xs with
  | nil => rw [List.nil_perm.mp h]
  | cons x r =>
    cases ys with
    | nil => exact absurd h.length_eq (by simp)
    | cons y s =>
      unfold summaryString
      simp only
      rw [quartiles_order hk h hg hi, minElement_order hk h hg hi, maxElement_order hk h hg hi, h.length_eq]

end

end Info

/-! ## Coordinates -/

/-- No NaN, and not zeros of both signs. -/
def Distinct (xs : List F64) : Prop := (∀ x ∈ xs, x.isNaN = false) ∧ ¬ (F64.zero ∈ xs ∧ F64.negZero ∈ xs)

theorem distinct_fv {xs : List F64} (h : Distinct xs) {x y : F64} (hx : x ∈ xs) (hy : y ∈ xs) (e : x.fv = y.fv) : x = y := by
  by_cases h0 : x.fv = 0
  · have key : ∀ x ∈ xs, x.fv = 0 → x = F64.zero ∨ x = F64.negZero := by
      intro x hx h0
      apply (Props.feq_zero_iff x).mp
      unfold F64.feq
      rw [h.1 x hx, h0]
      decide +kernel
    rcases key x hx h0 with rfl | rfl <;> rcases key y hy (e ▸ h0) with rfl | rfl
    · rfl
    · exact absurd ⟨hx, hy⟩ h.2
    · exact absurd ⟨hy, hx⟩ h.2
    · rfl
  · exact F64.eq_of_fv_eq e h0

theorem distinct_val {xs : List F64} (h : Distinct xs) : ∀ x ∈ xs, ∀ y ∈ xs, x.val = y.val → x = y :=
  fun _ hx _ hy e => distinct_fv h hx hy (le_antisymm (F64.val_le_iff.mp e.le) (F64.val_le_iff.mp e.ge))

theorem distinct_perm {xs ys : List F64} (h : xs.Perm ys) (hd : Distinct xs) : Distinct ys :=
  ⟨fun y hy => hd.1 y (h.mem_iff.mpr hy), fun e => hd.2 ⟨h.mem_iff.mpr e.1, h.mem_iff.mpr e.2⟩⟩

theorem foldMin_order {xs ys : List F64} (h : xs.Perm ys) (hd : Distinct xs) :
    F64.foldMin F64.maxVal xs = F64.foldMin F64.maxVal ys := by
  have e : (F64.foldMin F64.maxVal xs).fv = (F64.foldMin F64.maxVal ys).fv := by
    rw [(F64.foldMin_int xs hd.1).2, (F64.foldMin_int ys (distinct_perm h hd).1).2]
    exact (h.map F64.fv).foldl_eq' (fun a _ b _ c => by rw [min_assoc, min_comm a b, ← min_assoc]) _
  have h0 : F64.maxVal.fv ≠ 0 := by decide +kernel
  rcases F64.foldMin_mem F64.maxVal xs with h1 | h1
  · refine F64.eq_of_fv_eq e ?_
    rw [h1]
    exact h0
  · rcases F64.foldMin_mem F64.maxVal ys with h2 | h2
    · refine F64.eq_of_fv_eq e ?_
      rw [e, h2]
      exact h0
    · exact distinct_fv hd h1 (h.mem_iff.mpr h2) e

theorem foldMax_order {xs ys : List F64} (h : xs.Perm ys) (hd : Distinct xs) :
    F64.foldMax F64.lowest xs = F64.foldMax F64.lowest ys := by
  have e : (F64.foldMax F64.lowest xs).fv = (F64.foldMax F64.lowest ys).fv := by
    rw [(F64.foldMax_int xs hd.1).2, (F64.foldMax_int ys (distinct_perm h hd).1).2]
    exact (h.map F64.fv).foldl_eq' (fun a _ b _ c => by rw [max_assoc, max_comm a b, ← max_assoc]) _
  have h0 : F64.lowest.fv ≠ 0 := by decide +kernel
  rcases F64.foldMax_mem F64.lowest xs with h1 | h1
  · refine F64.eq_of_fv_eq e ?_
    rw [h1]
    exact h0
  · rcases F64.foldMax_mem F64.lowest ys with h2 | h2
    · refine F64.eq_of_fv_eq e ?_
      rw [e, h2]
      exact h0
    · exact distinct_fv hd h1 (h.mem_iff.mpr h2) e

theorem mapM_order {α β : Type} {f : α → Res β} {xs ys : List α} (h : xs.Perm ys) :
    ∀ zs, xs.mapM f = .ok zs → ∃ ws, ys.mapM f = .ok ws ∧ zs.Perm ws := by
  induction h with
  | nil => intro zs h; exact ⟨zs, h, .refl _⟩
  | cons a _ ih =>
    intro zs h
    rw [List.mapM_cons, Res.bind_eq_ok] at h
    obtain ⟨z, h1, h⟩ := h
    rw [Res.bind_eq_ok] at h
    obtain ⟨zr, h2, h3⟩ := h
    obtain ⟨ws, h4, h5⟩ := ih zr h2
    refine ⟨z :: ws, ?_, ?_⟩
    · rw [List.mapM_cons, h1, Res.ok_bind, h4, Res.ok_bind]; rfl
    · injection h3 with h3
      rw [← h3]
      exact h5.cons z
  | swap a b l =>
    intro zs h
    rw [List.mapM_cons, Res.bind_eq_ok] at h
    obtain ⟨z, h1, h⟩ := h
    rw [Res.bind_eq_ok] at h
    obtain ⟨zr, h2, h3⟩ := h
    rw [List.mapM_cons, Res.bind_eq_ok] at h2
    obtain ⟨y, h4, h⟩ := h2
    rw [Res.bind_eq_ok] at h
    obtain ⟨yr, h5, h6⟩ := h
    injection h3 with h3
    injection h6 with h6
    refine ⟨y :: z :: yr, ?_, ?_⟩
    · rw [List.mapM_cons, h4, Res.ok_bind, List.mapM_cons, h1, Res.ok_bind, h5]; rfl
    · rw [← h3, ← h6]
      exact List.Perm.swap _ _ _
  | trans _ _ ih1 ih2 =>
    intro zs h
    obtain ⟨ws, h1, h2⟩ := ih1 zs h
    obtain ⟨vs, h3, h4⟩ := ih2 ws h1
    exact ⟨vs, h3, h2.trans h4⟩

end Spoc
