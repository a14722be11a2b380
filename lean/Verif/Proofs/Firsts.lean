import Verif.Props.FilterSteps
import Verif.Proofs.Displaced
import Verif.Proofs.Tile

/-!
# The first record at each place, and the tiles of records at the same place
-/

namespace Spoc.Props

open Subsampling Spec

/-- The records that have no earlier record at the same place, in order. -/
def firsts (ps : List PointRecord) : List PointRecord :=
  ps.foldl (fun kept q => if kept.any (fun p => Pt.beq (pt p) (pt q)) then kept else kept ++ [q]) []

theorem firsts_concat (l : List PointRecord) (q : PointRecord) :
    firsts (l ++ [q]) = if (firsts l).any (fun p => Pt.beq (pt p) (pt q)) then firsts l else firsts l ++ [q] := by
  unfold firsts; rw [List.foldl_append]; rfl

theorem firsts_sublist (l : List PointRecord) : (firsts l).Sublist l := by
  induction l using List.reverseRecOn with
  | nil => exact List.Sublist.refl _
  | append_singleton l q ih =>
    rw [firsts_concat]
    split
    · exact ih.trans (List.sublist_append_left l [q])
    · exact ih.append (List.Sublist.refl [q])

theorem firsts_indexes (ps : List PointRecord) : ∀ n ≤ ps.length,
    List.Forall₂ (fun k q => ps[k]? = some q) (dedupe (sameLoc ps) (List.range n) []) (firsts (ps.take n)) := by
  intro n
  induction n with
  | zero => intro _; simp [dedupe, firsts]
  | succ n ih =>
    intro hn
    have ih := ih (by omega)
    rw [List.range_succ, dedupe_concat, List.take_succ_eq_append_getElem (by omega), firsts_concat]
    have e : (dedupe (sameLoc ps) (List.range n) []).any (fun i => sameLoc ps i n)
        = (firsts (ps.take n)).any (fun p => Pt.beq (pt p) (pt ps[n])) := by
      generalize dedupe (sameLoc ps) (List.range n) [] = a at ih
      generalize firsts (ps.take n) = b at ih
      induction ih with
      | nil => rfl
      | cons h _ ih2 =>
        rw [List.any_cons, List.any_cons, ih2]
        congr 1
        unfold sameLoc
        rw [h, List.getElem?_eq_getElem (by omega)]
    rw [e]
    split
    · exact ih
    · exact List.rel_append ih (.cons (List.getElem?_eq_getElem (by omega)) .nil)

/-- Removing duplicate places without a seed keeps the first record at each place. -/
theorem uniqueXyzPoints_zero (b : Build) (sh : Shuffle) (hsh : sh.Lawful) (ps : List PointRecord) :
    uniqueXyzPoints b sh ps 0 = .ok (firsts ps) := by
  have h := firsts_indexes ps ps.length (Nat.le_refl _)
  rw [List.take_length] at h
  unfold uniqueXyzPoints
  rw [uniqueXyzIndexes_eq b sh hsh, order_zero, Res.ok_bind, mapM_eq_ok]
  refine h.imp fun k q hk => ?_
  unfold Voxel.at'
  rw [hk]

theorem firsts_filter (P : PointRecord → Bool) (ps : List PointRecord)
    (h : ∀ a ∈ ps, ∀ b ∈ ps, Pt.beq (pt a) (pt b) = true → P a = P b) : firsts (ps.filter P) = (firsts ps).filter P := by
  induction ps using List.reverseRecOn with
  | nil => rfl
  | append_singleton l q ih =>
    have ih := ih fun a ha b hb => h a (by simp [ha]) b (by simp [hb])
    rw [firsts_concat, List.filter_append]
    have hs := (firsts_sublist l).subset
    by_cases hq : P q = true
    · rw [List.filter_cons_of_pos hq, List.filter_nil, firsts_concat, ih]
      have e : ((firsts l).filter P).any (fun p => Pt.beq (pt p) (pt q)) = (firsts l).any (fun p => Pt.beq (pt p) (pt q)) := by
        rw [Bool.eq_iff_iff, List.any_eq_true, List.any_eq_true]
        constructor
        · rintro ⟨x, hx, e⟩
          exact ⟨x, (List.mem_filter.mp hx).1, e⟩
        · rintro ⟨x, hx, e⟩
          exact ⟨x, List.mem_filter.mpr ⟨hx, by rw [h x (by simp [hs hx]) q (by simp) e]; exact hq⟩, e⟩
      rw [e]
      split
      · rfl
      · rw [List.filter_append, List.filter_cons_of_pos hq, List.filter_nil]
    · rw [List.filter_cons_of_neg hq, List.filter_nil, List.append_nil, ih]
      split
      · rfl
      · rw [List.filter_append, List.filter_cons_of_neg hq, List.filter_nil, List.append_nil]

/-! ## tile numbers -/

theorem sub_sign {v w m : F64} (h : v.fv = w.fv) : (F64.sub v m).fv = (F64.sub w m).fv := by
  by_cases h0 : v.fv = 0
  · have fin : ∀ {u : F64}, u.fv = 0 → u.isFinite = true := by
      intro u hu
      unfold F64.isFinite
      rw [F64.fv_eq_zero.mp hu]
      decide
    rcases Bool.eq_false_or_eq_true m.isFinite with hm | hm
    · exact F64.sub_same (fin h0) hm (fin (h ▸ h0)) hm (by rw [h])
    · have hneg : m.negate.isNaN = true ∨ m.negate.isInf = true := by
        unfold F64.isFinite at hm
        unfold F64.isNaN F64.isInf
        rw [F64.negate_mag]
        simp only [decide_eq_true_eq, decide_eq_false_iff_not] at hm ⊢
        omega
      have key : ∀ {u : F64}, u.fv = 0 → F64.sub u m = if m.negate.isNaN then F64.nan else m.negate := by
        intro u hu
        have h1 := fin hu
        have h2 : u.isInf = false := by
          unfold F64.isInf
          rw [F64.fv_eq_zero.mp hu]
          decide
        unfold F64.sub F64.add
        rw [F64.not_nan_of_finite h1, h2, Bool.false_or]
        rcases Bool.eq_false_or_eq_true m.negate.isNaN with e | e
        · simp [e]
        · have e2 : m.negate.isInf = true := by simpa [e] using hneg
          simp [e, e2]
      rw [key h0, key (h ▸ h0)]
  · rw [F64.eq_of_fv_eq h h0]

theorem index1_sign {ts m v w : F64} (h : v.fv = w.fv) : Tile.index1 ts m v = Tile.index1 ts m w := by
  unfold Tile.index1
  split
  · exact F64.toU64_same (F64.div_same (sub_sign h) ts)
  · rfl

/-- Records at the same place have the same tile number. -/
theorem tileNumber_same {ps : List PointRecord} {e : Extent} {sx sy : F64} {numbers : List UInt64}
    (h : Tile.getTileIndexes ps e sx sy = .ok numbers) :
    ∃ number : PointRecord → UInt64, numbers = ps.map number
      ∧ ∀ a b, Pt.beq (pt a) (pt b) = true → number a = number b := by
  unfold Tile.getTileIndexes at h
  rw [Res.bind_eq_ok] at h
  obtain ⟨st, -, hm⟩ := h
  let g : PointRecord → Res UInt64 := fun p => do
    let xi ← Tile.index1 sx e.minp.x p.x
    let yi ← Tile.index1 sy e.minp.y p.y
    .ok (yi * st + xi)
  refine ⟨fun p => match g p with | .ok n => n | _ => 0, ?_, fun a b hab => ?_⟩
  · have hf := mapM_eq_ok.mp hm
    clear hm
    induction hf with
    | nil => rfl
    | @cons q n _ _ e1 _ ih =>
      rw [List.map_cons, ← ih]
      congr 1
      show n = match g q with | .ok n => n | _ => 0
      rw [show g q = .ok n from e1]
  · obtain ⟨-, -, h1, h2, -⟩ := (c14_point_equality_meaning _ _).mp hab
    have : g a = g b := by
      show (do
        let xi ← Tile.index1 sx e.minp.x a.x
        let yi ← Tile.index1 sy e.minp.y a.y
        Res.ok (yi * st + xi)) = (do
        let xi ← Tile.index1 sx e.minp.x b.x
        let yi ← Tile.index1 sy e.minp.y b.y
        Res.ok (yi * st + xi))
      rw [index1_sign (show a.x.fv = b.x.fv from h1), index1_sign (show a.y.fv = b.y.fv from h2)]
    simp only [this]

theorem numbered_filter (ps : List PointRecord) (number : PointRecord → UInt64) (k : UInt64) :
    pointsNumbered ps (ps.map number) k = ps.filter (fun q => decide (number q = k)) := by
  unfold pointsNumbered
  induction ps with
  | nil => rfl
  | cons q ps ih =>
    rw [List.map_cons, List.zip_cons_cons, List.filter_cons, List.filter_cons]
    by_cases h : number q = k
    · simp only [h, decide_true, if_true, List.map_cons]
      rw [← ih]
    · simp only [h, decide_false, Bool.false_eq_true, if_false]
      exact ih

/-- The parts of a list with different numbers together are the list. -/
theorem parts_perm {α : Type} (number : α → UInt64) (z : List α) (ks : List UInt64) (hn : ks.Nodup) (h : ∀ e ∈ z, number e ∈ ks) :
    (ks.flatMap (fun k => z.filter (fun e => decide (number e = k)))).Perm z := by
  induction ks generalizing z with
  | nil =>
    cases z with
    | nil => exact List.Perm.refl _
    | cons e z => exact absurd (h e (by simp)) (by simp)
  | cons k ks ih =>
    rw [List.nodup_cons] at hn
    rw [List.flatMap_cons]
    have h1 := ih (z.filter (fun e => !decide (number e = k))) hn.2 (by
      intro e he
      rw [List.mem_filter] at he
      rcases List.mem_cons.mp (h e he.1) with h' | h'
      · simp [h'] at he
      · exact h')
    have h2 : ks.flatMap (fun k' => (z.filter (fun e => !decide (number e = k))).filter (fun e => decide (number e = k')))
        = ks.flatMap (fun k' => z.filter (fun e => decide (number e = k'))) := by
      rw [List.flatMap_def, List.flatMap_def]
      congr 1
      refine List.map_congr_left ?_
      intro k' hk'
      rw [List.filter_filter]
      refine List.filter_congr ?_
      intro e _
      by_cases hc : number e = k'
      · have : ¬ k' = k := fun e => hn.1 (e ▸ hk')
        simp [hc, this]
      · simp [hc]
    rw [h2] at h1
    exact (h1.append_left _).trans (List.filter_append_perm _ _)

/-! ## filter requests that remove duplicate places without a seed -/

/-- The classes that a request keeps. -/
def classKept (r : FilterRequest) (q : PointRecord) : Bool :=
  (decide (r.keep = []) || decide (q.c.toNat ∈ r.keep)) && decide (q.c.toNat ∉ r.remove)

/-- The coordinates that a request keeps. -/
def placeKept (r : FilterRequest) (q : PointRecord) : Bool :=
  match r.coords with
  | none => true
  | some (c, v) => decide (¬ c.Holds q v)

/-- What such a request leaves. -/
def uniqueKept (r : FilterRequest) (ps : List PointRecord) : List PointRecord := (firsts (ps.filter (classKept r))).filter (placeKept r)

theorem uniqueKept_sublist (r : FilterRequest) (ps : List PointRecord) : (uniqueKept r ps).Sublist ps :=
  List.filter_sublist.trans ((firsts_sublist _).trans List.filter_sublist)

theorem filterSteps_uniqueKept (b : Build) {sh : Shuffle} (hsh : sh.Lawful) {r : FilterRequest} (hu : r.unique = true) (hn : r.resolution = none)
    (hs : r.seed = 0) (ps : List PointRecord) : FilterSteps b sh r ps (uniqueKept r ps) := by
  refine ⟨_, ps.filter (classKept r), firsts (ps.filter (classKept r)), _, rfl, ?_, ?_, by rw [hn], ?_⟩
  · unfold classKept
    by_cases hk : r.keep = []
    · rw [if_pos hk]
      simp [hk]
    · rw [if_neg hk, List.filter_filter]
      refine List.filter_congr fun q _ => ?_
      simp only [hk, decide_false, Bool.false_or]
      rw [Bool.and_comm]
  · rw [hu, hs]
    exact uniqueXyzPoints_zero b sh hsh _
  · unfold uniqueKept placeKept
    cases hc : r.coords with
    | none => simp
    | some c => rfl

/-- Tile by tile, such a request leaves the same points. -/
theorem uniqueKept_parts (r : FilterRequest) (ps : List PointRecord) (number : PointRecord → UInt64)
    (h : ∀ a b, Pt.beq (pt a) (pt b) = true → number a = number b) (ks : List UInt64) (hn : ks.Nodup) (hk : ∀ q ∈ ps, number q ∈ ks) :
    (ks.flatMap fun k => uniqueKept r (pointsNumbered ps (ps.map number) k)).Perm (uniqueKept r ps) := by
  have e : ∀ k, uniqueKept r (pointsNumbered ps (ps.map number) k) = (uniqueKept r ps).filter (fun q => decide (number q = k)) := by
    intro k
    unfold uniqueKept
    rw [numbered_filter, List.filter_comm, firsts_filter _ _ (fun a _ b _ hab => by rw [h a b hab]), List.filter_comm]
  simp only [e]
  exact parts_perm number _ ks hn fun q hq => hk q ((uniqueKept_sublist r ps).subset hq)

end Spoc.Props
