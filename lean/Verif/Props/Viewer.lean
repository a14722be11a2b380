import Verif.Proofs.Viewer
import Verif.Props.Python
import Verif.Proofs.Mutual

/-!
# C123: the viewer shows what is chosen
-/

namespace Spoc.Props

open Viewer Spec F64
open Python (object)

theorem pyIndex_nat {α : Type} {l : List α} {k : Nat} (h : k < l.length) : pyIndex l (k : Int) = .ok l[k] := by
  unfold pyIndex
  rw [if_pos (Int.natCast_nonneg k), Int.toNat_natCast, List.getElem?_eq_getElem h]

theorem pyIndex_over {α : Type} {l : List α} {k : Nat} (h : l.length ≤ k) : pyIndex l (k : Int) = .throw "IndexError" := by
  unfold pyIndex
  rw [if_pos (Int.natCast_nonneg k), Int.toNat_natCast, List.getElem?_eq_none h]

/-! ### the colors -/

/-- **C123**, colors of the points: every point gets its own color with eight bits per channel. -/
theorem c123_rgb (s : Setup) : ∃ cs, colours s .rgb = .ok cs
    ∧ List.Forall₂ (fun (q : PointRecord) c => c.r = q.r.toNat / 2 ^ 8 ∧ c.g = q.g.toNat / 2 ^ 8 ∧ c.b = q.b.toNat / 2 ^ 8
      ∧ c.r < 256 ∧ c.g < 256 ∧ c.b < 256) s.file.prs cs := by
  refine ⟨_, rfl, ?_⟩
  rw [List.forall₂_map_right_iff, List.forall₂_same]
  intro q _
  have h1 := q.r.toNat_lt
  have h2 := q.g.toNat_lt
  have h3 := q.b.toNat_lt
  refine ⟨rfl, rfl, rfl, ?_, ?_, ?_⟩ <;> show _ / 256 < 256 <;> omega

/-- **C123** (partial: for elevations that are finite, not all the same and at most 2^997; the full statement is about every cloud, and is false:
`c123_flat`, `c123_empty`), colors by elevation: every point gets one of the nine colors, the lowest points the first, the highest points the last, a
higher point never an earlier one, and the color says in which eighth of the range the elevation is, up to rounding. -/
theorem c123_elevation_partial (s : Setup) (h9 : s.elevationColours.length = 9) (fin : ∀ q ∈ s.file.prs, q.z.isFinite = true)
    (small : ∀ q ∈ s.file.prs, |q.z.val| ≤ 2 ^ 997) (lo hi : PointRecord) (hlo : lo ∈ s.file.prs) (hhi : hi ∈ s.file.prs)
    (range : ∀ q ∈ s.file.prs, lo.z.val ≤ q.z.val ∧ q.z.val ≤ hi.z.val) (two : lo.z.val < hi.z.val) :
    ∃ k : F64 → Fin 9, colours s .ele = .ok (s.file.prs.map (fun q => s.elevationColours[k q.z]'(by rw [h9]; exact (k q.z).isLt)))
      ∧ (∀ q ∈ s.file.prs, q.z.val = lo.z.val → k q.z = 0)
      ∧ (∀ q ∈ s.file.prs, q.z.val = hi.z.val → k q.z = 8)
      ∧ (∀ q ∈ s.file.prs, ∀ r ∈ s.file.prs, q.z.val ≤ r.z.val → k q.z ≤ k r.z)
      ∧ ∀ q ∈ s.file.prs, ((k q.z).val : ℝ) - 1 / 2 ^ 47 ≤ 8 * ((q.z.val - lo.z.val) / (hi.z.val - lo.z.val))
        ∧ 8 * ((q.z.val - lo.z.val) / (hi.z.val - lo.z.val)) ≤ (k q.z).val + 1 + 1 / 2 ^ 47 := by
  have hne : s.file.prs.map PointRecord.z ≠ [] := by
    intro h
    rw [List.map_eq_nil_iff] at h
    rw [h] at hlo
    simp at hlo
  obtain ⟨a, l, hal⟩ := List.exists_cons_of_ne_nil hne
  have finz : ∀ b ∈ a :: l, b.isFinite = true := by
    rw [← hal]
    intro b hb
    obtain ⟨q, hq, rfl⟩ := List.mem_map.mp hb
    exact fin q hq
  obtain ⟨m1, m2, m3⟩ := npLess_fold l a (finz a (by simp)) (fun b hb => finz b (by simp [hb]))
  obtain ⟨n1, n2, n3⟩ := npMore_fold l a (finz a (by simp)) (fun b hb => finz b (by simp [hb]))
  have hmin : amin (s.file.prs.map PointRecord.z) = .ok (l.foldl npLess a) := by rw [hal]; rfl
  have hmax : amax (s.file.prs.map PointRecord.z) = .ok (l.foldl npMore a) := by rw [hal]; rfl
  rw [← hal] at m2 m3 n2 n3
  generalize l.foldl npLess a = mn at *
  generalize l.foldl npMore a = mx at *
  obtain ⟨qn, hqn, rfl⟩ := List.mem_map.mp m2
  obtain ⟨qx, hqx, rfl⟩ := List.mem_map.mp n2
  have en : qn.z.val = lo.z.val := le_antisymm (val_le_iff.mpr (m3 _ (List.mem_map_of_mem hlo))) (range qn hqn).1
  have ex : qx.z.val = hi.z.val := le_antisymm (range qx hqx).2 (val_le_iff.mpr (n3 _ (List.mem_map_of_mem hhi)))
  have bt : ∀ q ∈ s.file.prs, Between qn.z qx.z q.z := fun q hq =>
    { flo := m1, fhi := n1, fa := fin q hq, blo := small qn hqn, bhi := small qx hqx, ba := small q hq
      lt := by rw [← val_lt_iff, en, ex]; exact two
      above := m3 _ (List.mem_map_of_mem hq)
      below := n3 _ (List.mem_map_of_mem hq) }
  have tr : ∀ q ∈ s.file.prs, 0 ≤ (quotient qn.z qx.z q.z).trunc ∧ (quotient qn.z qx.z q.z).trunc ≤ 8 := fun q hq => by
    obtain ⟨t1, t2⟩ := (bt q hq).quotient_range
    refine ⟨trunc_nonneg t1, ?_⟩
    unfold trunc
    exact Utils.tdiv_le (by exact_mod_cast one1074_pos) t2
  let k : F64 → Fin 9 := fun z => ⟨min 8 (quotient qn.z qx.z z).trunc.toNat, by omega⟩
  have hk : ∀ q ∈ s.file.prs, ((k q.z).val : Int) = (quotient qn.z qx.z q.z).trunc := fun q hq => by
    obtain ⟨t1, t2⟩ := tr q hq
    show ((min 8 (quotient qn.z qx.z q.z).trunc.toNat : Nat) : Int) = _
    omega
  refine ⟨k, ?_, ?_, ?_, ?_, ?_⟩
  · show elevation _ _ = _
    unfold elevation
    rw [hmin, hmax]
    simp only [Res.ok_bind]
    have e1 : (s.file.prs.map PointRecord.z).mapM (fun a => pyInt (F64.div (F64.mul (F64.sub a qn.z)
        (F64.ofInt (s.elevationColours.length - 1))) (F64.sub qx.z qn.z))) = .ok (s.file.prs.map (fun q => ((k q.z).val : Int))) := by
      rw [mapM_eq_ok, List.forall₂_map_left_iff, List.forall₂_map_right_iff, List.forall₂_same]
      intro q hq
      have f := (bt q hq).finite
      rw [h9]
      show pyInt (quotient qn.z qx.z q.z) = _
      unfold pyInt
      rw [if_neg (by rw [not_nan_of_finite f]; simp), if_neg (by rw [isInf_eq_false_of_finite f]; simp), hk q hq]
    rw [e1, Res.ok_bind, mapM_eq_ok, List.forall₂_map_left_iff, List.forall₂_map_right_iff, List.forall₂_same]
    intro q hq
    exact pyIndex_nat _
  · intro q hq e
    have : (quotient qn.z qx.z q.z).fv = 0 := (bt q hq).quotient_bottom (by
      have := e.trans en.symm
      exact le_antisymm (val_le_iff.mp this.le) (val_le_iff.mp this.ge))
    have h := hk q hq
    unfold trunc at h
    rw [this, Int.zero_tdiv] at h
    apply Fin.ext
    show (k q.z).val = 0
    omega
  · intro q hq e
    have : (quotient qn.z qx.z q.z).fv = 8 * one1074 := (bt q hq).quotient_top (by
      have := e.trans ex.symm
      exact le_antisymm (val_le_iff.mp this.le) (val_le_iff.mp this.ge))
    have h := hk q hq
    unfold trunc at h
    rw [this, Int.mul_tdiv_cancel _ (by exact_mod_cast one1074_pos.ne')] at h
    apply Fin.ext
    show (k q.z).val = 8
    omega
  · intro q hq r hr e
    have := trunc_mono (bt q hq).quotient_range.1 (quotient_mono (bt q hq) (bt r hr) (val_le_iff.mp e))
    have h1 := hk q hq
    have h2 := hk r hr
    show (k q.z).val ≤ (k r.z).val
    omega
  · intro q hq
    have acc := (bt q hq).accurate
    rw [en, ex] at acc
    obtain ⟨t1, t2⟩ := trunc_val_nonneg (bt q hq).quotient_range.1
    rw [← hk q hq, Int.cast_natCast] at t1 t2
    rw [abs_le] at acc
    constructor <;> linarith

theorem zero_zero {w : F64} (hw : w.mag = 0) (y : F64) : (F64.div (F64.mul w y) w).isNaN = true := by
  have wn : w.isNaN = false := by rw [isNaN_eq_false, hw]; exact Nat.zero_le _
  have wi : w.isInf = false := isInf_eq_false_of_finite (isFinite_iff.mpr (by rw [hw]; decide))
  have nn : F64.nan.isNaN = true := by decide
  have dn : (F64.div F64.nan w).isNaN = true := by
    unfold F64.div
    rw [if_pos (by rw [nn]; rfl)]
    exact nn
  unfold F64.mul
  by_cases h1 : (w.isNaN || y.isNaN) = true
  · rw [if_pos h1]; exact dn
  rw [if_neg h1]
  by_cases h2 : (w.isInf || y.isInf) = true
  · rw [if_pos h2, if_pos (by simp [hw])]; exact dn
  rw [if_neg h2, (fv_eq_zero (x := w)).mpr hw, zero_mul]
  unfold F64.rnd
  rw [if_pos rfl]
  have xm : ∀ b, (F64.mk' b 0).mag = 0 := fun b => mag_mk' b (by norm_num)
  have xn : ∀ b, (F64.mk' b 0).isNaN = false := fun b => by rw [isNaN_eq_false, xm]; exact Nat.zero_le _
  have xi : ∀ b, (F64.mk' b 0).isInf = false := fun b => isInf_eq_false_of_finite (isFinite_iff.mpr (by rw [xm]; decide))
  unfold F64.div
  rw [if_neg (by rw [xn, wn]; simp), if_neg (by rw [xi]; simp), if_neg (by rw [wi]; simp), if_pos hw, if_pos (xm _)]
  exact nn

/-- **C123**, limit: a cloud that is flat has no colors by elevation; there is an exception. -/
theorem c123_flat (s : Setup) (h0 : s.file.prs ≠ []) (z : F64) (hz : z.isFinite = true) (flat : ∀ q ∈ s.file.prs, q.z = z) :
    colours s .ele = .throw "ValueError" := by
  obtain ⟨q, ps, hp⟩ := List.exists_cons_of_ne_nil h0
  have e : s.file.prs.map PointRecord.z = z :: List.replicate ps.length z := by
    rw [hp, List.map_cons, flat q (by rw [hp]; simp)]
    congr 1
    rw [List.eq_replicate_iff]
    refine ⟨by simp, fun b hb => ?_⟩
    obtain ⟨r, hr, rfl⟩ := List.mem_map.mp hb
    exact flat r (by rw [hp]; simp [hr])
  have fold : ∀ n, (List.replicate n z).foldl npLess z = z ∧ (List.replicate n z).foldl npMore z = z := by
    intro n
    induction n with
    | zero => exact ⟨rfl, rfl⟩
    | succ n ih =>
      have e1 : npLess z z = z := by unfold npLess; split_ifs <;> rfl
      have e2 : npMore z z = z := by unfold npMore; split_ifs <;> rfl
      rw [List.replicate_succ, List.foldl_cons, List.foldl_cons, e1, e2]
      exact ih
  show elevation _ _ = _
  unfold elevation
  rw [e]
  have : pyInt (F64.div (F64.mul (F64.sub z z) (F64.ofInt (s.elevationColours.length - 1))) (F64.sub z z)) = .throw "ValueError" := by
    have := zero_zero (F64.sub_self_mag hz) (F64.ofInt (s.elevationColours.length - 1))
    unfold pyInt
    rw [if_pos this]
  unfold amin amax
  simp only [(fold _).1, (fold _).2, Res.ok_bind, List.mapM_cons]
  rw [this]
  rfl

/-- **C123**, limit: neither has a cloud without points. -/
theorem c123_empty (s : Setup) (h0 : s.file.prs = []) : colours s .ele = .throw "ValueError" := by
  show elevation _ _ = _
  rw [h0]
  rfl

/-- The classes that have a color are those of the table. -/
theorem c123_classes : classColours.length = 28 := by decide

/-- The colors of the classes, by the names that the program gives in its comments. -/
def legend : Nat → Option Colour
  | 0 => some ⟨0, 64, 64⟩ -- never classed
  | 1 => some ⟨255, 0, 0⟩ -- unknown
  | 2 => some ⟨128, 64, 0⟩ -- ground
  | 3 => some ⟨0, 213, 0⟩ -- low vegetation
  | 4 => some ⟨0, 128, 0⟩ -- medium vegetation
  | 5 => some ⟨0, 192, 0⟩ -- high vegetation
  | 6 => some ⟨0, 255, 255⟩ -- building
  | 7 => some ⟨128, 128, 192⟩ -- low noise
  | 8 => some ⟨128, 128, 128⟩ -- key point
  | 9 => some ⟨0, 0, 255⟩ -- water
  | 10 => some ⟨128, 128, 0⟩ -- rail
  | 11 => some ⟨192, 192, 192⟩ -- road
  | 12 => some ⟨128, 128, 128⟩ -- overlap
  | 13 => some ⟨255, 255, 0⟩ -- wires
  | 14 => some ⟨0, 128, 192⟩ -- docks
  | 15 => some ⟨255, 200, 192⟩ -- transmission tower
  | 16 => some ⟨255, 128, 192⟩ -- bad data
  | 17 => some ⟨64, 32, 0⟩ -- bridge
  | 18 => some ⟨255, 128, 192⟩ -- high noise
  | 19 => some ⟨243, 158, 0⟩ -- vertical obstruction
  | 20 => some ⟨128, 64, 64⟩ -- subterrain that is no noise
  | 21 => some ⟨128, 0, 255⟩ -- vehicle
  | 22 => some ⟨128, 128, 128⟩ -- manmade
  | 23 => some ⟨255, 0, 128⟩ -- perimeter
  | 24 => some ⟨128, 0, 128⟩ -- urban
  | 25 => some ⟨0, 0, 128⟩ -- ducts
  | 26 => some ⟨128, 0, 128⟩ -- aircraft
  | 27 => some ⟨0, 0, 160⟩ -- solar panel
  | _ => none

theorem legend_eq (c : Nat) : classColours[c]? = legend c := by
  by_cases h : c < 28
  · have : ∀ c < 28, classColours[c]? = legend c := by decide
    exact this c h
  · rw [List.getElem?_eq_none (by rw [c123_classes]; omega)]
    obtain ⟨k, rfl⟩ : ∃ k, c = k + 28 := ⟨c - 28, by omega⟩
    rfl

/-- **C123**, limit: the color tells the class, except for key points, overlap and manmade, for bad data and high noise, and for urban and
aircraft, which share their colors. -/
theorem c123_shared {c d : Nat} (hc : c < 28) (hd : d < 28) (hne : c ≠ d) :
    legend c = legend d ↔ (c ∈ [8, 12, 22] ∧ d ∈ [8, 12, 22]) ∨ (c ∈ [16, 18] ∧ d ∈ [16, 18]) ∨ (c ∈ [24, 26] ∧ d ∈ [24, 26]) := by
  have : ∀ c d : Fin 28, c.1 ≠ d.1 → (legend c.1 = legend d.1
      ↔ (c.1 ∈ [8, 12, 22] ∧ d.1 ∈ [8, 12, 22]) ∨ (c.1 ∈ [16, 18] ∧ d.1 ∈ [16, 18]) ∨ (c.1 ∈ [24, 26] ∧ d.1 ∈ [24, 26])) := by
    decide +kernel
  exact this ⟨c, hc⟩ ⟨d, hd⟩ hne

/-- Ground and water. -/
example : (2 : Nat) < 28 ∧ (9 : Nat) < 28 ∧ (2 : Nat) ≠ 9 ∧ legend 2 ≠ legend 9 := by decide

/-- **C123**, colors by class: if all classes are below 28, each point gets the color of its class; otherwise there is an exception. -/
theorem c123_class (s : Setup) :
    ((∀ q ∈ s.file.prs, q.c.toNat < 28) → ∃ cs, colours s .cls = .ok cs
        ∧ List.Forall₂ (fun (q : PointRecord) c => legend q.c.toNat = some c) s.file.prs cs)
      ∧ ((∃ q ∈ s.file.prs, 28 ≤ q.c.toNat) → colours s .cls = .throw "IndexError") := by
  simp only [← legend_eq]
  show (_ → ∃ cs, List.mapM _ _ = _ ∧ _) ∧ (_ → List.mapM _ _ = _)
  generalize s.file.prs = ps
  constructor
  · intro h
    induction ps with
    | nil => exact ⟨[], rfl, .nil⟩
    | cons q ps ih =>
      obtain ⟨cs, h1, h2⟩ := ih (fun q hq => h q (by simp [hq]))
      have hq : q.c.toNat < classColours.length := by rw [c123_classes]; exact h q (by simp)
      refine ⟨classColours[q.c.toNat] :: cs, ?_, .cons (List.getElem?_eq_getElem hq) h2⟩
      rw [List.mapM_cons, pyIndex_nat hq, h1]
      rfl
  · rintro ⟨q, hq, hc⟩
    induction ps with
    | nil => simp at hq
    | cons p ps ih =>
      rw [List.mapM_cons]
      by_cases hp : p.c.toNat < 28
      · rw [pyIndex_nat (by rw [c123_classes]; exact hp)]
        rcases List.mem_cons.mp hq with rfl | hq
        · omega
        · rw [ih hq]
          rfl
      · rw [pyIndex_over (by rw [c123_classes]; omega)]
        rfl

/-- **C123**, colors by segment: without extra fields there is an exception.  With them, if all segments are below the number of the random
colors, each point gets the color of its segment; otherwise there is an exception. -/
theorem c123_segment (s : Setup) :
    (s.header.extraFields = 0 → ∃ e, colours s .seg = .throw e)
      ∧ (s.header.extraFields ≠ 0 → (∀ q ∈ s.file.prs, 0 < q.extra.length) →
        ((∀ q ∈ s.file.prs, ∀ e, q.extra[0]? = some e → e.toNat < s.segmentColours.length) → ∃ cs, colours s .seg = .ok cs
          ∧ List.Forall₂ (fun (q : PointRecord) c => ∃ e, q.extra[0]? = some e ∧ s.segmentColours[e.toNat]? = some c) s.file.prs cs)
        ∧ ((∃ q ∈ s.file.prs, ∃ e, q.extra[0]? = some e ∧ s.segmentColours.length ≤ e.toNat) → colours s .seg = .throw "IndexError")) := by
  constructor
  · intro h
    refine ⟨"Expected segment numbers in e[0],but this file has no extra fields", ?_⟩
    unfold colours
    rw [h]
    rfl
  intro h hx
  have hne : ¬ s.header.extraFields.toNat < 1 := by
    intro h'
    exact h (UInt8.toNat_inj.mp (by simpa using h'))
  have e0 : colours s .seg = (do
      let e ← Diff.getExtra s.build 0 s.file.prs
      e.mapM (fun v => pyIndex s.segmentColours v.toNat)) := by
    show (if _ then _ else _) = _
    rw [if_neg hne]
  rw [e0]
  generalize s.file.prs = ps at hx
  have all : ∃ es, Diff.getExtra s.build 0 ps = .ok es ∧ List.Forall₂ (fun (q : PointRecord) e => q.extra[0]? = some e) ps es := by
    obtain ⟨es, h1, h2⟩ := getExtra_all s.build 0 ps hx
    refine ⟨es, h1, ?_⟩
    rw [List.forall₂_map_right_iff] at h2
    refine h2.imp fun q e he => ?_
    rcases hh : q.extra[0]? with _ | v
    · rw [hh] at he; simp at he
    · rw [hh] at he
      simp only [Option.map_some, Option.some.injEq] at he
      rw [UInt64.toNat_inj.mp he]
  obtain ⟨es, h1, h2⟩ := all
  rw [h1, Res.ok_bind]
  clear h1 e0 hx
  constructor
  · intro hs
    induction h2 with
    | nil => exact ⟨[], rfl, .nil⟩
    | @cons q e ps es hq _ ih =>
      obtain ⟨cs, i1, i2⟩ := ih (fun q hq => hs q (by simp [hq]))
      have he := hs q (by simp) e hq
      refine ⟨s.segmentColours[e.toNat] :: cs, ?_, .cons ⟨e, hq, List.getElem?_eq_getElem he⟩ i2⟩
      rw [List.mapM_cons, pyIndex_nat he, i1]
      rfl
  · rintro ⟨q, hq, e, he, hl⟩
    induction h2 with
    | nil => simp at hq
    | @cons p v ps es hp _ ih =>
      rw [List.mapM_cons]
      by_cases hv : v.toNat < s.segmentColours.length
      · rw [pyIndex_nat hv]
        rcases List.mem_cons.mp hq with rfl | hq
        · rw [he] at hp
          simp only [Option.some.injEq] at hp
          subst hp
          omega
        · rw [ih hq]
          rfl
      · rw [pyIndex_over (by omega)]
        rfl

/-! ### the controls -/

/-- What the dropdown has shown, the latest first; on loading the page it shows the elevation. -/
def dropdown : List Event → List (Option Marker)
  | [] => [some .ele]
  | .choose m :: es => m :: dropdown es
  | .reload :: es => some .ele :: dropdown es
  | .slide _ :: es => dropdown es

/-- Where the slider is; on loading the page it is at 2. -/
def slider : List Event → Nat
  | [] => 2
  | .slide n :: _ => n
  | .reload :: _ => 2
  | .choose _ :: es => slider es

/-- The colors of the latest marker that was shown and has colors. -/
def latestColours (s : Setup) : List (Option Marker) → Option (List Colour)
  | [] => none
  | none :: ms => latestColours s ms
  | some m :: ms =>
    match colours s m with
    | .ok c => some c
    | _ => latestColours s ms

theorem update_marker (s : Setup) (st : State) (n : Nat) (m : Option Marker) : (update s st n m).1.lastMarker = m := by
  unfold update
  by_cases h : st.lastMarker ≠ m
  · rw [if_pos h]
    dsimp only
    split <;> rfl
  · rw [if_neg h]
    split
    · exact not_not.mp h
    · exact not_not.mp h

theorem session_page (s : Setup) (es : List Event) :
    (session s es).1.size = slider es ∧ some (session s es).1.marker = (dropdown es).head? ∧ (session s es).2.lastMarker = (session s es).1.marker := by
  induction es with
  | nil => exact ⟨rfl, rfl, update_marker _ _ _ _⟩
  | cons e es ih =>
    obtain ⟨i1, i2, i3⟩ := ih
    refine ⟨?_, ?_, update_marker _ _ _ _⟩
    · cases e with
      | slide n => rfl
      | choose m => exact i1
      | reload => rfl
    · cases e with
      | slide n => exact i2
      | choose m => rfl
      | reload => rfl

theorem update_colours (s : Setup) (st : State) (n : Nat) (m : Option Marker) (hm : st.lastMarker ≠ m) (ms : List (Option Marker))
    (h : st.colours = latestColours s ms) : (update s st n m).1.colours = latestColours s (m :: ms) := by
  unfold update
  rw [if_pos hm]
  cases m with
  | none => exact h
  | some m =>
    unfold latestColours
    dsimp only
    cases colours s m <;> first | rfl | exact h

theorem update_colours_same (s : Setup) (st : State) (n : Nat) (m : Option Marker) (hm : st.lastMarker = m) :
    (update s st n m).1.colours = st.colours := by
  unfold update
  rw [if_neg (by simpa using hm)]
  split <;> rfl

theorem latest_again (s : Setup) (m : Option Marker) (ms : List (Option Marker)) :
    latestColours s (m :: m :: ms) = latestColours s (m :: ms) := by
  cases m with
  | none => rfl
  | some m => unfold latestColours; cases h : colours s m <;> simp [latestColours, h]

/-- **C123**, controls: whatever the user does, also reloading the page, the points have the colors of what the dropdown shows, or, if that has no
colors, of what it has shown latest that has. -/
theorem c123_colours (s : Setup) (es : List Event) : (session s es).2.colours = latestColours s (dropdown es) := by
  induction es with
  | nil =>
    show (update s initial 2 (some .ele)).1.colours = latestColours s [some .ele]
    exact update_colours s initial 2 (some .ele) (by decide) [] rfl
  | cons e es ih =>
    obtain ⟨-, i2, i3⟩ := session_page s es
    have new : ∀ n m, (update s (session s es).2 n m).1.colours = latestColours s (m :: dropdown es) := by
      intro n m
      by_cases hm : (session s es).2.lastMarker = m
      · rw [update_colours_same _ _ _ _ hm, ih]
        rw [i3] at hm
        rw [hm] at i2
        obtain ⟨ms, hms⟩ := List.head?_eq_some_iff.mp i2.symm
        rw [hms, latest_again]
      · exact update_colours s _ n m hm _ ih
    cases e with
    | slide n =>
      show (update s (session s es).2 n (session s es).1.marker).1.colours = latestColours s (dropdown es)
      rw [update_colours_same _ _ _ _ i3, ih]
    | choose m => exact new _ _
    | reload => exact new _ _

/-- **C123** (partial: as long as the page is not loaded again; the full statement includes that, and is false, `c123_reload`), controls: the points
have the size of the slider. -/
theorem c123_size_partial (s : Setup) (es : List Event) (h : Event.reload ∉ es) :
    (session s es).2.size = slider es ∧ (session s es).2.lastSize = slider es := by
  induction es with
  | nil =>
    have : ∀ r : Res (List Colour), (match r with
      | .ok c => (({ lastSize := 2, lastMarker := some .ele, size := 2, colours := some c } : State), Res.ok ())
      | .throw e => ({ lastSize := 2, lastMarker := some .ele, size := 2, colours := none }, .throw e)
      | .ub e => ({ lastSize := 2, lastMarker := some .ele, size := 2, colours := none }, .ub e)
      | .abort => ({ lastSize := 2, lastMarker := some .ele, size := 2, colours := none }, .abort)
      | .hang => ({ lastSize := 2, lastMarker := some .ele, size := 2, colours := none }, .hang)).1.size = 2
      ∧ (match r with
      | .ok c => (({ lastSize := 2, lastMarker := some .ele, size := 2, colours := some c } : State), Res.ok ())
      | .throw e => ({ lastSize := 2, lastMarker := some .ele, size := 2, colours := none }, .throw e)
      | .ub e => ({ lastSize := 2, lastMarker := some .ele, size := 2, colours := none }, .ub e)
      | .abort => ({ lastSize := 2, lastMarker := some .ele, size := 2, colours := none }, .abort)
      | .hang => ({ lastSize := 2, lastMarker := some .ele, size := 2, colours := none }, .hang)).1.lastSize = 2 := by
      intro r; cases r <;> exact ⟨rfl, rfl⟩
    exact this (colours s .ele)
  | cons e es ih =>
    obtain ⟨i1, i2⟩ := ih (fun hm => h (by simp [hm]))
    obtain ⟨j1, -, j3⟩ := session_page s es
    cases e with
    | reload => simp at h
    | slide n =>
      show (update s (session s es).2 n (session s es).1.marker).1.size = n ∧ (update s (session s es).2 n (session s es).1.marker).1.lastSize = n
      unfold update
      rw [if_neg (by simpa using j3)]
      by_cases hn : (session s es).2.lastSize ≠ n
      · rw [if_pos hn]; exact ⟨rfl, rfl⟩
      · rw [if_neg hn]
        rw [not_not.mp hn] at i2
        exact ⟨i1.trans i2.symm, not_not.mp hn⟩
    | choose m =>
      show (update s (session s es).2 (session s es).1.size m).1.size = slider es ∧ (update s (session s es).2 (session s es).1.size m).1.lastSize = slider es
      unfold update
      by_cases hm : (session s es).2.lastMarker ≠ m
      · rw [if_pos hm]
        dsimp only
        split <;> exact ⟨i1, i2⟩
      · rw [if_neg hm, if_neg (by rw [i2, j1]; simp)]
        exact ⟨i1, i2⟩

/-- A cloud with two points that differ in elevation, class and color. -/
def viewedCloud : SpocFile :=
  { SpocFile.empty with prs := [{ x := num 1, z := num 1, c := 2, r := 65535 }, { x := num 2, z := num 5, c := 6, g := 256 }] }

def viewerSetup : Setup :=
  { build := .release, header := { signature := [], major := 0, minor := 1, wkt := [], extraFields := 0, totalPoints := 2, compressed := 0 },
    file := viewedCloud, elevationColours := List.replicate 8 ⟨0, 0, 200⟩ ++ [⟨255, 0, 0⟩], segmentColours := List.replicate 256 ⟨1, 2, 3⟩ }

/-- The cloud meets what the colors by elevation and by class ask for. -/
example : viewerSetup.elevationColours.length = 9 ∧ (∀ q ∈ viewerSetup.file.prs, q.z.isFinite = true)
    ∧ (∀ q ∈ viewerSetup.file.prs, |q.z.val| ≤ 2 ^ 997) ∧ (∀ q ∈ viewerSetup.file.prs, (num 1).val ≤ q.z.val ∧ q.z.val ≤ (num 5).val)
    ∧ (num 1).val < (num 5).val ∧ (∀ q ∈ viewerSetup.file.prs, q.c.toNat < 28) := by
  have n1 : (num 1).val = 1 := by rw [num, F64.ofInt_val (by decide)]; norm_num
  have n5 : (num 5).val = 5 := by rw [num, F64.ofInt_val (by decide)]; norm_num
  have big : (8 : ℝ) ≤ 2 ^ 997 := by
    have : (2 : ℝ) ^ 3 ≤ 2 ^ 997 := pow_le_pow_right₀ (by norm_num) (by norm_num)
    norm_num at this
    exact this
  have hp : ∀ q ∈ viewerSetup.file.prs, q.z = num 1 ∨ q.z = num 5 := by decide +kernel
  refine ⟨by decide, by decide +kernel, ?_, ?_, by rw [n1, n5]; norm_num, by decide +kernel⟩
  · intro q hq
    rcases hp q hq with e | e <;> rw [e]
    · rw [n1, abs_of_pos (by norm_num)]; exact le_trans (by norm_num) big
    · rw [n5, abs_of_pos (by norm_num)]; exact le_trans (by norm_num) big
  · intro q hq
    rcases hp q hq with e | e <;> rw [e, n1, n5] <;> norm_num

/-- A flat cloud of two points with segments, of which one has a color and one has not. -/
example : let ps : List PointRecord := [{ x := num 1, z := num 4, extra := [3] }, { x := num 2, z := num 4, extra := [300], c := 30 }]
    (∀ q ∈ ps, q.z = num 4) ∧ (num 4).isFinite = true ∧ (∃ q ∈ ps, 28 ≤ q.c.toNat) ∧ (∀ q ∈ ps, 0 < q.extra.length)
      ∧ (∃ q ∈ ps, ∃ e, q.extra[0]? = some e ∧ viewerSetup.segmentColours.length ≤ e.toNat) := by
  refine ⟨by decide +kernel, by decide +kernel, by decide +kernel, by decide +kernel, _, List.mem_cons_of_mem _ (List.mem_singleton_self _), 300, rfl, ?_⟩
  show (List.replicate 256 _).length ≤ _
  rw [List.length_replicate]
  decide

/-- A session without loading the page again. -/
example : Event.reload ∉ [Event.choose (some .cls), .slide 4, .choose none] ∧ slider [Event.choose (some .cls), .slide 4, .choose none] = 4 := by decide

/-- **C123**, limit: if the dropdown and the slider have been used and the page is loaded again, the slider shows 2 and the points have the old
size. -/
theorem c123_reload : let es := [Event.reload, .choose (some .rgb), .slide 5]
    slider es = 2 ∧ (session viewerSetup es).2.size = 5 := by
  decide +kernel

/-- **C123**, limit: a choice that fails leaves the points as they were.  Here the dropdown shows segments, and the points have the colors by
elevation. -/
theorem c123_failed_choice : (session viewerSetup [Event.choose (some .seg)]).1.marker = some .seg
    ∧ (session viewerSetup [Event.choose (some .seg)]).2.colours = some [⟨0, 0, 200⟩, ⟨255, 0, 0⟩] := by
  decide +kernel

end Spoc.Props
