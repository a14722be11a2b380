import Verif.Model.Filter
import Verif.Spec.Filter
import Verif.Proofs.Apps
import Verif.Proofs.F64Ops
import Verif.Proofs.Text
import Verif.Props.Subsampling

/-!
# Lemmas about the filter application
-/

namespace Spoc.Filter

open Spec Text

/-- `push_back` on a list that stays uniform. -/
theorem pushBack_eq {f : SpocFile} {q : PointRecord} (h : Uniform (f.prs ++ [q])) :
    f.pushBack q = .ok { f with prs := f.prs ++ [q] } := by
  unfold SpocFile.pushBack
  cases e : f.prs with
  | nil => rfl
  | cons q0 l =>
    rw [e] at h
    show (if _ then _ else _) = _
    rw [if_neg]
    simpa using h q (by simp) q0 (by simp)

theorem uniform_sublist {l m : List PointRecord} (h : Uniform m) (hs : l.Sublist m) : Uniform l :=
  fun p hp q hq => h p (hs.subset hp) q (hs.subset hq)

theorem pushAll_eq (f : SpocFile) (ps : List PointRecord) (h : Uniform (f.prs ++ ps)) :
    ps.foldlM (fun g p => g.pushBack p) f = .ok { f with prs := f.prs ++ ps } := by
  induction ps generalizing f with
  | nil => simp
  | cons p ps ih =>
    rw [List.foldlM_cons, pushBack_eq (uniform_sublist h (by simp)), Res.ok_bind, ih]
    · simp
    · simpa using h

theorem select_go (keep : PointRecord → Bool) (f : SpocFile) (ps : List PointRecord) (h : Uniform (f.prs ++ ps)) :
    ps.foldlM (fun g p => if keep p then g.pushBack p else .ok g) f
      = .ok { f with prs := f.prs ++ ps.filter keep } := by
  induction ps generalizing f with
  | nil => simp
  | cons p ps ih =>
    rw [List.foldlM_cons]
    cases hk : keep p with
    | false =>
      simp only [Bool.false_eq_true, if_false, Res.ok_bind]
      rw [ih f (uniform_sublist h (by simp)), List.filter_cons_of_neg (by simp [hk])]
    | true =>
      simp only [if_true]
      rw [pushBack_eq (uniform_sublist h (by simp)), Res.ok_bind, ih]
      · simp [hk]
      · simpa using h

theorem select_eq (keep : PointRecord → Bool) (f : SpocFile) (h : Uniform f.prs) :
    select f keep = .ok { f with prs := f.prs.filter keep } := by
  unfold select
  rw [select_go keep f.cloneEmpty f.prs (by simpa [SpocFile.cloneEmpty] using h)]
  simp [SpocFile.cloneEmpty]

theorem copy_eq {f : SpocFile} (h : Uniform f.prs) : f.copy = .ok f := by
  have := (Props.uniform_iff f).mp h
  unfold SpocFile.isValid at this
  unfold SpocFile.copy SpocFile.new
  rw [this]
  rfl

/-- The classes as the command line gives them: `atoi` of a decimal number. -/
theorem atoi_showNat {n : Nat} (h : n < 2 ^ 63) : atoi (showNat n) = Int.bmod n (2 ^ 32) := by
  unfold atoi strtol
  have := scanInt_of (isNumber_showNat n noDigit_nil)
  rw [List.append_nil] at this
  rw [this, decVal_showNat]
  congr 1
  simp only [reduceCtorEq, if_false]
  omega

theorem bmod_inj {a b : Nat} (ha : a < 2 ^ 32) (hb : b < 2 ^ 32) :
    Int.bmod (a : Int) (2 ^ 32) = Int.bmod (b : Int) (2 ^ 32) ↔ a = b := by
  constructor
  · intro h
    have := congrArg (fun x => x % (2 ^ 32 : Int)) h
    rw [show ((2 : Int) ^ 32) = ((2 ^ 32 : Nat) : Int) by norm_num, Int.bmod_emod, Int.bmod_emod] at this
    omega
  · rintro rfl; rfl

theorem toInt_mem {c : UInt32} {ns : List Nat} (hn : ∀ n ∈ ns, n < 2 ^ 32) :
    toInt c ∈ ns.map (fun n => atoi (showNat n)) ↔ c.toNat ∈ ns := by
  rw [List.mem_map]
  constructor
  · rintro ⟨n, hm, e⟩
    have h1 := hn n hm
    rw [atoi_showNat (by omega)] at e
    have := (bmod_inj h1 (UInt32.toNat_lt c)).mp e
    rw [← this]; exact hm
  · intro hm
    have h1 := hn _ hm
    exact ⟨_, hm, by rw [atoi_showNat (by omega)]; rfl⟩

theorem stage_false (g : SpocFile → Res SpocFile) (f : SpocFile) : stage false g f = .ok f := rfl

theorem stage_true {g : SpocFile → Res SpocFile} {f f' : SpocFile} (h : g f = .ok f') (hu : Uniform f'.prs) :
    stage true g f = .ok f' := by
  unfold stage
  rw [if_pos rfl, h, Res.ok_bind, copy_eq hu]

/-! ## Splitting -/

theorem splitGo_no {d : Char} {s : Str} (h : d ∉ s) (cur : Str) : splitGo d cur s = [cur ++ s] := by
  induction s generalizing cur with
  | nil => simp [splitGo]
  | cons c s ih =>
    simp only [List.mem_cons, not_or] at h
    unfold splitGo
    rw [if_neg (fun e => h.1 e.symm), ih h.2]
    simp

theorem splitGo_cons {d : Char} {s : Str} (h : d ∉ s) (cur r : Str) :
    splitGo d cur (s ++ d :: r) = (cur ++ s) :: splitGo d [] r := by
  induction s generalizing cur with
  | nil => simp [splitGo]
  | cons c s ih =>
    simp only [List.mem_cons, not_or] at h
    rw [List.cons_append, splitGo, if_neg (fun e => h.1 e.symm), ih h.2]
    simp

/-- The pieces put together again give the string, and contain no delimiter. -/
theorem splitGo_join (d : Char) (cur s : Str) (hc : d ∉ cur) :
    ∃ w ws, splitGo d cur s = w :: ws ∧ w ++ ws.flatMap (fun v => d :: v) = cur ++ s ∧ ∀ v ∈ w :: ws, d ∉ v := by
  induction s generalizing cur with
  | nil => exact ⟨cur, [], rfl, by simp, by simpa using hc⟩
  | cons c s ih =>
    unfold splitGo
    split
    · next e =>
      subst e
      obtain ⟨w, ws, h1, h2, h3⟩ := ih [] (by simp)
      refine ⟨cur, splitGo c [] s, rfl, ?_, ?_⟩
      · rw [h1]; simpa using h2
      · intro v hv
        rcases List.mem_cons.mp hv with rfl | hv
        · exact hc
        · rw [h1] at hv; exact h3 v hv
    · next e =>
      obtain ⟨w, ws, h1, h2, h3⟩ := ih (cur ++ [c]) (by simp [hc]; exact fun h => e h.symm)
      exact ⟨w, ws, h1, by simpa using h2, h3⟩

theorem split_three {d : Char} {s a r t : Str} :
    split d s = [a, r, t] ↔ s = a ++ d :: (r ++ d :: t) ∧ d ∉ a ∧ d ∉ r ∧ d ∉ t := by
  constructor
  · intro h
    obtain ⟨w, ws, h1, h2, h3⟩ := splitGo_join d [] s (by simp)
    unfold split at h
    rw [h1] at h
    injection h with e1 e2
    subst e1 e2
    refine ⟨by simpa using h2.symm, h3 _ (by simp), h3 _ (by simp), h3 _ (by simp)⟩
  · rintro ⟨rfl, h1, h2, h3⟩
    unfold split
    rw [splitGo_cons h1, splitGo_cons h2, splitGo_no h3]
    simp

theorem length_three {l : List Str} : (∃ a r t, l = [a, r, t]) ↔ l.length = 3 := by
  constructor
  · rintro ⟨a, r, t, rfl⟩; rfl
  · intro h
    match l, h with
    | [a, r, t], _ => exact ⟨a, r, t, rfl⟩

end Spoc.Filter
