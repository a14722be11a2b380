import Verif.Proofs.Commute

/-!
# C102: the order of the commands of the transform application
-/

namespace Spoc.Props

open Spec Transform AppUtils Text

/-- Two neighbouring commands that spare each other can be exchanged. -/
theorem apply_swap (b : Build) (env : Env) (seed : Nat) (s : IStream) (before after : List Command) (c1 c2 : Command) (out : Bytes)
    (hap : Independent c1.name c1.params c2.name c2.params)
    (h : Transform.apply b env s (before ++ c1 :: c2 :: after) seed = ⟨out, .ok ()⟩) :
    Transform.apply b env s (before ++ c2 :: c1 :: after) seed = ⟨out, .ok ()⟩ := by
  rw [apply_ok] at h ⊢
  obtain ⟨hg, hd, s', ops, qs, hr, hc, hops, hall, rfl⟩ := h
  rw [List.mapM_append, Res.bind_eq_ok] at hops
  obtain ⟨o0, h0, hops⟩ := hops
  rw [Res.bind_eq_ok] at hops
  obtain ⟨ot, ht, hops⟩ := hops
  simp only [Res.pure_def, Res.ok.injEq] at hops
  rw [List.mapM_cons, Res.bind_eq_ok] at ht
  obtain ⟨o1, h1, ht⟩ := ht
  rw [Res.bind_eq_ok] at ht
  obtain ⟨ot', ht', ht⟩ := ht
  simp only [Res.pure_def, Res.ok.injEq] at ht
  rw [List.mapM_cons, Res.bind_eq_ok] at ht'
  obtain ⟨o2, h2, ht'⟩ := ht'
  rw [Res.bind_eq_ok] at ht'
  obtain ⟨o3, h3, ht'⟩ := ht'
  simp only [Res.pure_def, Res.ok.injEq] at ht'
  subst ht' ht hops
  obtain ⟨R1, W1, u1, n1, l1⟩ := local_changes b env seed _ c1 o1 h1
  obtain ⟨R2, W2, u2, n2, l2⟩ := local_changes b env seed _ c2 o2 h2
  refine ⟨hg, hd, s', o0 ++ o2 :: o1 :: o3, qs, hr, hc, ?_, ?_, rfl⟩
  · rw [List.mapM_append, h0, Res.ok_bind, List.mapM_cons, h2, Res.ok_bind, List.mapM_cons, h1, Res.ok_bind, h3]
    rfl
  · rw [applyAll_ok] at hall ⊢
    refine ⟨hall.1, fun i p hp => ?_⟩
    obtain ⟨q, hq, ha⟩ := hall.2 i p hp
    refine ⟨q, hq, applyOps_swap (fun n p m q hm hq => ?_) o0 o3 _ p q ha⟩
    exact local_commute l1 l2 (hap.1 W1 W2 n1 (Or.inl n2)) (hap.1 W1 R2 n1 (Or.inr u2)) (hap.2 W2 R1 n2 (Or.inr u1)) hm hq

/-- **C102.**  If no command of a list changes a field that another command of the list changes or depends on, then the order of the
commands in the list does not matter: for every input and every output, and whatever commands come before and after, the run succeeds
with that output in the one order exactly if it does in the other. -/
theorem c102_any_order (b : Build) (env : Env) (seed : Nat) (s : IStream) (before cs ds after : List Command)
    (hperm : cs.Perm ds) (hap : cs.Pairwise (fun c d => Independent c.name c.params d.name d.params)) (out : Bytes) :
    Transform.apply b env s (before ++ cs ++ after) seed = ⟨out, .ok ()⟩ ↔
      Transform.apply b env s (before ++ ds ++ after) seed = ⟨out, .ok ()⟩ := by
  have hsymm : ∀ {c d : Command}, Independent c.name c.params d.name d.params → Independent d.name d.params c.name c.params :=
    fun h => ⟨h.2, h.1⟩
  have key : ∀ {cs ds : List Command}, cs.Perm ds → ∀ before : List Command,
      cs.Pairwise (fun c d => Independent c.name c.params d.name d.params) →
      Transform.apply b env s (before ++ cs ++ after) seed = ⟨out, .ok ()⟩ →
      Transform.apply b env s (before ++ ds ++ after) seed = ⟨out, .ok ()⟩ := by
    intro cs ds hp
    induction hp with
    | nil => exact fun _ _ h => h
    | cons c _ ih =>
      intro before ha h
      have e : ∀ l : List Command, before ++ c :: l ++ after = (before ++ [c]) ++ l ++ after := by simp
      rw [e] at h ⊢
      exact ih _ (List.pairwise_cons.mp ha).2 h
    | swap c d l =>
      intro before ha h
      rw [List.append_assoc, List.cons_append, List.cons_append] at h ⊢
      exact apply_swap b env seed s before (l ++ after) d c out ((List.pairwise_cons.mp ha).1 c (by simp)) h
    | trans h1 _ ih1 ih2 =>
      intro before ha h
      exact ih2 before ((h1.pairwise_iff hsymm).mp ha) (ih1 before ha h)
  exact ⟨key hperm before hap, key hperm.symm before ((hperm.pairwise_iff hsymm).mp hap)⟩

/-- **C102** on the command line: options that give independent commands can be given in any order. -/
theorem c102_options (b : Build) (env : Env) (s : IStream) (os os' : List (String × Str)) (hperm : os.Perm os')
    (hc : ∀ o ∈ os, o.1 ∈ commandOptions) (hap : os.Pairwise (fun o o' => Independent o.1 o.2 o'.1 o'.2)) (out : Bytes) :
    Transform.main b env os s = ⟨out, .ok ()⟩ ↔ Transform.main b env os' s = ⟨out, .ok ()⟩ := by
  by_cases hne : os = []
  · subst hne
    rw [List.nil_perm.mp hperm]
  · rw [main_commands b env os hne hc, main_commands b env os' (fun h => hne (by rw [h] at hperm; exact List.perm_nil.mp hperm))
      (fun o ho => hc o (hperm.mem_iff.mpr ho))]
    have := c102_any_order b env 0 s [] (os.map (fun o => ⟨o.1, o.2⟩)) (os'.map (fun o => ⟨o.1, o.2⟩)) [] (hperm.map _)
      (List.pairwise_map.mpr hap) out
    rw [List.nil_append, List.append_nil, List.nil_append, List.append_nil] at this
    exact this

/-- For commands that change what they name, it is enough to look at the names. -/
theorem independent_of_apart {n1 n2 : String} {p1 p2 : Str} (h : Apart n1 p1 n2 p2)
    (hw1 : n1 = "replace-not" → ∀ f ∈ misdirected, ¬ Named n1 p1 [f]) (hw2 : n2 = "replace-not" → ∀ f ∈ misdirected, ¬ Named n2 p2 [f]) :
    Independent n1 p1 n2 p2 := by
  have hch : ∀ {n p fs}, (n = "replace-not" → ∀ f ∈ misdirected, ¬ Named n p [f]) → Changes n p fs → Named n p fs := by
    intro n p fs hw hc
    cases hc with
    | named h _ => exact h
    | replaceNot h hm => exact absurd h (hw rfl _ hm)
  have hde : ∀ {n p fs}, (n = "replace-not" → ∀ f ∈ misdirected, ¬ Named n p [f]) → DependsOn n p fs → Uses n p fs := by
    intro n p fs hw hc
    cases hc with
    | uses h _ => exact h
    | replaceNot h hm => exact absurd h (hw rfl _ hm)
  exact ⟨fun fs gs h1 h2 => h.1 fs gs (hch hw1 h1) (h2.imp (hch hw2) (hde hw2)),
    fun fs gs h1 h2 => h.2 fs gs (hch hw2 h1) (h2.imp (hch hw1) (hde hw1))⟩

/-- Commands with a number do not depend on each other if they change different coordinates. -/
theorem apart_geometric {n1 n2 : String} {fs gs : List Field} (h1 : (n1, fs) ∈ geometric) (h2 : (n2, gs) ∈ geometric)
    (hd : ∀ f ∈ fs, f ∉ gs) (p1 p2 : Str) : Apart n1 p1 n2 p2 := by
  constructor
  · rintro as bs ha (hb | hb)
    · rw [named_geometric h1 ha, named_geometric h2 hb]; exact hd
    · rw [named_geometric h1 ha, uses_geometric h2 hb]; exact hd
  · rintro as bs ha (hb | hb)
    · rw [named_geometric h2 ha, named_geometric h1 hb]; exact fun f h h' => hd f h' h
    · rw [named_geometric h2 ha, uses_geometric h1 hb]; exact fun f h h' => hd f h' h

/-- Commands with a number do not depend on set. -/
theorem apart_geometric_set {n1 : String} {fs : List Field} (h1 : (n1, fs) ∈ geometric) (p1 p2 : Str)
    (hd : meaning (p2.takeWhile isAlnum) ∉ fs) : Apart n1 p1 "set" p2 := by
  constructor
  · rintro as bs ha (hb | hb)
    · rw [named_geometric h1 ha, named_first (by simp) hb]
      intro f hf hf'
      rw [List.mem_singleton] at hf'
      exact hd (hf' ▸ hf)
    · rw [uses_set hb]; simp
  · intro as bs ha hb
    rw [named_first (by simp) ha]
    rintro f hf hf'
    rw [List.mem_singleton] at hf
    subst hf
    rcases hb with hb | hb
    · rw [named_geometric h1 hb] at hf'; exact hd hf'
    · rw [uses_geometric h1 hb] at hf'; exact hd hf'

/-- The premises hold for three commands. -/
example : [(⟨"rotate-z", "90".toList⟩ : Command), ⟨"add-z", "3".toList⟩, ⟨"set", "e0,1".toList⟩].Pairwise
      (fun c d => Independent c.name c.params d.name d.params) := by
  refine List.pairwise_cons.mpr ⟨?_, List.pairwise_cons.mpr ⟨?_, by simp⟩⟩
  · intro d hd
    simp only [List.mem_cons, List.not_mem_nil, or_false] at hd
    rcases hd with rfl | rfl
    · exact independent_of_apart (apart_geometric (fs := [.x, .y]) (gs := [.z]) (by decide) (by decide) (by decide) _ _) (by simp) (by simp)
    · exact independent_of_apart (apart_geometric_set (fs := [.x, .y]) (by decide) _ _ (by decide)) (by simp) (by simp)
  · intro d hd
    rw [List.mem_singleton] at hd
    subst hd
    exact independent_of_apart (apart_geometric_set (fs := [.z]) (by decide) _ _ (by decide)) (by simp) (by simp)

/-- They hold for replace-not and a command that leaves the class alone, too. -/
example : Independent "replace-not" "p,1,2".toList "set" "i,4".toList := by
  have hm : meaning ("p,1,2".toList.takeWhile isAlnum) = .p := by decide
  have hm' : meaning ("i,4".toList.takeWhile isAlnum) = .i := by decide
  have c1 : ∀ {fs}, Changes "replace-not" "p,1,2".toList fs → fs = [.c] := by
    intro fs h
    cases h with
    | named h hne => rw [named_first (by simp) h, hm] at hne; exact absurd rfl (hne rfl .p (by decide))
    | replaceNot => rfl
  have c2 : ∀ {fs}, Changes "set" "i,4".toList fs → fs = [.i] := by
    intro fs h
    generalize hn : "set" = n at h
    cases h with
    | named h hne => subst hn; rw [named_first (by simp) h, hm']
    | replaceNot => exact absurd hn (by decide)
  have d1 : ∀ {fs}, DependsOn "replace-not" "p,1,2".toList fs → fs = [.p, .c] := by
    intro fs h
    cases h with
    | uses h hne => rw [uses_first (by simp) h, hm] at hne; exact absurd rfl (hne rfl .p (by decide))
    | replaceNot h hf =>
      have := named_first (by simp) h
      rw [hm] at this
      rw [(List.cons.inj this).1]
  have d2 : ∀ {fs}, DependsOn "set" "i,4".toList fs → fs = [] := by
    intro fs h
    generalize hn : "set" = n at h
    cases h with
    | uses h hne => subst hn; exact uses_set h
    | replaceNot => exact absurd hn (by decide)
  constructor
  · rintro fs gs h1 (h2 | h2)
    · rw [c1 h1, c2 h2]; decide
    · rw [d2 h2]; simp
  · rintro fs gs h1 (h2 | h2)
    · rw [c2 h1, c1 h2]; decide
    · rw [c2 h1, d1 h2]; decide

/-- The run succeeds for such commands. -/
example : Transform.apply .debug exampleEnv { rest := image exampleHeader exampleRecords }
    [⟨"add-x", "2".toList⟩, ⟨"set", "e0,1".toList⟩] 0 =
    ⟨image exampleHeader [{ x := num 2, c := 3, extra := [1] }, { x := num 3, c := 4, extra := [1] }], .ok ()⟩ := by
  decide +kernel

/-- **C102**, limit: the names are not enough.  `replace-not p,1,2` and `replace c,2,9` name different fields, each looks only at the field that it names, but the
result depends on the order. -/
theorem c102_replace_not :
    Apart "replace-not" "p,1,2".toList "replace" "c,2,9".toList
      ∧ Transform.main .release exampleEnv [("replace-not", "p,1,2".toList), ("replace", "c,2,9".toList)]
          { rest := image exampleHeader exampleRecords }
        = ⟨image exampleHeader [{ c := 9, extra := [5] }, { x := F64.one, c := 9, extra := [6] }], .ok ()⟩
      ∧ Transform.main .release exampleEnv [("replace", "c,2,9".toList), ("replace-not", "p,1,2".toList)]
          { rest := image exampleHeader exampleRecords }
        = ⟨image exampleHeader [{ c := 2, extra := [5] }, { x := F64.one, c := 2, extra := [6] }], .ok ()⟩ := by
  refine ⟨⟨?_, ?_⟩, by decide +kernel, by decide +kernel⟩
  · rintro as bs ha (hb | hb)
    · rw [named_first (by simp) ha, named_first (by simp) hb]; decide
    · rw [named_first (by simp) ha, uses_first (by simp) hb]; decide
  · rintro as bs ha (hb | hb)
    · rw [named_first (by simp) ha, named_first (by simp) hb]; decide
    · rw [named_first (by simp) ha, uses_first (by simp) hb]; decide

/-- **C102**, limit: commands for the same field do not commute. -/
theorem c102_same_field :
    Transform.main .release exampleEnv [("add-x", "1".toList), ("scale-x", "2".toList)]
          { rest := image exampleHeader exampleRecords }
        = ⟨image exampleHeader [{ x := num 2, c := 3, extra := [5] }, { x := num 4, c := 4, extra := [6] }], .ok ()⟩
      ∧ Transform.main .release exampleEnv [("scale-x", "2".toList), ("add-x", "1".toList)]
          { rest := image exampleHeader exampleRecords }
        = ⟨image exampleHeader [{ x := num 1, c := 3, extra := [5] }, { x := num 3, c := 4, extra := [6] }], .ok ()⟩ :=
  ⟨by decide +kernel, by decide +kernel⟩

end Spoc.Props
