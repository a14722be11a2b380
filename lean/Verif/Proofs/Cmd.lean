import Verif.Proofs.Getopt
import Verif.Model.Main
import Mathlib.Data.List.Nodup

/-!
# The option tables of the applications
-/

namespace Spoc.Cmd

open Getopt Spec.Cmd

instance (longs : List LongOpt) : Decidable (Good longs) :=
  decidable_of_iff (((longs.map (fun o => o.name)).Nodup) ∧ (∀ o ∈ longs, o.name ≠ []) ∧ ∀ o ∈ longs, '=' ∉ o.name)
    ⟨fun h => ⟨h.1, h.2.1, h.2.2⟩, fun h => ⟨h.1, h.2, h.3⟩⟩

instance (shorts : List (Char × Bool)) (short : List LongOpt) : Decidable (Letters shorts short) :=
  decidable_of_iff ((∀ o ∈ short, shorts.lookup (letter o) = some o.hasArg) ∧ (∀ o ∈ short, (letter o).toNat = o.val)
      ∧ ∀ o ∈ short, letter o ≠ '-')
    ⟨fun h => ⟨h.1, h.2.1, h.2.2⟩, fun h => ⟨h.1, h.2, h.3⟩⟩

theorem good (n : Main.Name) : Good n.table.longs := by cases n <;> decide +kernel

theorem vals (n : Main.Name) : (n.table.longs.map (fun o => o.val)).Nodup := by cases n <;> decide +kernel

theorem letters (n : Main.Name) (hn : n ≠ .transform) : Letters (shortsOf n.table.optstring) (withLetter n.table.longs) := by
  cases n <;> first | exact absurd rfl hn | decide +kernel

theorem nameOf_mem {longs : List LongOpt} (h : (longs.map (fun o => o.val)).Nodup) {o : LongOpt} (ho : o ∈ longs) :
    nameOf longs o.val = String.ofList o.name := by
  have : longs.find? (fun p => decide (p.val = o.val)) = some o := by
    induction longs with
    | nil => simp at ho
    | cons p ps ih =>
      simp only [List.map_cons, List.nodup_cons] at h
      rcases List.mem_cons.mp ho with rfl | ho
      · simp
      · have hne : p.val ≠ o.val := fun e => h.1 (e ▸ List.mem_map_of_mem ho)
        rw [List.find?_cons_of_neg (by simpa using hne)]
        exact ih h.2 ho
  rw [nameOf, this]

/-- Every letter of the option string is a value of the table. -/
theorem letters_known (n : Main.Name) : ∀ s ∈ shortsOf n.table.optstring, ∃ o ∈ n.table.longs, letter o = s.1 := by
  cases n <;> decide +kernel

theorem unknown_name (n : Main.Name) : nameOf n.table.longs unknown.val = "?" := by cases n <;> decide +kernel

theorem lookup_none {l : List (Char × Bool)} {c : Char} (h : ∀ s ∈ l, s.1 ≠ c) : l.lookup c = none := by
  induction l with
  | nil => rfl
  | cons s l ih =>
    have h1 := h s List.mem_cons_self
    obtain ⟨x, y⟩ := s
    rw [List.lookup_cons, beq_false_of_ne (Ne.symm h1)]
    exact ih (fun t ht => h t (List.mem_cons_of_mem _ ht))

theorem letters_transform : Letters (shortsOf Main.Name.transform.table.optstring)
    ((withLetter Main.Name.transform.table.longs).filter (fun o => !o.hasArg)) := by decide +kernel

/-- Letters of options without argument work in all applications. -/
theorem letters_flags (n : Main.Name) : Letters (shortsOf n.table.optstring) ((withLetter n.table.longs).filter (fun o => !o.hasArg)) := by
  cases n <;> decide +kernel

/-- Two options of a table differ in their values. -/
theorem vals_ne {longs : List LongOpt} (h : (longs.map (fun o => o.val)).Nodup) {o p : LongOpt} (ho : o ∈ longs) (hp : p ∈ longs)
    (hop : o ≠ p) : o.val ≠ p.val := by
  intro e
  exact hop (List.inj_on_of_nodup_map h ho hp e)

theorem letter_arg (n : Main.Name) : ∀ o ∈ withLetter n.table.longs, o.hasArg = true →
    (shortsOf n.table.optstring).lookup (letter o) ≠ some false ∧ letter o ≠ '-' := by
  cases n <;> decide +kernel

theorem prefix_noEq {q v : Str} (he : '=' ∉ q) (hv : v = [] ∨ v.head? = some '=') :
    (q ++ v).takeWhile (fun c => decide (c ≠ '=')) = q := by
  rcases hv with rfl | hv
  · rw [List.append_nil, take_noEq he]
  · cases v with
    | nil => simp at hv
    | cons c cs =>
      simp only [List.head?_cons, Option.some.injEq] at hv
      subst hv
      exact take_eq he

theorem long_unknown {longs : List LongOpt} {q v : Str} (he : '=' ∉ q) (hv : v = [] ∨ v.head? = some '=')
    (h : longMatch longs q = none) (rest : List Str) : long longs (q ++ v) rest = (unknown, rest) := by
  unfold long
  dsimp only
  rw [prefix_noEq he hv, h]

theorem filter_two {α : Type} {p : α → Bool} {l : List α} {x y : α} (hx : x ∈ l) (hy : y ∈ l) (hxy : x ≠ y) (hpx : p x = true)
    (hpy : p y = true) : ∃ a as, l.filter p = a :: as ∧ ∃ b ∈ as, (a ≠ b) := by
  have h1 : x ∈ l.filter p := List.mem_filter.mpr ⟨hx, hpx⟩
  have h2 : y ∈ l.filter p := List.mem_filter.mpr ⟨hy, hpy⟩
  cases hl : l.filter p with
  | nil => rw [hl] at h1; simp at h1
  | cons a as =>
    rw [hl] at h1 h2
    refine ⟨a, as, rfl, ?_⟩
    rcases List.mem_cons.mp h1 with rfl | h1
    · rcases List.mem_cons.mp h2 with rfl | h2
      · exact absurd rfl hxy
      · exact ⟨y, h2, hxy⟩
    · by_cases hax : a = x
      · subst hax
        rcases List.mem_cons.mp h2 with rfl | h2
        · exact absurd rfl hxy
        · exact ⟨y, h2, hxy⟩
      · exact ⟨x, h1, hax⟩

/-- A mistake makes `getopt_long` return '?'. -/
theorem parse_wrong (n : Main.Name) {fs : List LongOpt} {words : List Str} (h : Wrong n.table.longs fs words) :
    ∃ more ops, n.table.parse words = (fs.map (fun o => (⟨o.val, none⟩ : Event)) ++ unknown :: more, ops) := by
  have hg := good n
  have hl := letters_flags n
  have hflag : ∀ f, f ∈ withLetter n.table.longs ∧ f.hasArg = false →
      f ∈ (withLetter n.table.longs).filter (fun o => !o.hasArg) ∧ f.hasArg = false := by
    rintro f ⟨h1, h2⟩
    exact ⟨List.mem_filter.mpr ⟨h1, by simp [h2]⟩, h2⟩
  cases h with
  | noSuchName q v rest hq he hn hv =>
    obtain ⟨c, s, rfl⟩ := List.exists_cons_of_ne_nil hq
    have hm : longMatch n.table.longs (c :: s) = none := by
      unfold longMatch
      have h1 : n.table.longs.find? (fun o => decide (o.name = c :: s)) = none := by
        rw [List.find?_eq_none]
        intro o ho he
        simp only [decide_eq_true_eq] at he
        exact hn o ho (he ▸ List.prefix_refl _)
      have h2 : n.table.longs.filter (fun o => (c :: s).isPrefixOf o.name) = [] := by
        rw [List.filter_eq_nil_iff]
        intro o ho hp
        exact hn o ho (List.isPrefixOf_iff_prefix.mp hp)
      rw [h1]
      dsimp only
      rw [h2]
    have hu := long_unknown he hv hm rest
    unfold App.parse
    rw [List.cons_append] at hu ⊢
    rw [parse_long, hu]
    exact ⟨_, _, rfl⟩
  | ambiguous q v rest hq he hn o p ho hp hop hqo hqp hv =>
    obtain ⟨c, s, rfl⟩ := List.exists_cons_of_ne_nil hq
    have hm : longMatch n.table.longs (c :: s) = none := by
      unfold longMatch
      have h1 : n.table.longs.find? (fun o => decide (o.name = c :: s)) = none := by
        rw [List.find?_eq_none]
        intro o ho he
        simp only [decide_eq_true_eq] at he
        exact hn o ho he
      obtain ⟨a, as, hf, b, hb, hab⟩ := filter_two (p := fun o => (c :: s).isPrefixOf o.name) ho hp hop
        (List.isPrefixOf_iff_prefix.mpr hqo) (List.isPrefixOf_iff_prefix.mpr hqp)
      have ha' : a ∈ n.table.longs := (List.mem_filter.mp (hf ▸ List.mem_cons_self : a ∈ List.filter _ _)).1
      have hb' : b ∈ n.table.longs := (List.mem_filter.mp (hf ▸ List.mem_cons_of_mem _ hb : b ∈ List.filter _ _)).1
      rw [h1]
      dsimp only
      rw [hf]
      dsimp only
      rw [if_neg]
      intro hall
      rw [List.all_eq_true] at hall
      have := hall b hb
      simp only [decide_eq_true_eq] at this
      exact vals_ne (vals n) ha' hb' hab this.2.symm
    have hu := long_unknown he hv hm rest
    unfold App.parse
    rw [List.cons_append] at hu ⊢
    rw [parse_long, hu]
    exact ⟨_, _, rfl⟩
  | superfluous q o v rest hq ha =>
    obtain ⟨c, s, rfl⟩ := List.exists_cons_of_ne_nil (names_ne_nil hg hq)
    have hu : long n.table.longs (c :: s ++ '=' :: v) rest = (unknown, rest) := by
      unfold long
      dsimp only
      rw [take_eq (noEq_prefix hg hq), drop_eq (noEq_prefix hg hq), longMatch_names hg hq]
      simp [ha]
    unfold App.parse
    rw [List.cons_append] at hu ⊢
    rw [parse_long, hu]
    exact ⟨_, _, rfl⟩
  | missing q o hq ha =>
    have hu : long n.table.longs q [] = (unknown, []) := by
      unfold long
      dsimp only
      rw [take_noEq (noEq_prefix hg hq), drop_noEq (noEq_prefix hg hq), longMatch_names hg hq]
      simp [ha]
    obtain ⟨c, s, rfl⟩ := List.exists_cons_of_ne_nil (names_ne_nil hg hq)
    unfold App.parse
    rw [parse_long, hu]
    exact ⟨_, _, rfl⟩
  | missingLetter _ o hf ho ha =>
    have hla := letter_arg n o ho ha
    have hu : ∃ more ops, cluster (shortsOf n.table.optstring) [letter o] [] = (unknown :: more, ops) := by
      rw [cluster.eq_def]
      dsimp only
      cases hlk : (shortsOf n.table.optstring).lookup (letter o) with
      | none => exact ⟨_, _, rfl⟩
      | some x =>
        cases x with
        | false => exact absurd hlk hla.1
        | true => exact ⟨_, _, rfl⟩
    obtain ⟨more, ops, hu⟩ := hu
    have hc := cluster_flags hl fs (fun f h => hflag f (hf f h)) [letter o] []
    rw [hu] at hc
    have hd : ∃ c cs, fs.map letter ++ [letter o] = c :: cs ∧ c ≠ '-' := by
      cases fs with
      | nil => exact ⟨_, _, rfl, hla.2⟩
      | cons f gs => exact ⟨_, _, rfl, hl.dash f (hflag f (hf f List.mem_cons_self)).1⟩
    obtain ⟨c, cs, he, hd⟩ := hd
    unfold App.parse
    rw [he] at hc ⊢
    rw [parse_letters _ _ _ _ hd, hc]
    dsimp only
    rw [List.append_assoc]
    exact ⟨_, _, rfl⟩
  | noSuchLetter _ c cs rest hf hcn hd =>
    have hlk : (shortsOf n.table.optstring).lookup c = none := by
      apply lookup_none
      intro s hs e
      obtain ⟨o, ho, h1⟩ := letters_known n s hs
      exact hcn o ho (h1.trans e)
    have hu : ∃ more ops, cluster (shortsOf n.table.optstring) (c :: cs) rest = (unknown :: more, ops) := by
      rw [cluster.eq_def]
      dsimp only
      rw [hlk]
      exact ⟨_, _, rfl⟩
    obtain ⟨more, ops, hu⟩ := hu
    have hc := cluster_flags hl fs (fun f h => hflag f (hf f h)) (c :: cs) rest
    rw [hu] at hc
    have hd : ∃ d ds, fs.map letter ++ c :: cs = d :: ds ∧ d ≠ '-' := by
      cases fs with
      | nil => exact ⟨_, _, rfl, hd⟩
      | cons f gs => exact ⟨_, _, rfl, hl.dash f (hflag f (hf f List.mem_cons_self)).1⟩
    obtain ⟨d, ds, he, hd⟩ := hd
    unfold App.parse
    rw [he] at hc ⊢
    rw [parse_letters _ _ _ _ hd, hc]
    dsimp only
    rw [List.append_assoc]
    exact ⟨_, _, rfl⟩

end Spoc.Cmd
