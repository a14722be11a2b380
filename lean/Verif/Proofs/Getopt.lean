import Verif.Spec.Cmd

/-!
# Lemmas about `getopt_long`
-/

namespace Spoc.Getopt

open Spec.Cmd

theorem long_length (longs : List LongOpt) (s : Str) (rest : List Str) : (long longs s rest).2.length ≤ rest.length := by
  unfold long
  dsimp only
  split
  · exact Nat.le_refl _
  · split
    · split
      · simp
      · simp
    · exact Nat.le_refl _
  · split <;> exact Nat.le_refl _

theorem cluster_length (shorts : List (Char × Bool)) (cs : Str) (rest : List Str) :
    (cluster shorts cs rest).2.length ≤ rest.length := by
  induction cs with
  | nil => exact Nat.le_refl _
  | cons c cs ih =>
    unfold cluster
    split
    · exact ih
    · exact ih
    · split <;> simp

variable (shorts : List (Char × Bool)) (longs : List LongOpt)

theorem parseN_fuel (n : Nat) : ∀ (m : Nat) (argv : List Str), argv.length ≤ n → n ≤ m →
    parseN shorts longs m argv = parseN shorts longs n argv := by
  induction n with
  | zero =>
    intro m argv h _
    have : argv = [] := List.length_eq_zero_iff.mp (by omega)
    subst this
    cases m <;> rfl
  | succ n ih =>
    intro m argv h hm
    obtain ⟨m, rfl⟩ : ∃ k, m = k + 1 := ⟨m - 1, by omega⟩
    cases argv with
    | nil => rfl
    | cons a rest =>
      have hr : rest.length ≤ n := by simpa using h
      unfold parseN
      split
      · split
        · rfl
        · have hl := long_length longs ‹Str› rest
          dsimp only
          rw [ih m _ (by omega) (by omega)]
      · rename_i c cs _
        have hl := cluster_length shorts (c :: cs) rest
        dsimp only
        rw [ih m _ (by omega) (by omega)]
      · dsimp only
        rw [ih m _ (by omega) (by omega)]

theorem parse_nil : parse shorts longs [] = ([], []) := rfl

theorem parse_end (rest : List Str) : parse shorts longs (['-', '-'] :: rest) = ([], rest) := rfl

theorem parse_long (c : Char) (s : Str) (rest : List Str) :
    parse shorts longs (('-' :: '-' :: c :: s) :: rest)
      = ((long longs (c :: s) rest).1 :: (parse shorts longs (long longs (c :: s) rest).2).1,
         (parse shorts longs (long longs (c :: s) rest).2).2) := by
  have hl := long_length longs (c :: s) rest
  have : parse shorts longs (('-' :: '-' :: c :: s) :: rest)
      = ((long longs (c :: s) rest).1 :: (parseN shorts longs rest.length (long longs (c :: s) rest).2).1,
         (parseN shorts longs rest.length (long longs (c :: s) rest).2).2) := rfl
  rw [this, parseN_fuel shorts longs _ _ _ (Nat.le_refl _) hl]
  rfl

theorem parse_letters (c : Char) (cs : Str) (hc : c ≠ '-') (rest : List Str) :
    parse shorts longs (('-' :: c :: cs) :: rest)
      = ((cluster shorts (c :: cs) rest).1 ++ (parse shorts longs (cluster shorts (c :: cs) rest).2).1,
         (parse shorts longs (cluster shorts (c :: cs) rest).2).2) := by
  have hl := cluster_length shorts (c :: cs) rest
  have : parse shorts longs (('-' :: c :: cs) :: rest)
      = ((cluster shorts (c :: cs) rest).1 ++ (parseN shorts longs rest.length (cluster shorts (c :: cs) rest).2).1,
         (parseN shorts longs rest.length (cluster shorts (c :: cs) rest).2).2) := by
    show parseN shorts longs (rest.length + 1) _ = _
    conv => lhs; unfold parseN
    split
    · rename_i h
      simp only [List.cons.injEq, true_and] at h
      exact absurd h.1 hc
    · rename_i h
      simp only [List.cons.injEq, true_and] at h
      obtain ⟨rfl, rfl⟩ := h
      rfl
    · rename_i h1 h2
      exact absurd rfl (h2 c cs)
  rw [this, parseN_fuel shorts longs _ _ _ (Nat.le_refl _) hl]
  rfl

theorem parse_operand (t : Str) (ht : t.head? ≠ some '-' ∨ t = ['-']) (rest : List Str) :
    parse shorts longs (t :: rest) = ((parse shorts longs rest).1, t :: (parse shorts longs rest).2) := by
  show parseN shorts longs (rest.length + 1) _ = _
  conv => lhs; unfold parseN
  split
  · rcases ht with ht | ht <;> simp at ht
  · rcases ht with ht | ht <;> simp at ht
  · rfl

/-- What the parser needs of the option table. -/
structure Good (longs : List LongOpt) : Prop where
  names : (longs.map (fun o => o.name)).Nodup
  nonempty : ∀ o ∈ longs, o.name ≠ []
  noEq : ∀ o ∈ longs, '=' ∉ o.name

theorem find_name {longs : List LongOpt} (h : (longs.map (fun o => o.name)).Nodup) {o : LongOpt} (ho : o ∈ longs) :
    longs.find? (fun p => decide (p.name = o.name)) = some o := by
  induction longs with
  | nil => simp at ho
  | cons p ps ih =>
    simp only [List.map_cons, List.nodup_cons] at h
    rcases List.mem_cons.mp ho with rfl | ho
    · simp
    · have hne : p.name ≠ o.name := fun e => h.1 (e ▸ List.mem_map_of_mem ho)
      rw [List.find?_cons_of_neg (by simpa using hne)]
      exact ih h.2 ho

theorem longMatch_names {longs : List LongOpt} (h : Good longs) {q : Str} {o : LongOpt} (hq : Names longs q o) :
    longMatch longs q = some o := by
  obtain ⟨ho, hq⟩ := hq
  unfold longMatch
  rcases hq with rfl | ⟨_, hp, hu⟩
  · rw [find_name h.names ho]
  · cases hf : longs.find? (fun p => decide (p.name = q)) with
    | some p =>
      have h1 := List.find?_some hf
      have h2 := List.mem_of_find?_eq_some hf
      simp only [decide_eq_true_eq] at h1
      exact congrArg some (hu p h2 (h1 ▸ List.prefix_refl _))
    | none =>
      dsimp only
      have hmem : o ∈ longs.filter (fun p => q.isPrefixOf p.name) := by
        rw [List.mem_filter]
        exact ⟨ho, List.isPrefixOf_iff_prefix.mpr hp⟩
      have hall : ∀ p ∈ longs.filter (fun p => q.isPrefixOf p.name), p = o := by
        intro p hp'
        rw [List.mem_filter] at hp'
        exact hu p hp'.1 (List.isPrefixOf_iff_prefix.mp hp'.2)
      generalize longs.filter (fun p => q.isPrefixOf p.name) = l at hmem hall
      cases l with
      | nil => simp at hmem
      | cons p ps =>
        have hp0 : p = o := hall p List.mem_cons_self
        dsimp only
        rw [if_pos, hp0]
        rw [List.all_eq_true]
        intro x hx
        rw [hall x (List.mem_cons_of_mem _ hx), hp0]
        simp

theorem noEq_prefix {longs : List LongOpt} (h : Good longs) {q : Str} {o : LongOpt} (hq : Names longs q o) : '=' ∉ q := by
  obtain ⟨ho, hq⟩ := hq
  rcases hq with rfl | ⟨_, hp, _⟩
  · exact h.noEq o ho
  · exact fun hc => h.noEq o ho (hp.subset hc)

theorem names_ne_nil {longs : List LongOpt} (h : Good longs) {q : Str} {o : LongOpt} (hq : Names longs q o) : q ≠ [] := by
  obtain ⟨ho, hq⟩ := hq
  rcases hq with rfl | ⟨hn, _, _⟩
  · exact h.nonempty o ho
  · exact hn

theorem take_noEq {q : Str} (h : '=' ∉ q) : q.takeWhile (fun c => decide (c ≠ '=')) = q := by
  induction q with
  | nil => rfl
  | cons c q ih =>
    simp only [List.mem_cons, not_or] at h
    rw [List.takeWhile_cons_of_pos (by simpa using Ne.symm h.1), ih h.2]

theorem drop_noEq {q : Str} (h : '=' ∉ q) : q.dropWhile (fun c => decide (c ≠ '=')) = [] := by
  induction q with
  | nil => rfl
  | cons c q ih =>
    simp only [List.mem_cons, not_or] at h
    rw [List.dropWhile_cons_of_pos (by simpa using Ne.symm h.1), ih h.2]

theorem take_eq {q v : Str} (h : '=' ∉ q) : (q ++ '=' :: v).takeWhile (fun c => decide (c ≠ '=')) = q := by
  induction q with
  | nil => simp
  | cons c q ih =>
    simp only [List.mem_cons, not_or] at h
    rw [List.cons_append, List.takeWhile_cons_of_pos (by simpa using Ne.symm h.1), ih h.2]

theorem drop_eq {q v : Str} (h : '=' ∉ q) : (q ++ '=' :: v).dropWhile (fun c => decide (c ≠ '=')) = '=' :: v := by
  induction q with
  | nil => simp
  | cons c q ih =>
    simp only [List.mem_cons, not_or] at h
    rw [List.cons_append, List.dropWhile_cons_of_pos (by simpa using Ne.symm h.1), ih h.2]

theorem long_flag {longs : List LongOpt} (h : Good longs) {q : Str} {o : LongOpt} (hq : Names longs q o) (ha : o.hasArg = false)
    (rest : List Str) : long longs q rest = (⟨o.val, none⟩, rest) := by
  unfold long
  dsimp only
  rw [take_noEq (noEq_prefix h hq), drop_noEq (noEq_prefix h hq), longMatch_names h hq]
  simp [ha]

theorem long_eq {longs : List LongOpt} (h : Good longs) {q : Str} {o : LongOpt} (hq : Names longs q o) (ha : o.hasArg = true)
    (v : Str) (rest : List Str) : long longs (q ++ '=' :: v) rest = (⟨o.val, some v⟩, rest) := by
  unfold long
  dsimp only
  rw [take_eq (noEq_prefix h hq), drop_eq (noEq_prefix h hq), longMatch_names h hq]
  simp [ha]

theorem long_sep {longs : List LongOpt} (h : Good longs) {q : Str} {o : LongOpt} (hq : Names longs q o) (ha : o.hasArg = true)
    (v : Str) (rest : List Str) : long longs q (v :: rest) = (⟨o.val, some v⟩, rest) := by
  unfold long
  dsimp only
  rw [take_noEq (noEq_prefix h hq), drop_noEq (noEq_prefix h hq), longMatch_names h hq]
  simp [ha]

/-- The letters of `short` are in the option string. -/
structure Letters (shorts : List (Char × Bool)) (short : List LongOpt) : Prop where
  mem : ∀ o ∈ short, shorts.lookup (letter o) = some o.hasArg
  val : ∀ o ∈ short, (letter o).toNat = o.val
  dash : ∀ o ∈ short, letter o ≠ '-'

variable {shorts}

theorem cluster_flags {short : List LongOpt} (h : Letters shorts short) (fs : List LongOpt)
    (hf : ∀ f ∈ fs, f ∈ short ∧ f.hasArg = false) (cs : Str) (rest : List Str) :
    cluster shorts (fs.map letter ++ cs) rest
      = (fs.map (fun o => (⟨o.val, none⟩ : Event)) ++ (cluster shorts cs rest).1, (cluster shorts cs rest).2) := by
  induction fs with
  | nil => rfl
  | cons f fs ih =>
    have h1 := hf f List.mem_cons_self
    have h2 := h.mem f h1.1
    rw [h1.2] at h2
    have ih := ih (fun g hg => hf g (List.mem_cons_of_mem _ hg))
    simp only [List.map_cons, List.cons_append]
    rw [cluster.eq_def]
    dsimp only
    rw [h2]
    dsimp only
    rw [ih, h.val f h1.1]

theorem cluster_joined {short : List LongOpt} (h : Letters shorts short) {o : LongOpt} (ho : o ∈ short) (ha : o.hasArg = true)
    {v : Str} (hv : v ≠ []) (rest : List Str) : cluster shorts (letter o :: v) rest = ([⟨o.val, some v⟩], rest) := by
  have h2 := h.mem o ho
  rw [ha] at h2
  rw [cluster.eq_def]
  dsimp only
  rw [h2]
  cases v with
  | nil => exact absurd rfl hv
  | cons d ds =>
    dsimp only
    rw [h.val o ho]

theorem cluster_sep {short : List LongOpt} (h : Letters shorts short) {o : LongOpt} (ho : o ∈ short) (ha : o.hasArg = true)
    (v : Str) (rest : List Str) : cluster shorts [letter o] (v :: rest) = ([⟨o.val, some v⟩], rest) := by
  have h2 := h.mem o ho
  rw [ha] at h2
  rw [cluster.eq_def]
  dsimp only
  rw [h2]
  dsimp only
  rw [h.val o ho]

/-- The event for an option. -/
def event (x : LongOpt × Option Str) : Event := ⟨x.1.val, x.2⟩

/-- One item in front of a command line. -/
theorem parse_item {longs short : List LongOpt} (hg : Good longs) (hl : Letters shorts short) (it : Item)
    (hv : Valid longs short it) (rest : List Str) :
    parse shorts longs (it.text ++ rest)
      = (it.options.map event ++ (parse shorts longs rest).1, it.operands ++ (parse shorts longs rest).2) := by
  cases it with
  | long q o =>
    obtain ⟨hq, ha⟩ := hv
    have hn := names_ne_nil hg hq
    show parse shorts longs (('-' :: '-' :: q) :: rest) = _
    obtain ⟨c, s, rfl⟩ := List.exists_cons_of_ne_nil hn
    rw [parse_long, long_flag hg hq ha]
    rfl
  | longEq q o v =>
    obtain ⟨hq, ha⟩ := hv
    have hn := names_ne_nil hg hq
    show parse shorts longs (('-' :: '-' :: (q ++ '=' :: v)) :: rest) = _
    have hle := long_eq hg hq ha v rest
    obtain ⟨c, s, rfl⟩ := List.exists_cons_of_ne_nil hn
    rw [List.cons_append] at hle ⊢
    rw [parse_long, hle]
    rfl
  | longSep q o v =>
    obtain ⟨hq, ha⟩ := hv
    have hn := names_ne_nil hg hq
    show parse shorts longs (('-' :: '-' :: q) :: v :: rest) = _
    obtain ⟨c, s, rfl⟩ := List.exists_cons_of_ne_nil hn
    rw [parse_long, long_sep hg hq ha]
    rfl
  | letters fs =>
    obtain ⟨hne, hf⟩ := hv
    have hc := cluster_flags hl fs hf [] rest
    rw [List.append_nil] at hc
    show parse shorts longs (('-' :: fs.map letter) :: rest) = _
    obtain ⟨f, gs, rfl⟩ := List.exists_cons_of_ne_nil hne
    rw [List.map_cons] at hc ⊢
    rw [parse_letters _ _ _ _ (hl.dash f (hf f List.mem_cons_self).1), hc]
    simp [cluster, Item.options, Item.operands, event, Function.comp_def]
  | joined fs o v =>
    obtain ⟨hf, ho, ha, hv⟩ := hv
    have hc := cluster_flags hl fs hf (letter o :: v) rest
    rw [cluster_joined hl ho ha hv] at hc
    show parse shorts longs (('-' :: (fs.map letter ++ letter o :: v)) :: rest) = _
    have hd : ∃ c cs, fs.map letter ++ letter o :: v = c :: cs ∧ c ≠ '-' := by
      cases fs with
      | nil => exact ⟨_, _, rfl, hl.dash o ho⟩
      | cons f gs => exact ⟨_, _, rfl, hl.dash f (hf f List.mem_cons_self).1⟩
    obtain ⟨c, cs, he, hd⟩ := hd
    rw [he] at hc ⊢
    rw [parse_letters _ _ _ _ hd, hc]
    simp [Item.options, Item.operands, event, Function.comp_def]
  | sep fs o v =>
    obtain ⟨hf, ho, ha⟩ := hv
    have hc := cluster_flags hl fs hf [letter o] (v :: rest)
    rw [cluster_sep hl ho ha] at hc
    show parse shorts longs (('-' :: (fs.map letter ++ [letter o])) :: v :: rest) = _
    have hd : ∃ c cs, fs.map letter ++ [letter o] = c :: cs ∧ c ≠ '-' := by
      cases fs with
      | nil => exact ⟨_, _, rfl, hl.dash o ho⟩
      | cons f gs => exact ⟨_, _, rfl, hl.dash f (hf f List.mem_cons_self).1⟩
    obtain ⟨c, cs, he, hd⟩ := hd
    rw [he] at hc ⊢
    rw [parse_letters _ _ _ _ hd, hc]
    simp [Item.options, Item.operands, event, Function.comp_def]
  | operand t => exact parse_operand shorts longs t hv rest

/-- A whole command line. -/
theorem parse_items {longs short : List LongOpt} (hg : Good longs) (hl : Letters shorts short) (items : List Item)
    (hv : ∀ it ∈ items, Valid longs short it) (rest : List Str) :
    parse shorts longs (items.flatMap Item.text ++ rest)
      = ((items.flatMap Item.options).map event ++ (parse shorts longs rest).1,
         items.flatMap Item.operands ++ (parse shorts longs rest).2) := by
  induction items with
  | nil => rfl
  | cons it items ih =>
    simp only [List.flatMap_cons, List.append_assoc, List.map_append]
    rw [parse_item hg hl it (hv it List.mem_cons_self), ih (fun x hx => hv x (List.mem_cons_of_mem _ hx))]

end Spoc.Getopt
