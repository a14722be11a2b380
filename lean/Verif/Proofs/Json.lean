import Verif.Proofs.Info

/-!
# The JSON text that is printed can be read back
-/

namespace Spoc.Spec.Tree

open Text

/-- Only white space. -/
def Spaces (w : Str) : Prop := ∀ c ∈ w, isSpace c = true

/-- Text that can follow a value. -/
def Follow (r : Str) : Prop := ∃ w t, r = w ++ t ∧ Spaces w ∧ (t = [] ∨ ∃ c t', t = c :: t' ∧ stops c = true)

theorem skip_append {w : Str} (h : Spaces w) (r : Str) : skip (w ++ r) = skip r := by
  unfold skip
  induction w with
  | nil => rfl
  | cons c w ih =>
    rw [List.cons_append, List.dropWhile_cons, if_pos (h c (by simp))]
    exact ih (fun c hc => h c (by simp [hc]))

theorem skip_cons {c : Char} (h : isSpace c = false) (r : Str) : skip (c :: r) = c :: r := by
  unfold skip
  rw [List.dropWhile_cons, if_neg (by simp [h])]

theorem space_no_stop {c : Char} (h : isSpace c = true) : stops c = false := by
  unfold stops
  by_contra hc
  rw [Bool.not_eq_false, decide_eq_true_eq] at hc
  rcases hc with rfl | rfl | rfl <;> simp [isSpace] at h

theorem stop_no_space {c : Char} (h : stops c = true) : isSpace c = false := by
  cases h' : isSpace c
  · rfl
  · rw [space_no_stop h'] at h; exact absurd h (by simp)

/-- The first character of a value. -/
def First (t : Str) : Prop := ∃ c r, t = c :: r ∧ isSpace c = false ∧ stops c = false

/-- The text `t` is read as the value `T`. -/
def VOk (T : Tree) (t : Str) : Prop :=
  First t ∧ ∀ (n : Nat) (w r : Str), Spaces w → Follow r → t.length < n →
    ∃ r', value n (w ++ (t ++ r)) = some (T, r') ∧ skip r' = skip r

/-- The text `t` is read as the rest of an array. -/
def IOk (l : List Tree) (t : Str) : Prop :=
  ∀ (n : Nat) (w r : Str), Spaces w → t.length + 1 ≤ n → items n (w ++ (t ++ r)) = some (l, r)

/-- The text `t` is read as the rest of an object. -/
def MOk (l : List (Str × Tree)) (t : Str) : Prop :=
  ∀ (n : Nat) (w r : Str), Spaces w → t.length + 1 ≤ n → members n (w ++ (t ++ r)) = some (l, r)

theorem succ_of_lt {a n : Nat} (h : a < n) : ∃ m, n = m + 1 := ⟨n - 1, by omega⟩

theorem quoted_eq {k r : Str} (h : '\'' ∉ k) : quoted (k ++ '\'' :: r) = some (k, r) := by
  have hk : ∀ c ∈ k, (decide (c ≠ '\'')) = true := fun c hc => by
    rw [decide_eq_true_eq]
    rintro rfl
    exact h hc
  have hstop : ∀ c, ('\'' :: r).head? = some c → (fun c => decide (c ≠ '\'')) c = false := by
    intro c hc
    rw [List.head?_cons] at hc
    rw [← Option.some.inj hc]
    simp
  unfold quoted
  rw [dropWhile_append_stop hk hstop, takeWhile_append_stop hk hstop]

theorem skip_follow {w t : Str} (hw : Spaces w) (ht : t = [] ∨ ∃ c t', t = c :: t' ∧ stops c = true) : skip (w ++ t) = t := by
  rw [skip_append hw]
  rcases ht with rfl | ⟨c, t', rfl, hc⟩
  · rfl
  · exact skip_cons (stop_no_space hc) _

theorem VOk.atom {s : Str} (hf : ∃ c r, s = c :: r ∧ isSpace c = false ∧ c ≠ '\'' ∧ c ≠ '[' ∧ c ≠ '{')
    (hs : ∀ c ∈ s, stops c = false) (hl : ∀ c, s.getLast? = some c → isSpace c = false) : VOk (.atom s) s := by
  obtain ⟨c, r, rfl, h1, h2, h3, h4⟩ := hf
  have hcs := hs c (by simp)
  refine ⟨⟨c, r, rfl, h1, hcs⟩, ?_⟩
  rintro n w rest hw ⟨w', t, rfl, hw', ht⟩ hn
  obtain ⟨m, rfl⟩ := succ_of_lt hn
  unfold value
  rw [skip_append hw, List.cons_append, skip_cons h1]
  simp only [h2, h3, h4, hcs, if_false, Bool.false_eq_true]
  have e : c :: (r ++ (w' ++ t)) = (c :: r ++ w') ++ t := by simp
  have hp : ∀ a ∈ c :: r ++ w', (!stops a) = true := by
    intro a ha
    rcases List.mem_append.mp ha with ha | ha
    · rw [hs a ha]; rfl
    · rw [space_no_stop (hw' a ha)]; rfl
  have hstop : ∀ a, t.head? = some a → (fun c => !stops c) a = false := by
    intro a ha
    rcases ht with rfl | ⟨c', t', rfl, hc'⟩
    · simp at ha
    · rw [List.head?_cons] at ha
      rw [← Option.some.inj ha]
      show (!stops c') = false
      rw [hc']; rfl
  refine ⟨t, ?_, ?_⟩
  · rw [e, takeWhile_append_stop hp hstop, dropWhile_append_stop hp hstop]
    have : trim (c :: r ++ w') = c :: r := by
      unfold trim
      rw [List.reverse_append, skip_append (fun c hc => hw' c (by simpa using hc))]
      cases hrev : (c :: r).reverse with
      | nil => simp at hrev
      | cons d q =>
        have hd : isSpace d = false := by
          apply hl
          rw [List.getLast?_eq_head?_reverse, hrev]
          rfl
        rw [skip_cons hd, ← hrev, List.reverse_reverse]
    rw [this]
  · rw [skip_follow hw' ht]
    have := skip_follow (w := []) (fun c hc => absurd hc (by simp)) ht
    simpa using this

theorem VOk.str {s : Str} (h : '\'' ∉ s) : VOk (.str s) ('\'' :: (s ++ ['\''])) := by
  refine ⟨⟨'\'', _, rfl, by decide, by decide⟩, ?_⟩
  intro n w r hw hr hn
  obtain ⟨m, rfl⟩ := succ_of_lt hn
  refine ⟨r, ?_, rfl⟩
  unfold value
  rw [skip_append hw, List.cons_append, skip_cons (by decide)]
  simp only [if_true, List.append_assoc, List.singleton_append, quoted_eq h, Option.map_some]

theorem VOk.arr {l : List Tree} {t w' : Str} (h : IOk l t) (hw' : Spaces w') : VOk (.arr l) ('[' :: (w' ++ t)) := by
  refine ⟨⟨'[', _, rfl, by decide, by decide⟩, ?_⟩
  intro n w r hw hr hn
  obtain ⟨m, rfl⟩ := succ_of_lt hn
  refine ⟨r, ?_, rfl⟩
  unfold value
  rw [skip_append hw, List.cons_append, skip_cons (by decide)]
  rw [List.length_cons, List.length_append] at hn
  simp only [show ('[' = '\'') = False by decide, if_false, if_true, List.append_assoc, h m w' r hw' (by omega), Option.map_some]

theorem VOk.obj {l : List (Str × Tree)} {t w' : Str} (h : MOk l t) (hw' : Spaces w') : VOk (.obj l) ('{' :: (w' ++ t)) := by
  refine ⟨⟨'{', _, rfl, by decide, by decide⟩, ?_⟩
  intro n w r hw hr hn
  obtain ⟨m, rfl⟩ := succ_of_lt hn
  refine ⟨r, ?_, rfl⟩
  unfold value
  rw [skip_append hw, List.cons_append, skip_cons (by decide)]
  rw [List.length_cons, List.length_append] at hn
  simp only [show ('{' = '\'') = False by decide, show ('{' = '[') = False by decide, if_false, if_true, List.append_assoc,
    h m w' r hw' (by omega), Option.map_some]

theorem IOk.nil {w' : Str} (hw' : Spaces w') : IOk [] (w' ++ [']']) := by
  intro n w r hw hn
  obtain ⟨m, rfl⟩ := succ_of_lt hn
  unfold items
  rw [List.append_assoc, skip_append hw, skip_append hw', List.singleton_append, skip_cons (by decide)]
  rfl

/-- The first step of reading a value in an array. -/
theorem items_value {T : Tree} {t w r : Str} {m : Nat} (h : VOk T t) (hw : Spaces w) (hr : Follow r) (hn : t.length < m) :
    ∃ r', skip r' = skip r ∧ items (m + 1) (w ++ (t ++ r)) =
      match skip r' with
      | ']' :: r => some ([T], r)
      | ',' :: r => (items m r).map (fun (l, r') => (T :: l, r'))
      | _ => none := by
  obtain ⟨⟨c, q, rfl, h1, h2⟩, h3⟩ := h
  obtain ⟨r', h4, h5⟩ := h3 m w r hw hr hn
  refine ⟨r', h5, ?_⟩
  rw [items]
  have hs : skip (w ++ (c :: q ++ r)) = c :: (q ++ r) := by
    rw [skip_append hw, List.cons_append, skip_cons h1]
  have hc : c ≠ ']' := by
    rintro rfl
    revert h2
    decide
  rw [hs, h4]
  split
  · rename_i heq
    exact absurd (List.cons.inj heq).1 hc
  · rfl

theorem IOk.last {T : Tree} {t w' : Str} (h : VOk T t) (hw' : Spaces w') : IOk [T] (t ++ (w' ++ [']'])) := by
  intro n w r hw hn
  obtain ⟨m, rfl⟩ := succ_of_lt hn
  rw [List.length_append, List.length_append, List.length_singleton] at hn
  have hf : Follow (w' ++ ([']'] ++ r)) := ⟨w', _, rfl, hw', Or.inr ⟨']', r, rfl, by decide⟩⟩
  obtain ⟨r', h1, h2⟩ := items_value h hw hf (m := m) (by omega)
  rw [List.append_assoc, List.append_assoc, h2, h1, skip_append hw', List.singleton_append, skip_cons (by decide)]
  rfl

theorem IOk.cons {T : Tree} {l : List Tree} {t w' q : Str} (h : VOk T t) (hw' : Spaces w') (hq : IOk l q) :
    IOk (T :: l) (t ++ (',' :: (w' ++ q))) := by
  intro n w r hw hn
  obtain ⟨m, rfl⟩ := succ_of_lt hn
  rw [List.length_append, List.length_cons, List.length_append] at hn
  have hf : Follow (',' :: (w' ++ (q ++ r))) := ⟨[], _, rfl, fun c hc => absurd hc (by simp), Or.inr ⟨',', _, rfl, by decide⟩⟩
  obtain ⟨r', h1, h2⟩ := items_value h hw hf (m := m) (by omega)
  rw [List.append_assoc, List.cons_append, List.append_assoc, h2, h1, skip_cons (by decide)]
  show Option.map _ (items m (w' ++ (q ++ r))) = _
  rw [hq m w' r hw' (by omega)]
  rfl

theorem MOk.nil {w' : Str} (hw' : Spaces w') : MOk [] (w' ++ ['}']) := by
  intro n w r hw hn
  obtain ⟨m, rfl⟩ := succ_of_lt hn
  unfold members
  rw [List.append_assoc, skip_append hw, skip_append hw', List.singleton_append, skip_cons (by decide)]
  rfl

/-- A key and the colon behind it. -/
def keyText (k : Str) : Str := '\'' :: (k ++ ['\'', ' ', ':', ' '])

theorem members_value {T : Tree} {k t w r : Str} {m : Nat} (hk : '\'' ∉ k) (h : VOk T t) (hw : Spaces w) (hr : Follow r) (hn : t.length < m) :
    ∃ r', skip r' = skip r ∧ members (m + 1) (w ++ (keyText k ++ (t ++ r))) =
      match skip r' with
      | '}' :: t => some ([(k, T)], t)
      | ',' :: t => (members m t).map (fun (l, t') => ((k, T) :: l, t'))
      | _ => none := by
  obtain ⟨r', h4, h5⟩ := h.2 m [' '] r (by intro c hc; rw [List.mem_singleton.mp hc]; decide) hr hn
  refine ⟨r', h5, ?_⟩
  rw [members]
  have e1 : keyText k ++ (t ++ r) = '\'' :: (k ++ ('\'' :: ([' '] ++ (':' :: ([' '] ++ (t ++ r)))))) := by
    unfold keyText
    simp
  have hs : skip (w ++ (keyText k ++ (t ++ r))) = '\'' :: (k ++ ('\'' :: ([' '] ++ (':' :: ([' '] ++ (t ++ r)))))) := by
    rw [skip_append hw, e1, skip_cons (by decide)]
  rw [hs]
  generalize hQ : [' '] ++ (':' :: ([' '] ++ (t ++ r))) = Q
  have hq : quoted (k ++ '\'' :: Q) = some (k, Q) := quoted_eq hk
  have hsk : skip Q = ':' :: ([' '] ++ (t ++ r)) := by
    rw [← hQ, skip_append (by intro c hc; rw [List.mem_singleton.mp hc]; decide), skip_cons (by decide)]
  show (match quoted (k ++ '\'' :: Q) with
      | none => none
      | some (k, r') =>
        match skip r' with
        | ':' :: r'' =>
          match value m r'' with
          | none => none
          | some (v, s') =>
            match skip s' with
            | '}' :: t => some ([(k, v)], t)
            | ',' :: t => (members m t).map (fun (l, t') => ((k, v) :: l, t'))
            | _ => none
        | _ => none) = _
  rw [hq]
  show (match skip Q with
        | ':' :: r'' =>
          match value m r'' with
          | none => none
          | some (v, s') =>
            match skip s' with
            | '}' :: t => some ([(k, v)], t)
            | ',' :: t => (members m t).map (fun (l, t') => ((k, v) :: l, t'))
            | _ => none
        | _ => none) = _
  rw [hsk]
  show (match value m ([' '] ++ (t ++ r)) with
          | none => none
          | some (v, s') =>
            match skip s' with
            | '}' :: t => some ([(k, v)], t)
            | ',' :: t => (members m t).map (fun (l, t') => ((k, v) :: l, t'))
            | _ => none) = _
  rw [h4]

theorem MOk.last {T : Tree} {k t w' : Str} (hk : '\'' ∉ k) (h : VOk T t) (hw' : Spaces w') :
    MOk [(k, T)] (keyText k ++ (t ++ (w' ++ ['}']))) := by
  intro n w r hw hn
  obtain ⟨m, rfl⟩ := succ_of_lt hn
  rw [List.length_append, List.length_append, List.length_append, List.length_singleton] at hn
  have hf : Follow (w' ++ (['}'] ++ r)) := ⟨w', _, rfl, hw', Or.inr ⟨'}', r, rfl, by decide⟩⟩
  obtain ⟨r', h1, h2⟩ := members_value hk h hw hf (m := m) (by omega)
  rw [List.append_assoc, List.append_assoc, List.append_assoc, h2, h1, skip_append hw', List.singleton_append, skip_cons (by decide)]
  rfl

theorem MOk.cons {T : Tree} {l : List (Str × Tree)} {k t w' q : Str} (hk : '\'' ∉ k) (h : VOk T t) (hw' : Spaces w') (hq : MOk l q) :
    MOk ((k, T) :: l) (keyText k ++ (t ++ (',' :: (w' ++ q)))) := by
  intro n w r hw hn
  obtain ⟨m, rfl⟩ := succ_of_lt hn
  rw [List.length_append, List.length_append, List.length_cons, List.length_append] at hn
  have hf : Follow (',' :: (w' ++ (q ++ r))) := ⟨[], _, rfl, fun c hc => absurd hc (by simp), Or.inr ⟨',', _, rfl, by decide⟩⟩
  obtain ⟨r', h1, h2⟩ := members_value hk h hw hf (m := m) (by omega)
  rw [List.append_assoc, List.append_assoc, List.cons_append, List.append_assoc, h2, h1, skip_cons (by decide)]
  show Option.map _ (members m (w' ++ (q ++ r))) = _
  rw [hq m w' r hw' (by omega)]
  rfl

/-- White space in front of a member belongs to what is in front of it. -/
theorem MOk.space {l : List (Str × Tree)} {t w' : Str} (hw' : Spaces w') (h : MOk l t) : MOk l (w' ++ t) := by
  intro n w r hw hn
  rw [List.length_append] at hn
  rw [List.append_assoc, ← List.append_assoc]
  exact h n (w ++ w') r (fun c hc => (List.mem_append.mp hc).elim (hw c) (hw' c)) (by omega)

theorem read_of {T : Tree} {t : Str} (h : VOk T t) : read t = some T := by
  obtain ⟨r', h1, h2⟩ := h.2 (t.length + 1) [] [] (fun c hc => absurd hc (by simp))
    ⟨[], [], rfl, fun c hc => absurd hc (by simp), Or.inl rfl⟩ (by omega)
  unfold read
  rw [List.nil_append, List.append_nil] at h1
  rw [h1]
  dsimp only
  rw [h2]
  rfl

end Spoc.Spec.Tree

namespace Spoc.Json

open Text Spec Spec.Tree

mutual

/-- The value as it is read back. -/
def tree : Json → Tree
  | arr l => .arr (treeArray l)
  | obj l => .obj (treeObject l)
  | str s => .str s
  | v => .atom (scalar v)

/-- The elements of an array as they are read back. -/
def treeArray : List Json → List Tree
  | [] => []
  | v :: r => tree v :: treeArray r

/-- The members of an object as they are read back. -/
def treeObject : List (Str × Json) → List (Str × Tree)
  | [] => []
  | (k, v) :: r => (k, tree v) :: treeObject r

end

mutual

/-- No string or key contains a quote. -/
def Clean : Json → Prop
  | arr l => CleanArray l
  | obj l => CleanObject l
  | str s => '\'' ∉ s
  | _ => True

/-- No element contains a quote. -/
def CleanArray : List Json → Prop
  | [] => True
  | v :: r => Clean v ∧ CleanArray r

/-- No member contains a quote. -/
def CleanObject : List (Str × Json) → Prop
  | [] => True
  | (k, v) :: r => '\'' ∉ k ∧ Clean v ∧ CleanObject r

end

theorem treeArray_eq (l : List Json) : treeArray l = l.map tree := by
  induction l with
  | nil => simp [treeArray]
  | cons v r ih => rw [treeArray, ih]; rfl

theorem treeObject_eq (l : List (Str × Json)) : treeObject l = l.map (fun e => (e.1, tree e.2)) := by
  induction l with
  | nil => simp [treeObject]
  | cons e r ih => obtain ⟨k, v⟩ := e; rw [treeObject, ih]; rfl

theorem cleanArray_iff (l : List Json) : CleanArray l ↔ ∀ v ∈ l, Clean v := by
  induction l with
  | nil => simp [CleanArray]
  | cons v r ih => simp [CleanArray, ih]

theorem cleanObject_iff (l : List (Str × Json)) : CleanObject l ↔ ∀ e ∈ l, '\'' ∉ e.1 ∧ Clean e.2 := by
  induction l with
  | nil => simp [CleanObject]
  | cons e r ih => obtain ⟨k, v⟩ := e; simp [CleanObject, ih]; tauto

/-! ## Numbers and words -/

theorem numeral_chars {n : Numeral} (h : n.Ok) : ∀ c ∈ n.text, isDigit c = true ∨ c = '+' ∨ c = '-' ∨ c = '.' ∨ c = 'e' ∨ c = 'E' := by
  intro c hc
  unfold Numeral.text at hc
  rcases List.mem_append.mp hc with hc | hc
  · rcases h.sg with e | e | e <;> rw [e] at hc <;> simp at hc
    · exact Or.inr (Or.inl hc)
    · exact Or.inr (Or.inr (Or.inl hc))
  · rcases List.mem_append.mp hc with hc | hc
    · exact Or.inl (h.ip c hc)
    · rcases List.mem_append.mp hc with hc | hc
      · unfold Numeral.fracText at hc
        cases hf : n.fp with
        | none => rw [hf] at hc; simp at hc
        | some f =>
          rw [hf] at hc
          rcases List.mem_cons.mp hc with rfl | hc
          · simp
          · left
            apply h.fp
            unfold Numeral.frac
            rw [hf]
            exact hc
      · unfold Numeral.expText at hc
        cases hx : n.ex with
        | none => rw [hx] at hc; simp at hc
        | some x =>
          obtain ⟨e, s, d⟩ := x
          rw [hx] at hc
          obtain ⟨he, hs, _, hd⟩ := h.ex e s d hx
          rcases List.mem_cons.mp hc with rfl | hc
          · rcases he with rfl | rfl <;> simp
          · rcases List.mem_append.mp hc with hc | hc
            · rcases hs with e | e | e <;> rw [e] at hc <;> simp at hc
              · exact Or.inr (Or.inl hc)
              · exact Or.inr (Or.inr (Or.inl hc))
            · exact Or.inl (hd c hc)

theorem plain_char {c : Char} (h : isDigit c = true ∨ c = '+' ∨ c = '-' ∨ c = '.' ∨ c = 'e' ∨ c = 'E') :
    isSpace c = false ∧ c ≠ '\'' ∧ c ≠ '[' ∧ c ≠ '{' ∧ stops c = false := by
  rcases h with h | rfl | rfl | rfl | rfl | rfl
  · refine ⟨digit_not_space h, ?_, ?_, ?_, ?_⟩
    · rintro rfl; revert h; decide
    · rintro rfl; revert h; decide
    · rintro rfl; revert h; decide
    · unfold stops
      by_contra hc
      rw [Bool.not_eq_false, decide_eq_true_eq] at hc
      rcases hc with rfl | rfl | rfl <;> revert h <;> decide
  all_goals decide

theorem atom_of_plain {s : Str} (hne : s ≠ []) (h : ∀ c ∈ s, isSpace c = false ∧ c ≠ '\'' ∧ c ≠ '[' ∧ c ≠ '{' ∧ stops c = false) :
    VOk (.atom s) s := by
  apply VOk.atom
  · cases s with
    | nil => exact absurd rfl hne
    | cons c r =>
      obtain ⟨h1, h2, h3, h4, -⟩ := h c (by simp)
      exact ⟨c, r, rfl, h1, h2, h3, h4⟩
  · exact fun c hc => (h c hc).2.2.2.2
  · exact fun c hc => (h c (List.mem_of_getLast? hc)).1

theorem numeral_atom {n : Numeral} (h : n.Ok) : VOk (.atom n.text) n.text := by
  apply atom_of_plain
  · intro e
    have h1 := text_ne h
    unfold Numeral.text at e
    exact h1 (List.append_eq_nil_iff.mp e).2
  · exact fun c hc => plain_char (numeral_chars h c hc)

theorem showFixed_atom (x : F64) : VOk (.atom (showFixed 15 x)) (showFixed 15 x) := by
  by_cases hf : x.isFinite = true
  · obtain ⟨h1, h2, -⟩ := showFixed_numeral (P := 15) (by norm_num) hf
    rw [h2]
    exact numeral_atom h1
  · have key : showFixed 15 x ∈ [['n', 'a', 'n'], ['-', 'n', 'a', 'n'], ['i', 'n', 'f'], ['-', 'i', 'n', 'f']] := by
      unfold showFixed
      by_cases h1 : x.isNaN = true
      · simp only [h1, if_true]
        cases x.neg <;> simp
      · have h2 : x.isInf = true := by
          unfold F64.isNaN F64.isFinite F64.isInf at *
          simp only [decide_eq_true_eq] at *
          omega
        simp only [h1, h2, if_true, Bool.false_eq_true, if_false]
        cases x.neg <;> simp
    have hall : ∀ s ∈ [['n', 'a', 'n'], ['-', 'n', 'a', 'n'], ['i', 'n', 'f'], ['-', 'i', 'n', 'f']],
        s ≠ [] ∧ ∀ c ∈ s, isSpace c = false ∧ c ≠ '\'' ∧ c ≠ '[' ∧ c ≠ '{' ∧ stops c = false := by decide
    exact atom_of_plain (hall _ key).1 (hall _ key).2

theorem scalar_ok (v : Json) (hc : Clean v) (h : ∀ l, v ≠ arr l) (h' : ∀ l, v ≠ obj l) : VOk (tree v) (scalar v) := by
  cases v with
  | int n =>
    rw [tree, scalar]
    · obtain ⟨h1, h2, -⟩ := showInt_numeral n
      rw [h2]; exact numeral_atom h1
    all_goals simp
  | char n =>
    rw [tree, scalar]
    · obtain ⟨h1, h2, -⟩ := showInt_numeral n
      rw [h2]; exact numeral_atom h1
    all_goals simp
  | u8 n =>
    rw [tree, scalar]
    · obtain ⟨h1, h2, -⟩ := showNat_numeral n.toNat
      rw [h2]; exact numeral_atom h1
    all_goals simp
  | u16 n =>
    rw [tree, scalar]
    · obtain ⟨h1, h2, -⟩ := showNat_numeral n.toNat
      rw [h2]; exact numeral_atom h1
    all_goals simp
  | u32 n =>
    rw [tree, scalar]
    · apply VOk.atom
      · exact ⟨'u', _, rfl, by decide, by decide, by decide, by decide⟩
      · decide
      · decide
    all_goals simp
  | u64 n =>
    rw [tree, scalar]
    · obtain ⟨h1, h2, -⟩ := showNat_numeral n.toNat
      rw [h2]; exact numeral_atom h1
    all_goals simp
  | dbl x =>
    rw [tree, scalar]
    · exact showFixed_atom x
    all_goals simp
  | bool t =>
    rw [tree, scalar]
    · have hall : ∀ s ∈ [['t', 'r', 'u', 'e'], ['f', 'a', 'l', 's', 'e']],
        s ≠ [] ∧ ∀ c ∈ s, isSpace c = false ∧ c ≠ '\'' ∧ c ≠ '[' ∧ c ≠ '{' ∧ stops c = false := by decide
      cases t
      · exact atom_of_plain (hall _ (by simp)).1 (hall _ (by simp)).2
      · exact atom_of_plain (hall _ (by simp)).1 (hall _ (by simp)).2
    all_goals simp
  | str s =>
    rw [tree, scalar]
    rw [Clean] at hc
    exact VOk.str hc
  | arr l => exact absurd rfl (h l)
  | obj l => exact absurd rfl (h' l)

theorem spaces_one : Spaces [' '] := by intro c hc; rw [List.mem_singleton.mp hc]; decide

theorem spaces_indents (n : Nat) : Spaces (indents n) := by
  intro c hc
  rw [(List.mem_replicate.mp hc).2]
  decide

mutual

/-- The compact text of a value is read back. -/
theorem compact_ok : ∀ v : Json, Clean v → VOk (tree v) (compact v)
  | arr l, h => by
    rw [tree, compact]
    rw [Clean] at h
    exact VOk.arr (w' := [' ']) (compactArray_ok l h) spaces_one
  | obj l, h => by
    rw [tree, compact]
    rw [Clean] at h
    exact VOk.obj (w' := [' ']) (compactObject_ok l h) spaces_one
  | int n, h => by rw [compact]; · exact scalar_ok _ h (by simp) (by simp)
                   all_goals simp
  | char n, h => by rw [compact]; · exact scalar_ok _ h (by simp) (by simp)
                    all_goals simp
  | u8 n, h => by rw [compact]; · exact scalar_ok _ h (by simp) (by simp)
                  all_goals simp
  | u16 n, h => by rw [compact]; · exact scalar_ok _ h (by simp) (by simp)
                   all_goals simp
  | u32 n, h => by rw [compact]; · exact scalar_ok _ h (by simp) (by simp)
                   all_goals simp
  | u64 n, h => by rw [compact]; · exact scalar_ok _ h (by simp) (by simp)
                   all_goals simp
  | dbl n, h => by rw [compact]; · exact scalar_ok _ h (by simp) (by simp)
                   all_goals simp
  | bool n, h => by rw [compact]; · exact scalar_ok _ h (by simp) (by simp)
                    all_goals simp
  | str n, h => by rw [compact]; · exact scalar_ok _ h (by simp) (by simp)
                   all_goals simp

theorem compactArray_ok : ∀ l : List Json, CleanArray l → IOk (treeArray l) (compactArray l ++ [' ', ']'])
  | [], _ => by
    rw [treeArray, compactArray]
    exact IOk.nil (w' := [' ']) spaces_one
  | [v], h => by
    rw [treeArray, treeArray, compactArray]
    rw [CleanArray] at h
    exact IOk.last (w' := [' ']) (compact_ok v h.1) spaces_one
  | v :: w :: r, h => by
    rw [treeArray, compactArray]
    rw [CleanArray] at h
    rw [List.append_assoc, List.append_assoc]
    exact IOk.cons (w' := [' ']) (compact_ok v h.1) spaces_one (compactArray_ok (w :: r) h.2)

theorem compactObject_ok : ∀ l : List (Str × Json), CleanObject l → MOk (treeObject l) (compactObject l ++ [' ', '}'])
  | [], _ => by
    rw [treeObject, compactObject]
    exact MOk.nil (w' := [' ']) spaces_one
  | [(k, v)], h => by
    rw [treeObject, treeObject, compactObject]
    rw [CleanObject] at h
    have := MOk.last (w' := [' ']) h.1 (compact_ok v h.2.1) spaces_one
    unfold keyText at this
    simpa using this
  | (k, v) :: w :: r, h => by
    rw [treeObject, compactObject]
    rw [CleanObject] at h
    have := MOk.cons (w' := [' ']) h.1 (compact_ok v h.2.1) spaces_one (compactObject_ok (w :: r) h.2.2)
    unfold keyText at this
    simpa using this

end

mutual

/-- The indented text of a value is read back. -/
theorem pretty_ok : ∀ (n : Nat) (v : Json), Clean v → VOk (tree v) (pretty n v)
  | n, arr l, h => by
    rw [tree, pretty]
    rw [Clean] at h
    exact VOk.arr (w' := [' ']) (prettyArray_ok n l h) spaces_one
  | n, obj l, h => by
    rw [tree, pretty]
    rw [Clean] at h
    exact VOk.obj (w' := ['\n']) (prettyObject_ok n l h) (by intro c hc; rw [List.mem_singleton.mp hc]; decide)
  | _, int n, h => by rw [pretty]; · exact scalar_ok _ h (by simp) (by simp)
                      all_goals simp
  | _, char n, h => by rw [pretty]; · exact scalar_ok _ h (by simp) (by simp)
                       all_goals simp
  | _, u8 n, h => by rw [pretty]; · exact scalar_ok _ h (by simp) (by simp)
                     all_goals simp
  | _, u16 n, h => by rw [pretty]; · exact scalar_ok _ h (by simp) (by simp)
                      all_goals simp
  | _, u32 n, h => by rw [pretty]; · exact scalar_ok _ h (by simp) (by simp)
                      all_goals simp
  | _, u64 n, h => by rw [pretty]; · exact scalar_ok _ h (by simp) (by simp)
                      all_goals simp
  | _, dbl n, h => by rw [pretty]; · exact scalar_ok _ h (by simp) (by simp)
                      all_goals simp
  | _, bool n, h => by rw [pretty]; · exact scalar_ok _ h (by simp) (by simp)
                       all_goals simp
  | _, str n, h => by rw [pretty]; · exact scalar_ok _ h (by simp) (by simp)
                      all_goals simp

theorem prettyArray_ok : ∀ (n : Nat) (l : List Json), CleanArray l → IOk (treeArray l) (prettyArray n l ++ [' ', ']'])
  | n, [], _ => by
    rw [treeArray, prettyArray]
    exact IOk.nil (w' := [' ']) spaces_one
  | n, [v], h => by
    rw [treeArray, treeArray, prettyArray]
    rw [CleanArray] at h
    exact IOk.last (w' := [' ']) (pretty_ok n v h.1) spaces_one
  | n, v :: w :: r, h => by
    rw [treeArray, prettyArray]
    rw [CleanArray] at h
    rw [List.append_assoc, List.append_assoc]
    exact IOk.cons (w' := [' ']) (pretty_ok n v h.1) spaces_one (prettyArray_ok n (w :: r) h.2)

theorem prettyObject_ok : ∀ (n : Nat) (l : List (Str × Json)), CleanObject l → MOk (treeObject l) (prettyObject n l ++ (indents n ++ ['}']))
  | n, [], _ => by
    rw [treeObject, prettyObject]
    exact MOk.nil (spaces_indents n)
  | n, [(k, v)], h => by
    rw [treeObject, treeObject, prettyObject]
    rw [CleanObject] at h
    have := MOk.space (spaces_indents (n + 1)) (MOk.last (w' := '\n' :: indents n) h.1 (pretty_ok (n + 1) v h.2.1)
      (by intro c hc
          rcases List.mem_cons.mp hc with rfl | hc
          · decide
          · exact spaces_indents n c hc))
    unfold keyText at this
    simpa using this
  | n, (k, v) :: w :: r, h => by
    rw [treeObject, prettyObject]
    rw [CleanObject] at h
    have := MOk.space (spaces_indents (n + 1)) (MOk.cons (w' := ['\n']) h.1 (pretty_ok (n + 1) v h.2.1)
      (by intro c hc; rw [List.mem_singleton.mp hc]; decide) (prettyObject_ok n (w :: r) h.2.2))
    unfold keyText at this
    simpa using this

end

/-- What is printed is read back, compact or not. -/
theorem read_compact {v : Json} (h : Clean v) : Tree.read (compact v) = some (tree v) := read_of (compact_ok v h)

theorem read_pretty {v : Json} (h : Clean v) (n : Nat) : Tree.read (pretty n v) = some (tree v) := read_of (pretty_ok n v h)

end Spoc.Json
