import Verif.Spec.Stream

/-!
# A codec that keeps the promises of `Spec/Stream`

Each byte is preceded by a one, the end is marked by a zero.
-/

namespace Spoc.Toy

/-- The bytes of a piece of input. -/
def encode (d : Bytes) : Bytes := d.flatMap (fun b => [1, b])

/-- Complete streams. -/
def Valid (cs d : Bytes) : Prop := cs = encode d ++ [0]

/-- Output not delivered yet, and whether the end was added. -/
def deflater : Deflater where
  State := Bytes × Bool
  init := fun level => if -1 ≤ level ∧ level ≤ 9 then some ([], false) else none
  call := fun s input finish room =>
    let pending := s.1 ++ encode input ++ (if finish && !s.2 then [0] else [])
    { state := (pending.drop room, s.2 || finish), consumed := input.length, output := pending.take room, ret := () }

theorem encode_append (a b : Bytes) : encode (a ++ b) = encode a ++ encode b := by simp [encode]

theorem deflater_run {level : Int} {s : deflater.State} {c o : Bytes} {left : Option Bytes} (h : deflater.Run level s c o left) :
    o ++ s.1 = encode c ++ (if s.2 then [0] else []) ∧ (s.2 = true ↔ left = some []) ∧ (s.2 = false ↔ left = none) := by
  induction h with
  | @init s h =>
    have h : (if -1 ≤ level ∧ level ≤ 9 then some (([] : Bytes), false) else none) = some s := h
    split at h
    · rw [← Option.some.inj h]
      simp [encode]
    · simp at h
  | @call s c o left input finish room hr ha ih =>
    obtain ⟨i1, i2, i3⟩ := ih
    obtain ⟨pending, ended⟩ := s
    simp only [deflater] at i1 i2 i3 ⊢
    rw [List.take_length, List.drop_length, encode_append, List.append_assoc, List.take_append_drop]
    cases ended with
    | true =>
      obtain ⟨rfl, rfl⟩ := ha [] (i2.mp rfl)
      simp only [if_true] at i1
      simp only [encode, List.flatMap_nil, List.append_nil, Bool.not_true, Bool.and_false, Bool.false_eq_true, if_false]
      exact ⟨i1, by simp, by simp⟩
    | false =>
      simp only [Bool.false_eq_true, if_false, List.append_nil] at i1
      cases finish <;> simp [← i1]

theorem deflater_correct : deflater.Correct Valid where
  levels := fun level => by simp [deflater]
  bounds := fun {level s c o left} hr input finish room ha => by
    refine ⟨Nat.le_refl _, ?_, fun _ => rfl⟩
    simp only [deflater, List.length_take]
    omega
  complete := fun {level s c o left} hr input room ha hlt => by
    obtain ⟨i1, i2, i3⟩ := deflater_run hr
    obtain ⟨pending, ended⟩ := s
    simp only [deflater, List.length_take] at i1 i2 i3 hlt ⊢
    rw [List.take_of_length_le (by omega)]
    unfold Valid
    cases ended with
    | true =>
      have := ha [] (i2.mp rfl)
      subst this
      simp only [if_true] at i1
      simp [encode] at i1 ⊢
      exact i1
    | false =>
      simp only [Bool.false_eq_true, if_false, List.append_nil] at i1
      rw [encode_append]
      simp [← i1]
  finite := fun d => ⟨2 * d.length + 1, fun {level s c o left} hr hc => by
    obtain ⟨i1, -, -⟩ := deflater_run hr
    have h1 := congrArg List.length i1
    have h2 : (encode c).length = 2 * c.length := by
      clear h1 i1 hr hc
      induction c with
      | nil => rfl
      | cons b c ih => simp only [encode, List.flatMap_cons, List.length_append, List.length_cons, List.length_nil] at ih ⊢; omega
    have h3 := hc.length_le
    rw [List.length_append, List.length_append, h2] at h1
    have h4 : (if s.2 then [(0 : UInt8)] else []).length ≤ 1 := by split <;> simp
    omega⟩

/-- What the decoder expects next. -/
inductive Mode
  | mark
  | byte
  | ended
  deriving DecidableEq

/-- Decode a piece of input: the bytes used, the bytes decoded, the mode at the end. -/
def parse : Mode → Bytes → Nat × Bytes × Mode
  | .ended, _ => (0, [], .ended)
  | m, [] => (0, [], m)
  | .mark, b :: bs => if b = 0 then (1, [], .ended) else
      let r := parse .byte bs
      (r.1 + 1, r.2)
  | .byte, b :: bs =>
      let r := parse .mark bs
      (r.1 + 1, b :: r.2.1, r.2.2)

/-- Decoded bytes not delivered yet, and the mode. -/
def inflater : Inflater where
  State := Bytes × Mode
  init := ([], .mark)
  call := fun s input room =>
    let r := parse s.2 input
    let pending := s.1 ++ r.2.1
    { state := (pending.drop room, r.2.2), consumed := r.1, output := pending.take room,
      ret := if r.2.2 = .ended ∧ pending.drop room = [] then .done else .more }

theorem parse_le (m : Mode) (bs : Bytes) : (parse m bs).1 ≤ bs.length := by
  induction bs generalizing m with
  | nil => cases m <;> simp [parse]
  | cons b bs ih =>
    cases m with
    | ended => simp [parse]
    | byte => have := ih .mark; simpa [parse] using this
    | mark =>
      have := ih .byte
      rw [parse]
      split <;> simp [this]

theorem parse_ended {m : Mode} {a : Bytes} (b : Bytes) (h : (parse m a).2.2 = .ended) : parse m (a ++ b) = parse m a := by
  induction a generalizing m with
  | nil => cases m <;> simp_all [parse]
  | cons x a ih =>
    cases m with
    | ended => simp [parse]
    | byte =>
      simp only [parse] at h
      simp [parse, ih h]
    | mark =>
      rw [parse] at h
      rw [List.cons_append, parse, parse]
      split at h
      · next hx => simp [hx]
      · next hx => simp only [hx, if_false]; rw [ih h]

theorem parse_going {m : Mode} {a : Bytes} (b : Bytes) (h : (parse m a).2.2 ≠ .ended) :
    (parse m a).1 = a.length ∧ parse m (a ++ b) = (a.length + (parse (parse m a).2.2 b).1,
      (parse m a).2.1 ++ (parse (parse m a).2.2 b).2.1, (parse (parse m a).2.2 b).2.2) := by
  induction a generalizing m with
  | nil => cases m <;> simp_all [parse]
  | cons x a ih =>
    cases m with
    | ended => simp [parse] at h
    | byte =>
      simp only [parse] at h
      obtain ⟨i1, i2⟩ := ih h
      simp [parse, i1, i2]
      omega
    | mark =>
      rw [parse] at h
      rw [List.cons_append, parse, parse]
      split at h
      · simp at h
      · next hx =>
        obtain ⟨i1, i2⟩ := ih h
        simp [hx, i1, i2]
        omega

theorem parse_take (m : Mode) (a : Bytes) : parse m (a.take (parse m a).1) = parse m a := by
  induction a generalizing m with
  | nil => simp
  | cons x a ih =>
    cases m with
    | ended => simp [parse]
    | byte => simp [parse, ih]
    | mark =>
      rw [parse]
      split
      · next hx => simp [parse, hx]
      · next hx => simp [parse, hx, ih]

theorem parse_valid (d t : Bytes) : parse .mark (encode d ++ [0] ++ t) = ((encode d).length + 1, d, .ended) := by
  induction d with
  | nil => simp [encode, parse]
  | cons b d ih =>
    have : encode (b :: d) = 1 :: b :: encode d := rfl
    simp only [this, List.cons_append, parse]
    rw [ih]
    simp

theorem inflater_run {s : inflater.State} {c o : Bytes} (h : inflater.Run s c o) : parse .mark c = (c.length, o ++ s.1, s.2) := by
  induction h with
  | init => simp [parse, inflater]
  | @call s c o input room hr ih =>
    obtain ⟨pending, m⟩ := s
    simp only [inflater] at ih ⊢
    rw [List.append_assoc, List.take_append_drop, ← List.append_assoc]
    by_cases hm : m = .ended
    · subst hm
      have h1 : parse .ended input = (0, [], .ended) := by cases input <;> rfl
      rw [h1]
      simp [ih]
    · have h1 := (parse_going (a := c) (m := .mark) (input.take (parse m input).1) (by rw [ih]; exact hm)).2
      rw [h1, ih]
      simp only [parse_take]
      rw [List.length_append, List.length_take, Nat.min_eq_left (parse_le _ _)]

theorem inflater_correct : inflater.Correct Valid where
  nonempty := fun {cs d} h => by rw [h]; simp
  decodes := fun {s c o} hr input room cs d hv ⟨u, t, hcs⟩ => by
    have i := inflater_run hr
    obtain ⟨pending, m⟩ := s
    unfold Valid at hv
    have hall := parse_valid d t
    rw [← hv, ← hcs, List.append_assoc] at hall
    have hlen : cs.length = (encode d).length + 1 := by rw [hv]; simp
    simp only [inflater] at i ⊢
    have hcm : (parse .mark c).2.2 = m := by rw [i]
    refine ⟨parse_le _ _, by rw [List.length_take]; omega, by split <;> simp, ?_⟩
    by_cases hm : m = .ended
    · subst hm
      rw [parse_ended _ hcm, i] at hall
      simp only [Prod.mk.injEq] at hall
      have h1 : parse .ended input = (0, [], .ended) := by cases input <;> rfl
      rw [h1]
      simp only [List.append_nil, true_and]
      refine ⟨?_, ?_, ?_⟩
      · rw [← hall.2.1, List.prefix_append_right_inj]
        exact List.take_prefix _ _
      · intro h
        split at h
        · next hd => rw [← hall.2.1, List.take_of_length_le (by simpa using hd)]
        · simp at h
      · intro h
        rw [List.length_take] at h
        left
        rw [if_pos (by simp; omega)]
    · obtain ⟨-, h1⟩ := parse_going (m := .mark) (a := c) (input ++ u) (by rw [hcm]; exact hm)
      rw [h1, i] at hall
      simp only [Prod.mk.injEq] at hall
      by_cases he : (parse m input).2.2 = .ended
      · rw [parse_ended _ he] at hall
        obtain ⟨-, hall, -⟩ := hall
        rw [List.append_assoc] at hall
        refine ⟨?_, ?_, ?_⟩
        · rw [← hall, List.prefix_append_right_inj]
          exact List.take_prefix _ _
        · intro h
          split at h
          · next hd => rw [← hall, List.take_of_length_le (by simpa using hd.2)]
          · simp at h
        · intro h
          rw [List.length_take] at h
          left
          rw [if_pos ⟨he, by rw [List.drop_eq_nil_iff]; omega⟩]
      · obtain ⟨h2, h3⟩ := parse_going (m := m) (a := input) u he
        rw [h3] at hall
        obtain ⟨hl, hall, hend⟩ := hall
        refine ⟨?_, ?_, ?_⟩
        · rw [← hall, List.append_assoc, List.prefix_append_right_inj, ← List.append_assoc]
          exact (List.take_prefix _ _).trans (List.prefix_append _ _)
        · intro h
          rw [if_neg (by simp [he])] at h
          simp at h
        · intro _
          refine .inr ⟨h2, ?_⟩
          have hpos : 0 < (parse (parse m input).2.2 u).1 := by
            cases hm' : (parse m input).2.2 with
            | ended => exact absurd hm' he
            | mark =>
              rw [hm'] at hend
              cases u with
              | nil => simp [parse] at hend
              | cons b u => rw [parse]; split <;> simp
            | byte =>
              rw [hm'] at hend
              cases u with
              | nil => simp [parse] at hend
              | cons b u => simp [parse]
          rw [List.length_append]
          omega

end Spoc.Toy
