import Verif.Spec.Stream
import Verif.Proofs.IoCompressed

/-!
# The loops of the stream versions of `compress` and `decompress`
-/

namespace Spoc

open Compression

/-! ## Compression -/

theorem deflateLoop_ok {z : Deflater} {Valid : Bytes → Bytes → Prop} (hz : z.Correct Valid) {level : Int} {d : Bytes} {bound : Nat}
    (hb : ∀ {level s c o left}, z.Run level s c o left → c <+: d → o.length ≤ bound) (finish : Bool) (n : Nat) :
    ∀ {s : z.State} {c o : Bytes} {left : Option Bytes} {input u : Bytes}, z.Run level s c o left →
      (∀ l, left = some l → finish = true ∧ input = l) → c ++ input ++ u = d → bound - o.length ≤ n →
      ∃ s' p left', z.Run level s' (c ++ input) (o ++ p) left' ∧ (finish = false → left' = none) ∧ (finish = true → Valid (o ++ p) (c ++ input)) ∧
        ∀ fuel, n < fuel → deflateLoop z finish fuel s input = ⟨p, .ok s'⟩ := by
  induction n with
  | zero =>
    intro s c o left input u hr ha hd hn
    obtain ⟨h1, h2, h3⟩ := hz.bounds hr input finish bufferSize ha
    have hr' := Deflater.Run.call input finish bufferSize hr ha
    have hl := hb hr' (by rw [← hd]; exact (List.prefix_append_right_inj _).mpr (List.take_prefix _ _) |>.trans (List.prefix_append _ _))
    have hlt : (z.call s input finish bufferSize).output.length < bufferSize := by
      rw [List.length_append] at hl
      have := bufferSize_pos
      omega
    have hk := h3 hlt
    refine ⟨_, _, _, by rw [hk, List.take_length] at hr'; exact hr', fun hf => by simp [hf], fun hf => ?_, fun fuel hfuel => ?_⟩
    · subst hf
      exact hz.complete hr input bufferSize (fun l hl => (ha l hl).2) hlt
    · obtain ⟨fuel, rfl⟩ : ∃ k, fuel = k + 1 := ⟨fuel - 1, by omega⟩
      rw [deflateLoop]
      simp only [Out.emit_bind]
      rw [if_neg (by omega)]
      simp [Out.ret]
  | succ n ih =>
    intro s c o left input u hr ha hd hn
    obtain ⟨h1, h2, h3⟩ := hz.bounds hr input finish bufferSize ha
    have hr' := Deflater.Run.call input finish bufferSize hr ha
    by_cases hlt : (z.call s input finish bufferSize).output.length < bufferSize
    · have hk := h3 hlt
      refine ⟨_, _, _, by rw [hk, List.take_length] at hr'; exact hr', fun hf => by simp [hf], fun hf => ?_, fun fuel hfuel => ?_⟩
      · subst hf
        exact hz.complete hr input bufferSize (fun l hl => (ha l hl).2) hlt
      · obtain ⟨fuel, rfl⟩ : ∃ k, fuel = k + 1 := ⟨fuel - 1, by omega⟩
        rw [deflateLoop]
        simp only [Out.emit_bind]
        rw [if_neg (by omega)]
        simp [Out.ret]
    · have := bufferSize_pos
      have e : c ++ input.take (z.call s input finish bufferSize).consumed ++ input.drop (z.call s input finish bufferSize).consumed = c ++ input := by
        rw [List.append_assoc, List.take_append_drop]
      obtain ⟨s', p, left', g1, g2, g3, g4⟩ := ih (u := u) hr' (input := input.drop (z.call s input finish bufferSize).consumed) (by
          intro l hl
          cases finish
          · simp at hl
          · simp only [if_true, Option.some.injEq] at hl
            exact ⟨rfl, hl⟩) (by rw [e, hd]) (by
          have hl := hb hr' (by rw [← hd]; exact (List.prefix_append_right_inj _).mpr (List.take_prefix _ _) |>.trans (List.prefix_append _ _))
          rw [List.length_append] at hl ⊢
          omega)
      rw [e, List.append_assoc] at g1 g3
      refine ⟨s', _, left', g1, g2, g3, fun fuel hfuel => ?_⟩
      obtain ⟨fuel, rfl⟩ : ∃ k, fuel = k + 1 := ⟨fuel - 1, by omega⟩
      rw [deflateLoop]
      simp only [Out.emit_bind]
      rw [if_pos (by omega), g4 fuel (by omega)]

theorem compressLoop_ok {z : Deflater} {Valid : Bytes → Bytes → Prop} (hz : z.Correct Valid) {level : Int} {d : Bytes} {bound : Nat}
    (hb : ∀ {level s c o left}, z.Run level s c o left → c <+: d → o.length ≤ bound) (n : Nat) :
    ∀ {s : z.State} {c o rest : Bytes}, z.Run level s c o none → c ++ rest = d → rest.length ≤ n →
      ∃ p, Valid (o ++ p) d ∧ ∀ fuel, bound + n + 1 < fuel → compressLoop z fuel s { rest := rest } = ⟨p, .ok ()⟩ := by
  induction n using Nat.strong_induction_on with
  | _ n ih =>
  intro s c o rest hr hd hn
  by_cases hlt : bufferSize ≤ rest.length
  · have hread : Source.read { rest := rest } bufferSize = (rest.take bufferSize, { rest := rest.drop bufferSize }) := by
      simp [Source.read, hlt]
    obtain ⟨s', p, left', g1, g2, -, g4⟩ := deflateLoop_ok hz hb false bound hr (by simp) (input := rest.take bufferSize) (u := rest.drop bufferSize)
      (by rw [List.append_assoc, List.take_append_drop, hd]) (by omega)
    rw [g2 rfl] at g1
    have := bufferSize_pos
    obtain ⟨q, k1, k2⟩ := ih (n - 1) (by omega) g1 (rest := rest.drop bufferSize) (by rw [List.append_assoc, List.take_append_drop, hd])
      (by rw [List.length_drop]; omega)
    refine ⟨p ++ q, by rw [← List.append_assoc]; exact k1, fun fuel hfuel => ?_⟩
    obtain ⟨fuel, rfl⟩ : ∃ k, fuel = k + 1 := ⟨fuel - 1, by omega⟩
    rw [compressLoop, hread]
    simp only [g4 fuel (by omega), Out.mk_ok_bind, Bool.false_eq_true, if_false, k2 fuel (by omega)]
  · have hread : Source.read { rest := rest } bufferSize = (rest, { rest := [], eof := true, fail := true }) := by
      simp [Source.read, hlt]
    obtain ⟨s', p, left', g1, -, g3, g4⟩ := deflateLoop_ok hz hb true bound hr (by simp) (input := rest) (u := [])
      (by simp [hd]) (by omega)
    rw [hd] at g3
    refine ⟨p, g3 rfl, fun fuel hfuel => ?_⟩
    obtain ⟨fuel, rfl⟩ : ∃ k, fuel = k + 1 := ⟨fuel - 1, by omega⟩
    rw [compressLoop, hread]
    simp [g4 fuel (by omega), Out.ret]

/-! ## Decompression -/

theorem inflateLoop_ok {z : Inflater} {Valid : Bytes → Bytes → Prop} (hz : z.Correct Valid) {cs d : Bytes} (hv : Valid cs d) (n : Nat) :
    ∀ {s : z.State} {c o input u t : Bytes} {b0 : Bool}, z.Run s c o → (b0 = true → o = d) → c ++ input ++ u = cs ++ t → d.length - o.length ≤ n →
      ∃ s' p b, o ++ p <+: d ∧ (b = true ∧ o ++ p = d ∨ b = false ∧ (c ++ input).length < cs.length ∧ z.Run s' (c ++ input) (o ++ p)) ∧
        ∀ fuel, n < fuel → inflateLoop z fuel b0 s input = ⟨p, .ok (b, s')⟩ := by
  induction n with
  | zero =>
    intro s c o input u t b0 hr h0 hd hn
    obtain ⟨h1, h2, h3, h4, h5, h6⟩ := hz.decodes hr input bufferSize cs d hv ⟨u, t, hd⟩
    have hr' := Inflater.Run.call input bufferSize hr
    have hlt : (z.call s input bufferSize).output.length < bufferSize := by
      have := h4.length_le
      rw [List.length_append] at this
      have := bufferSize_pos
      omega
    refine ⟨(z.call s input bufferSize).state, _, b0 || (z.call s input bufferSize).ret == .done, h4, ?_, fun fuel hfuel => ?_⟩
    · by_cases hb : b0 = true
      · refine .inl ⟨by simp [hb], ?_⟩
        rw [h0 hb] at h4 ⊢
        have := h4.length_le
        rw [List.length_append] at this
        rw [List.eq_nil_of_length_eq_zero (by omega : (z.call s input bufferSize).output.length = 0), List.append_nil]
      · rw [Bool.not_eq_true] at hb
        rcases h6 hlt with hd | ⟨hk, hl⟩
        · exact .inl ⟨by simp [hd], h5 hd⟩
        · by_cases hdone : (z.call s input bufferSize).ret = .done
          · exact .inl ⟨by simp [hdone], h5 hdone⟩
          · rw [hk, List.take_length] at hr'
            exact .inr ⟨by simp [hb, hdone], hl, hr'⟩
    · obtain ⟨fuel, rfl⟩ : ∃ k, fuel = k + 1 := ⟨fuel - 1, by omega⟩
      rw [inflateLoop]
      cases hret : (z.call s input bufferSize).ret with
      | error => exact absurd hret h3
      | more =>
        simp only [Out.emit_bind]
        rw [if_neg (by omega)]
        simp [Out.ret]
      | done =>
        simp only [Out.emit_bind]
        rw [if_neg (by omega)]
        simp [Out.ret]
  | succ n ih =>
    intro s c o input u t b0 hr h0 hd hn
    obtain ⟨h1, h2, h3, h4, h5, h6⟩ := hz.decodes hr input bufferSize cs d hv ⟨u, t, hd⟩
    have hr' := Inflater.Run.call input bufferSize hr
    by_cases hlt : (z.call s input bufferSize).output.length < bufferSize
    · refine ⟨(z.call s input bufferSize).state, _, b0 || (z.call s input bufferSize).ret == .done, h4, ?_, fun fuel hfuel => ?_⟩
      · by_cases hb : b0 = true
        · refine .inl ⟨by simp [hb], ?_⟩
          rw [h0 hb] at h4 ⊢
          have := h4.length_le
          rw [List.length_append] at this
          rw [List.eq_nil_of_length_eq_zero (by omega : (z.call s input bufferSize).output.length = 0), List.append_nil]
        · rw [Bool.not_eq_true] at hb
          rcases h6 hlt with hd | ⟨hk, hl⟩
          · exact .inl ⟨by simp [hd], h5 hd⟩
          · by_cases hdone : (z.call s input bufferSize).ret = .done
            · exact .inl ⟨by simp [hdone], h5 hdone⟩
            · rw [hk, List.take_length] at hr'
              exact .inr ⟨by simp [hb, hdone], hl, hr'⟩
      · obtain ⟨fuel, rfl⟩ : ∃ k, fuel = k + 1 := ⟨fuel - 1, by omega⟩
        rw [inflateLoop]
        cases hret : (z.call s input bufferSize).ret with
        | error => exact absurd hret h3
        | more =>
          simp only [Out.emit_bind]
          rw [if_neg (by omega)]
          simp [Out.ret]
        | done =>
          simp only [Out.emit_bind]
          rw [if_neg (by omega)]
          simp [Out.ret]
    · have := bufferSize_pos
      have e : c ++ input.take (z.call s input bufferSize).consumed ++ input.drop (z.call s input bufferSize).consumed = c ++ input := by
        rw [List.append_assoc, List.take_append_drop]
      obtain ⟨s', p, b, g1, g2, g3⟩ := ih (u := u) (t := t) (b0 := b0 || (z.call s input bufferSize).ret == .done) hr'
        (input := input.drop (z.call s input bufferSize).consumed) (by
          intro hb
          rw [Bool.or_eq_true, beq_iff_eq] at hb
          rcases hb with hb | hb
          · have hl := h4.length_le
            rw [h0 hb, List.length_append] at hl
            omega
          · exact h5 hb) (by rw [e, hd]) (by
          rw [List.length_append]
          omega)
      rw [e, List.append_assoc] at g2
      rw [List.append_assoc] at g1
      refine ⟨s', _, b, g1, g2, fun fuel hfuel => ?_⟩
      obtain ⟨fuel, rfl⟩ : ∃ k, fuel = k + 1 := ⟨fuel - 1, by omega⟩
      rw [inflateLoop]
      cases hret : (z.call s input bufferSize).ret with
      | error => exact absurd hret h3
      | more =>
        rw [hret] at g3
        simp only [Out.emit_bind]
        rw [if_pos (by omega), g3 fuel (by omega)]
      | done =>
        rw [hret] at g3
        simp only [Out.emit_bind]
        rw [if_pos (by omega), g3 fuel (by omega)]

theorem decompressLoop_ok {z : Inflater} {Valid : Bytes → Bytes → Prop} (hz : z.Correct Valid) {cs d : Bytes} (hv : Valid cs d) (n : Nat) :
    ∀ {s : z.State} {c o u t : Bytes} {is : Source}, z.Run s c o → o <+: d → c.length < cs.length → ((is.eof || is.fail) = true → is.rest = []) →
      c ++ is.rest ++ u = cs ++ t → is.rest.length ≤ n →
      ∃ p, o ++ p <+: d ∧ (o ++ p = d ∨ (c ++ is.rest).length < cs.length) ∧
        ∀ fuel, d.length + n + 1 < fuel → decompressLoop z fuel s is = ⟨p, .ok ()⟩ := by
  induction n using Nat.strong_induction_on with
  | _ n ih =>
  intro s c o u t is hr ho hc hs hd hn
  have hpos := bufferSize_pos
  by_cases hempty : is.rest = []
  · refine ⟨[], by simpa using ho, .inr (by simpa [hempty] using hc), fun fuel hfuel => ?_⟩
    obtain ⟨fuel, rfl⟩ : ∃ k, fuel = k + 1 := ⟨fuel - 1, by omega⟩
    have hread : (is.read bufferSize).1 = [] := by
      unfold Source.read
      split
      · rfl
      · split
        · simp [hempty]
        · exact hempty
    rw [decompressLoop]
    simp [hread, Out.ret]
  · have hflags : (is.eof || is.fail) = false := by
      by_contra hf
      exact hempty (hs ((Bool.not_eq_false _).mp hf))
    have hpos2 : 0 < is.rest.length := List.length_pos_iff.mpr hempty
    obtain ⟨chunk, is', hread, hne, hsplit, hfl⟩ : ∃ chunk is', is.read bufferSize = (chunk, is') ∧ chunk ≠ [] ∧ chunk ++ is'.rest = is.rest ∧
        ((is'.eof || is'.fail) = true → is'.rest = []) := by
      unfold Source.read
      rw [hflags]
      simp only [Bool.false_eq_true, if_false]
      split
      · refine ⟨_, _, rfl, ?_, List.take_append_drop _ _, ?_⟩
        · intro h
          have := congrArg List.length h
          rw [List.length_take, List.length_nil] at this
          omega
        · intro h
          simp only [hflags] at h
          simp at h
      · exact ⟨_, _, rfl, hempty, by simp, by simp⟩
    obtain ⟨s', p, b, g1, g2, g3⟩ := inflateLoop_ok hz hv d.length (input := chunk) (u := is'.rest ++ u) (t := t) (b0 := false) hr (by simp)
      (by rw [← hd, ← hsplit]; simp) (by omega)
    have hlen : 0 < chunk.length := List.length_pos_iff.mpr hne
    rcases g2 with ⟨hb, hod⟩ | ⟨hb, hl, hr'⟩
    · refine ⟨p, g1, .inl hod, fun fuel hfuel => ?_⟩
      obtain ⟨fuel, rfl⟩ : ∃ k, fuel = k + 1 := ⟨fuel - 1, by omega⟩
      rw [decompressLoop, hread]
      simp [hne, g3 fuel (by omega), hb, Out.ret]
    · have hlen2 := congrArg List.length hsplit
      rw [List.length_append] at hlen2
      obtain ⟨q, k1, k2, k3⟩ := ih (n - 1) (by omega) (u := u) (t := t) (is := is') hr' g1 hl hfl (by rw [← hd, ← hsplit]; simp) (by omega)
      refine ⟨p ++ q, by rw [← List.append_assoc]; exact k1, ?_, fun fuel hfuel => ?_⟩
      · rw [List.append_assoc c, hsplit, List.append_assoc o] at k2
        exact k2
      · obtain ⟨fuel, rfl⟩ : ∃ k, fuel = k + 1 := ⟨fuel - 1, by omega⟩
        rw [decompressLoop, hread]
        simp [hne, g3 fuel (by omega), hb, k3 fuel (by omega)]

/-! ## Rejected data -/

theorem inflateLoop_rejects {z : Inflater} {bs : Bytes} (hz : z.Rejects bs) {bound : Nat}
    (hb : ∀ {s c o}, z.Run s c o → c <+: bs → o.length ≤ bound) (n : Nat) :
    ∀ {s : z.State} {c o input : Bytes}, z.Run s c o → c ++ input <+: bs → bound - o.length ≤ n → ∀ fuel, n < fuel →
      (∃ p e, inflateLoop z fuel false s input = ⟨p, .throw e⟩) ∨
      (∃ p s', inflateLoop z fuel false s input = ⟨p, .ok (false, s')⟩ ∧ z.Run s' (c ++ input) (o ++ p) ∧ c ++ input ≠ bs) := by
  induction n with
  | zero =>
    intro s c o input hr hp hn fuel hfuel
    obtain ⟨fuel, rfl⟩ : ∃ k, fuel = k + 1 := ⟨fuel - 1, by omega⟩
    obtain ⟨h1, h2⟩ := hz.step hr input bufferSize hp
    have hr' := Inflater.Run.call input bufferSize hr
    have hpre : c ++ input.take (z.call s input bufferSize).consumed <+: bs :=
      (List.prefix_append_right_inj c |>.mpr (List.take_prefix _ _)).trans hp
    have hlen := hb hr' hpre
    rw [List.length_append] at hlen
    have hpos := bufferSize_pos
    rw [inflateLoop]
    rcases h2 (by omega) with he | ⟨hk, hne⟩
    · rw [he]
      exact .inl ⟨_, _, rfl⟩
    · cases hret : (z.call s input bufferSize).ret with
      | error => exact .inl ⟨_, _, rfl⟩
      | done => exact absurd hret h1
      | more =>
        rw [hk, List.take_length] at hr'
        refine .inr ⟨_, _, ?_, hr', hne⟩
        simp only [Out.emit_bind]
        rw [if_neg (by omega)]
        simp [Out.ret]
  | succ n ih =>
    intro s c o input hr hp hn fuel hfuel
    obtain ⟨fuel, rfl⟩ : ∃ k, fuel = k + 1 := ⟨fuel - 1, by omega⟩
    obtain ⟨h1, h2⟩ := hz.step hr input bufferSize hp
    have hr' := Inflater.Run.call input bufferSize hr
    have hpos := bufferSize_pos
    rw [inflateLoop]
    cases hret : (z.call s input bufferSize).ret with
    | error => exact .inl ⟨_, _, rfl⟩
    | done => exact absurd hret h1
    | more =>
      simp only [Out.emit_bind]
      by_cases hlt : (z.call s input bufferSize).output.length < bufferSize
      · rw [if_neg (by omega)]
        rcases h2 hlt with he | ⟨hk, hne⟩
        · rw [he] at hret
          cases hret
        · rw [hk, List.take_length] at hr'
          exact .inr ⟨_, _, by simp [Out.ret], hr', hne⟩
      · rw [if_pos (by omega)]
        have e : c ++ input.take (z.call s input bufferSize).consumed ++ input.drop (z.call s input bufferSize).consumed = c ++ input := by
          rw [List.append_assoc, List.take_append_drop]
        have hd : (false || InflateRet.more == InflateRet.done) = false := rfl
        rw [hd]
        rcases ih hr' (input := input.drop (z.call s input bufferSize).consumed) (by rw [e]; exact hp)
          (by rw [List.length_append]; omega) fuel (by omega) with ⟨p, e', h⟩ | ⟨p, s', h, g1, g2⟩
        · exact .inl ⟨_, _, by rw [h]⟩
        · rw [e, List.append_assoc] at g1
          rw [e] at g2
          exact .inr ⟨_, _, by rw [h], g1, g2⟩

theorem decompressLoop_rejects {z : Inflater} {bs : Bytes} (hz : z.Rejects bs) {bound : Nat}
    (hb : ∀ {s c o}, z.Run s c o → c <+: bs → o.length ≤ bound) (n : Nat) :
    ∀ {s : z.State} {c o : Bytes} {is : Source}, z.Run s c o → c ≠ bs → ((is.eof || is.fail) = true → is.rest = []) →
      c ++ is.rest = bs → is.rest.length ≤ n → ∀ fuel, bound + n + 1 < fuel → ∃ p e, decompressLoop z fuel s is = ⟨p, .throw e⟩ := by
  induction n using Nat.strong_induction_on with
  | _ n ih =>
  intro s c o is hr hc hs hd hn fuel hfuel
  have hpos := bufferSize_pos
  have hempty : is.rest ≠ [] := by
    rintro h
    rw [h, List.append_nil] at hd
    exact hc hd
  have hflags : (is.eof || is.fail) = false := by
    by_contra hf
    exact hempty (hs ((Bool.not_eq_false _).mp hf))
  have hpos2 : 0 < is.rest.length := List.length_pos_iff.mpr hempty
  obtain ⟨chunk, is', hread, hne, hsplit, hfl⟩ : ∃ chunk is', is.read bufferSize = (chunk, is') ∧ chunk ≠ [] ∧ chunk ++ is'.rest = is.rest ∧
      ((is'.eof || is'.fail) = true → is'.rest = []) := by
    unfold Source.read
    rw [hflags]
    simp only [Bool.false_eq_true, if_false]
    split
    · refine ⟨_, _, rfl, ?_, List.take_append_drop _ _, ?_⟩
      · intro h
        have := congrArg List.length h
        rw [List.length_take, List.length_nil] at this
        omega
      · intro h
        simp only [hflags] at h
        simp at h
    · exact ⟨_, _, rfl, hempty, by simp, by simp⟩
  obtain ⟨fuel, rfl⟩ : ∃ k, fuel = k + 1 := ⟨fuel - 1, by omega⟩
  have hlen : 0 < chunk.length := List.length_pos_iff.mpr hne
  have hlen2 := congrArg List.length hsplit
  rw [List.length_append] at hlen2
  have hsplit2 : c ++ chunk ++ is'.rest = bs := by rw [List.append_assoc, hsplit, hd]
  rw [decompressLoop, hread]
  rcases inflateLoop_rejects hz hb bound hr (input := chunk) ⟨_, hsplit2⟩ (by omega) fuel (by omega) with ⟨p, e, h⟩ | ⟨p, s', h, g1, g2⟩
  · exact ⟨p, e, by simp [hne, h]; rfl⟩
  · obtain ⟨p', e, h'⟩ := ih is'.rest.length (by omega) g1 g2 hfl hsplit2 (Nat.le_refl _) fuel (by omega)
    exact ⟨p ++ p', e, by simp [hne, h, h']⟩

end Spoc
