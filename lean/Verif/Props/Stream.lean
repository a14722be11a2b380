import Verif.Proofs.Stream
import Verif.Proofs.StreamToy

/-!
# C80: compression of streams
-/

namespace Spoc.Props

open Compression

/-- **C80** (partial: the stream must be readable, see `c80_failed_stream_hangs`).  For data of any length and every level from -1 to 9 the
loops end and what is written is a complete compressed stream with that content. -/
theorem c80_compress_partial (z : Deflater) (Valid : Bytes → Bytes → Prop) (hz : z.Correct Valid) (d : Bytes) (level : Int) (h1 : -1 ≤ level)
    (h2 : level ≤ 9) :
    ∃ cs, Valid cs d ∧ ∃ rounds, ∀ fuel, rounds ≤ fuel → compressStream z fuel { rest := d } level = ⟨cs, .ok ()⟩ := by
  obtain ⟨s, hs⟩ := Option.isSome_iff_exists.mp ((hz.levels level).mpr ⟨h1, h2⟩)
  obtain ⟨bound, hb⟩ := hz.finite d
  obtain ⟨p, hp, hf⟩ := compressLoop_ok hz hb d.length (rest := d) (.init hs) (List.nil_append d) (Nat.le_refl _)
  refine ⟨p, hp, bound + d.length + 2, fun fuel h => ?_⟩
  rw [compressStream, hs]
  exact hf fuel (by omega)

/-- **C80**: other levels are refused and nothing is written. -/
theorem c80_bad_level (z : Deflater) (Valid : Bytes → Bytes → Prop) (hz : z.Correct Valid) (is : Source) (level : Int)
    (h : level < -1 ∨ 9 < level) (fuel : Nat) : ∃ e, compressStream z fuel is level = ⟨[], .throw e⟩ := by
  have : z.init level = none := by
    rw [← Option.not_isSome_iff_eq_none, hz.levels]
    omega
  rw [compressStream, this]
  exact ⟨_, rfl⟩

/-- **C80**: decompressing gives the content back, whatever follows the compressed stream. -/
theorem c80_decompress (z : Inflater) (Valid : Bytes → Bytes → Prop) (hz : z.Correct Valid) (cs d : Bytes) (hv : Valid cs d) (tail : Bytes) :
    ∃ rounds, ∀ fuel, rounds ≤ fuel → decompressStream z fuel { rest := cs ++ tail } = ⟨d, .ok ()⟩ := by
  obtain ⟨p, -, hp, hf⟩ := decompressLoop_ok hz hv (cs ++ tail).length (u := []) (t := tail) (is := { rest := cs ++ tail }) .init
    (List.nil_prefix) (List.length_pos_iff.mpr (hz.nonempty hv)) (by simp) (by simp) (Nat.le_refl _)
  refine ⟨d.length + (cs ++ tail).length + 2, fun fuel h => ?_⟩
  rcases hp with hp | hp
  · rw [List.nil_append] at hp
    rw [decompressStream, hf fuel (by omega), hp]
  · simp at hp

/-- **C80**: the two in a row, for data of any length. -/
theorem c80_roundtrip_partial (zd : Deflater) (zi : Inflater) (Valid : Bytes → Bytes → Prop) (hd : zd.Correct Valid) (hi : zi.Correct Valid)
    (d : Bytes) (level : Int) (h1 : -1 ≤ level) (h2 : level ≤ 9) :
    ∃ cs rounds, ∀ fuel, rounds ≤ fuel → compressStream zd fuel { rest := d } level = ⟨cs, .ok ()⟩ ∧
      decompressStream zi fuel { rest := cs } = ⟨d, .ok ()⟩ := by
  obtain ⟨cs, hv, r1, hr1⟩ := c80_compress_partial zd Valid hd d level h1 h2
  obtain ⟨r2, hr2⟩ := c80_decompress zi Valid hi cs d hv []
  rw [List.append_nil] at hr2
  exact ⟨cs, max r1 r2, fun fuel h => ⟨hr1 fuel (by omega), hr2 fuel (by omega)⟩⟩

example : Toy.deflater.Correct Toy.Valid ∧ Toy.inflater.Correct Toy.Valid := ⟨Toy.deflater_correct, Toy.inflater_correct⟩

/-- The stream functions and the functions on vectors understand each other, if both halves of zlib speak of the same format. -/
theorem c80_same_format (zd : Deflater) (zi : Inflater) (z : Zlib) (Valid : Bytes → Bytes → Prop) (hd : zd.Correct Valid) (hi : zi.Correct Valid)
    (hinf : ∀ cs d, Valid cs d → z.inflate cs = ⟨d, false⟩) (hdef : ∀ d, Valid (z.deflate d) d) (d : Bytes) (level : Int)
    (h1 : -1 ≤ level) (h2 : level ≤ 9) :
    (∃ cs rounds, (∀ fuel, rounds ≤ fuel → compressStream zd fuel { rest := d } level = ⟨cs, .ok ()⟩) ∧
      (cs.length < 2 ^ 32 → decompress z cs = .ok d)) ∧
    (d.length < 2 ^ 32 → ∃ cs rounds, compress z d = .ok cs ∧ ∀ fuel, rounds ≤ fuel → decompressStream zi fuel { rest := cs } = ⟨d, .ok ()⟩) := by
  constructor
  · obtain ⟨cs, hv, r, hr⟩ := c80_compress_partial zd Valid hd d level h1 h2
    refine ⟨cs, r, hr, fun hl => ?_⟩
    have : cs.take (availIn cs.length) = cs := by
      rw [availIn, Nat.mod_eq_of_lt hl, List.take_length]
    rw [decompress, this, hinf cs d hv]
    simp only [Bool.false_eq_true, if_false]
    rw [drain_eq bufferSize_pos _ _ _ (by omega), List.nil_append]
  · intro hl
    obtain ⟨r, hr⟩ := c80_decompress zi Valid hi _ d (hdef d) []
    rw [List.append_nil] at hr
    exact ⟨_, r, compress_eq z hl, hr⟩

example : ∃ z : Zlib, (∀ cs d, Toy.Valid cs d → z.inflate cs = ⟨d, false⟩) ∧ ∀ d, Toy.Valid (z.deflate d) d :=
  ⟨{ deflate := fun d => Toy.encode d ++ [0], inflate := fun cs => ⟨(Toy.parse .mark cs).2.1, false⟩ }, fun cs d h => by
    have := Toy.parse_valid d []
    rw [List.append_nil, ← h] at this
    simp [this], fun _ => rfl⟩

/-- **C80, negation**: a compressed stream that was cut off, anywhere, is accepted without complaint; what was written is only the beginning
of the content. -/
theorem c80_truncation_unnoticed (z : Inflater) (Valid : Bytes → Bytes → Prop) (hz : z.Correct Valid) (cs d : Bytes) (hv : Valid cs d) (n : Nat) :
    ∃ out, out <+: d ∧ ∃ rounds, ∀ fuel, rounds ≤ fuel → decompressStream z fuel { rest := cs.take n } = ⟨out, .ok ()⟩ := by
  obtain ⟨p, hp, -, hf⟩ := decompressLoop_ok hz hv (cs.take n).length (u := cs.drop n) (t := []) (is := { rest := cs.take n }) .init
    (List.nil_prefix) (List.length_pos_iff.mpr (hz.nonempty hv)) (by simp) (by simp) (Nat.le_refl _)
  exact ⟨p, hp, d.length + (cs.take n).length + 2, fun fuel h => hf fuel (by omega)⟩

/-- For instance after the first of two bytes, or before the first. -/
example : decompressStream Toy.inflater 9 { rest := (Toy.encode [7, 8] ++ [0]).take 2 } = ⟨[7], .ok ()⟩ ∧
    decompressStream Toy.inflater 9 { rest := [] } = ⟨[], .ok ()⟩ ∧ ∃ d, Toy.Valid (Toy.encode [7, 8] ++ [0]) d ∧ d ≠ [7] ∧ d ≠ [] := by
  refine ⟨by decide +kernel, by decide +kernel, [7, 8], rfl, by decide, by decide⟩

/-- **C80**: data that zlib rejects lead to an exception, wherever the pieces are cut. -/
theorem c80_damage_reported (z : Inflater) (bs : Bytes) (hz : z.Rejects bs) (hne : bs ≠ []) :
    ∃ rounds, ∀ fuel, rounds ≤ fuel → ∃ out e, decompressStream z fuel { rest := bs } = ⟨out, .throw e⟩ := by
  obtain ⟨bound, hb⟩ := hz.finite
  exact ⟨bound + bs.length + 2, fun fuel h => decompressLoop_rejects hz hb bs.length (is := { rest := bs }) .init (Ne.symm hne) (by simp) rfl
    (Nat.le_refl _) fuel (by omega)⟩

/-- An `inflate` that reports an error as soon as it sees a nine, and delivers nothing. -/
def picky : Inflater where
  State := Bool
  init := false
  call s input _ := { state := s || decide (9 ∈ input), consumed := input.length, output := [], ret := if s || decide (9 ∈ input) then .error else .more }

theorem picky_run {s : picky.State} {c o : Bytes} (h : picky.Run s c o) : o = [] ∧ (s : Bool) = decide (9 ∈ c) := by
  induction h with
  | init => exact ⟨rfl, rfl⟩
  | @call s c o input room hr ih =>
    obtain ⟨rfl, i2⟩ := ih
    refine ⟨rfl, ?_⟩
    simp only [picky, List.take_length, List.mem_append, Bool.decide_or] at i2 ⊢
    rw [i2]

/-- It rejects all bytes with a nine among them. -/
example : ∃ bs, bs ≠ [] ∧ picky.Rejects bs := by
  refine ⟨[1, 2, 9, 3], by decide, fun {s c o} hr input room _ => ?_, 0, fun hr _ => by rw [(picky_run hr).1]; exact Nat.le_refl _⟩
  have h2 := (picky_run hr).2
  constructor
  · simp only [picky]
    split <;> simp
  · intro _
    by_cases h9 : 9 ∈ c ++ input
    · left
      rw [List.mem_append] at h9
      simp only [picky] at h2 ⊢
      rw [if_pos]
      rw [h2]
      simpa using h9
    · right
      refine ⟨rfl, ?_⟩
      rintro h
      rw [h] at h9
      exact h9 (by decide)

theorem deflateLoop_cases (z : Deflater) (finish : Bool) (fuel : Nat) (s : z.State) (input : Bytes) :
    (deflateLoop z finish fuel s input).res = .hang ∨ ∃ s', (deflateLoop z finish fuel s input).res = .ok s' := by
  induction fuel generalizing s input with
  | zero => exact .inl rfl
  | succ fuel ih =>
    rw [deflateLoop]
    simp only [Out.emit_bind]
    split
    · exact ih _ _
    · exact .inr ⟨_, rfl⟩

/-- **C80, negation**: compressing a stream that has failed before, such as a file that could not be opened, never ends. -/
theorem c80_failed_stream_hangs (z : Deflater) (Valid : Bytes → Bytes → Prop) (hz : z.Correct Valid) (rest : Bytes) (level : Int)
    (h1 : -1 ≤ level) (h2 : level ≤ 9) (fuel : Nat) : (compressStream z fuel { rest := rest, fail := true } level).res = .hang := by
  obtain ⟨s, hs⟩ := Option.isSome_iff_exists.mp ((hz.levels level).mpr ⟨h1, h2⟩)
  rw [compressStream, hs]
  change (compressLoop z fuel s _).res = .hang
  clear hs
  induction fuel generalizing s with
  | zero => rfl
  | succ fuel ih =>
    have hread : Source.read { rest := rest, fail := true } bufferSize = ([], { rest := rest, fail := true }) := by simp [Source.read]
    rw [compressLoop, hread]
    dsimp only
    rcases h : deflateLoop z false fuel s [] with ⟨p, r⟩
    rcases deflateLoop_cases z false fuel s [] with hc | ⟨s', hc⟩
    · rw [h] at hc
      simp only at hc
      subst hc
      rfl
    · rw [h] at hc
      simp only at hc
      subst hc
      simp [ih]

example : Toy.deflater.Correct Toy.Valid := Toy.deflater_correct

end Spoc.Props
