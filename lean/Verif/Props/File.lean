import Verif.Spec.Io
import Verif.Model.FileOps
import Verif.Proofs.IoCompressed

/-!
# Properties of file objects (C11, C12, C13)
-/

namespace Spoc.Props

open Spoc Spec Io FileOps

theorem allSame_uniform (prs : List PointRecord) : allSameSizeExtra prs = true ↔ Uniform prs := by
  rw [allSame_iff]
  constructor
  · intro h p hp q hq
    rw [h p hp, h q hq]
  · intro h q hq
    cases prs with
    | nil => simp at hq
    | cons a l => simpa using h q hq a (by simp)

theorem resizeExtra_length (n : Nat) (e : List UInt64) : (SpocFile.resizeExtra n e).length = n := by
  simp [SpocFile.resizeExtra]; omega

/-! ## C11 -/

theorem step_uniform (bd : Build) (s s' : State) (op : Op) (ha : Uniform s.a.prs)
    (hb : Uniform s.b.prs) (h : step bd s op = .ok s') : Uniform s'.a.prs ∧ Uniform s'.b.prs := by
  have hget : ∀ r, Uniform (s.get r).prs := by intro r; cases r <;> assumption
  have hput : ∀ r f, Uniform f.prs → Uniform (s.put r f).a.prs ∧ Uniform (s.put r f).b.prs := by
    intro r f hf
    cases r
    · exact ⟨hf, hb⟩
    · exact ⟨ha, hf⟩
  have hempty : Uniform [] := by intro p hp; simp at hp
  have hnew : ∀ ma mi w c p f, SpocFile.new ma mi w c p = .ok f → Uniform f.prs := by
    intro ma mi w c p f hf
    unfold SpocFile.new at hf
    split at hf
    · simp at hf
    · rename_i hv
      simp only [Bool.not_eq_true', Bool.not_eq_false] at hv
      simp only [Res.ok.injEq] at hf
      subst hf
      exact (allSame_uniform p).mp hv
  cases op with
  | construct r ma mi w c p =>
    simp only [step] at h
    rw [Res.bind_eq_ok] at h
    obtain ⟨f, hf, h⟩ := h
    simp only [Res.ok.injEq] at h; subst h
    exact hput r f (hnew _ _ _ _ _ _ hf)
  | constructEmpty r => simp only [step, Res.ok.injEq] at h; subst h; exact hput r _ hempty
  | cloneEmpty r t => simp only [step, Res.ok.injEq] at h; subst h; exact hput r _ hempty
  | setWkt r w => simp only [step, Res.ok.injEq] at h; subst h; exact hput r _ (hget r)
  | setCompressed r c => simp only [step, Res.ok.injEq] at h; subst h; exact hput r _ (hget r)
  | pushBack r q =>
    simp only [step] at h
    rw [Res.bind_eq_ok] at h
    obtain ⟨f, hf, h⟩ := h
    simp only [Res.ok.injEq] at h; subst h
    apply hput r f
    unfold SpocFile.pushBack at hf
    have hu := hget r
    split at hf
    · simp only [Res.ok.injEq] at hf; subst hf
      intro p hp q hq
      simp only [List.mem_singleton] at hp hq
      rw [hp, hq]
    · rename_i q0 l hp
      split at hf
      · simp at hf
      · rename_i hlen
        simp only [Res.ok.injEq] at hf; subst hf
        simp only [ne_eq, not_not] at hlen
        have hq0 : q0 ∈ (s.get r).prs := by rw [hp]; simp
        intro p1 hp1 p2 hp2
        simp only [List.mem_append, List.mem_singleton] at hp1 hp2
        rcases hp1 with hp1 | rfl <;> rcases hp2 with hp2 | rfl
        · exact hu _ hp1 _ hp2
        · rw [hu _ hp1 _ hq0, hlen]
        · rw [hu _ hp2 _ hq0, hlen]
        · rfl
  | resizeExtra r n =>
    simp only [step, Res.ok.injEq] at h; subst h
    apply hput r
    intro p hp q hq
    simp only [SpocFile.resizeExtraFields, List.mem_map] at hp hq
    obtain ⟨p', _, rfl⟩ := hp
    obtain ⟨q', _, rfl⟩ := hq
    simp only [resizeExtra_length]
  | swap => simp only [step, Res.ok.injEq] at h; subst h; exact ⟨hb, ha⟩
  | assign r t =>
    simp only [step] at h
    split at h
    · simp only [Res.ok.injEq] at h; subst h; exact ⟨ha, hb⟩
    · rw [Res.bind_eq_ok] at h
      obtain ⟨f, hf, h⟩ := h
      simp only [Res.ok.injEq] at h; subst h
      exact hput r f (hnew _ _ _ _ _ _ hf)
  | setRecord r i q =>
    simp only [step] at h
    rw [Res.bind_eq_ok] at h
    obtain ⟨f, hf, h⟩ := h
    simp only [Res.ok.injEq] at h; subst h
    apply hput r f
    have hu := hget r
    unfold SpocFile.setPointRecord at hf
    rw [Res.bind_eq_ok] at hf
    obtain ⟨_, _, hf⟩ := hf
    split at hf
    · simp at hf
    · rename_i hlen
      simp only [ne_eq, not_not] at hlen
      split at hf
      · simp only [Res.ok.injEq] at hf; subst hf
        have hall : ∀ p ∈ (s.get r).prs.set i q, p.extra.length = (s.get r).extraFields := by
          intro p hp
          rcases List.mem_or_eq_of_mem_set hp with hp | rfl
          · exact (allSame_iff _).mp ((allSame_uniform _).mpr hu) p hp |>.trans (extraFields_eq _).symm
          · exact hlen
        intro p1 hp1 p2 hp2
        rw [hall p1 hp1, hall p2 hp2]
      · simp at hf
  | setRecords r p =>
    simp only [step] at h
    rw [Res.bind_eq_ok] at h
    obtain ⟨f, hf, h⟩ := h
    simp only [Res.ok.injEq] at h; subst h
    apply hput r f
    unfold SpocFile.setPointRecords at hf
    split at hf
    · simp at hf
    · rename_i hv
      simp only [Bool.not_eq_true', Bool.not_eq_false] at hv
      simp only [Res.ok.injEq] at hf; subst hf
      exact (allSame_uniform p).mp hv
  | moveOut r => simp only [step, Res.ok.injEq] at h; subst h; exact hput r _ hempty
  | moveIn r p =>
    simp only [step] at h
    rw [Res.bind_eq_ok] at h
    obtain ⟨f, hf, h⟩ := h
    simp only [Res.ok.injEq] at h; subst h
    apply hput r f
    unfold SpocFile.moveIn at hf
    split at hf
    · simp at hf
    · rename_i hv
      simp only [Bool.not_eq_true', Bool.not_eq_false] at hv
      simp only [Res.ok.injEq] at hf; subst hf
      exact (allSame_uniform p).mp hv

/-- **C11.**  Two default-constructed objects, any history of operations with arbitrary
arguments, exceptions included: in both objects all records have the same number of extra fields. -/
theorem c11_consistent (bd : Build) (ops : List Op) (s : State)
    (h : run bd { a := SpocFile.empty, b := SpocFile.empty } ops = .ok s) :
    Uniform s.a.prs ∧ Uniform s.b.prs := by
  have key : ∀ (ops : List Op) (s0 : State), Uniform s0.a.prs → Uniform s0.b.prs →
      run bd s0 ops = .ok s → Uniform s.a.prs ∧ Uniform s.b.prs := by
    intro ops
    induction ops with
    | nil =>
      intro s0 ha hb h
      simp only [run, Res.ok.injEq] at h
      subst h
      exact ⟨ha, hb⟩
    | cons op ops ih =>
      intro s0 ha hb h
      rw [run] at h
      split at h
      · rename_i s1 hs
        have := step_uniform bd s0 s1 op ha hb hs
        exact ih s1 this.1 this.2 h
      · exact ih s0 ha hb h
      · simp at h
      · simp at h
      · simp at h
  exact key ops _ (by intro p hp; simp [SpocFile.empty] at hp)
    (by intro p hp; simp [SpocFile.empty] at hp) h

example : run .debug { a := SpocFile.empty, b := SpocFile.empty }
    [.pushBack .a { extra := [1] }, .pushBack .a { extra := [] }, .resizeExtra .a 3, .assign .b .a,
     .setRecord .b 0 { extra := [7, 8, 9] }, .moveOut .a] =
    .ok { a := SpocFile.empty, b := { SpocFile.empty with prs := [{ extra := [7, 8, 9] }] } } := by
  decide +kernel

/-- **C11**, safety: in a debug build no history leads to undefined behaviour, and in a release build
only setting a record with an index out of range does. -/
theorem c11_no_ub (bd : Build) (s : State) (op : Op)
    (hidx : bd = .release → ∀ r i q, op = .setRecord r i q → i < (s.get r).prs.length) :
    (∃ s', step bd s op = .ok s') ∨ ∃ e, step bd s op = .throw e := by
  have hnew : ∀ ma mi w c p, (∃ f, SpocFile.new ma mi w c p = .ok f) ∨
      ∃ e, SpocFile.new ma mi w c p = .throw e := by
    intro ma mi w c p
    unfold SpocFile.new
    split
    · exact .inr ⟨_, rfl⟩
    · exact .inl ⟨_, rfl⟩
  cases op with
  | construct r ma mi w c p =>
    simp only [step]
    rcases hnew ma mi w c p with ⟨f, hf⟩ | ⟨e, he⟩
    · rw [hf]; exact .inl ⟨_, rfl⟩
    · rw [he]; exact .inr ⟨_, rfl⟩
  | constructEmpty r => exact .inl ⟨_, rfl⟩
  | cloneEmpty r t => exact .inl ⟨_, rfl⟩
  | setWkt r w => exact .inl ⟨_, rfl⟩
  | setCompressed r c => exact .inl ⟨_, rfl⟩
  | pushBack r q =>
    simp only [step, SpocFile.pushBack]
    split
    · exact .inl ⟨_, rfl⟩
    · split
      · exact .inr ⟨_, rfl⟩
      · exact .inl ⟨_, rfl⟩
  | resizeExtra r n => exact .inl ⟨_, rfl⟩
  | swap => exact .inl ⟨_, rfl⟩
  | assign r t =>
    simp only [step]
    split
    · exact .inl ⟨_, rfl⟩
    · rcases hnew (s.get t).major (s.get t).minor (s.get t).wkt (s.get t).compressed
        (s.get t).prs with ⟨f, hf⟩ | ⟨e, he⟩
      · rw [SpocFile.copy, hf]; exact .inl ⟨_, rfl⟩
      · rw [SpocFile.copy, he]; exact .inr ⟨_, rfl⟩
  | setRecord r i q =>
    simp only [step, SpocFile.setPointRecord]
    by_cases hi : i < (s.get r).prs.length
    · rw [decide_eq_true hi, require_true]
      simp only [Res.ok_bind, if_pos hi]
      split
      · exact .inr ⟨_, rfl⟩
      · exact .inl ⟨_, rfl⟩
    · cases bd with
      | debug => rw [decide_eq_false hi]; exact .inr ⟨_, rfl⟩
      | release => exact absurd (hidx rfl r i q rfl) hi
  | setRecords r p =>
    simp only [step, SpocFile.setPointRecords]
    split
    · exact .inr ⟨_, rfl⟩
    · exact .inl ⟨_, rfl⟩
  | moveOut r => exact .inl ⟨_, rfl⟩
  | moveIn r p =>
    simp only [step, SpocFile.moveIn]
    split
    · exact .inr ⟨_, rfl⟩
    · exact .inl ⟨_, rfl⟩

example : (Build.release = .release → ∀ r i q, Op.setRecord .a 0 {} = .setRecord r i q →
    i < (({ a := { SpocFile.empty with prs := [{}] }, b := SpocFile.empty } : State).get r).prs.length) := by
  intro _ r i q h
  injection h with h1 h2 h3
  subst h1 h2
  decide

/-! ## C12 -/

/-- **C12**, `push_back`: appends exactly one record if it has the right number of extra fields and
otherwise throws. -/
theorem c12_push_back (f : SpocFile) (q : PointRecord) :
    ((∀ p ∈ f.prs.head?, q.extra.length = p.extra.length) →
      f.pushBack q = .ok { f with prs := f.prs ++ [q] }) ∧
    ((∃ p ∈ f.prs.head?, q.extra.length ≠ p.extra.length) → ∃ e, f.pushBack q = .throw e) := by
  unfold SpocFile.pushBack
  cases hp : f.prs with
  | nil => simp
  | cons a l =>
    simp only [List.head?_cons, Option.mem_def, Option.some.injEq, forall_eq', exists_eq_left']
    constructor
    · intro h; simp [h]
    · intro h; simp [h]

example : ∃ f : SpocFile, ∃ p ∈ f.prs.head?, ({ extra := [1] } : PointRecord).extra.length ≠ p.extra.length :=
  ⟨{ SpocFile.empty with prs := [{}] }, {}, by simp, by simp⟩

/-- **C12**, `set_point_record`: replaces the record at the index, and nothing else. -/
theorem c12_set_point_record (bd : Build) (f f' : SpocFile) (i : Nat) (q : PointRecord)
    (h : f.setPointRecord bd i q = .ok f') :
    f'.wkt = f.wkt ∧ f'.compressed = f.compressed ∧ f'.prs.length = f.prs.length ∧
    i < f.prs.length ∧ f'.prs[i]? = some q ∧ ∀ j, j ≠ i → f'.prs[j]? = f.prs[j]? := by
  unfold SpocFile.setPointRecord at h
  rw [Res.bind_eq_ok] at h
  obtain ⟨_, _, h⟩ := h
  split at h
  · simp at h
  · split at h
    · rename_i hi
      simp only [Res.ok.injEq] at h; subst h
      refine ⟨rfl, rfl, by simp, hi, by simp [hi], ?_⟩
      intro j hj
      simp [List.getElem?_set_ne (Ne.symm hj)]
    · simp at h

/-- **C12**, `set_point_record` succeeds for an index in range and a record that fits. -/
theorem c12_set_point_record_ok (bd : Build) (f : SpocFile) (i : Nat) (q : PointRecord)
    (hi : i < f.prs.length) (hq : ∀ p ∈ f.prs, q.extra.length = p.extra.length) :
    ∃ f', f.setPointRecord bd i q = .ok f' := by
  unfold SpocFile.setPointRecord
  have hne : f.prs ≠ [] := by intro h; rw [h] at hi; simp at hi
  obtain ⟨a, l, hp⟩ := List.exists_cons_of_ne_nil hne
  have he : q.extra.length = f.extraFields := by
    rw [extraFields_eq, hp]; simpa using hq a (by rw [hp]; simp)
  rw [decide_eq_true hi, require_true]
  simp only [Res.ok_bind, he, ne_eq, not_true, if_false, if_pos hi]
  exact ⟨_, rfl⟩

example : (0 < [({} : PointRecord), {}].length) ∧ Uniform [{}, {}] := by
  unfold Uniform; decide

/-- **C12**, `resize_extra_fields`: keeps metadata, number and order of the records and all plain
fields; every record gets exactly `n` extra fields, the old ones as far as they fit, then zeros. -/
theorem c12_resize (f : SpocFile) (n : Nat) :
    (f.resizeExtraFields n).wkt = f.wkt ∧ (f.resizeExtraFields n).compressed = f.compressed ∧
    List.Forall₂ (fun q q' : PointRecord => q' = { q with extra := q'.extra } ∧
      q'.extra.length = n ∧ ∀ j < n, q'.extra[j]? = some (q.extra[j]?.getD 0))
      f.prs (f.resizeExtraFields n).prs := by
  refine ⟨rfl, rfl, ?_⟩
  simp only [SpocFile.resizeExtraFields]
  rw [List.forall₂_map_right_iff, List.forall₂_same]
  intro q _
  refine ⟨rfl, resizeExtra_length _ _, ?_⟩
  intro j hj
  simp only [SpocFile.resizeExtra]
  by_cases hl : j < q.extra.length
  · rw [List.getElem?_append_left (by simp; omega)]
    simp [hj, List.getElem?_eq_getElem hl]
  · rw [List.getElem?_append_right (by simp; omega)]
    simp [List.getElem?_eq_none (Nat.le_of_not_lt hl), List.getElem?_replicate]
    omega

/-- **C12**, the remaining operations: metadata setters touch no record, cloning keeps the
metadata and drops the records, moving out hands over all records and leaves none, moving in
and replacing set exactly the given records, copying copies everything. -/
theorem c12_frame (f : SpocFile) (w : Bytes) (flag : Bool) (prs : List PointRecord) (hu : Uniform prs)
    (hf : Uniform f.prs) :
    (f.setWkt w = { f with wkt := w }) ∧
    (f.setCompressed flag = { f with compressed := flag }) ∧
    (f.cloneEmpty = { f with prs := [] }) ∧
    (f.moveOut = (f.prs, { f with prs := [] })) ∧
    (f.moveIn prs = .ok { f with prs := prs }) ∧
    (f.setPointRecords prs = .ok { f with prs := prs }) ∧
    (f.copy = .ok f) := by
  have h1 := (allSame_uniform prs).mpr hu
  have h2 := (allSame_uniform f.prs).mpr hf
  refine ⟨rfl, rfl, rfl, rfl, ?_, ?_, ?_⟩
  · simp [SpocFile.moveIn, h1]
  · simp [SpocFile.setPointRecords, h1]
  · simp [SpocFile.copy, SpocFile.new, h2]

/-- **C12**, rejected arguments: inconsistent records are refused by every way of setting them. -/
theorem c12_inconsistent_refused (f : SpocFile) (w : Bytes) (flag : Bool) (ma mi : UInt8)
    (prs : List PointRecord) (hu : ¬ Uniform prs) :
    (∃ e, SpocFile.new ma mi w flag prs = .throw e) ∧ (∃ e, f.setPointRecords prs = .throw e) ∧
    (∃ e, f.moveIn prs = .throw e) := by
  have h1 : allSameSizeExtra prs = false := by
    cases h : allSameSizeExtra prs with
    | true => exact absurd ((allSame_uniform prs).mp h) hu
    | false => rfl
  simp [SpocFile.new, SpocFile.setPointRecords, SpocFile.moveIn, h1]

example : ¬ Uniform [({} : PointRecord), { extra := [1] }] := by unfold Uniform; decide
example : Uniform [({ extra := [2] } : PointRecord), { extra := [1] }] := by unfold Uniform; decide

/-! ## C13 -/

/-- **C13** (partial: at most 255 extra fields; beyond that the number is truncated to 8 bits, see
`c13_extra_fields_truncated`).  The generated header describes the file. -/
theorem c13_header_describes_file_partial (f : SpocFile) (hw : f.wkt.length ≤ 65535)
    (hu : Uniform f.prs) (he : ∀ q ∈ f.prs, q.extra.length ≤ 255) (hn : f.prs.length < 2 ^ 64) :
    ∃ h, f.getHeader = .ok h ∧ h.totalPoints.toNat = f.prs.length ∧
      (∀ q ∈ f.prs, h.extraFields.toNat = q.extra.length) ∧ (f.prs = [] → h.extraFields = 0) ∧
      h.wkt = f.wkt ∧ (h.compressed ≠ 0 ↔ f.compressed = true) ∧ h.isValid = true ∧
      h.major = f.major ∧ h.minor = f.minor := by
  refine ⟨hdr f, getHeader_eq hw, Nat.mod_eq_of_lt hn, ?_, ?_, rfl, ?_, ?_, rfl, rfl⟩
  · intro q hq
    have h1 : q.extra.length = f.extraFields := by
      have := (allSame_iff _).mp ((allSame_uniform _).mpr hu) q hq
      rw [extraFields_eq]; exact this
    have h2 := he q hq
    rw [h1] at h2 ⊢
    exact Nat.mod_eq_of_lt (by omega)
  · intro h
    simp [hdr, extraFields_eq, h]
  · cases hc : f.compressed <;> simp [hdr, hc]
  · have : ¬ (hdr f).wkt.length > 0xFFFF := by
      have h : (hdr f).wkt = f.wkt := rfl
      rw [h]; omega
    simp only [Header.isValid, this, if_false]
    rfl

example : ∃ f : SpocFile, f.prs.length = 2 ∧ f.wkt.length ≤ 65535 ∧ Uniform f.prs ∧
    ∀ q ∈ f.prs, q.extra.length ≤ 255 :=
  ⟨{ SpocFile.empty with prs := [{ extra := [1, 2] }, { extra := [3, 4] }] }, rfl, by decide,
    by unfold Uniform; decide, by decide⟩

/-- **C13, negation.**  For every number of extra fields the header holds the number modulo 256;
with 256 extra fields it says 0. -/
theorem c13_extra_fields_truncated (f : SpocFile) (hw : f.wkt.length ≤ 65535) (q : PointRecord)
    (hq : f.prs.head? = some q) :
    ∃ h, f.getHeader = .ok h ∧ h.extraFields.toNat = q.extra.length % 256 := by
  refine ⟨hdr f, getHeader_eq hw, ?_⟩
  simp only [hdr, extraFields_eq, hq, Option.map_some, Option.getD_some]
  rw [UInt8.toNat_ofNat']

example : ∃ f : SpocFile, ∃ q, f.wkt.length ≤ 65535 ∧ f.prs.head? = some q ∧ q.extra.length = 256 :=
  ⟨{ SpocFile.empty with prs := [{ extra := List.replicate 256 0 }] }, _, by decide, rfl,
    List.length_replicate⟩

end Spoc.Props
