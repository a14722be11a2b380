import Verif.Proofs.Format
import Verif.Proofs.IoGeneral

/-!
# What the readers have consumed if the stream is still good
-/

namespace Spoc

namespace IStream

theorem read_good {s : IStream} {n : Nat} (h : (s.read n).2.good = true) :
    s.good = true ∧ (s.read n).1.length = n ∧ s.rest = (s.read n).1 ++ (s.read n).2.rest := by
  unfold read at h ⊢
  split at h
  · rename_i hg
    split at h
    · rename_i hn
      simp only [hg, hn, if_true]
      exact ⟨trivial, by simpa using hn, (List.take_append_drop n s.rest).symm⟩
    · simp at h
  · rename_i hg
    exact absurd h hg

theorem readInto_good {s : IStream} {old : Bytes} (h : (s.readInto old).2.good = true) :
    s.good = true ∧ s.rest = (s.readInto old).1 ++ (s.readInto old).2.rest := by
  simp only [readInto] at h ⊢
  obtain ⟨h1, h2, h3⟩ := read_good h
  exact ⟨h1, by rw [overlay_full (Nat.le_of_eq h2.symm)]; exact h3⟩

theorem readUInt_good {s : IStream} {k old : Nat} (h : (s.readUInt k old).2.good = true) :
    s.good = true ∧ s.rest = leBytes k (s.readUInt k old).1 ++ (s.readUInt k old).2.rest := by
  simp only [readUInt] at h ⊢
  obtain ⟨h1, h2⟩ := readInto_good h
  refine ⟨h1, ?_⟩
  have hl := readInto_length s (leBytes k old)
  rw [leBytes_length] at hl
  conv_rhs => rw [← hl]
  rw [hl]
  have := leBytes_ofLe (s.readInto (leBytes k old)).1
  rw [hl] at this
  rw [this]
  exact h2

end IStream

namespace Header

theorem read_good {s s' : IStream} {h : Header} (hr : read s = .ok (h, s')) (hg : s'.good = true) :
    s.good = true ∧ s.rest = h.bytes ++ s'.rest ∧ h.signature = sig ∧ h.major = majorVersion ∧ h.minor = minorVersion
      ∧ h.wkt.length ≤ 0xFFFF := by
  unfold read at hr
  simp only at hr
  split at hr
  · simp at hr
  rename_i h1
  split at hr
  · simp at hr
  rename_i h2
  split at hr
  · simp at hr
  rename_i h3
  simp only [Bool.not_eq_true', Bool.not_eq_false, checkSignature_iff] at h1
  simp only [ne_eq, Decidable.not_not] at h2 h3
  generalize e0 : s.readInto default.signature = a0 at *
  generalize e1 : a0.2.readUInt 1 default.major.toNat = a1 at *
  generalize e2 : a1.2.readUInt 1 default.minor.toNat = a2 at *
  generalize e3 : a2.2.readUInt 2 0 = a3 at *
  generalize e4 : a3.2.readInto (List.replicate a3.1 0) = a4 at *
  generalize e5 : a4.2.readUInt 1 default.extraFields.toNat = a5 at *
  generalize e6 : a5.2.readUInt 8 default.totalPoints.toNat = a6 at *
  generalize e7 : a6.2.readUInt 1 default.compressed.toNat = a7 at *
  simp only [Res.ok.injEq, Prod.mk.injEq] at hr
  obtain ⟨rfl, rfl⟩ := hr
  have g7 := IStream.readUInt_good (s := a6.2) (k := 1) (old := default.compressed.toNat) (by rw [e7]; exact hg)
  have l7 := IStream.readUInt_lt a6.2 1 default.compressed.toNat
  rw [e7] at g7 l7
  have g6 := IStream.readUInt_good (s := a5.2) (k := 8) (old := default.totalPoints.toNat) (by rw [e6]; exact g7.1)
  have l6 := IStream.readUInt_lt a5.2 8 default.totalPoints.toNat
  rw [e6] at g6 l6
  have g5 := IStream.readUInt_good (s := a4.2) (k := 1) (old := default.extraFields.toNat) (by rw [e5]; exact g6.1)
  have l5 := IStream.readUInt_lt a4.2 1 default.extraFields.toNat
  rw [e5] at g5 l5
  have g4 := IStream.readInto_good (s := a3.2) (old := List.replicate a3.1 0) (by rw [e4]; exact g5.1)
  have l4 := IStream.readInto_length a3.2 (List.replicate a3.1 0)
  rw [e4] at g4 l4
  have g3 := IStream.readUInt_good (s := a2.2) (k := 2) (old := 0) (by rw [e3]; exact g4.1)
  have l3 := IStream.readUInt_lt a2.2 2 0
  rw [e3] at g3 l3
  have g2 := IStream.readUInt_good (s := a1.2) (k := 1) (old := default.minor.toNat) (by rw [e2]; exact g3.1)
  have l2 := IStream.readUInt_lt a1.2 1 default.minor.toNat
  rw [e2] at g2 l2
  have g1 := IStream.readUInt_good (s := a0.2) (k := 1) (old := default.major.toNat) (by rw [e1]; exact g2.1)
  have l1 := IStream.readUInt_lt a0.2 1 default.major.toNat
  rw [e1] at g1 l1
  have g0 := IStream.readInto_good (s := s) (old := default.signature) (by rw [e0]; exact g1.1)
  have l0 := IStream.readInto_length s default.signature
  rw [e0] at g0 l0
  rw [List.length_replicate] at l4
  have hs4 : a0.1.take 4 = a0.1 := List.take_of_length_le (by rw [l0]; decide)
  rw [hs4] at h1
  refine ⟨g0.1, ?_, h1, h2, h3, by show a4.1.length ≤ _; norm_num at l3; omega⟩
  rw [g0.2, g1.2, g2.2, g3.2, g4.2, g5.2, g6.2, g7.2]
  unfold bytes
  simp only [hs4, l4, List.append_assoc]
  have m8 : ∀ v : Nat, v < 256 ^ 1 → (UInt8.ofNat v).toNat = v := fun v hv => by
    rw [UInt8.toNat_ofNat']; exact Nat.mod_eq_of_lt (by simpa using hv)
  have m64 : ∀ v : Nat, v < 256 ^ 8 → (UInt64.ofNat v).toNat = v := fun v hv => by
    rw [UInt64.toNat_ofNat']; exact Nat.mod_eq_of_lt (by simpa using hv)
  rw [m8 _ l1, m8 _ l2, m8 _ l5, m8 _ l7, m64 _ l6]

end Header

namespace PointRecord

theorem fixedBytes_ofFixed {bs : Bytes} (h : bs.length = 40) (e : List UInt64) : (ofFixed bs e).fixedBytes = bs := by
  have m : ∀ (k : Nat) (l : Bytes), l.length = k → leBytes k (ofLe l) = l := by
    rintro _ l rfl; exact leBytes_ofLe l
  have lt : ∀ (k : Nat) (l : Bytes), l.length = k → ofLe l < 256 ^ k := by
    rintro _ l rfl; exact ofLe_lt l
  have m8 : ∀ l : Bytes, l.length = 8 → leBytes 8 (UInt64.ofNat (ofLe l)).toNat = l := fun l hl => by
    rw [UInt64.toNat_ofNat', Nat.mod_eq_of_lt (by have := lt 8 l hl; norm_num at this ⊢; exact this), m 8 l hl]
  have m4 : ∀ l : Bytes, l.length = 4 → leBytes 4 (UInt32.ofNat (ofLe l)).toNat = l := fun l hl => by
    rw [UInt32.toNat_ofNat', Nat.mod_eq_of_lt (by have := lt 4 l hl; norm_num at this ⊢; exact this), m 4 l hl]
  have m2 : ∀ l : Bytes, l.length = 2 → leBytes 2 (UInt16.ofNat (ofLe l)).toNat = l := fun l hl => by
    rw [UInt16.toNat_ofNat', Nat.mod_eq_of_lt (by have := lt 2 l hl; norm_num at this ⊢; exact this), m 2 l hl]
  unfold fixedBytes ofFixed
  simp only
  rw [m8 _ (by simp; omega), m8 _ (by simp; omega), m8 _ (by simp; omega), m4 _ (by simp; omega), m4 _ (by simp; omega),
    m2 _ (by simp; omega), m2 _ (by simp; omega), m2 _ (by simp; omega), m2 _ (by simp; omega)]
  have step : ∀ (a b : Nat), bs.take a ++ (bs.drop a).take b = bs.take (a + b) := fun a b => by
    rw [List.take_add]
  rw [step, step, step, step, step, step, step, step]
  exact List.take_of_length_le (by omega)

theorem extraBytes_extraOf (n : Nat) {bs : Bytes} (h : bs.length = 8 * n) :
    (extraOf n bs).flatMap (fun e => leBytes 8 e.toNat) = bs := by
  induction n generalizing bs with
  | zero =>
    have : bs = [] := List.length_eq_zero_iff.mp (by omega)
    rw [this]; rfl
  | succ n ih =>
    rw [extraOf, List.flatMap_cons, ih (by simp; omega)]
    have hl : (bs.take 8).length = 8 := by simp; omega
    have := leBytes_ofLe (bs.take 8)
    have lt := ofLe_lt (bs.take 8)
    rw [hl] at this lt
    rw [UInt64.toNat_ofNat', Nat.mod_eq_of_lt (by norm_num at lt ⊢; exact lt), this, List.take_append_drop]

end PointRecord

namespace Io

theorem bytes_decodeRecord {ef : Nat} {bs : Bytes} (h : bs.length = recordSize ef) : (decodeRecord ef bs).bytes = bs := by
  rw [recordSize_eq] at h
  unfold PointRecord.bytes PointRecord.extraBytes decodeRecord
  rw [PointRecord.fixedBytes_ofFixed (by simp [structSize]; omega)]
  simp only [PointRecord.ofFixed]
  rw [PointRecord.extraBytes_extraOf ef (by simp [structSize]; omega), List.take_append_drop]

/-- Every sequence of bytes of the right length is a sequence of records. -/
theorem records_of_bytes (ef n : Nat) {bs : Bytes} (h : bs.length = n * recordSize ef) :
    ∃ recs : List PointRecord, recs.length = n ∧ (∀ q ∈ recs, q.extra.length = ef) ∧ recs.flatMap PointRecord.bytes = bs := by
  induction n generalizing bs with
  | zero => exact ⟨[], rfl, by simp, by
      rw [Nat.zero_mul] at h
      rw [List.length_eq_zero_iff.mp h]; rfl⟩
  | succ n ih =>
    rw [Nat.add_mul, Nat.one_mul] at h
    obtain ⟨recs, h1, h2, h3⟩ := ih (bs := bs.drop (recordSize ef)) (by simp; omega)
    refine ⟨decodeRecord ef (bs.take (recordSize ef)) :: recs, by simp [h1], ?_, ?_⟩
    · intro q hq
      rcases List.mem_cons.mp hq with rfl | hq
      · exact decodeRecord_extra_length _ _
      · exact h2 q hq
    · rw [List.flatMap_cons, h3, bytes_decodeRecord (by simp; omega), List.take_append_drop]

theorem copyRecords_length (b : Build) (ef i : Nat) (buf : Bytes) (k : Nat) :
    ∀ (j : Nat) (p p' : List PointRecord), copyRecords b ef i buf k j p = .ok p' → p'.length = p.length := by
  induction k with
  | zero => intro j p p' h; simp only [copyRecords, Res.ok.injEq] at h; rw [h]
  | succ k ih =>
    intro j p p' h
    rw [copyRecords] at h
    simp only [Res.bind_eq_ok] at h
    obtain ⟨_, _, h⟩ := h
    split at h
    · simp at h
    simp only [Res.bind_eq_ok] at h
    obtain ⟨_, _, h⟩ := h
    split at h
    · have := ih _ _ _ h
      simpa using this
    · simp at h

/-- If the stream is good after the loop then it had enough bytes for all the records. -/
theorem readLoop_good (b : Build) (ef total fuel : Nat) :
    ∀ (i : Nat) (buf : Bytes) (p p' : List PointRecord) (s s' : IStream), p.length = total →
      readLoop b ef total fuel i buf p s = .ok (p', s') → s'.good = true →
      s.good = true ∧ (total - i) * recordSize ef ≤ s.rest.length := by
  induction fuel with
  | zero => intro i buf p p' s s' _ h; simp [readLoop] at h
  | succ fuel ih =>
    intro i buf p p' s s' hp h hg
    rw [readLoop] at h
    split at h
    · rename_i hi
      simp only at h
      generalize hk : (if i + recordsPerBuffer ef < total then recordsPerBuffer ef else total - i) = k at h
      split at h
      · simp at h
      simp only [Res.bind_eq_ok] at h
      obtain ⟨p1, hc, h⟩ := h
      obtain ⟨h1, h2⟩ := ih _ _ _ _ _ _ (by rw [copyRecords_length b ef i _ k 0 p p1 hc, hp]) h hg
      obtain ⟨h3, h4, h5⟩ := IStream.read_good h1
      refine ⟨h3, ?_⟩
      have hl := congrArg List.length h5
      rw [List.length_append, h4] at hl
      have : (total - i) * recordSize ef ≤ (k + (total - (i + recordsPerBuffer ef))) * recordSize ef :=
        Nat.mul_le_mul_right _ (by split_ifs at hk <;> omega)
      rw [Nat.add_mul] at this
      omega
    · rename_i hi
      simp only [Res.ok.injEq, Prod.mk.injEq] at h
      obtain ⟨rfl, rfl⟩ := h
      refine ⟨hg, ?_⟩
      have : total - i = 0 := by omega
      rw [this]; simp

/-- The uncompressed reader has consumed the bytes of the records that it returns. -/
theorem readUncompressedPoints_good {b : Build} {s s' : IStream} {total ef : Nat} {prs : List PointRecord}
    (h : readUncompressedPoints b s total ef = .ok (prs, s')) (hg : s'.good = true) :
    s.good = true ∧ s.rest = prs.flatMap PointRecord.bytes ++ s'.rest ∧ prs.length = total ∧ (∀ q ∈ prs, q.extra.length = ef)
      ∧ (ef ≤ 123 ∨ total = 0) := by
  obtain ⟨g, hl⟩ := readLoop_good b ef total (total + 1) 0 _ _ _ _ _ (by simp) h hg
  rw [Nat.sub_zero] at hl
  by_cases hef : 0 < recordsPerBuffer ef
  · obtain ⟨recs, h1, h2, h3⟩ := records_of_bytes ef total (bs := s.rest.take (total * recordSize ef)) (by simp; omega)
    have hs : s = { rest := recs.flatMap PointRecord.bytes ++ s.rest.drop (total * recordSize ef) } := by
      rw [h3, List.take_append_drop]
      cases s
      simp only at g
      rw [g]
    have e := readUncompressedPoints_roundtrip b ef hef recs h2 (s.rest.drop (total * recordSize ef))
    rw [← hs, h1, h] at e
    simp only [Res.ok.injEq, Prod.mk.injEq] at e
    obtain ⟨rfl, rfl⟩ := e
    refine ⟨g, congrArg IStream.rest hs, h1, h2, .inl ?_⟩
    by_contra hc
    rw [recordsPerBuffer_zero (by omega)] at hef
    exact absurd hef (lt_irrefl 0)
  · have ht : total = 0 := by
      by_contra hc
      rw [readUncompressedPoints, readLoop_stuck b ef total (by omega) _ 0 _ _ _ (by simpa using Nat.pos_of_ne_zero hc)
        (Nat.pos_of_ne_zero hc)] at h
      simp at h
    subst ht
    rw [readUncompressedPoints_zero] at h
    simp only [Res.ok.injEq, Prod.mk.injEq] at h
    obtain ⟨rfl, rfl⟩ := h
    exact ⟨g, by simp, rfl, by simp, .inr rfl⟩

/-! ## Compressed files -/

open Spec.Format FormatProofs

theorem colBytes_colOf (t : Elem) (n : Nat) {bs : Bytes} (h : bs.length = n * t.size) : colBytes t (colOf t n bs) = bs := by
  unfold colBytes
  induction n generalizing bs with
  | zero =>
    rw [Nat.zero_mul] at h
    rw [List.length_eq_zero_iff.mp h]; rfl
  | succ n ih =>
    rw [Nat.add_mul, Nat.one_mul] at h
    rw [colOf, List.flatMap_cons, ih (by simp; omega)]
    have hl : (bs.take t.size).length = t.size := by simp; omega
    have := leBytes_ofLe (bs.take t.size)
    rw [hl] at this
    rw [this, List.take_append_drop]

theorem colOf_lt (t : Elem) (n : Nat) (bs : Bytes) : ∀ v ∈ colOf t n bs, v < 256 ^ t.size := by
  induction n generalizing bs with
  | zero => intro v hv; simp [colOf] at hv
  | succ n ih =>
    intro v hv
    rcases List.mem_cons.mp hv with rfl | hv
    · exact (ofLe_lt _).trans_le (Nat.pow_le_pow_right (by norm_num) (by simp))
    · exact ih _ v hv

/-- What is known about a column that was read from a block. -/
def Got (z : Zlib) (t : DataType) (n : Nat) (x : List Nat) (block : Bytes) : Prop :=
  (block = [] ∧ x = [])
  ∨ (block ≠ [] ∧ x.length = n ∧ (∀ v ∈ x, v < 256 ^ t.size)
      ∧ (block.length < 2 ^ 32 → z.inflate block = { output := columnBytes (t, x), error := false }))

theorem readCompressed_good {z : Zlib} {t : DataType} {s s' : IStream} {n : Nat} {x : List Nat}
    (h : readCompressed z (elemOf t) s n = .ok (x, s')) (hg : s'.good = true) :
    ∃ block, s.good = true ∧ s.rest = Spec.Format.stored .uint64 block.length ++ (block ++ s'.rest) ∧ Got z t n x block := by
  unfold readCompressed at h
  simp only at h
  split at h
  · rename_i h0
    simp only [Res.ok.injEq, Prod.mk.injEq] at h
    obtain ⟨rfl, rfl⟩ := h
    obtain ⟨g, e⟩ := IStream.readUInt_good hg
    rw [h0] at e
    exact ⟨[], g, by rw [stored_eq]; exact e, .inl ⟨rfl, rfl⟩⟩
  · rename_i h0
    generalize e0 : s.readUInt 8 0 = a0 at *
    generalize e1 : a0.2.readInto (List.replicate a0.1 0) = a1 at *
    rw [Res.bind_eq_ok] at h
    obtain ⟨d, hd, h⟩ := h
    simp only [Res.ok.injEq, Prod.mk.injEq] at h
    obtain ⟨rfl, rfl⟩ := h
    have g1 := IStream.readInto_good (s := a0.2) (old := List.replicate a0.1 0) (by rw [e1]; exact hg)
    have l1 := IStream.readInto_length a0.2 (List.replicate a0.1 0)
    rw [e1] at g1 l1
    rw [List.length_replicate] at l1
    have g0 := IStream.readUInt_good (s := s) (k := 8) (old := 0) (by rw [e0]; exact g1.1)
    rw [e0] at g0
    refine ⟨a1.1, g0.1, by rw [stored_eq, l1, g0.2, g1.2]; rfl, .inr ⟨?_, colOf_length _ _ _, ?_, ?_⟩⟩
    · intro hc
      rw [hc] at l1
      exact h0 l1.symm
    · rw [← elemOf_size]; exact colOf_lt _ _ _
    · intro hl
      unfold Compression.decompressTo at hd
      rw [Res.bind_eq_ok] at hd
      obtain ⟨d', hd', hd⟩ := hd
      split at hd
      · simp at hd
      rename_i hlen
      simp only [Res.ok.injEq] at hd
      subst hd
      rw [columnBytes_eq, colBytes_colOf _ _ (not_not.mp hlen)]
      simp only [Compression.decompress, Compression.take_availIn hl] at hd'
      split at hd'
      · simp at hd'
      rename_i he
      rw [Compression.drain_eq Compression.bufferSize_pos _ _ _ (by omega)] at hd'
      simp only [List.nil_append, Res.ok.injEq] at hd'
      rw [← hd']
      cases hi : z.inflate a1.1 with
      | mk o er =>
        rw [hi] at he
        simp only [Bool.not_eq_true] at he
        rw [he]

theorem readExtraColumns_good {z : Zlib} {n ef : Nat} {s s' : IStream} {es : List (List Nat)}
    (h : readExtraColumns z n ef s = .ok (es, s')) (hg : s'.good = true) :
    ∃ bs, s.good = true ∧ s.rest = blocks bs ++ s'.rest ∧ es.length = ef ∧ List.Forall₂ (Got z .uint64 n) es bs := by
  induction ef generalizing s es with
  | zero =>
    simp only [readExtraColumns, Res.ok.injEq, Prod.mk.injEq] at h
    obtain ⟨rfl, rfl⟩ := h
    exact ⟨[], hg, rfl, rfl, .nil⟩
  | succ ef ih =>
    simp only [readExtraColumns, Res.bind_eq_ok] at h
    obtain ⟨⟨x, s1⟩, h1, ⟨xs, s2⟩, h2, h⟩ := h
    simp only [Res.ok.injEq, Prod.mk.injEq] at h
    obtain ⟨rfl, rfl⟩ := h
    obtain ⟨bs, g1, r1, l1, f1⟩ := ih h2
    obtain ⟨block, g0, r0, k0⟩ := readCompressed_good (t := .uint64) h1 g1
    refine ⟨block :: bs, g0, ?_, by simp [l1], .cons k0 f1⟩
    rw [r0, r1]
    simp [blocks]

theorem mapM_getElem {α β : Type} {f : α → Res β} {l : List α} {r : List β} (h : l.mapM f = .ok r) :
    r.length = l.length ∧ ∀ k (h1 : k < l.length) (h2 : k < r.length), f l[k] = .ok r[k] := by
  induction l generalizing r with
  | nil =>
    rw [List.mapM_nil] at h
    simp only [Res.pure_def, Res.ok.injEq] at h
    subst h
    exact ⟨rfl, fun k h1 => absurd h1 (by simp)⟩
  | cons a l ih =>
    rw [List.mapM_cons] at h
    simp only [Res.bind_eq_ok, Res.pure_def, Res.ok.injEq] at h
    obtain ⟨c, hc, cs, hcs, rfl⟩ := h
    obtain ⟨h1, h2⟩ := ih hcs
    refine ⟨by simp [h1], ?_⟩
    intro k hk1 hk2
    cases k with
    | zero => exact hc
    | succ k => exact h2 k (by simpa using hk1) (by simpa using hk2)

/-- A column that was read and the field of the records that was filled from it. -/
theorem got_standsFor {z : Zlib} {t : DataType} {x : List Nat} {block : Bytes} {prs : List PointRecord} {g : PointRecord → Nat}
    (h : Got z t prs.length x block) (hl : block.length < 2 ^ 32)
    (hv : ∀ k (hk : k < prs.length), colGet x k = .ok (g prs[k])) :
    StandsFor z (t, prs.map g) block := by
  rcases h with ⟨rfl, rfl⟩ | ⟨hne, hx, -, hi⟩
  · refine .inl ⟨rfl, ?_⟩
    intro v hv'
    obtain ⟨q, hq, rfl⟩ := List.mem_map.mp hv'
    obtain ⟨k, hk, rfl⟩ := List.getElem_of_mem hq
    have := hv k hk
    simp only [colGet, List.isEmpty_nil, if_true, Res.ok.injEq] at this
    exact this.symm
  · refine .inr ⟨hne, hl, ?_⟩
    have : prs.map g = x := by
      apply List.ext_getElem
      · simp [hx]
      · intro k h1 h2
        have e := hv k (by simpa using h1)
        have hx0 : x ≠ [] := by rintro rfl; simp at h2
        simp only [colGet, List.isEmpty_iff, hx0, if_false, List.getElem?_eq_getElem h2, Res.ok.injEq] at e
        rw [List.getElem_map]
        exact e.symm
    rw [this]
    exact hi hl

theorem got_lt {z : Zlib} {t : DataType} {n k v : Nat} {x : List Nat} {block : Bytes} (h : Got z t n x block)
    (hv : colGet x k = .ok v) : v < 256 ^ t.size := by
  rcases h with ⟨-, rfl⟩ | ⟨-, -, hx, -⟩
  · simp only [colGet, List.isEmpty_nil, if_true, Res.ok.injEq] at hv
    subst hv
    exact Nat.pow_pos (by norm_num)
  · unfold colGet at hv
    split at hv
    · simp only [Res.ok.injEq] at hv
      subst hv
      exact Nat.pow_pos (by norm_num)
    · split at hv
      · rename_i w hw
        simp only [Res.ok.injEq] at hv
        subst hv
        exact hx _ (List.mem_of_getElem? hw)
      · simp at hv

theorem u64_id {v : Nat} (h : v < 256 ^ 8) : (UInt64.ofNat v).toNat = v := by
  rw [UInt64.toNat_ofNat', Nat.mod_eq_of_lt (by norm_num at h ⊢; exact h)]
theorem u32_id {v : Nat} (h : v < 256 ^ 4) : (UInt32.ofNat v).toNat = v := by
  rw [UInt32.toNat_ofNat', Nat.mod_eq_of_lt (by norm_num at h ⊢; exact h)]
theorem u16_id {v : Nat} (h : v < 256 ^ 2) : (UInt16.ofNat v).toNat = v := by
  rw [UInt16.toNat_ofNat', Nat.mod_eq_of_lt (by norm_num at h ⊢; exact h)]

/-- The compressed reader has consumed blocks that stand for the columns of the records that it returns. -/
theorem readCompressedPoints_good {z : Zlib} {s s' : IStream} {total ef : Nat} {prs : List PointRecord}
    (h : readCompressedPoints z s total ef = .ok (prs, s')) (hg : s'.good = true)
    (hsz : s.good = true → s.rest.length < 2 ^ 32) :
    ∃ bs, s.good = true ∧ s.rest = blocks bs ++ s'.rest ∧ prs.length = total ∧ (∀ q ∈ prs, q.extra.length = ef)
      ∧ List.Forall₂ (StandsFor z) (columns ef prs) bs := by
  unfold readCompressedPoints at h
  rw [Res.bind_eq_ok] at h
  obtain ⟨⟨cs, s1⟩, hc, h⟩ := h
  simp only [Res.bind_eq_ok, Res.ok.injEq, Prod.mk.injEq] at h
  obtain ⟨prs', hp, rfl, rfl⟩ := h
  unfold readColumns at hc
  simp only [Res.bind_eq_ok, Res.ok.injEq, Prod.mk.injEq] at hc
  obtain ⟨⟨x, t1⟩, h1, ⟨y, t2⟩, h2, ⟨zz, t3⟩, h3, ⟨c, t4⟩, h4, ⟨p, t5⟩, h5, ⟨i, t6⟩, h6, ⟨r, t7⟩, h7, ⟨g, t8⟩, h8, ⟨b, t9⟩, h9,
    ⟨ex, t10⟩, h10, rfl, rfl⟩ := hc
  obtain ⟨bs, g10, r10, l10, k10⟩ := readExtraColumns_good h10 hg
  obtain ⟨b9, g9, r9, k9⟩ := readCompressed_good (t := .uint16) h9 g10
  obtain ⟨b8, g8, r8, k8⟩ := readCompressed_good (t := .uint16) h8 g9
  obtain ⟨b7, g7, r7, k7⟩ := readCompressed_good (t := .uint16) h7 g8
  obtain ⟨b6, g6, r6, k6⟩ := readCompressed_good (t := .uint16) h6 g7
  obtain ⟨b5, g5, r5, k5⟩ := readCompressed_good (t := .uint32) h5 g6
  obtain ⟨b4, g4, r4, k4⟩ := readCompressed_good (t := .uint32) h4 g5
  obtain ⟨b3, g3, r3, k3⟩ := readCompressed_good (t := .double) h3 g4
  obtain ⟨b2, g2, r2, k2⟩ := readCompressed_good (t := .double) h2 g3
  obtain ⟨b1, g1, r1, k1⟩ := readCompressed_good (t := .double) h1 g2
  have hrest : s.rest = blocks (b1 :: b2 :: b3 :: b4 :: b5 :: b6 :: b7 :: b8 :: b9 :: bs) ++ t10.rest := by
    rw [r1, r2, r3, r4, r5, r6, r7, r8, r9, r10]
    simp only [blocks, List.flatMap_cons, List.append_assoc]
  obtain ⟨hlen, hfill⟩ := mapM_getElem hp
  rw [List.length_range] at hlen
  have hblock : ∀ bl ∈ (b1 :: b2 :: b3 :: b4 :: b5 :: b6 :: b7 :: b8 :: b9 :: bs), bl.length < 2 ^ 32 := by
    intro bl hbl
    have h1 : bl.length ≤ (blocks (b1 :: b2 :: b3 :: b4 :: b5 :: b6 :: b7 :: b8 :: b9 :: bs)).length := by
      have key : ∀ l : List Bytes, bl ∈ l → bl.length ≤ (blocks l).length := by
        intro l
        induction l with
        | nil => intro h; simp at h
        | cons a l ih =>
          intro h
          simp only [blocks, List.flatMap_cons, List.length_append] at ih ⊢
          rcases List.mem_cons.mp h with rfl | h
          · omega
          · have := ih h; omega
      exact key _ hbl
    have h2 := congrArg List.length hrest
    rw [List.length_append] at h2
    have := hsz g1
    omega
  have hrec : ∀ k (hk : k < prs'.length),
      colGet x k = .ok prs'[k].x.bits.toNat ∧ colGet y k = .ok prs'[k].y.bits.toNat ∧ colGet zz k = .ok prs'[k].z.bits.toNat
      ∧ colGet c k = .ok prs'[k].c.toNat ∧ colGet p k = .ok prs'[k].p.toNat ∧ colGet i k = .ok prs'[k].i.toNat
      ∧ colGet r k = .ok prs'[k].r.toNat ∧ colGet g k = .ok prs'[k].g.toNat ∧ colGet b k = .ok prs'[k].b.toNat
      ∧ ex.mapM (fun e => colGet e k) = .ok (prs'[k].extra.map (·.toNat)) ∧ prs'[k].extra.length = ef := by
    intro k hk
    have hf := hfill k (by rw [List.length_range]; omega) hk
    rw [List.getElem_range] at hf
    unfold fillRecord at hf
    simp only [Res.bind_eq_ok, Res.ok.injEq] at hf
    obtain ⟨v1, w1, v2, w2, v3, w3, v4, w4, v5, w5, v6, w6, v7, w7, v8, w8, v9, w9, v10, w10, hq⟩ := hf
    rw [← hq]
    obtain ⟨m1, m2⟩ := mapM_getElem w10
    have hlt : ∀ v ∈ v10, v < 256 ^ 8 := by
      intro v hv
      obtain ⟨j, hj, rfl⟩ := List.getElem_of_mem hv
      have hj' : j < ex.length := by omega
      have hjb : j < bs.length := by rw [← k10.length_eq]; exact hj'
      exact got_lt (t := .uint64) ((List.forall₂_iff_get.mp k10).2 j hj' hjb) (m2 j hj' hj)
    refine ⟨?_, ?_, ?_, ?_, ?_, ?_, ?_, ?_, ?_, ?_, ?_⟩
    · simp only; rw [u64_id (got_lt k1 w1), w1]
    · simp only; rw [u64_id (got_lt k2 w2), w2]
    · simp only; rw [u64_id (got_lt k3 w3), w3]
    · simp only; rw [u32_id (got_lt k4 w4), w4]
    · simp only; rw [u32_id (got_lt k5 w5), w5]
    · simp only; rw [u16_id (got_lt k6 w6), w6]
    · simp only; rw [u16_id (got_lt k7 w7), w7]
    · simp only; rw [u16_id (got_lt k8 w8), w8]
    · simp only; rw [u16_id (got_lt k9 w9), w9]
    · rw [w10]
      congr 1
      simp only [List.map_map]
      conv_lhs => rw [← List.map_id v10]
      apply List.map_congr_left
      intro v hv
      simp only [Function.comp_apply, id]
      exact (u64_id (hlt v hv)).symm
    · simp [m1, l10]
  have hext : ∀ q ∈ prs', q.extra.length = ef := by
    intro q hq
    obtain ⟨k, hk, rfl⟩ := List.getElem_of_mem hq
    exact (hrec k hk).2.2.2.2.2.2.2.2.2.2
  rw [← hlen] at k1 k2 k3 k4 k5 k6 k7 k8 k9 k10
  refine ⟨_, g1, hrest, hlen, hext, ?_⟩
  unfold columns
  simp only [List.cons_append, List.nil_append]
  refine .cons (got_standsFor k1 (hblock _ (by simp)) fun k hk => (hrec k hk).1) ?_
  refine .cons (got_standsFor k2 (hblock _ (by simp)) fun k hk => (hrec k hk).2.1) ?_
  refine .cons (got_standsFor k3 (hblock _ (by simp)) fun k hk => (hrec k hk).2.2.1) ?_
  refine .cons (got_standsFor k4 (hblock _ (by simp)) fun k hk => (hrec k hk).2.2.2.1) ?_
  refine .cons (got_standsFor k5 (hblock _ (by simp)) fun k hk => (hrec k hk).2.2.2.2.1) ?_
  refine .cons (got_standsFor k6 (hblock _ (by simp)) fun k hk => (hrec k hk).2.2.2.2.2.1) ?_
  refine .cons (got_standsFor k7 (hblock _ (by simp)) fun k hk => (hrec k hk).2.2.2.2.2.2.1) ?_
  refine .cons (got_standsFor k8 (hblock _ (by simp)) fun k hk => (hrec k hk).2.2.2.2.2.2.2.1) ?_
  refine .cons (got_standsFor k9 (hblock _ (by simp)) fun k hk => (hrec k hk).2.2.2.2.2.2.2.2.1) ?_
  rw [List.forall₂_iff_get]
  refine ⟨by rw [List.length_map, List.length_range, ← l10]; exact k10.length_eq, ?_⟩
  intro j hj1 hj2
  rw [List.length_map, List.length_range] at hj1
  have hjx : j < ex.length := by omega
  have kk := (List.forall₂_iff_get.mp k10).2 j hjx hj2
  simp only [List.get_eq_getElem, List.getElem_map, List.getElem_range]
  refine got_standsFor (g := fun q => (q.extra.getD j 0).toNat) kk (hblock _ (by simp)) ?_
  intro k hk
  obtain ⟨m1, m2⟩ := mapM_getElem (hrec k hk).2.2.2.2.2.2.2.2.2.1
  have hje : j < prs'[k].extra.length := by rw [(hrec k hk).2.2.2.2.2.2.2.2.2.2]; exact hj1
  have := m2 j hjx (by simpa using hje)
  rw [List.get_eq_getElem]
  rw [this, List.getElem_map]
  simp [List.getD, List.getElem?_eq_getElem hje]

/-- A block is read as a column only if it is fitting; then reading goes on behind it. -/
theorem readCompressed_fitting {z : Zlib} {t : DataType} {n : Nat} {x : List Nat} {s' : IStream} {block : Bytes}
    (hl : block.length < 2 ^ 32) (bs : List Bytes) (tl : Bytes)
    (h : readCompressed z (elemOf t) { rest := blocks (block :: bs) ++ tl } n = .ok (x, s')) :
    s' = { rest := blocks bs ++ tl } ∧ Fitting z n t block := by
  simp only [blocks, List.flatMap_cons, List.append_assoc] at h ⊢
  rw [stored_eq] at h
  unfold readCompressed at h
  simp only [DataType.size, IStream.readUInt_append (k := 8) (v := block.length) (old := 0) (h := by norm_num at hl ⊢; omega)] at h
  split at h
  · rename_i h0
    simp only [Res.ok.injEq, Prod.mk.injEq] at h
    have hb := List.length_eq_zero_iff.mp h0
    subst hb
    exact ⟨h.2.symm, .inl rfl⟩
  · rename_i h0
    rw [IStream.readInto_append (by simp)] at h
    simp only [Res.bind_eq_ok, Res.ok.injEq, Prod.mk.injEq] at h
    obtain ⟨d, hd, -, h⟩ := h
    refine ⟨h.symm, .inr ?_⟩
    unfold Compression.decompressTo at hd
    rw [Res.bind_eq_ok] at hd
    obtain ⟨d', hd', hd⟩ := hd
    split at hd
    · simp at hd
    rename_i hlen
    simp only [Compression.decompress, Compression.take_availIn hl] at hd'
    split at hd'
    · simp at hd'
    rename_i he
    rw [Compression.drain_eq Compression.bufferSize_pos _ _ _ (by omega)] at hd'
    simp only [List.nil_append, Res.ok.injEq] at hd'
    rw [hd', ← elemOf_size]
    exact ⟨by simpa using he, not_not.mp hlen⟩

theorem readExtraColumns_fitting {z : Zlib} {n : Nat} {es : List (List Nat)} {s' : IStream} (bs : List Bytes) (tl : Bytes)
    (hl : ∀ bl ∈ bs, bl.length < 2 ^ 32) (h : readExtraColumns z n bs.length { rest := blocks bs ++ tl } = .ok (es, s')) :
    List.Forall₂ (Fitting z n) (List.replicate bs.length .uint64) bs := by
  induction bs generalizing es s' with
  | nil => exact .nil
  | cons a bs ih =>
    simp only [List.length_cons, readExtraColumns, Res.bind_eq_ok] at h
    obtain ⟨⟨x, s1⟩, h1, ⟨xs, s2⟩, h2, -⟩ := h
    obtain ⟨rfl, hf⟩ := readCompressed_fitting (t := .uint64) (hl a (by simp)) bs tl h1
    rw [List.length_cons, List.replicate_succ]
    exact .cons hf (ih (fun b hb => hl b (by simp [hb])) h2)

theorem readColumns_fitting {z : Zlib} {n ef : Nat} {cs : Columns} {s' : IStream} (bs : List Bytes) (tl : Bytes)
    (hn : bs.length = 9 + ef) (hl : ∀ bl ∈ bs, bl.length < 2 ^ 32)
    (h : readColumns z { rest := blocks bs ++ tl } n ef = .ok (cs, s')) : List.Forall₂ (Fitting z n) (columnTypes ef) bs := by
  obtain ⟨b1, _, rfl⟩ := List.exists_cons_of_length_pos (l := bs) (by omega)
  rename_i bs
  obtain ⟨b2, _, rfl⟩ := List.exists_cons_of_length_pos (l := bs) (by rw [List.length_cons] at hn; omega)
  rename_i bs
  obtain ⟨b3, _, rfl⟩ := List.exists_cons_of_length_pos (l := bs) (by simp only [List.length_cons] at hn; omega)
  rename_i bs
  obtain ⟨b4, _, rfl⟩ := List.exists_cons_of_length_pos (l := bs) (by simp only [List.length_cons] at hn; omega)
  rename_i bs
  obtain ⟨b5, _, rfl⟩ := List.exists_cons_of_length_pos (l := bs) (by simp only [List.length_cons] at hn; omega)
  rename_i bs
  obtain ⟨b6, _, rfl⟩ := List.exists_cons_of_length_pos (l := bs) (by simp only [List.length_cons] at hn; omega)
  rename_i bs
  obtain ⟨b7, _, rfl⟩ := List.exists_cons_of_length_pos (l := bs) (by simp only [List.length_cons] at hn; omega)
  rename_i bs
  obtain ⟨b8, _, rfl⟩ := List.exists_cons_of_length_pos (l := bs) (by simp only [List.length_cons] at hn; omega)
  rename_i bs
  obtain ⟨b9, bs, rfl⟩ := List.exists_cons_of_length_pos (l := bs) (by simp only [List.length_cons] at hn; omega)
  simp only [List.length_cons] at hn
  have hef : ef = bs.length := by omega
  subst hef
  unfold readColumns at h
  simp only [Res.bind_eq_ok] at h
  obtain ⟨⟨x, t1⟩, h1, ⟨y, t2⟩, h2, ⟨zz, t3⟩, h3, ⟨c, t4⟩, h4, ⟨p, t5⟩, h5, ⟨i, t6⟩, h6, ⟨r, t7⟩, h7, ⟨g, t8⟩, h8, ⟨b, t9⟩, h9,
    ⟨ex, t10⟩, h10, -⟩ := h
  obtain ⟨rfl, f1⟩ := readCompressed_fitting (t := .double) (hl b1 (by simp)) _ tl h1
  obtain ⟨rfl, f2⟩ := readCompressed_fitting (t := .double) (hl b2 (by simp)) _ tl h2
  obtain ⟨rfl, f3⟩ := readCompressed_fitting (t := .double) (hl b3 (by simp)) _ tl h3
  obtain ⟨rfl, f4⟩ := readCompressed_fitting (t := .uint32) (hl b4 (by simp)) _ tl h4
  obtain ⟨rfl, f5⟩ := readCompressed_fitting (t := .uint32) (hl b5 (by simp)) _ tl h5
  obtain ⟨rfl, f6⟩ := readCompressed_fitting (t := .uint16) (hl b6 (by simp)) _ tl h6
  obtain ⟨rfl, f7⟩ := readCompressed_fitting (t := .uint16) (hl b7 (by simp)) _ tl h7
  obtain ⟨rfl, f8⟩ := readCompressed_fitting (t := .uint16) (hl b8 (by simp)) _ tl h8
  obtain ⟨rfl, f9⟩ := readCompressed_fitting (t := .uint16) (hl b9 (by simp)) _ tl h9
  exact .cons f1 (.cons f2 (.cons f3 (.cons f4 (.cons f5 (.cons f6 (.cons f7 (.cons f8 (.cons f9
    (readExtraColumns_fitting bs tl (fun bl hbl => hl bl (by simp [hbl])) h10)))))))))

end Io

end Spoc
