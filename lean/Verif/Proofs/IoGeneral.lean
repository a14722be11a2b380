import Verif.Proofs.IoCompressed

/-!
# The readers on arbitrary input
-/

namespace Spoc

namespace Io

/-- On any stream the outer loop ends normally and only writes records from `i` on. -/
theorem readLoop_general (b : Build) (ef total : Nat) (hef : 0 < recordsPerBuffer ef) (fuel : Nat) :
    ∀ (i : Nat) (buf : Bytes) (p : List PointRecord) (s : IStream), buf.length = bufferSize →
    p.length = total → (∀ q ∈ p, q.extra.length = ef) → total < fuel + i → 0 < fuel →
    ∃ p' s', readLoop b ef total fuel i buf p s = .ok (p', s') ∧ p'.length = total ∧
      (∀ q ∈ p', q.extra.length = ef) ∧ p'.take i = p.take i := by
  induction fuel with
  | zero => intros; omega
  | succ fuel ih =>
    intro i buf p s hbuf hp hrec hfuel _
    rw [readLoop]
    by_cases hi : i < p.length
    · rw [if_pos hi]
      simp only
      generalize hk : (if i + recordsPerBuffer ef < total then recordsPerBuffer ef else total - i) = k
      have hk1 : k ≤ recordsPerBuffer ef := by split_ifs at hk <;> omega
      have hk2 : i + k ≤ total := by split_ifs at hk <;> omega
      have hfit : k * recordSize ef ≤ bufferSize :=
        (Nat.mul_le_mul_right _ hk1).trans (Nat.div_mul_le_self _ _)
      rw [if_neg (by omega)]
      have hov : (overlay buf (s.read (k * recordSize ef)).1).length = bufferSize := by
        rw [overlay_length (by rw [hbuf]; exact (IStream.read_length_le _ _).trans hfit), hbuf]
      have hsplit : p = p.take i ++ (p.drop i).take k ++ p.drop (i + k) := by
        rw [List.append_assoc, ← List.drop_drop, List.take_append_drop, List.take_append_drop]
      have hcopy := copyRecords_eq b ef i (overlay buf (s.read (k * recordSize ef)).1) k 0
        (p.take i) ((p.drop i).take k) (p.drop (i + k)) (by rw [hov]; simpa using hfit)
        (by simp; omega) (by simp; omega)
      rw [← hsplit] at hcopy
      rw [hcopy]
      simp only [Res.ok_bind]
      set p1 := p.take i ++ decodeAll ef (overlay buf (s.read (k * recordSize ef)).1) k 0 ++
        p.drop (i + k) with hp1
      have hp1l : p1.length = total := by simp [hp1]; omega
      have hp1e : ∀ q ∈ p1, q.extra.length = ef := by
        intro q hq
        simp only [hp1, List.mem_append] at hq
        rcases hq with (hq | hq) | hq
        · exact hrec q (List.mem_of_mem_take hq)
        · exact decodeAll_extra _ _ _ _ _ hq
        · exact hrec q (List.mem_of_mem_drop hq)
      by_cases hf0 : fuel = 0
      · subst hf0; omega
      · obtain ⟨p', s', h1, h2, h3, h4⟩ := ih (i + recordsPerBuffer ef) _ p1 _ hov hp1l hp1e
          (by omega) (by omega)
        refine ⟨p', s', h1, h2, h3, ?_⟩
        have : p'.take i = p1.take i := by
          have := congrArg (List.take i) h4
          rwa [List.take_take, List.take_take, Nat.min_eq_left (by omega)] at this
        rw [this, hp1, List.append_assoc, List.take_left' (by simp; omega)]
    · rw [if_neg hi]
      exact ⟨p, s, rfl, hp, hrec, rfl⟩

theorem readUncompressedPoints_general (b : Build) (s : IStream) (total ef : Nat)
    (hef : 0 < recordsPerBuffer ef) :
    ∃ p' s', readUncompressedPoints b s total ef = .ok (p', s') ∧ p'.length = total ∧
      ∀ q ∈ p', q.extra.length = ef := by
  obtain ⟨p', s', h1, h2, h3, _⟩ := readLoop_general b ef total hef (total + 1) 0
    (List.replicate bufferSize 0) (List.replicate total (PointRecord.blank ef)) s (by simp) (by simp)
    (by intro q hq; rw [List.eq_of_mem_replicate hq]; simp [PointRecord.blank]) (by omega) (by omega)
  exact ⟨p', s', h1, h2, h3⟩

/-- The complete records at the beginning of the stream are read correctly, whatever follows. -/
theorem readLoop_prefix (b : Build) (ef total : Nat) (hef : 0 < recordsPerBuffer ef) (junk : Bytes)
    (fuel : Nat) :
    ∀ (recs : List PointRecord) (buf : Bytes) (p : List PointRecord) (i : Nat),
    buf.length = bufferSize → p.length = total → (∀ q ∈ p, q.extra.length = ef) →
    (∀ q ∈ recs, q.extra.length = ef) → i + recs.length ≤ total → total < fuel + i → 0 < fuel →
    ∃ p' s', readLoop b ef total fuel i buf p { rest := recs.flatMap PointRecord.bytes ++ junk } =
      .ok (p', s') ∧ p'.length = total ∧ (∀ q ∈ p', q.extra.length = ef) ∧
      p'.take (i + recs.length) = p.take i ++ recs := by
  induction fuel with
  | zero => intros; omega
  | succ fuel ih =>
    intro recs buf p i hbuf hp hpe hrec hle hfuel _
    by_cases hi : i < p.length
    case neg =>
      have : recs = [] := List.length_eq_zero_iff.mp (by omega)
      subst this
      rw [readLoop, if_neg hi]
      exact ⟨p, _, rfl, hp, hpe, by simp⟩
    rw [readLoop, if_pos hi]
    simp only
    generalize hk : (if i + recordsPerBuffer ef < total then recordsPerBuffer ef else total - i) = k
    have hk1 : k ≤ recordsPerBuffer ef := by split_ifs at hk <;> omega
    have hk2 : i + k ≤ total := by split_ifs at hk <;> omega
    have hk3 : k < recordsPerBuffer ef → i + k = total := by split_ifs at hk <;> omega
    have hrs := recordSize_pos ef
    have hfit : k * recordSize ef ≤ bufferSize :=
      (Nat.mul_le_mul_right _ hk1).trans (Nat.div_mul_le_self _ _)
    rw [if_neg (by omega)]
    have hsplit : p = p.take i ++ (p.drop i).take k ++ p.drop (i + k) := by
      rw [List.append_assoc, ← List.drop_drop, List.take_append_drop, List.take_append_drop]
    have hf0 : fuel ≠ 0 := by omega
    have hcopy : ∀ buf' : Bytes, buf'.length = bufferSize → copyRecords b ef i buf' k 0 p =
        .ok (p.take i ++ decodeAll ef buf' k 0 ++ p.drop (i + k)) := by
      intro buf' hb'
      have := copyRecords_eq b ef i buf' k 0
        (p.take i) ((p.drop i).take k) (p.drop (i + k)) (by rw [hb']; simpa using hfit)
        (by simp; omega) (by simp; omega)
      rwa [← hsplit] at this
    have hpe' : ∀ buf' : Bytes, ∀ q ∈ p.take i ++ decodeAll ef buf' k 0 ++ p.drop (i + k),
        q.extra.length = ef := by
      intro buf' q hq
      simp only [List.mem_append] at hq
      rcases hq with (hq | hq) | hq
      · exact hpe q (List.mem_of_mem_take hq)
      · exact decodeAll_extra _ _ _ _ _ hq
      · exact hpe q (List.mem_of_mem_drop hq)
    by_cases hkr : recs.length < k
    · -- this chunk has all the remaining records and more
      generalize hr : IStream.read { rest := recs.flatMap PointRecord.bytes ++ junk }
        (k * recordSize ef) = r
      have hbl := flatMap_bytes_length ef recs hrec
      have hge : recs.length * recordSize ef ≤ k * recordSize ef := Nat.mul_le_mul_right _ hkr.le
      have hr1 : ∃ junk', r.1 = recs.flatMap PointRecord.bytes ++ junk' := by
        rw [← hr]
        simp only [IStream.read, if_true]
        split
        · refine ⟨junk.take (k * recordSize ef - recs.length * recordSize ef), ?_⟩
          rw [List.take_append, hbl, List.take_of_length_le (by rw [hbl]; exact hge)]
        · exact ⟨junk, rfl⟩
      obtain ⟨junk', hj⟩ := hr1
      have hrl : r.1.length ≤ buf.length := by
        rw [← hr, hbuf]; exact (IStream.read_length_le _ _).trans hfit
      have hov : (overlay buf r.1).length = bufferSize := by rw [overlay_length hrl, hbuf]
      rw [hcopy _ hov]
      simp only [Res.ok_bind]
      set p1 := p.take i ++ decodeAll ef (overlay buf r.1) k 0 ++ p.drop (i + k) with hp1
      have hp1l : p1.length = total := by simp [hp1]; omega
      obtain ⟨p', s', h1, h2, h3, h4⟩ := readLoop_general b ef total hef fuel
        (i + recordsPerBuffer ef) (overlay buf r.1) p1 r.2 hov hp1l (hpe' _) (by omega) (by omega)
      refine ⟨p', s', h1, h2, h3, ?_⟩
      have h5 : p'.take (i + recs.length) = p1.take (i + recs.length) := by
        have := congrArg (List.take (i + recs.length)) h4
        rwa [List.take_take, List.take_take, Nat.min_eq_left (by omega)] at this
      have hdec : (decodeAll ef (overlay buf r.1) k 0).take recs.length = recs := by
        have hd : ∀ (m k j : Nat) (bf : Bytes), m ≤ k →
            (decodeAll ef bf k j).take m = decodeAll ef bf m j := by
          intro m
          induction m with
          | zero => intros; simp [decodeAll]
          | succ m ihm =>
            intro k j bf hmk
            cases k with
            | zero => omega
            | succ k => simp [decodeAll, ihm k (j + 1) bf (by omega)]
        rw [hd _ _ _ _ hkr.le]
        have := decodeAll_bytes ef [] recs (junk' ++ buf.drop r.1.length) 0 (by simp) hrec
        simpa [overlay, hj] using this
      rw [h5, hp1, List.append_assoc, List.take_append, List.take_of_length_le (by simp)]
      congr 1
      have : i + recs.length - (p.take i).length = recs.length := by simp; omega
      rw [this, List.take_append, hdec]
      have : recs.length - (decodeAll ef (overlay buf r.1) k 0).length = 0 := by simp; omega
      rw [this]; simp
    · -- a chunk of complete records
      have hkr' : k ≤ recs.length := by omega
      have htd : recs = recs.take k ++ recs.drop k := (List.take_append_drop k recs).symm
      have hlt' : (recs.take k).length = k := by simp; omega
      have hreck : ∀ q ∈ recs.take k, q.extra.length = ef :=
        fun q h => hrec q (List.mem_of_mem_take h)
      have hb1 : ((recs.take k).flatMap PointRecord.bytes).length = k * recordSize ef := by
        rw [flatMap_bytes_length ef _ hreck, hlt']
      have hread : IStream.read { rest := recs.flatMap PointRecord.bytes ++ junk }
          (k * recordSize ef) = ((recs.take k).flatMap PointRecord.bytes,
            { rest := (recs.drop k).flatMap PointRecord.bytes ++ junk }) := by
        conv_lhs => rw [htd, List.flatMap_append, List.append_assoc]
        exact IStream.read_append hb1
      rw [hread]
      simp only
      have hov : (overlay buf ((recs.take k).flatMap PointRecord.bytes)).length = bufferSize := by
        rw [overlay_length (by rw [hb1, hbuf]; exact hfit), hbuf]
      have hdec : decodeAll ef (overlay buf ((recs.take k).flatMap PointRecord.bytes)) k 0 =
          recs.take k := by
        have := decodeAll_bytes ef [] (recs.take k)
          (buf.drop ((recs.take k).flatMap PointRecord.bytes).length) 0 (by simp) hreck
        rw [hlt'] at this
        simpa [overlay] using this
      have hpe1 := hpe' (overlay buf ((recs.take k).flatMap PointRecord.bytes))
      rw [hcopy _ hov]
      simp only [hdec, Res.ok_bind] at hpe1 ⊢
      set p1 := p.take i ++ recs.take k ++ p.drop (i + k) with hp1
      have hp1l : p1.length = total := by simp [hp1]; omega
      by_cases hlast : k < recordsPerBuffer ef
      · have hend : recs.length = k := by have := hk3 hlast; omega
        obtain ⟨p', s', h1, h2, h3, h4⟩ := readLoop_general b ef total hef fuel
          (i + recordsPerBuffer ef) _ p1
          { rest := (recs.drop k).flatMap PointRecord.bytes ++ junk } hov hp1l hpe1
          (by omega) (by omega)
        refine ⟨p', s', h1, h2, h3, ?_⟩
        rw [List.take_of_length_le (by omega), List.take_of_length_le (by omega)] at h4
        rw [h4, hp1, List.take_of_length_le (l := recs) (by omega),
          List.drop_eq_nil_of_le (by have := hk3 hlast; omega), List.append_nil,
          List.take_of_length_le (by simp)]
      · have hkk : k = recordsPerBuffer ef := by omega
        obtain ⟨p', s', h1, h2, h3, h4⟩ := ih (recs.drop k) _ p1 (i + recordsPerBuffer ef) hov hp1l
          hpe1 (fun q h => hrec q (List.mem_of_mem_drop h)) (by simp; omega) (by omega) (by omega)
        refine ⟨p', s', h1, h2, h3, ?_⟩
        have e1 : i + recordsPerBuffer ef + (recs.drop k).length = i + recs.length := by simp; omega
        rw [e1] at h4
        rw [h4, hp1, ← hkk, List.take_left' (by simp; omega), List.append_assoc, List.take_append_drop]

/-- A loop that makes no progress. -/
theorem readLoop_stuck (b : Build) (ef total : Nat) (hef : recordsPerBuffer ef = 0) (fuel : Nat) :
    ∀ (i : Nat) (buf : Bytes) (p : List PointRecord) (s : IStream), i < p.length → i < total →
    readLoop b ef total fuel i buf p s = .hang := by
  induction fuel with
  | zero => intros; rfl
  | succ fuel ih =>
    intro i buf p s hi ht
    rw [readLoop, if_pos hi]
    simp only [hef, Nat.add_zero, if_pos ht, Nat.zero_mul]
    rw [if_neg (by omega)]
    simp only [copyRecords, Res.ok_bind]
    exact ih i _ p _ hi ht

theorem recordsPerBuffer_pos {ef : Nat} (h : ef ≤ 123) : 0 < recordsPerBuffer ef := by
  unfold recordsPerBuffer
  rw [recordSize_eq]
  exact Nat.div_pos (by simp [bufferSize]; omega) (by omega)

theorem recordsPerBuffer_zero {ef : Nat} (h : 124 ≤ ef) : recordsPerBuffer ef = 0 := by
  unfold recordsPerBuffer
  rw [recordSize_eq]
  exact Nat.div_eq_of_lt (by simp [bufferSize]; omega)

theorem readUncompressedPoints_zero (b : Build) (s : IStream) (ef : Nat) :
    readUncompressedPoints b s 0 ef = .ok ([], s) := by
  simp [readUncompressedPoints, readLoop]

/-! ## Compressed -/

theorem colOf_length (t : Elem) (n : Nat) (bs : Bytes) : (colOf t n bs).length = n := by
  induction n generalizing bs with
  | zero => rfl
  | succ n ih => simp [colOf, ih]

theorem decompress_never_bad (z : Zlib) (input : Bytes) :
    (∃ d, Compression.decompress z input = .ok d) ∨ ∃ e, Compression.decompress z input = .throw e := by
  simp only [Compression.decompress]
  split
  · exact .inr ⟨_, rfl⟩
  · exact .inl ⟨_, Compression.drain_eq Compression.bufferSize_pos _ _ _ (by omega)⟩

/-- A stored column is empty or complete. -/
def ColOk (total : Nat) (x : List Nat) : Prop := x = [] ∨ x.length = total

theorem readCompressed_general (z : Zlib) (t : Elem) (s : IStream) (n : Nat) :
    (∃ x s', readCompressed z t s n = .ok (x, s') ∧ ColOk n x) ∨
      ∃ e, readCompressed z t s n = .throw e := by
  simp only [readCompressed]
  split
  · exact .inl ⟨_, _, rfl, .inl rfl⟩
  · simp only [Compression.decompressTo]
    rcases decompress_never_bad z (IStream.readInto (s.readUInt 8 0).2
      (List.replicate (s.readUInt 8 0).1 0)).1 with ⟨d, hd⟩ | ⟨e, he⟩
    · rw [hd]
      simp only [Res.ok_bind]
      split
      · exact .inr ⟨_, rfl⟩
      · exact .inl ⟨_, _, rfl, .inr (colOf_length _ _ _)⟩
    · rw [he]; exact .inr ⟨_, rfl⟩

theorem readExtraColumns_general (z : Zlib) (n ef : Nat) (s : IStream) :
    (∃ es s', readExtraColumns z n ef s = .ok (es, s') ∧ es.length = ef ∧ ∀ e ∈ es, ColOk n e) ∨
      ∃ e, readExtraColumns z n ef s = .throw e := by
  induction ef generalizing s with
  | zero => exact .inl ⟨[], s, rfl, rfl, by simp⟩
  | succ ef ih =>
    simp only [readExtraColumns]
    rcases readCompressed_general z elemU64 s n with ⟨x, s1, h1, h2⟩ | ⟨e, he⟩
    · rw [h1]
      simp only [Res.ok_bind]
      rcases ih s1 with ⟨es, s2, h3, h4, h5⟩ | ⟨e, he⟩
      · rw [h3]
        refine .inl ⟨x :: es, s2, rfl, by simp [h4], ?_⟩
        intro y hy
        simp only [List.mem_cons] at hy
        rcases hy with rfl | hy
        · exact h2
        · exact h5 _ hy
      · rw [he]; exact .inr ⟨_, rfl⟩
    · rw [he]; exact .inr ⟨_, rfl⟩

theorem colGet_ok {total : Nat} {x : List Nat} (h : ColOk total x) {n : Nat} (hn : n < total) :
    ∃ v, colGet x n = .ok v := by
  unfold colGet
  by_cases he : x.isEmpty = true
  · exact ⟨0, by simp [he]⟩
  · rcases h with rfl | h
    · simp at he
    · have : n < x.length := by omega
      exact ⟨x[n], by simp [he, List.getElem?_eq_getElem this]⟩

theorem mapM_exists {α β : Type} (f : α → Res β) (P : β → Prop) (l : List α)
    (h : ∀ a ∈ l, ∃ b, f a = .ok b ∧ P b) :
    ∃ bs, l.mapM f = .ok bs ∧ bs.length = l.length ∧ ∀ b ∈ bs, P b := by
  induction l with
  | nil => exact ⟨[], rfl, rfl, by simp⟩
  | cons a l ih =>
    obtain ⟨b, hb, hP⟩ := h a (by simp)
    obtain ⟨bs, hbs, hl, hPs⟩ := ih (fun a ha => h a (by simp [ha]))
    refine ⟨b :: bs, ?_, by simp [hl], ?_⟩
    · rw [List.mapM_cons, hb, hbs]; rfl
    · intro c hc
      simp only [List.mem_cons] at hc
      rcases hc with rfl | hc
      · exact hP
      · exact hPs _ hc

theorem readColumns_general (z : Zlib) (s : IStream) (n ef : Nat) :
    (∃ cs s', readColumns z s n ef = .ok (cs, s') ∧ ColOk n cs.x ∧ ColOk n cs.y ∧ ColOk n cs.z ∧
      ColOk n cs.c ∧ ColOk n cs.p ∧ ColOk n cs.i ∧ ColOk n cs.r ∧ ColOk n cs.g ∧ ColOk n cs.b ∧
      cs.extra.length = ef ∧ ∀ e ∈ cs.extra, ColOk n e) ∨ ∃ e, readColumns z s n ef = .throw e := by
  simp only [readColumns]
  rcases readCompressed_general z elemDouble s n with ⟨x, s1, e1, c1⟩ | ⟨e, he⟩
  case inr => rw [he]; exact .inr ⟨_, rfl⟩
  rw [e1]; simp only [Res.ok_bind]
  rcases readCompressed_general z elemDouble s1 n with ⟨y, s2, e2, c2⟩ | ⟨e, he⟩
  case inr => rw [he]; exact .inr ⟨_, rfl⟩
  rw [e2]; simp only [Res.ok_bind]
  rcases readCompressed_general z elemDouble s2 n with ⟨zz, s3, e3, c3⟩ | ⟨e, he⟩
  case inr => rw [he]; exact .inr ⟨_, rfl⟩
  rw [e3]; simp only [Res.ok_bind]
  rcases readCompressed_general z elemU32 s3 n with ⟨c, s4, e4, c4⟩ | ⟨e, he⟩
  case inr => rw [he]; exact .inr ⟨_, rfl⟩
  rw [e4]; simp only [Res.ok_bind]
  rcases readCompressed_general z elemU32 s4 n with ⟨p, s5, e5, c5⟩ | ⟨e, he⟩
  case inr => rw [he]; exact .inr ⟨_, rfl⟩
  rw [e5]; simp only [Res.ok_bind]
  rcases readCompressed_general z elemU16 s5 n with ⟨i, s6, e6, c6⟩ | ⟨e, he⟩
  case inr => rw [he]; exact .inr ⟨_, rfl⟩
  rw [e6]; simp only [Res.ok_bind]
  rcases readCompressed_general z elemU16 s6 n with ⟨r, s7, e7, c7⟩ | ⟨e, he⟩
  case inr => rw [he]; exact .inr ⟨_, rfl⟩
  rw [e7]; simp only [Res.ok_bind]
  rcases readCompressed_general z elemU16 s7 n with ⟨g, s8, e8, c8⟩ | ⟨e, he⟩
  case inr => rw [he]; exact .inr ⟨_, rfl⟩
  rw [e8]; simp only [Res.ok_bind]
  rcases readCompressed_general z elemU16 s8 n with ⟨b, s9, e9, c9⟩ | ⟨e, he⟩
  case inr => rw [he]; exact .inr ⟨_, rfl⟩
  rw [e9]; simp only [Res.ok_bind]
  rcases readExtraColumns_general z n ef s9 with ⟨es, s10, e10, l10, c10⟩ | ⟨e, he⟩
  case inr => rw [he]; exact .inr ⟨_, rfl⟩
  rw [e10]; simp only [Res.ok_bind]
  exact .inl ⟨_, _, rfl, c1, c2, c3, c4, c5, c6, c7, c8, c9, l10, c10⟩

theorem readCompressedPoints_general (z : Zlib) (s : IStream) (n ef : Nat) :
    (∃ p s', readCompressedPoints z s n ef = .ok (p, s') ∧ p.length = n ∧
      ∀ q ∈ p, q.extra.length = ef) ∨ ∃ e, readCompressedPoints z s n ef = .throw e := by
  simp only [readCompressedPoints]
  rcases readColumns_general z s n ef with
    ⟨cs, s1, e1, c1, c2, c3, c4, c5, c6, c7, c8, c9, l10, c10⟩ | ⟨e, he⟩
  case inr => rw [he]; exact .inr ⟨_, rfl⟩
  rw [e1]; simp only [Res.ok_bind]
  obtain ⟨bs, h1, h2, h3⟩ := mapM_exists (fillRecord cs) (fun q => q.extra.length = ef)
    (List.range n) (by
      intro k hk
      have hk' : k < n := by simpa using hk
      obtain ⟨v1, g1⟩ := colGet_ok c1 hk'
      obtain ⟨v2, g2⟩ := colGet_ok c2 hk'
      obtain ⟨v3, g3⟩ := colGet_ok c3 hk'
      obtain ⟨v4, g4⟩ := colGet_ok c4 hk'
      obtain ⟨v5, g5⟩ := colGet_ok c5 hk'
      obtain ⟨v6, g6⟩ := colGet_ok c6 hk'
      obtain ⟨v7, g7⟩ := colGet_ok c7 hk'
      obtain ⟨v8, g8⟩ := colGet_ok c8 hk'
      obtain ⟨v9, g9⟩ := colGet_ok c9 hk'
      obtain ⟨ev, g10, l, _⟩ := mapM_exists (fun e => colGet e k) (fun _ => True) cs.extra
        (fun e he => by obtain ⟨v, hv⟩ := colGet_ok (c10 e he) hk'; exact ⟨v, hv, trivial⟩)
      simp only [fillRecord, g1, g2, g3, g4, g5, g6, g7, g8, g9, g10, Res.ok_bind]
      exact ⟨_, rfl, by simp [l, l10]⟩)
  rw [h1]; simp only [Res.ok_bind]
  exact .inl ⟨bs, s1, rfl, by simpa using h2, h3⟩

end Io

/-! ## Header -/

namespace Header

/-- The outcome of reading a header is a header or an exception; the WKT is below 64 KiB. -/
theorem read_general (s : IStream) :
    (∃ h s', read s = .ok (h, s') ∧ h.wkt.length ≤ 0xFFFF ∧ h.signature.take 4 = sig ∧
      h.major = majorVersion ∧ h.minor = minorVersion) ∨ ∃ e, read s = .throw e := by
  unfold read
  simp only
  split
  · exact .inr ⟨_, rfl⟩
  · rename_i h1
    split
    · exact .inr ⟨_, rfl⟩
    · rename_i h2
      split
      · exact .inr ⟨_, rfl⟩
      · rename_i h3
        refine .inl ⟨_, _, rfl, ?_, ?_, ?_, ?_⟩
        · simp only [IStream.readInto_length, List.length_replicate]
          have := IStream.readUInt_lt
            ((((s.readInto default.signature).2.readUInt 1 default.major.toNat).2.readUInt 1
              default.minor.toNat).2) 2 0
          norm_num at this ⊢
          omega
        · simp only [Bool.not_eq_true', Bool.not_eq_false] at h1
          exact (checkSignature_iff _).mp h1
        · simpa using h2
        · simpa using h3

end Header

end Spoc
