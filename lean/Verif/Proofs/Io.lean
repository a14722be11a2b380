import Verif.Model.Io
import Mathlib.Data.List.Basic

/-!
# Lemmas about headers, records and the uncompressed reader
-/

namespace Spoc

/-! ## Header -/

namespace Header

/-- The bytes of a well-formed header. -/
def bytes (h : Header) : Bytes :=
  h.signature.take 4 ++ (leBytes 1 h.major.toNat ++ (leBytes 1 h.minor.toNat ++
    (leBytes 2 h.wkt.length ++ (h.wkt ++ (leBytes 1 h.extraFields.toNat ++
    (leBytes 8 h.totalPoints.toNat ++ leBytes 1 h.compressed.toNat))))))

theorem checkSignature_iff (h : Header) : h.checkSignature = true ↔ h.signature.take 4 = sig := by
  unfold checkSignature sig
  rcases h.signature with _ | ⟨a, _ | ⟨b, _ | ⟨c, _ | ⟨d, l⟩⟩⟩⟩ <;> simp

theorem write_ok {h : Header} (hs : h.checkSignature = true) :
    h.write = ⟨h.bytes, .ok ()⟩ := by
  unfold write bytes
  simp only [hs, Bool.not_true, Bool.false_eq_true, if_false, Out.emit_bind]
  simp [Out.emit]

theorem write_bad {h : Header} (hs : h.checkSignature = false) :
    h.write = ⟨[], .throw "Invalid spoc file format"⟩ := by
  simp [write, hs, Out.lift]

theorem read_bytes {h : Header} (hs : h.signature = sig) (h1 : h.major = majorVersion)
    (h2 : h.minor = minorVersion) (hw : h.wkt.length ≤ 0xFFFF) (tl : Bytes) :
    read { rest := h.bytes ++ tl } = .ok (h, { rest := tl }) := by
  obtain ⟨sg, ma, mi, wkt, ef, tp, c⟩ := h
  simp only at hs h1 h2 hw
  subst hs h1 h2
  unfold read bytes
  simp only [List.append_assoc]
  rw [IStream.readInto_append (old := Header.default.signature) (by rfl)]
  have hsig : checkSignature { Header.default with signature := List.take 4 sig } = true := by decide
  have h4 : List.take 4 sig = sig := rfl
  have q1 := @IStream.readUInt_append 1 majorVersion.toNat Header.default.major.toNat
  have q2 := @IStream.readUInt_append 1 minorVersion.toNat Header.default.minor.toNat
  have q3 := @IStream.readUInt_append 2 wkt.length 0
  have q4 := @IStream.readInto_append (List.replicate wkt.length 0) wkt
  have q5 := @IStream.readUInt_append 1 ef.toNat Header.default.extraFields.toNat
  have q6 := @IStream.readUInt_append 8 tp.toNat Header.default.totalPoints.toNat
  have q7 := @IStream.readUInt_append 1 c.toNat Header.default.compressed.toNat tl
  simp only [hsig, Bool.not_true, Bool.false_eq_true, if_false]
  simp only [q1 (h := by decide), UInt8.ofNat_toNat, ne_eq, not_true, if_false,
    q2 (h := by decide), q3 (h := by norm_num; omega), q4 (h := by simp),
    q5 (h := by have := ef.toNat_lt; simpa using this),
    q6 (h := by have := tp.toNat_lt; simpa using this),
    q7 (h := by have := c.toNat_lt; simpa using this), UInt64.ofNat_toNat, h4]

end Header

/-! ## Records -/

namespace PointRecord

@[simp] theorem fixedBytes_length (q : PointRecord) : q.fixedBytes.length = 40 := by
  simp [fixedBytes]

@[simp] theorem extraBytes_length (q : PointRecord) : q.extraBytes.length = 8 * q.extra.length := by
  unfold extraBytes
  induction q.extra with
  | nil => rfl
  | cons a l ih => simp [ih]; omega

theorem take_drop_mid {a b c : Bytes} {n k : Nat} (h1 : a.length = n) (h2 : b.length = k) :
    ((a ++ b ++ c).drop n).take k = b := by
  simp [← h1, ← h2]

theorem ofFixed_fixedBytes (q : PointRecord) (e : List UInt64) (tl : Bytes) :
    ofFixed (q.fixedBytes ++ tl) e = { q with extra := e } := by
  obtain ⟨⟨x⟩, ⟨y⟩, ⟨z⟩, c, p, i, r, g, b, ex⟩ := q
  unfold ofFixed fixedBytes
  simp only [List.append_assoc]
  have hx := ofLe_leBytes_of_lt (k := 8) (by have := x.toNat_lt; simpa using this)
  have hy := ofLe_leBytes_of_lt (k := 8) (by have := y.toNat_lt; simpa using this)
  have hz := ofLe_leBytes_of_lt (k := 8) (by have := z.toNat_lt; simpa using this)
  have hc := ofLe_leBytes_of_lt (k := 4) (by have := c.toNat_lt; simpa using this)
  have hp := ofLe_leBytes_of_lt (k := 4) (by have := p.toNat_lt; simpa using this)
  have hi := ofLe_leBytes_of_lt (k := 2) (by have := i.toNat_lt; simpa using this)
  have hr := ofLe_leBytes_of_lt (k := 2) (by have := r.toNat_lt; simpa using this)
  have hg := ofLe_leBytes_of_lt (k := 2) (by have := g.toNat_lt; simpa using this)
  have hb := ofLe_leBytes_of_lt (k := 2) (by have := b.toNat_lt; simpa using this)
  simp [List.drop_append, List.drop_eq_nil_of_le, hx, hy, hz, hc, hp, hi, hr, hg, hb]

theorem extraOf_extraBytes (l : List UInt64) (tl : Bytes) :
    extraOf l.length (l.flatMap (fun e => leBytes 8 e.toNat) ++ tl) = l := by
  induction l with
  | nil => rfl
  | cons a l ih =>
    have ha := ofLe_leBytes_of_lt (k := 8) (by have := a.toNat_lt; simpa using this)
    simp only [List.length_cons, extraOf, List.flatMap_cons, List.append_assoc]
    rw [List.take_left' (by simp), List.drop_left' (by simp), ih, ha]
    simp

@[simp] theorem extraOf_length (n : Nat) (bs : Bytes) : (extraOf n bs).length = n := by
  induction n generalizing bs with
  | zero => rfl
  | succ n ih => simp [extraOf, ih]

/-- All bytes of a record. -/
def bytes (q : PointRecord) : Bytes := q.fixedBytes ++ q.extraBytes

@[simp] theorem bytes_length (q : PointRecord) : q.bytes.length = 40 + 8 * q.extra.length := by
  simp [bytes]

theorem write_eq (q : PointRecord) : q.write = ⟨q.bytes, .ok ()⟩ := by
  unfold write bytes
  by_cases h : q.extra.length ≠ 0
  · simp [h, Out.emit]
  · have : q.extra = [] := by simpa using h
    simp [this, extraBytes, Out.ret]

theorem read_bytes (q : PointRecord) (tl : Bytes) :
    read { rest := q.bytes ++ tl } q.extra.length = (q, { rest := tl }) := by
  unfold read bytes
  simp only [List.append_assoc]
  rw [IStream.readInto_append (by simp [fixedBytes])]
  simp only [blank, List.length_replicate]
  by_cases h : q.extra.length ≠ 0
  · rw [if_pos h]
    rw [IStream.readInto_append (by simp)]
    have h1 := ofFixed_fixedBytes q (extraOf q.extra.length q.extraBytes) []
    have h2 := extraOf_extraBytes q.extra []
    simp only [List.append_nil] at h1 h2
    simp only [h1, Prod.mk.injEq, and_true]
    unfold extraBytes
    rw [h2]
  · rw [if_neg h]
    have : q.extra = [] := by simpa using h
    have h1 := ofFixed_fixedBytes q [] []
    simp only [List.append_nil] at h1
    simp [extraBytes, this, h1]
    rw [← this]

end PointRecord

/-! ## Uncompressed reader -/

namespace Io

theorem recordSize_eq (ef : Nat) : recordSize ef = 40 + 8 * ef := by
  simp [recordSize, structSize]; omega

theorem decodeRecord_bytes (q : PointRecord) (tl : Bytes) :
    decodeRecord q.extra.length (q.bytes ++ tl) = q := by
  unfold decodeRecord PointRecord.bytes
  have h40 : structSize = q.fixedBytes.length := by simp [structSize]
  rw [List.append_assoc, h40, List.take_left' rfl, List.drop_left' rfl]
  have h1 := PointRecord.ofFixed_fixedBytes q
    (PointRecord.extraOf q.extra.length (q.extraBytes ++ tl)) []
  simp only [List.append_nil] at h1
  rw [h1]
  unfold PointRecord.extraBytes
  rw [PointRecord.extraOf_extraBytes]

@[simp] theorem decodeRecord_extra_length (ef : Nat) (bs : Bytes) :
    (decodeRecord ef bs).extra.length = ef := by
  simp [decodeRecord, PointRecord.ofFixed]

/-- The records found in the buffer from record position `j` on. -/
def decodeAll (ef : Nat) (buf : Bytes) : Nat → Nat → List PointRecord
  | 0, _ => []
  | k + 1, j =>
    decodeRecord ef ((buf.drop (j * recordSize ef)).take (recordSize ef)) :: decodeAll ef buf k (j + 1)

@[simp] theorem decodeAll_length (ef : Nat) (buf : Bytes) (k j : Nat) :
    (decodeAll ef buf k j).length = k := by
  induction k generalizing j with
  | zero => rfl
  | succ k ih => simp [decodeAll, ih]

theorem decodeAll_extra (ef : Nat) (buf : Bytes) (k j : Nat) :
    ∀ q ∈ decodeAll ef buf k j, q.extra.length = ef := by
  induction k generalizing j with
  | zero => simp [decodeAll]
  | succ k ih =>
    intro q hq
    simp only [decodeAll, List.mem_cons] at hq
    rcases hq with rfl | hq
    · simp
    · exact ih _ _ hq

theorem recordSize_pos (ef : Nat) : 0 < recordSize ef := by rw [recordSize_eq]; omega

/-- Within bounds the inner loop replaces a block of records by the decoded ones. -/
theorem copyRecords_eq (b : Build) (ef i : Nat) (buf : Bytes) (k j : Nat)
    (pre mid post : List PointRecord) (hbuf : (j + k) * recordSize ef ≤ buf.length)
    (hpre : pre.length = i + j) (hmid : mid.length = k) :
    copyRecords b ef i buf k j (pre ++ mid ++ post) =
      .ok (pre ++ decodeAll ef buf k j ++ post) := by
  induction k generalizing j pre mid with
  | zero =>
    have : mid = [] := List.length_eq_zero_iff.mp hmid
    subst this
    simp [copyRecords, decodeAll]
  | succ k ih =>
    have hrs := recordSize_pos ef
    obtain ⟨m, mid', rfl⟩ : ∃ m mid', mid = m :: mid' := by
      cases mid with
      | nil => simp at hmid
      | cons m mid' => exact ⟨m, mid', rfl⟩
    simp only [List.length_cons, Nat.add_right_cancel_iff] at hmid
    have hb : j * recordSize ef + recordSize ef ≤ buf.length := by
      calc j * recordSize ef + recordSize ef = (j + 1) * recordSize ef := by ring
        _ ≤ (j + (k + 1)) * recordSize ef := Nat.mul_le_mul_right _ (by omega)
        _ ≤ _ := hbuf
    have h1 : decide (j * recordSize ef < buf.length) = true := by simp; omega
    have h3 : i + j < (pre ++ (m :: mid') ++ post).length := by simp; omega
    have h2 : decide (i + j < (pre ++ (m :: mid') ++ post).length) = true := decide_eq_true h3
    rw [copyRecords]
    simp only [h1, cassert_true, Res.ok_bind, if_neg (Nat.not_lt.mpr hb), h2, if_pos h3]
    have hset : (pre ++ (m :: mid') ++ post).set (i + j)
        (decodeRecord ef ((buf.drop (j * recordSize ef)).take (recordSize ef))) =
        (pre ++ [decodeRecord ef ((buf.drop (j * recordSize ef)).take (recordSize ef))]) ++ mid' ++ post := by
      rw [List.append_assoc, List.set_append_right _ _ (by omega)]
      simp [hpre]
    rw [hset, ih (j + 1) _ mid' (by rw [show j + 1 + k = j + (k + 1) by omega]; exact hbuf)
      (by simp [hpre]; omega) hmid]
    simp [decodeAll]

/-- Decoding the bytes of a block of records. -/
theorem decodeAll_bytes (ef : Nat) (pre : Bytes) (recs : List PointRecord) (tl : Bytes) (j : Nat)
    (hpre : pre.length = j * recordSize ef) (hrec : ∀ q ∈ recs, q.extra.length = ef) :
    decodeAll ef (pre ++ recs.flatMap PointRecord.bytes ++ tl) recs.length j = recs := by
  induction recs generalizing pre j with
  | nil => rfl
  | cons q qs ih =>
    have hq : q.extra.length = ef := hrec q (by simp)
    have hqs : ∀ q ∈ qs, q.extra.length = ef := fun q h => hrec q (by simp [h])
    have hlen : q.bytes.length = recordSize ef := by simp [recordSize_eq, hq]
    simp only [List.length_cons, decodeAll, List.flatMap_cons]
    congr 1
    · rw [List.append_assoc, List.drop_left' hpre, List.append_assoc, List.take_left' hlen]
      have := decodeRecord_bytes q []
      rw [hq] at this
      simpa using this
    · have := ih (pre ++ q.bytes) (j + 1) (by simp only [List.length_append, hpre, hlen]; ring) hqs
      simpa [List.append_assoc] using this

theorem flatMap_bytes_length (ef : Nat) (recs : List PointRecord)
    (hrec : ∀ q ∈ recs, q.extra.length = ef) :
    (recs.flatMap PointRecord.bytes).length = recs.length * recordSize ef := by
  induction recs with
  | nil => simp
  | cons q qs ih =>
    have hq : q.extra.length = ef := hrec q (by simp)
    have := ih (fun q h => hrec q (by simp [h]))
    simp only [List.flatMap_cons, List.length_append, this, PointRecord.bytes_length, hq,
      List.length_cons, recordSize_eq]
    ring

/-- The outer loop reads back a list of records. -/
theorem readLoop_roundtrip (b : Build) (ef : Nat) (hef : 0 < recordsPerBuffer ef)
    (tl : Bytes) (fuel : Nat) (done todo : List PointRecord) (buf : Bytes)
    (hbuf : buf.length = bufferSize) (hrec : ∀ q ∈ todo, q.extra.length = ef)
    (hfuel : todo.length < fuel) :
    readLoop b ef (done.length + todo.length) fuel done.length buf
      (done ++ List.replicate todo.length (PointRecord.blank ef))
      { rest := todo.flatMap PointRecord.bytes ++ tl } = .ok (done ++ todo, { rest := tl }) := by
  induction fuel generalizing done todo buf with
  | zero => omega
  | succ fuel ih =>
    have hrs := recordSize_pos ef
    have hrpb : recordsPerBuffer ef * recordSize ef ≤ bufferSize := Nat.div_mul_le_self _ _
    rw [readLoop]
    by_cases h0 : todo = []
    · subst h0; simp
    · have hpos : 0 < todo.length := List.length_pos_iff.mpr h0
      rw [if_pos (by simp; omega)]
      simp only
      by_cases hlast : done.length + recordsPerBuffer ef < done.length + todo.length
      · -- a full buffer
        rw [if_pos hlast]
        have hlt : recordsPerBuffer ef < todo.length := by omega
        rw [if_neg (by omega)]
        set k := recordsPerBuffer ef with hk
        have htd : todo = todo.take k ++ todo.drop k := (List.take_append_drop k todo).symm
        have hlt' : (todo.take k).length = k := by simp; omega
        have hreck : ∀ q ∈ todo.take k, q.extra.length = ef :=
          fun q h => hrec q (List.mem_of_mem_take h)
        have hb1 : ((todo.take k).flatMap PointRecord.bytes).length = k * recordSize ef := by
          rw [flatMap_bytes_length ef _ hreck, hlt']
        have hread : IStream.read { rest := todo.flatMap PointRecord.bytes ++ tl }
            (k * recordSize ef) = ((todo.take k).flatMap PointRecord.bytes,
              { rest := (todo.drop k).flatMap PointRecord.bytes ++ tl }) := by
          conv_lhs => rw [htd, List.flatMap_append, List.append_assoc]
          exact IStream.read_append hb1
        rw [hread]
        simp only
        have hov : (overlay buf ((todo.take k).flatMap PointRecord.bytes)).length = bufferSize := by
          rw [overlay_length (by rw [hb1, hbuf]; exact hrpb), hbuf]
        have hrep : List.replicate todo.length (PointRecord.blank ef) =
            List.replicate k (PointRecord.blank ef) ++
              List.replicate (todo.drop k).length (PointRecord.blank ef) := by
          rw [List.replicate_append_replicate]; congr 1; simp; omega
        rw [hrep, ← List.append_assoc, copyRecords_eq b ef done.length _ k 0 done _ _
          (by rw [hov]; simpa using hrpb) (by simp) (by simp)]
        have hdec : decodeAll ef (overlay buf ((todo.take k).flatMap PointRecord.bytes)) k 0 =
            todo.take k := by
          have := decodeAll_bytes ef [] (todo.take k)
            (buf.drop ((todo.take k).flatMap PointRecord.bytes).length) 0 (by simp) hreck
          rw [hlt'] at this
          simpa [overlay] using this
        rw [hdec]
        simp only [Res.ok_bind]
        have hlen2 : (done ++ todo.take k).length = done.length + k := by simp [hlt']
        have := ih (done ++ todo.take k) (todo.drop k) _ hov
          (fun q h => hrec q (List.mem_of_mem_drop h)) (by simp; omega)
        rw [hlen2] at this
        have ht : done.length + k + (todo.drop k).length = done.length + todo.length := by
          simp; omega
        rw [ht] at this
        rw [this, List.append_assoc, List.take_append_drop]
      · -- the last buffer
        rw [if_neg hlast]
        have hle : todo.length ≤ recordsPerBuffer ef := by omega
        have e : done.length + todo.length - done.length = todo.length := by omega
        have hfit : todo.length * recordSize ef ≤ bufferSize :=
          (Nat.mul_le_mul_right _ hle).trans hrpb
        rw [e, if_neg (by omega)]
        have hb1 := flatMap_bytes_length ef todo hrec
        rw [IStream.read_append hb1]
        simp only
        have hov : (overlay buf (todo.flatMap PointRecord.bytes)).length = bufferSize := by
          rw [overlay_length (by rw [hb1, hbuf]; exact hfit), hbuf]
        have := copyRecords_eq b ef done.length (overlay buf (todo.flatMap PointRecord.bytes))
          todo.length 0 done (List.replicate todo.length (PointRecord.blank ef)) []
          (by rw [hov]; simpa using hfit) (by simp) (by simp)
        rw [List.append_nil] at this
        rw [this]
        have hdec : decodeAll ef (overlay buf (todo.flatMap PointRecord.bytes)) todo.length 0 =
            todo := by
          have := decodeAll_bytes ef [] todo
            (buf.drop (todo.flatMap PointRecord.bytes).length) 0 (by simp) hrec
          simpa [overlay] using this
        rw [hdec]
        simp only [Res.ok_bind, List.append_nil]
        cases fuel with
        | zero => omega
        | succ fuel =>
          rw [readLoop, if_neg]
          simp; omega

theorem readUncompressedPoints_roundtrip (b : Build) (ef : Nat) (hef : 0 < recordsPerBuffer ef)
    (recs : List PointRecord) (hrec : ∀ q ∈ recs, q.extra.length = ef) (tl : Bytes) :
    readUncompressedPoints b { rest := recs.flatMap PointRecord.bytes ++ tl } recs.length ef =
      .ok (recs, { rest := tl }) := by
  have := readLoop_roundtrip b ef hef tl (recs.length + 1) [] recs
    (List.replicate bufferSize 0) (by simp) hrec (by omega)
  simpa [readUncompressedPoints] using this

theorem writeRecords_eq (recs : List PointRecord) :
    writeRecords recs = ⟨recs.flatMap PointRecord.bytes, .ok ()⟩ := by
  induction recs with
  | nil => rfl
  | cons q qs ih => simp [writeRecords, PointRecord.write_eq, ih]

end Io

end Spoc
