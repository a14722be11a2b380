import Verif.Proofs.Io
import Verif.Proofs.F64Ops

/-!
# Lemmas about compression and the compressed reader and writer
-/

namespace Spoc

namespace Compression

theorem drain_eq {buf : Nat} (hb : 0 < buf) (fuel : Nat) (pending output : Bytes)
    (hf : pending.length < fuel) : drain buf fuel pending output = .ok (output ++ pending) := by
  induction fuel generalizing pending output with
  | zero => omega
  | succ fuel ih =>
    rw [drain]
    by_cases h : buf - (pending.take buf).length = 0
    · rw [if_pos h, ih _ _ (by simp at h ⊢; omega), List.append_assoc, List.take_append_drop]
    · rw [if_neg h, List.take_of_length_le (by simp at h; omega)]

theorem bufferSize_pos : 0 < bufferSize := by norm_num [bufferSize]

theorem take_availIn {bs : Bytes} (h : bs.length < 2 ^ 32) :
    bs.take (availIn bs.length) = bs := by
  rw [availIn, Nat.mod_eq_of_lt h, List.take_length]

theorem compress_eq (z : Zlib) {input : Bytes} (h : input.length < 2 ^ 32) :
    compress z input = .ok (z.deflate input) := by
  simp only [compress, take_availIn h]
  rw [drain_eq bufferSize_pos _ _ _ (by omega), List.nil_append]

theorem decompress_deflate {z : Zlib} (hz : z.Correct) {input : Bytes}
    (h : (z.deflate input).length < 2 ^ 32) : decompress z (z.deflate input) = .ok input := by
  simp only [decompress, take_availIn h, (hz input).2]
  rw [drain_eq bufferSize_pos _ _ _ (by omega)]
  simp

end Compression

namespace Io

/-- The element type reads values of the given range. -/
theorem colOf_colBytes (t : Elem) (x : List Nat) (tl : Bytes)
    (hx : ∀ v ∈ x, v < 256 ^ t.size) : colOf t x.length (colBytes t x ++ tl) = x := by
  induction x with
  | nil => rfl
  | cons a l ih =>
    simp only [List.length_cons, colOf, colBytes, List.flatMap_cons, List.append_assoc]
    rw [List.take_left' (by simp), List.drop_left' (by simp),
      ofLe_leBytes_of_lt (hx a (by simp))]
    congr 1
    exact ih (fun v h => hx v (by simp [h]))

theorem colBytes_length (t : Elem) (x : List Nat) : (colBytes t x).length = x.length * t.size := by
  unfold colBytes
  induction x with
  | nil => simp
  | cons a l ih => simp only [List.flatMap_cons, List.length_append, leBytes_length, ih,
      List.length_cons]; ring

/-- The column that comes back: an all-zero column is stored as an empty one. -/
def stored (t : Elem) (x : List Nat) : List Nat := if allZero t x then [] else x

theorem compressField_eq (z : Zlib) (t : Elem) (x : List Nat) (h : x.length * t.size < 2 ^ 32) :
    compressField z t x = .ok (if allZero t x then [] else z.deflate (colBytes t x)) := by
  unfold compressField
  split
  · rfl
  · rw [Compression.compress_eq z (by rw [colBytes_length]; exact h)]

/-- The bytes of a compressed field in the file. -/
def fieldBytes (z : Zlib) (t : Elem) (x : List Nat) : Bytes :=
  if allZero t x then leBytes 8 0
  else leBytes 8 (z.deflate (colBytes t x)).length ++ z.deflate (colBytes t x)

theorem writeCompressed_eq {z : Zlib} (hz : z.Correct) (t : Elem) (x : List Nat) :
    writeCompressed (if allZero t x then [] else z.deflate (colBytes t x)) =
      ⟨fieldBytes z t x, .ok ()⟩ := by
  unfold writeCompressed fieldBytes
  by_cases h : allZero t x = true
  · simp [h, Out.emit]
  · have hne := (hz (colBytes t x)).1
    simp only [Bool.not_eq_true] at h
    simp [h, List.isEmpty_iff, hne, Out.emit]

/-- What is needed of the sizes: the column and its compressed form are below 4 GiB. -/
def Fits (z : Zlib) (n : Nat) : Prop :=
  8 * n < 2 ^ 32 ∧ ∀ bs : Bytes, bs.length ≤ 8 * n → (z.deflate bs).length < 2 ^ 32

theorem readCompressed_field {z : Zlib} (hz : z.Correct) (t : Elem) (x : List Nat) (tl : Bytes)
    (hx : ∀ v ∈ x, v < 256 ^ t.size) (ht : t.size ≤ 8) (hf : Fits z x.length) :
    readCompressed z t { rest := fieldBytes z t x ++ tl } x.length =
      .ok (stored t x, { rest := tl }) := by
  unfold readCompressed fieldBytes stored
  by_cases h : allZero t x = true
  · simp only [h, if_true]
    rw [IStream.readUInt_append (by norm_num)]
    simp
  · simp only [Bool.not_eq_true] at h
    simp only [h, Bool.false_eq_true, if_false]
    have hl : (colBytes t x).length ≤ 8 * x.length := by
      rw [colBytes_length, Nat.mul_comm]; exact Nat.mul_le_mul_right _ ht
    have hd := hf.2 _ hl
    have hne := (hz (colBytes t x)).1
    rw [List.append_assoc, IStream.readUInt_append (by norm_num at hd ⊢; omega)]
    simp only [List.length_eq_zero_iff, hne, if_false]
    rw [IStream.readInto_append (by simp)]
    simp only [Compression.decompressTo, Compression.decompress_deflate hz hd, Res.ok_bind]
    rw [if_neg (by rw [colBytes_length]; simp)]
    simp only [Res.ok_bind]
    have := colOf_colBytes t x [] hx
    rw [List.append_nil] at this
    rw [this]

/-- The value that comes back for element `n`. -/
theorem colGet_stored_int {t : Elem} (ht : t.isZero = fun v => decide (v = 0)) (x : List Nat)
    {n : Nat} (hn : n < x.length) : colGet (stored t x) n = .ok x[n] := by
  unfold stored
  by_cases h : allZero t x = true
  · have : x[n] = 0 := by
      simp only [allZero, ht] at h
      have h' : (x.any fun i => !decide (i = 0)) = false := by
        by_contra hc
        simp only [Bool.not_eq_false] at hc
        rw [hc] at h; simp at h
      rw [List.any_eq_false] at h'
      have := h' _ (List.getElem_mem hn)
      simpa using this
    simp [h, colGet, this]
  · simp only [Bool.not_eq_true] at h
    have hne : x ≠ [] := by rintro rfl; simp at hn
    simp [h, colGet, List.isEmpty_iff, hne, List.getElem?_eq_getElem hn]

/-- Element `n` of a column of doubles after storing: plain zero if the column has only zeros. -/
theorem colGet_stored (t : Elem) (x : List Nat)
    {n : Nat} (hn : n < x.length) :
    colGet (stored t x) n = .ok (if allZero t x then 0 else x[n]) := by
  unfold stored
  by_cases h : allZero t x = true
  · simp [h, colGet]
  · simp only [Bool.not_eq_true] at h
    have hne : x ≠ [] := by rintro rfl; simp at hn
    simp [h, colGet, List.isEmpty_iff, hne, List.getElem?_eq_getElem hn]

theorem mapM_ok {α β : Type} (f : α → Res β) (g : α → β) (l : List α) (h : ∀ a ∈ l, f a = .ok (g a)) :
    l.mapM f = .ok (l.map g) := by
  induction l with
  | nil => rfl
  | cons a l ih =>
    rw [List.mapM_cons, h a (by simp), ih (fun b hb => h b (by simp [hb]))]
    rfl

/-- The extra columns of a list of records with `ef` extra fields. -/
def extraCols (ef : Nat) (prs : List PointRecord) : List (List Nat) :=
  (List.range ef).map (fun j => prs.map (fun q => (q.extra.getD j 0).toNat))

theorem extraColumn_eq {ef : Nat} {prs : List PointRecord} (h : ∀ q ∈ prs, q.extra.length = ef)
    {j : Nat} (hj : j < ef) :
    extraColumn prs j = .ok (prs.map (fun q => (q.extra.getD j 0).toNat)) := by
  unfold extraColumn
  apply mapM_ok
  intro q hq
  have : j < q.extra.length := by rw [h q hq]; exact hj
  simp [List.getElem?_eq_getElem this, List.getD]

/-- The bytes of all compressed fields. -/
def fieldsBytes (z : Zlib) (ef : Nat) (prs : List PointRecord) : Bytes :=
  fieldBytes z elemDouble (prs.map (fun q => q.x.bits.toNat)) ++
  (fieldBytes z elemDouble (prs.map (fun q => q.y.bits.toNat)) ++
  (fieldBytes z elemDouble (prs.map (fun q => q.z.bits.toNat)) ++
  (fieldBytes z elemU32 (prs.map (fun q => q.c.toNat)) ++
  (fieldBytes z elemU32 (prs.map (fun q => q.p.toNat)) ++
  (fieldBytes z elemU16 (prs.map (fun q => q.i.toNat)) ++
  (fieldBytes z elemU16 (prs.map (fun q => q.r.toNat)) ++
  (fieldBytes z elemU16 (prs.map (fun q => q.g.toNat)) ++
  (fieldBytes z elemU16 (prs.map (fun q => q.b.toNat)) ++
  (extraCols ef prs).flatMap (fieldBytes z elemU64)))))))))

theorem writeFields_eq {z : Zlib} (hz : z.Correct) (t : Elem) (cols : List (List Nat)) :
    writeFields (cols.map (fun x => if allZero t x then [] else z.deflate (colBytes t x))) =
      ⟨cols.flatMap (fieldBytes z t), .ok ()⟩ := by
  induction cols with
  | nil => rfl
  | cons c cs ih => simp [writeFields, writeCompressed_eq hz, ih]

theorem allSame_iff (prs : List PointRecord) :
    allSameSizeExtra prs = true ↔ ∀ q ∈ prs, q.extra.length = (prs.head?.map (·.extra.length)).getD 0 := by
  cases prs with
  | nil => simp [allSameSizeExtra]
  | cons a l =>
    simp only [allSameSizeExtra, List.head?_cons, Option.map_some, Option.getD_some]
    constructor
    · intro h q hq
      by_contra hc
      have : ((a :: l).any fun p => decide (p.extra.length ≠ a.extra.length)) = true := by
        rw [List.any_eq_true]; exact ⟨q, hq, by simpa using hc⟩
      rw [this] at h; simp at h
    · intro h
      have : ((a :: l).any fun p => decide (p.extra.length ≠ a.extra.length)) = false := by
        rw [List.any_eq_false]; intro q hq; simp [h q hq]
      rw [this]; simp

theorem extraFields_eq (f : SpocFile) :
    f.extraFields = (f.prs.head?.map (·.extra.length)).getD 0 := by
  unfold SpocFile.extraFields
  cases f.prs <;> rfl

theorem isValid_iff (f : SpocFile) :
    f.isValid = true ↔ ∀ q ∈ f.prs, q.extra.length = f.extraFields := by
  rw [extraFields_eq]; exact allSame_iff f.prs

theorem allSame_of (prs : List PointRecord) {n : Nat} (h : ∀ q ∈ prs, q.extra.length = n) :
    allSameSizeExtra prs = true := by
  rw [allSame_iff]
  intro q hq
  cases prs with
  | nil => simp at hq
  | cons a l => simp [h a (by simp), h q hq]

/-- The header of a file. -/
def hdr (f : SpocFile) : Header :=
  { signature := Header.sig, major := f.major, minor := f.minor, wkt := f.wkt,
    extraFields := UInt8.ofNat f.extraFields, totalPoints := UInt64.ofNat f.prs.length,
    compressed := if f.compressed then 1 else 0 }

theorem getHeader_eq {f : SpocFile} (h : f.wkt.length ≤ 0xFFFF) : f.getHeader = .ok (hdr f) := by
  unfold SpocFile.getHeader Header.new
  rw [if_neg (by omega)]
  rfl

theorem getHeader_throw {f : SpocFile} (h : 0xFFFF < f.wkt.length) :
    f.getHeader = .throw "The OGC WKT length may not exceed 65535" := by
  unfold SpocFile.getHeader Header.new
  rw [if_pos (by omega)]

theorem hdr_write (f : SpocFile) : (hdr f).write = ⟨(hdr f).bytes, .ok ()⟩ :=
  Header.write_ok (by rfl)

theorem writeFile_uncompressed_eq (b : Build) (z : Zlib) {f : SpocFile} (hc : f.compressed = false)
    (hv : f.isValid = true) (hw : f.wkt.length ≤ 0xFFFF) :
    writeFile b z f = ⟨(hdr f).bytes ++ f.prs.flatMap PointRecord.bytes, .ok ()⟩ := by
  unfold writeFile
  rw [getHeader_eq hw]
  simp only [Out.lift_ok_bind]
  rw [if_neg (by simp [hdr, hc])]
  unfold writeFileUncompressed
  simp only [hv, require_true, Out.lift_ok_bind, hc, Bool.false_eq_true, if_false, getHeader_eq hw,
    hdr_write, writeRecords_eq, Out.mk_ok_bind]

theorem mul_size_lt {n k : Nat} (hk : k ≤ 8) (h : 8 * n < 2 ^ 32) : n * k < 2 ^ 32 :=
  lt_of_le_of_lt (by rw [Nat.mul_comm]; exact Nat.mul_le_mul_right _ hk) h

theorem writeFile_compressed_eq (b : Build) {z : Zlib} (hz : z.Correct) {f : SpocFile}
    (hc : f.compressed = true) (hv : f.isValid = true) (hw : f.wkt.length ≤ 0xFFFF)
    (hfit : 8 * f.prs.length < 2 ^ 32) :
    writeFile b z f = ⟨(hdr f).bytes ++ fieldsBytes z f.extraFields f.prs, .ok ()⟩ := by
  have hrec := (isValid_iff f).mp hv
  unfold writeFile
  rw [getHeader_eq hw]
  simp only [Out.lift_ok_bind]
  rw [if_pos (by simp [hdr, hc])]
  unfold writeFileCompressed
  simp only [hv, require_true, Out.lift_ok_bind, hc, Bool.not_true, Bool.false_eq_true, if_false]
  have he : (List.range f.extraFields).mapM (extraColumn f.prs) =
      .ok (extraCols f.extraFields f.prs) := by
    apply mapM_ok
    intro j hj
    exact extraColumn_eq hrec (by simpa using hj)
  have hd : ∀ g : PointRecord → Nat, compressField z elemDouble (f.prs.map g) = _ :=
    fun g => compressField_eq z elemDouble (f.prs.map g)
      (by rw [List.length_map]; exact mul_size_lt (by decide) hfit)
  have h32 : ∀ g : PointRecord → Nat, compressField z elemU32 (f.prs.map g) = _ :=
    fun g => compressField_eq z elemU32 (f.prs.map g)
      (by rw [List.length_map]; exact mul_size_lt (by decide) hfit)
  have h16 : ∀ g : PointRecord → Nat, compressField z elemU16 (f.prs.map g) = _ :=
    fun g => compressField_eq z elemU16 (f.prs.map g)
      (by rw [List.length_map]; exact mul_size_lt (by decide) hfit)
  have hex : (extraCols f.extraFields f.prs).mapM (compressField z elemU64) =
      .ok ((extraCols f.extraFields f.prs).map
        (fun x => if allZero elemU64 x then [] else z.deflate (colBytes elemU64 x))) := by
    apply mapM_ok
    intro x hx
    apply compressField_eq
    simp only [extraCols, List.mem_map] at hx
    obtain ⟨j, _, rfl⟩ := hx
    rw [List.length_map]; exact mul_size_lt (by decide) hfit
  simp only [he, hd, h32, h16, hex, Out.lift_ok_bind, getHeader_eq hw, hdr_write, Out.mk_ok_bind,
    writeFields_eq hz]
  simp only [writeFields, writeCompressed_eq hz, Out.mk_ok_bind, Out.pure_def, Out.ret,
    fieldsBytes, List.append_assoc, List.append_nil]

theorem readExtraColumns_eq {z : Zlib} (hz : z.Correct) (n : Nat) (hf : Fits z n)
    (cols : List (List Nat)) (hn : ∀ x ∈ cols, x.length = n)
    (hx : ∀ x ∈ cols, ∀ v ∈ x, v < 256 ^ 8) (tl : Bytes) :
    readExtraColumns z n cols.length { rest := cols.flatMap (fieldBytes z elemU64) ++ tl } =
      .ok (cols.map (stored elemU64), { rest := tl }) := by
  induction cols with
  | nil => rfl
  | cons c cs ih =>
    have hc : c.length = n := hn c (by simp)
    simp only [List.length_cons, readExtraColumns, List.flatMap_cons, List.append_assoc]
    have := readCompressed_field hz elemU64 c (cs.flatMap (fieldBytes z elemU64) ++ tl)
      (hx c (by simp)) (by decide) (by rw [hc]; exact hf)
    rw [hc] at this
    simp only [this, Res.ok_bind, ih (fun x h => hn x (by simp [h])) (fun x h => hx x (by simp [h])),
      List.map_cons]

/-- The columns that come back. -/
def storedCols (ef : Nat) (prs : List PointRecord) : Columns :=
  { x := stored elemDouble (prs.map (fun q => q.x.bits.toNat))
    y := stored elemDouble (prs.map (fun q => q.y.bits.toNat))
    z := stored elemDouble (prs.map (fun q => q.z.bits.toNat))
    c := stored elemU32 (prs.map (fun q => q.c.toNat))
    p := stored elemU32 (prs.map (fun q => q.p.toNat))
    i := stored elemU16 (prs.map (fun q => q.i.toNat))
    r := stored elemU16 (prs.map (fun q => q.r.toNat))
    g := stored elemU16 (prs.map (fun q => q.g.toNat))
    b := stored elemU16 (prs.map (fun q => q.b.toNat))
    extra := (extraCols ef prs).map (stored elemU64) }

theorem readColumns_eq {z : Zlib} (hz : z.Correct) (ef : Nat) (prs : List PointRecord)
    (hf : Fits z prs.length) (tl : Bytes) :
    readColumns z { rest := fieldsBytes z ef prs ++ tl } prs.length ef =
      .ok (storedCols ef prs, { rest := tl }) := by
  have hd : ∀ (g : PointRecord → UInt64) (tl : Bytes), readCompressed z elemDouble
      { rest := fieldBytes z elemDouble (prs.map (fun q => (g q).toNat)) ++ tl } prs.length =
      .ok (stored elemDouble (prs.map (fun q => (g q).toNat)), { rest := tl }) := by
    intro g tl
    have := readCompressed_field hz elemDouble (prs.map (fun q => (g q).toNat)) tl
      (by intro v hv
          simp only [List.mem_map] at hv
          obtain ⟨q, _, rfl⟩ := hv
          have := (g q).toNat_lt
          simpa [elemDouble] using this) (by decide) (by rw [List.length_map]; exact hf)
    rwa [List.length_map] at this
  have h32 : ∀ (g : PointRecord → UInt32) (tl : Bytes), readCompressed z elemU32
      { rest := fieldBytes z elemU32 (prs.map (fun q => (g q).toNat)) ++ tl } prs.length =
      .ok (stored elemU32 (prs.map (fun q => (g q).toNat)), { rest := tl }) := by
    intro g tl
    have := readCompressed_field hz elemU32 (prs.map (fun q => (g q).toNat)) tl
      (by intro v hv
          simp only [List.mem_map] at hv
          obtain ⟨q, _, rfl⟩ := hv
          have := (g q).toNat_lt
          simpa [elemU32] using this) (by decide) (by rw [List.length_map]; exact hf)
    rwa [List.length_map] at this
  have h16 : ∀ (g : PointRecord → UInt16) (tl : Bytes), readCompressed z elemU16
      { rest := fieldBytes z elemU16 (prs.map (fun q => (g q).toNat)) ++ tl } prs.length =
      .ok (stored elemU16 (prs.map (fun q => (g q).toNat)), { rest := tl }) := by
    intro g tl
    have := readCompressed_field hz elemU16 (prs.map (fun q => (g q).toNat)) tl
      (by intro v hv
          simp only [List.mem_map] at hv
          obtain ⟨q, _, rfl⟩ := hv
          have := (g q).toNat_lt
          simpa [elemU16] using this) (by decide) (by rw [List.length_map]; exact hf)
    rwa [List.length_map] at this
  have hex : readExtraColumns z prs.length ef
      { rest := (extraCols ef prs).flatMap (fieldBytes z elemU64) ++ tl } =
      .ok ((extraCols ef prs).map (stored elemU64), { rest := tl }) := by
    have := readExtraColumns_eq hz prs.length hf (extraCols ef prs)
      (by intro x hx
          simp only [extraCols, List.mem_map] at hx
          obtain ⟨j, _, rfl⟩ := hx
          simp)
      (by intro x hx v hv
          simp only [extraCols, List.mem_map] at hx
          obtain ⟨j, _, rfl⟩ := hx
          simp only [List.mem_map] at hv
          obtain ⟨q, _, rfl⟩ := hv
          have := (q.extra.getD j 0).toNat_lt
          simpa using this) tl
    have hl : (extraCols ef prs).length = ef := by simp [extraCols]
    rwa [hl] at this
  unfold readColumns fieldsBytes storedCols
  simp only [List.append_assoc]
  simp only [hd (fun q => q.x.bits), hd (fun q => q.y.bits), hd (fun q => q.z.bits),
    h32 (fun q => q.c), h32 (fun q => q.p), h16 (fun q => q.i), h16 (fun q => q.r),
    h16 (fun q => q.g), h16 (fun q => q.b), hex, Res.ok_bind]

/-- Is a column of doubles all zeros (of either sign)? -/
def zeroCol (prs : List PointRecord) (g : PointRecord → F64) : Bool :=
  prs.all (fun q => F64.feq (g q) F64.zero)

/-- What the coordinates of a record become. -/
def canonRecord (prs : List PointRecord) (q : PointRecord) : PointRecord :=
  { q with
    x := if zeroCol prs (·.x) then F64.zero else q.x
    y := if zeroCol prs (·.y) then F64.zero else q.y
    z := if zeroCol prs (·.z) then F64.zero else q.z }

theorem allZero_double (prs : List PointRecord) (g : PointRecord → F64) :
    allZero elemDouble (prs.map (fun q => (g q).bits.toNat)) = zeroCol prs g := by
  unfold allZero zeroCol
  rw [List.any_map, List.all_eq_not_any_not]
  have : ((fun i => !elemDouble.isZero i) ∘ fun q => (g q).bits.toNat) =
      fun q => !F64.feq (g q) F64.zero := by
    funext q
    simp [elemDouble]
  rw [this]
  cases prs.any _ <;> rfl

theorem fillRecord_eq (ef : Nat) (prs : List PointRecord) (hrec : ∀ q ∈ prs, q.extra.length = ef)
    {n : Nat} (hn : n < prs.length) :
    fillRecord (storedCols ef prs) n = .ok (canonRecord prs prs[n]) := by
  have hd : ∀ g : PointRecord → F64,
      colGet (stored elemDouble (prs.map (fun q => (g q).bits.toNat))) n =
      .ok (if zeroCol prs g then 0 else (g prs[n]).bits.toNat) := by
    intro g
    rw [colGet_stored _ _ (by simpa using hn), allZero_double]
    simp
  have h32 : ∀ g : PointRecord → UInt32,
      colGet (stored elemU32 (prs.map (fun q => (g q).toNat))) n = .ok (g prs[n]).toNat := by
    intro g
    rw [colGet_stored_int (by rfl) _ (by simpa using hn)]
    simp
  have h16 : ∀ g : PointRecord → UInt16,
      colGet (stored elemU16 (prs.map (fun q => (g q).toNat))) n = .ok (g prs[n]).toNat := by
    intro g
    rw [colGet_stored_int (by rfl) _ (by simpa using hn)]
    simp
  have hex : ((extraCols ef prs).map (stored elemU64)).mapM (fun e => colGet e n) =
      .ok ((List.range ef).map (fun j => (prs[n].extra.getD j 0).toNat)) := by
    unfold extraCols
    rw [List.map_map]
    have : ∀ l : List Nat, (l.map (stored elemU64 ∘
        fun j => prs.map (fun q => (q.extra.getD j 0).toNat))).mapM (fun e => colGet e n) =
        .ok (l.map (fun j => (prs[n].extra.getD j 0).toNat)) := by
      intro l
      induction l with
      | nil => rfl
      | cons j l ih =>
        rw [List.map_cons, List.mapM_cons, ih]
        simp only [Function.comp]
        rw [colGet_stored_int (by rfl) _ (by simpa using hn)]
        simp
    exact this _
  unfold fillRecord
  simp only [storedCols, hd, h32 (fun q => q.c), h32 (fun q => q.p), h16 (fun q => q.i),
    h16 (fun q => q.r), h16 (fun q => q.g), h16 (fun q => q.b), hex, Res.ok_bind]
  have hl : prs[n].extra.length = ef := hrec _ (List.getElem_mem hn)
  have hex2 : ((List.range ef).map (fun j => (prs[n].extra.getD j 0).toNat)).map UInt64.ofNat =
      prs[n].extra := by
    rw [List.map_map]
    apply List.ext_getElem
    · simp [hl]
    · intro j h1 h2
      simp [h2]
  rw [hex2]
  have hz : ∀ g : PointRecord → F64,
      (⟨UInt64.ofNat (if zeroCol prs g then 0 else (g prs[n]).bits.toNat)⟩ : F64) =
      if zeroCol prs g then F64.zero else g prs[n] := by
    intro g
    by_cases h : zeroCol prs g = true
    · simp only [h, if_true]; rfl
    · simp [h]
  simp only [hz, UInt32.ofNat_toNat, UInt16.ofNat_toNat, canonRecord]

theorem readCompressedPoints_eq {z : Zlib} (hz : z.Correct) (ef : Nat) (prs : List PointRecord)
    (hrec : ∀ q ∈ prs, q.extra.length = ef) (hf : Fits z prs.length) (tl : Bytes) :
    readCompressedPoints z { rest := fieldsBytes z ef prs ++ tl } prs.length ef =
      .ok (prs.map (canonRecord prs), { rest := tl }) := by
  unfold readCompressedPoints
  rw [readColumns_eq hz ef prs hf]
  simp only [Res.ok_bind]
  have : (List.range prs.length).mapM (fillRecord (storedCols ef prs)) =
      .ok ((List.range prs.length).map (fun n => canonRecord prs (prs.getD n {}))) := by
    apply mapM_ok
    intro n hn
    have hn' : n < prs.length := by simpa using hn
    rw [fillRecord_eq ef prs hrec hn']
    simp [List.getD, List.getElem?_eq_getElem hn']
  rw [this]
  simp only [Res.ok_bind]
  congr 2
  apply List.ext_getElem
  · simp
  · intro n h1 h2
    simp at h1
    simp [h1]

end Io

end Spoc
