import Verif.Proofs.Format
import Verif.Props.Io

/-!
# C87: files have the documented layout
-/

namespace Spoc.Props

open Spec Spec.Format Io FormatProofs

/-- The header of a file is stored as documented. -/
theorem header_layout (f : SpocFile) (hf : Writable f) :
    (hdr f).bytes = layout (headerRows f.wkt f.extraFields f.prs.length (if f.compressed then 1 else 0)) := by
  have h := header_eq (hdr f) rfl hf.major hf.minor
  rw [hdr_extra hf, hdr_total hf] at h
  rw [← h]
  simp only [hdr]
  congr 2
  cases f.compressed <;> rfl

/-- **C87**, writing: an uncompressed file has exactly the bytes of the two tables of the manual. -/
theorem c87_writes (b : Build) (z : Zlib) (f : SpocFile) (hf : Writable f) (hc : f.compressed = false) (extra : Nat)
    (hx : ∀ q ∈ f.prs, q.extra.length = extra) (h0 : f.prs = [] → extra = 0) :
    writeFile b z f = ⟨uncompressed f.wkt extra f.prs, .ok ()⟩ := by
  have hv := (uniform_iff f).mp hf.uniform
  have he : f.extraFields = extra := by
    rw [extraFields_eq]
    cases hp : f.prs with
    | nil => simp [h0 hp]
    | cons a l => simpa using hx a (by rw [hp]; simp)
  rw [writeFile_uncompressed_eq b z hc hv hf.wkt, header_layout f hf, hc, he]
  unfold uncompressed
  rw [records_eq]
  rfl

/-- **C87**, a single record: what `write_point_record` writes has the bytes of the second table. -/
theorem c87_writes_record (q : PointRecord) : q.write = ⟨layout (recordRows q), .ok ()⟩ := by
  rw [record_eq, PointRecord.write_eq]

theorem layout_length (rows : List (DataType × Nat)) : (layout rows).length = (rows.map (fun r => r.1.size)).sum := by
  unfold layout
  rw [List.length_flatMap]
  congr 1
  apply List.map_congr_left
  intro r _
  simp [Format.stored]

/-- **C87**, the size of an uncompressed file. -/
theorem c87_size (wkt : Bytes) (extra : Nat) (prs : List PointRecord) (hx : ∀ q ∈ prs, q.extra.length = extra) :
    (uncompressed wkt extra prs).length = 18 + wkt.length + prs.length * (40 + 8 * extra) := by
  unfold uncompressed
  rw [List.length_append, layout_length, layout_length]
  congr 1
  · simp only [headerRows, List.map_append, List.map_cons, List.map_nil, List.sum_append, List.sum_cons, List.sum_nil, List.map_map]
    have : ∀ w : Bytes, (w.map ((fun r : DataType × Nat => r.1.size) ∘ fun byte => (DataType.uint8, byte.toNat))).sum = w.length := by
      intro w
      induction w with
      | nil => rfl
      | cons a w ih => rw [List.map_cons, List.sum_cons, ih, List.length_cons]; simp only [Function.comp_apply, DataType.size]; omega
    rw [this]
    simp only [DataType.size]
    omega
  · clear wkt
    induction prs with
    | nil => simp
    | cons q prs ih =>
      rw [List.flatMap_cons, List.map_append, List.sum_append, ih (fun p hp => hx p (by simp [hp])), List.length_cons, Nat.add_mul]
      have h1 : ((recordRows q).map (fun r => r.1.size)).sum = 40 + 8 * extra := by
        rw [← hx q (by simp), ← layout_length, record_eq, PointRecord.bytes_length]
      rw [h1]
      omega

/-- The header that the rows describe. -/
def describedHeader (wkt : Bytes) (extra points flag : Nat) : Header :=
  { signature := Header.sig, major := majorVersion, minor := minorVersion, wkt := wkt, extraFields := UInt8.ofNat extra
    totalPoints := UInt64.ofNat points, compressed := UInt8.ofNat flag }

theorem read_described {wkt : Bytes} {extra points flag : Nat} (hw : wkt.length ≤ 65535) (he : extra < 256) (hp : points < 2 ^ 64)
    (hfl : flag < 256) (tl : Bytes) :
    Header.read { rest := layout (headerRows wkt extra points flag) ++ tl } = .ok (describedHeader wkt extra points flag, { rest := tl })
      ∧ (describedHeader wkt extra points flag).extraFields.toNat = extra
      ∧ (describedHeader wkt extra points flag).totalPoints.toNat = points
      ∧ ((describedHeader wkt extra points flag).compressed ≠ 0 ↔ flag ≠ 0) := by
  have e1 : (describedHeader wkt extra points flag).extraFields.toNat = extra := by
    simp only [describedHeader]; rw [UInt8.toNat_ofNat']; exact Nat.mod_eq_of_lt (by omega)
  have e2 : (describedHeader wkt extra points flag).totalPoints.toNat = points := Nat.mod_eq_of_lt hp
  have e3 : (describedHeader wkt extra points flag).compressed.toNat = flag := by
    simp only [describedHeader]; rw [UInt8.toNat_ofNat']; exact Nat.mod_eq_of_lt (by omega)
  refine ⟨?_, e1, e2, ?_⟩
  · have h := header_eq (describedHeader wkt extra points flag) rfl rfl rfl
    rw [e1, e2, e3] at h
    rw [show layout (headerRows wkt extra points flag) = layout (headerRows (describedHeader wkt extra points flag).wkt extra points flag)
      from rfl, h]
    exact Header.read_bytes rfl rfl rfl hw tl
  · rw [not_iff_not, ← UInt8.toNat_inj, e3]; rfl

/-- **C87**, reading (partial: at most 123 extra fields, see `c01_hang`): bytes of the documented layout, whoever wrote them, are read
as the cloud that they describe, and reading stops behind them.  (Without points any number of extra fields may be announced.) -/
theorem c87_reads_partial (b : Build) (z : Zlib) (wkt : Bytes) (extra : Nat) (prs : List PointRecord) (hw : wkt.length ≤ 65535)
    (he : extra ≤ 123) (hn : prs.length < 2 ^ 64) (hx : ∀ q ∈ prs, q.extra.length = extra) (tl : Bytes) :
    readFile b z { rest := uncompressed wkt extra prs ++ tl }
      = .ok ({ major := 0, minor := 1, wkt := wkt, compressed := false, prs := prs }, { rest := tl }) := by
  obtain ⟨h1, h2, h3, h4⟩ := read_described (flag := 0) hw (by omega : extra < 256) hn (by omega)
    (layout (prs.flatMap recordRows) ++ tl)
  unfold readFile uncompressed
  rw [List.append_assoc, h1, Res.ok_bind]
  dsimp only
  rw [if_neg (by rw [h4]; simp), h2, h3, records_eq,
    readUncompressedPoints_roundtrip b extra (recordsPerBuffer_pos he) prs hx tl]
  simp only [Res.ok_bind, SpocFile.new', SpocFile.new, allSame_of prs hx, Bool.not_true, Bool.false_eq_true, if_false]
  rfl

theorem feq_zero_iff (x : F64) : F64.feq x F64.zero = true ↔ x = F64.zero ∨ x = F64.negZero := by
  constructor
  · intro h
    rw [F64.feq_iff] at h
    have h0 : x.fv = 0 := by rw [h.2.2, F64.zero_fv]
    have hm := F64.fv_eq_zero.mp h0
    have : x = F64.mk' x.neg 0 := by
      conv_lhs => rw [← F64.mk'_eta x]
      rw [hm]
    rw [this]
    cases x.neg
    · left; rfl
    · right; rfl
  · rintro (h | h) <;> rw [h] <;> rfl

theorem isZero_elemOf (t : DataType) (v : Nat) (hv : v < 256 ^ t.size) :
    (elemOf t).isZero v = true ↔ v = 0 ∨ (t = .double ∧ v = 2 ^ 63) := by
  cases t
  case double =>
    simp only [DataType.size] at hv
    have e : ∀ w : UInt64, (⟨UInt64.ofNat v⟩ : F64) = ⟨w⟩ ↔ v = w.toNat := by
      intro w
      rw [F64.mk.injEq, ← UInt64.toNat_inj, UInt64.toNat_ofNat', Nat.mod_eq_of_lt (by norm_num at hv ⊢; omega)]
    simp only [elemOf, elemDouble]
    rw [feq_zero_iff]
    unfold F64.zero F64.negZero
    rw [e, e]
    simp
  all_goals simp [elemOf, elemU16, elemU32, elemU64]

theorem allZero_elemOf (t : DataType) (x : List Nat) (hx : ∀ v ∈ x, v < 256 ^ t.size) :
    allZero (elemOf t) x = true ↔ ∀ v ∈ x, v = 0 ∨ (t = .double ∧ v = 2 ^ 63) := by
  unfold allZero
  constructor
  · intro h v hv
    rw [← isZero_elemOf t v (hx v hv)]
    by_contra hc
    rw [if_pos (List.any_eq_true.mpr ⟨v, hv, by simpa using hc⟩)] at h
    simp at h
  · intro h
    rw [if_neg]
    rw [Bool.not_eq_true, List.any_eq_false]
    intro v hv
    simpa using (isZero_elemOf t v (hx v hv)).mpr (h v hv)

/-- **C87**, writing compressed files: the header of the manual with flag 1, then for every column in the order of the table its
length and a zlib stream of the documented representation of its values; a column has no bytes if and only if all of its values are
zero (a negative zero counts as zero). -/
theorem c87_writes_compressed (b : Build) (z : Zlib) (hz : z.Correct) (f : SpocFile) (hf : Writable f) (hc : f.compressed = true)
    (hfit : FitsZlib z f.prs.length) (extra : Nat) (hx : ∀ q ∈ f.prs, q.extra.length = extra) (h0 : f.prs = [] → extra = 0) :
    ∃ bs, writeFile b z f = ⟨Format.compressed f.wkt extra f.prs.length 1 bs, .ok ()⟩
      ∧ List.Forall₂ (fun col block =>
          (block = [] ↔ ∀ v ∈ col.2, v = 0 ∨ (col.1 = .double ∧ v = 2 ^ 63))
          ∧ (block ≠ [] → z.inflate block = { output := columnBytes col, error := false })) (columns extra f.prs) bs := by
  have hv := (uniform_iff f).mp hf.uniform
  have he : f.extraFields = extra := by
    rw [extraFields_eq]
    cases hp : f.prs with
    | nil => simp [h0 hp]
    | cons a l => simpa using hx a (by rw [hp]; simp)
  rw [writeFile_compressed_eq b hz hc hv hf.wkt hfit.1, header_layout f hf, hc, he]
  refine ⟨(columns extra f.prs).map (blockOf z), ?_, ?_⟩
  · rw [fieldsBytes_blocks]
    rfl
  · rw [List.forall₂_map_right_iff, List.forall₂_same]
    rintro ⟨t, x⟩ hcol
    have hlt := columns_lt hcol
    have hne := (hz (columnBytes (t, x))).1
    unfold blockOf
    by_cases h : allZero (elemOf t) x = true
    · rw [if_pos h]
      refine ⟨⟨fun _ => (allZero_elemOf t x hlt).mp h, fun _ => rfl⟩, fun h => absurd rfl h⟩
    · rw [if_neg h]
      exact ⟨⟨fun e => absurd e hne, fun e => absurd ((allZero_elemOf t x hlt).mpr e) h⟩, fun _ => (hz _).2⟩

/-- **C87**, reading compressed files: bytes of that layout, whoever wrote and compressed them, are read as the cloud that they
describe (up to 255 extra fields; any flag but zero announces compressed contents). -/
theorem c87_reads_compressed (b : Build) (z : Zlib) (wkt : Bytes) (extra flag : Nat) (prs : List PointRecord) (hw : wkt.length ≤ 65535)
    (he : extra ≤ 255) (hfl : 0 < flag) (hfl' : flag ≤ 255) (hn : prs.length < 2 ^ 64) (hx : ∀ q ∈ prs, q.extra.length = extra)
    (bs : List Bytes) (hbs : List.Forall₂ (StandsFor z) (columns extra prs) bs) (tl : Bytes) :
    readFile b z { rest := Format.compressed wkt extra prs.length flag bs ++ tl }
      = .ok ({ major := 0, minor := 1, wkt := wkt, compressed := true, prs := prs }, { rest := tl }) := by
  obtain ⟨h1, h2, h3, h4⟩ := read_described (flag := flag) hw (by omega : extra < 256) hn (by omega) (blocks bs ++ tl)
  unfold readFile Format.compressed
  rw [List.append_assoc, h1, Res.ok_bind]
  dsimp only
  have hf : (describedHeader wkt extra prs.length flag).compressed ≠ 0 := h4.mpr (by omega)
  rw [if_pos hf, h2, h3, readCompressedPoints_blocks hx hbs tl]
  simp only [Res.ok_bind, SpocFile.new', SpocFile.new, allSame_of prs hx, Bool.not_true, Bool.false_eq_true, if_false, decide_eq_true hf]
  rfl

/-- A file with two points and three extra fields, for which the hypotheses of `c87_writes` and `c87_reads_partial` hold. -/
example : Writable exampleFile ∧ exampleFile.compressed = false ∧ (∀ q ∈ exampleFile.prs, q.extra.length = 3)
    ∧ (uncompressed exampleFile.wkt 3 exampleFile.prs).length = 18 + 3 + 2 * (40 + 8 * 3) :=
  ⟨exampleFile_writable, by decide, by decide, c87_size _ _ _ (by decide)⟩

/-- The first bytes of a file, literally. -/
example : (uncompressed [0x57] 1 [{ x := F64.one, c := 258, extra := [3] }]).take 51
    = [0x53, 0x50, 0x4F, 0x43, 0, 1, 1, 0, 0x57, 1, 1, 0, 0, 0, 0, 0, 0, 0, 0,
       0, 0, 0, 0, 0, 0, 0xF0, 0x3F, 0, 0, 0, 0, 0, 0, 0, 0, 0, 0, 0, 0, 0, 0, 0, 0, 2, 1, 0, 0, 0, 0, 0, 0] := by decide +kernel

/-- The hypotheses of `c87_writes_compressed` and `c87_reads_compressed` hold, also for a column of negative zeros that another program
has compressed. -/
example : toyZlib.Correct ∧ FitsZlib toyZlib 1
    ∧ List.Forall₂ (StandsFor toyZlib) (columns 0 [{ x := F64.negZero, c := 7 }])
      [0 :: columnBytes (.double, [2 ^ 63]), [], [], 0 :: columnBytes (.uint32, [7]), [], [], [], [], []] := by
  refine ⟨toyZlib_correct, toyZlib_fits (by norm_num), ?_⟩
  have z : ∀ t, StandsFor toyZlib (t, [0]) [] := fun t => .inl ⟨rfl, by simp⟩
  have s : ∀ t v, StandsFor toyZlib (t, [v]) (0 :: columnBytes (t, [v])) := by
    intro t v
    refine .inr ⟨by simp, ?_, by simp [toyZlib]⟩
    rw [columnBytes_eq, List.length_cons, colBytes_length, elemOf_size]
    cases t <;> simp [DataType.size]
  exact .cons (s _ _) (.cons (z _) (.cons (z _) (.cons (s _ _) (.cons (z _) (.cons (z _) (.cons (z _) (.cons (z _) (.cons (z _) .nil))))))))

end Spoc.Props
