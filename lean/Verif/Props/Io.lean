import Verif.Spec.Io
import Verif.Proofs.IoGeneral

/-!
# Properties of reading and writing files (C01, C02, C04 - C10, C64)
-/

namespace Spoc.Props

open Spoc Spec Io

/-! ## Helpers that translate the specification vocabulary -/

theorem uniform_iff (f : SpocFile) : Uniform f.prs ↔ f.isValid = true := by
  rw [isValid_iff, extraFields_eq]
  constructor
  · intro h q hq
    cases hp : f.prs with
    | nil => rw [hp] at hq; simp at hq
    | cons a l =>
      simp only [List.head?_cons, Option.map_some, Option.getD_some]
      exact h q hq a (by rw [hp]; simp)
  · intro h p hp q hq
    rw [h p hp, h q hq]

theorem onlyZeros_iff (prs : List PointRecord) (g : PointRecord → F64) :
    OnlyZeros prs g ↔ zeroCol prs g = true := by
  unfold OnlyZeros zeroCol
  rw [List.all_eq_true]
  refine forall₂_congr ?_
  intro q _
  constructor
  · rintro (h | h) <;> rw [h] <;> rfl
  · intro h
    rw [F64.feq_iff] at h
    have h0 : (g q).fv = 0 := by rw [h.2.2, F64.zero_fv]
    have hm := F64.fv_eq_zero.mp h0
    have : (g q) = F64.mk' (g q).neg 0 := by
      conv_lhs => rw [← F64.mk'_eta (g q)]
      rw [hm]
    rw [this]
    cases (g q).neg
    · left; rfl
    · right; rfl

theorem extraFields_le {f : SpocFile} {n : Nat} (h : ∀ q ∈ f.prs, q.extra.length ≤ n) :
    f.extraFields ≤ n := by
  rw [extraFields_eq]
  cases hp : f.prs with
  | nil => simp
  | cons a l => simpa using h a (by rw [hp]; simp)

theorem read_hdr {f : SpocFile} (hf : Writable f) (tl : Bytes) :
    Header.read { rest := (hdr f).bytes ++ tl } = .ok (hdr f, { rest := tl }) :=
  Header.read_bytes rfl hf.major hf.minor hf.wkt tl

theorem hdr_total {f : SpocFile} (hf : Writable f) : (hdr f).totalPoints.toNat = f.prs.length := by
  simp only [hdr]
  exact Nat.mod_eq_of_lt hf.count

theorem hdr_extra {f : SpocFile} (hf : Writable f) : (hdr f).extraFields.toNat = f.extraFields := by
  simp only [hdr]
  rw [UInt8.toNat_ofNat']
  exact Nat.mod_eq_of_lt (by have := extraFields_le hf.extra; omega)

/-! ## C01 -/

/-- **C01** (partial: at most 123 extra fields; the full property asks for up to 255, which is
false, see `c01_hang`).  Writing an uncompressed file succeeds, and whatever follows in the stream,
reading it back gives exactly the file and stops behind the last byte. -/
theorem c01_uncompressed_roundtrip_partial (b : Build) (z : Zlib) (f : SpocFile) (hf : Writable f)
    (hc : f.compressed = false) (hextra : ∀ q ∈ f.prs, q.extra.length ≤ 123) :
    (writeFile b z f).res = .ok () ∧
    ∀ tl, readFile b z { rest := (writeFile b z f).bytes ++ tl } = .ok (f, { rest := tl }) := by
  have hv := (uniform_iff f).mp hf.uniform
  rw [writeFile_uncompressed_eq b z hc hv hf.wkt]
  refine ⟨rfl, fun tl => ?_⟩
  unfold readFile
  simp only [List.append_assoc, read_hdr hf, Res.ok_bind]
  rw [if_neg (by simp [hdr, hc])]
  rw [hdr_total hf, hdr_extra hf,
    readUncompressedPoints_roundtrip b f.extraFields (recordsPerBuffer_pos (extraFields_le hextra))
      f.prs ((isValid_iff f).mp hv) tl]
  simp only [Res.ok_bind, SpocFile.new', SpocFile.new]
  have hv' : allSameSizeExtra f.prs = true := hv
  simp only [hv', Bool.not_true, Bool.false_eq_true, if_false, Res.ok_bind]
  have : f = { major := majorVersion, minor := minorVersion, wkt := f.wkt, compressed := false,
               prs := f.prs } := by
    obtain ⟨ma, mi, w, c, p⟩ := f
    have h1 := hf.major; have h2 := hf.minor
    simp only at h1 h2 hc
    subst h1 h2 hc
    rfl
  conv_rhs => rw [this]
  simp [hdr, hc]

/-- A file with two points and three extra fields. -/
def exampleFile : SpocFile :=
  { major := majorVersion, minor := minorVersion, wkt := [0x57, 0x4B, 0x54], compressed := false
    prs := [{ x := F64.one, c := 2, extra := [1, 2, 3] },
            { y := F64.negZero, p := 7, b := 65535, extra := [4, 5, 18446744073709551615] }] }

theorem exampleFile_writable : Writable exampleFile where
  major := rfl
  minor := rfl
  wkt := by decide
  uniform := by unfold Uniform; decide
  extra := by decide
  count := by decide

example : Writable exampleFile ∧ exampleFile.compressed = false ∧
    ∀ q ∈ exampleFile.prs, q.extra.length ≤ 123 :=
  ⟨exampleFile_writable, rfl, by decide⟩

/-- **C01, negation.**  A file with at least one point and 124 to 255 extra fields is written
without complaint, but the reader never returns: no number of loop iterations suffices. -/
theorem c01_hang (b : Build) (z : Zlib) (f : SpocFile) (hf : Writable f) (hc : f.compressed = false)
    (hne : f.prs ≠ []) (hextra : ∀ q ∈ f.prs, 124 ≤ q.extra.length) (tl : Bytes) :
    (writeFile b z f).res = .ok () ∧
    readFile b z { rest := (writeFile b z f).bytes ++ tl } = .hang ∧
    ∀ fuel buf s, readLoop b f.extraFields f.prs.length fuel 0 buf
      (List.replicate f.prs.length (PointRecord.blank f.extraFields)) s = .hang := by
  have hv := (uniform_iff f).mp hf.uniform
  have hpos : 0 < f.prs.length := List.length_pos_iff.mpr hne
  have hef : 124 ≤ f.extraFields := by
    rw [extraFields_eq]
    cases hp : f.prs with
    | nil => exact absurd hp hne
    | cons a l => simpa using hextra a (by rw [hp]; simp)
  have hstuck : ∀ fuel buf s, readLoop b f.extraFields f.prs.length fuel 0 buf
      (List.replicate f.prs.length (PointRecord.blank f.extraFields)) s = .hang :=
    fun fuel buf s => readLoop_stuck b _ _ (recordsPerBuffer_zero hef) fuel 0 buf _ s
      (by simpa using hpos) hpos
  rw [writeFile_uncompressed_eq b z hc hv hf.wkt]
  refine ⟨rfl, ?_, hstuck⟩
  unfold readFile
  simp only [List.append_assoc, read_hdr hf, Res.ok_bind]
  rw [if_neg (by simp [hdr, hc])]
  rw [hdr_total hf, hdr_extra hf, readUncompressedPoints, hstuck]
  rfl

/-- A file with one point and 124 extra fields. -/
def hangFile : SpocFile :=
  { major := majorVersion, minor := minorVersion, wkt := [], compressed := false
    prs := [{ extra := List.replicate 124 0 }] }

theorem hangFile_writable : Writable hangFile where
  major := rfl
  minor := rfl
  wkt := by decide
  uniform := by intro p hp q hq; simp [hangFile] at hp hq; rw [hp, hq]
  extra := by intro q hq; simp [hangFile] at hq; rw [hq]; simp
  count := by decide

example : Writable hangFile ∧ hangFile.prs ≠ [] ∧ ∀ q ∈ hangFile.prs, 124 ≤ q.extra.length :=
  ⟨hangFile_writable, by decide, by intro q hq; simp [hangFile] at hq; rw [hq]; simp⟩

/-! ## C02 -/

theorem read_compressed_canon (b : Build) {z : Zlib} (hz : z.Correct) (f : SpocFile) (hf : Writable f)
    (hc : f.compressed = true) (hfit : FitsZlib z f.prs.length) :
    (writeFile b z f).res = .ok () ∧
    ∀ tl, readFile b z { rest := (writeFile b z f).bytes ++ tl } =
      .ok ({ f with prs := f.prs.map (canonRecord f.prs) }, { rest := tl }) := by
  have hv := (uniform_iff f).mp hf.uniform
  have hrec := (isValid_iff f).mp hv
  rw [writeFile_compressed_eq b hz hc hv hf.wkt hfit.1]
  refine ⟨rfl, fun tl => ?_⟩
  unfold readFile
  simp only [List.append_assoc, read_hdr hf, Res.ok_bind]
  rw [if_pos (by simp [hdr, hc])]
  rw [hdr_total hf, hdr_extra hf, readCompressedPoints_eq hz f.extraFields f.prs hrec hfit tl]
  have hv' : allSameSizeExtra (f.prs.map (canonRecord f.prs)) = true := by
    apply allSame_of _ (n := f.extraFields)
    intro q hq
    simp only [List.mem_map] at hq
    obtain ⟨q', hq', rfl⟩ := hq
    exact hrec q' hq'
  simp only [Res.ok_bind, SpocFile.new', SpocFile.new, hv', Bool.not_true, Bool.false_eq_true,
    if_false]
  obtain ⟨ma, mi, w, c, p⟩ := f
  have h1 := hf.major; have h2 := hf.minor
  simp only at h1 h2 hc
  subst h1 h2 hc
  simp [hdr]

/-- **C02** (partial: no coordinate column may consist of zeros only with a negative zero among
them; without that condition the property is false, see `c02_negative_zero_lost`).
Writing a compressed file and reading it back gives exactly the file. -/
theorem c02_compressed_roundtrip_partial (b : Build) (z : Zlib) (hz : z.Correct) (f : SpocFile)
    (hf : Writable f) (hc : f.compressed = true) (hfit : FitsZlib z f.prs.length)
    (h0 : NoHiddenNegZero f.prs) :
    (writeFile b z f).res = .ok () ∧
    ∀ tl, readFile b z { rest := (writeFile b z f).bytes ++ tl } = .ok (f, { rest := tl }) := by
  have := read_compressed_canon b hz f hf hc hfit
  refine ⟨this.1, fun tl => ?_⟩
  rw [this.2 tl]
  have hcanon : ∀ q ∈ f.prs, canonRecord f.prs q = q := by
    intro q hq
    have key : ∀ g : PointRecord → F64, g = PointRecord.x ∨ g = PointRecord.y ∨ g = PointRecord.z →
        (if zeroCol f.prs g then F64.zero else g q) = g q := by
      intro g hg
      by_cases hz : zeroCol f.prs g = true
      · rw [if_pos hz, h0 g hg ((onlyZeros_iff _ _).mpr hz) q hq]
      · rw [if_neg hz]
    unfold canonRecord
    rw [key PointRecord.x (.inl rfl), key PointRecord.y (.inr (.inl rfl)),
      key PointRecord.z (.inr (.inr rfl))]
  have : f.prs.map (canonRecord f.prs) = f.prs := by
    conv_rhs => rw [← List.map_id f.prs]
    exact List.map_congr_left hcanon
  rw [this]

example : toyZlib.Correct ∧ Writable { exampleFile with compressed := true } ∧
    FitsZlib toyZlib exampleFile.prs.length ∧ NoHiddenNegZero
      [({ x := F64.one, y := F64.negZero } : PointRecord), { y := F64.one }] := by
  refine ⟨toyZlib_correct, ⟨rfl, rfl, by decide, exampleFile_writable.uniform,
    exampleFile_writable.extra, by decide⟩, toyZlib_fits (by decide), ?_⟩
  intro g hg h
  rcases hg with rfl | rfl | rfl
  · have := h { x := F64.one, y := F64.negZero } (by simp)
    simp only at this
    revert this; decide
  · have := h { y := F64.one } (by simp)
    simp only at this
    revert this; decide
  · decide

/-- **C02, without condition on zeros**: the file that comes back has the same WKT, flag and
number of records, and every record agrees except possibly for the sign of zero coordinates. -/
theorem c02_compressed_roundtrip_values (b : Build) (z : Zlib) (hz : z.Correct) (f : SpocFile)
    (hf : Writable f) (hc : f.compressed = true) (hfit : FitsZlib z f.prs.length) (tl : Bytes) :
    ∃ f', readFile b z { rest := (writeFile b z f).bytes ++ tl } = .ok (f', { rest := tl }) ∧
      f'.wkt = f.wkt ∧ f'.compressed = f.compressed ∧
      List.Forall₂ SameUpToSignOfZero f.prs f'.prs := by
  refine ⟨_, (read_compressed_canon b hz f hf hc hfit).2 tl, rfl, rfl, ?_⟩
  simp only
  rw [List.forall₂_map_right_iff, List.forall₂_same]
  intro q hq
  refine ⟨?_, rfl, rfl, rfl, rfl, rfl, rfl, rfl⟩
  have key : ∀ g : PointRecord → F64,
      g q = (if zeroCol f.prs g then F64.zero else g q) ∨ ((g q = F64.zero ∨ g q = F64.negZero) ∧
        ((if zeroCol f.prs g then F64.zero else g q) = F64.zero ∨
         (if zeroCol f.prs g then F64.zero else g q) = F64.negZero)) := by
    intro g
    by_cases hz : zeroCol f.prs g = true
    · rw [if_pos hz]
      exact .inr ⟨(onlyZeros_iff _ _).mpr hz q hq, .inl rfl⟩
    · rw [if_neg hz]; exact .inl rfl
  intro g hg
  rcases hg with rfl | rfl | rfl
  · exact key PointRecord.x
  · exact key PointRecord.y
  · exact key PointRecord.z

/-- **C02, negation.**  With any zlib, a compressed file with one point at x = -0.0 comes back
with x = +0.0. -/
theorem c02_negative_zero_lost (b : Build) (z : Zlib) (hz : z.Correct) (hfit : FitsZlib z 1) :
    ∃ f : SpocFile, Writable f ∧ f.compressed = true ∧ f.prs.length = 1 ∧
      ∀ tl, ∃ f', readFile b z { rest := (writeFile b z f).bytes ++ tl } = .ok (f', { rest := tl }) ∧
        f' ≠ f := by
  let f : SpocFile := { major := majorVersion, minor := minorVersion, wkt := [], compressed := true,
                        prs := [{ x := F64.negZero }] }
  have hf : Writable f := ⟨rfl, rfl, by decide, by unfold Uniform; decide, by decide, by decide⟩
  refine ⟨f, hf, rfl, rfl, fun tl => ⟨_, (read_compressed_canon b hz f hf rfl hfit).2 tl, ?_⟩⟩
  decide

example : toyZlib.Correct ∧ FitsZlib toyZlib 1 := ⟨toyZlib_correct, toyZlib_fits (by decide)⟩

/-! ## C04 -/

/-- **C04.**  A header with the current version is read back unchanged, and exactly its bytes are
consumed. -/
theorem c04_header_roundtrip (h : Header) (hs : h.signature = [0x53, 0x50, 0x4F, 0x43])
    (h1 : h.major = majorVersion) (h2 : h.minor = minorVersion) (hw : h.wkt.length ≤ 65535) :
    h.write.res = .ok () ∧
    ∀ tl, Header.read { rest := h.write.bytes ++ tl } = .ok (h, { rest := tl }) := by
  have hsig : h.checkSignature = true := by rw [Header.checkSignature_iff, hs]; rfl
  rw [Header.write_ok hsig]
  exact ⟨rfl, fun tl => Header.read_bytes hs h1 h2 hw tl⟩

example : ∃ h : Header, h.signature = [0x53, 0x50, 0x4F, 0x43] ∧ h.major = majorVersion ∧
    h.minor = minorVersion ∧ h.wkt.length ≤ 65535 ∧ h.extraFields = 200 ∧ h.compressed = 7 :=
  ⟨{ signature := [0x53, 0x50, 0x4F, 0x43], major := majorVersion, minor := minorVersion,
     wkt := [1, 2, 3], extraFields := 200, totalPoints := 18446744073709551615, compressed := 7 },
    rfl, rfl, rfl, by decide, rfl, rfl⟩

/-- **C04**, converse direction: what the constructor accepts is written. -/
theorem c04_constructed_header_roundtrip (wkt : Bytes) (ef : UInt8) (n : UInt64) (c : Bool)
    (h : Header) (hh : Header.new majorVersion minorVersion wkt ef n c = .ok h) (tl : Bytes) :
    h.write.res = .ok () ∧
      Header.read { rest := h.write.bytes ++ tl } = .ok (h, { rest := tl }) ∧
      h.wkt = wkt ∧ h.extraFields = ef ∧ h.totalPoints = n ∧ (h.compressed ≠ 0 ↔ c = true) := by
  unfold Header.new at hh
  split at hh
  · simp at hh
  · rename_i hw
    simp only [Res.ok.injEq] at hh
    subst hh
    have := c04_header_roundtrip
      { signature := Header.sig, major := majorVersion, minor := minorVersion, wkt,
        extraFields := ef, totalPoints := n, compressed := if c then 1 else 0 } rfl rfl rfl
      (by simp only; omega)
    exact ⟨this.1, this.2 tl, rfl, rfl, rfl, by cases c <;> simp⟩

example : ∃ h, Header.new majorVersion minorVersion [65] 3 5 true = .ok h := ⟨_, rfl⟩

/-! ## C05 -/

/-- **C05** (partial: files, and headers made by the constructor; a header whose WKT is assigned
afterwards is written with a truncated length, see `c05_header_truncated`).
No file writer emits a byte for a file whose WKT is too long, and it throws; the header
constructor throws exactly for such a WKT. -/
theorem c05_long_wkt_refused_partial (b : Build) (z : Zlib) (f : SpocFile)
    (hw : 65535 < f.wkt.length) :
    (∃ e, writeFile b z f = ⟨[], .throw e⟩) ∧
    (Uniform f.prs → ∃ e, writeFileUncompressed b f = ⟨[], .throw e⟩) ∧
    (Uniform f.prs → ∃ e, writeFileCompressed b z f = ⟨[], .throw e⟩) ∧
    (∀ ma mi ef n c, ∃ e, Header.new ma mi f.wkt ef n c = .throw e) := by
  refine ⟨?_, ?_, ?_, ?_⟩
  · unfold writeFile
    rw [getHeader_throw hw]
    exact ⟨_, rfl⟩
  · intro hu
    have hv := (uniform_iff f).mp hu
    unfold writeFileUncompressed
    simp only [hv, require_true, Out.lift_ok_bind, getHeader_throw hw]
    split
    · exact ⟨_, rfl⟩
    · exact ⟨_, rfl⟩
  · intro hu
    have hv := (uniform_iff f).mp hu
    have hrec := (isValid_iff f).mp hv
    unfold writeFileCompressed
    simp only [hv, require_true, Out.lift_ok_bind]
    split
    · exact ⟨_, rfl⟩
    · have he : (List.range f.extraFields).mapM (extraColumn f.prs) =
          .ok (extraCols f.extraFields f.prs) :=
        mapM_ok _ _ _ (fun j hj => extraColumn_eq hrec (by simpa using hj))
      have hcf : ∀ t x, ∃ bs, compressField z t x = .ok bs := by
        intro t x
        unfold compressField
        split
        · exact ⟨_, rfl⟩
        · exact ⟨_, Compression.drain_eq Compression.bufferSize_pos _ _ _ (by omega)⟩
      obtain ⟨es, hes, -⟩ := mapM_exists (compressField z elemU64) (fun _ => True)
        (extraCols f.extraFields f.prs) (fun x _ => by
          obtain ⟨v, hv⟩ := hcf elemU64 x; exact ⟨v, hv, trivial⟩)
      choose cf hcf using hcf
      simp only [he, hcf, hes, Out.lift_ok_bind, getHeader_throw hw, Out.lift_throw_bind]
      exact ⟨_, rfl⟩
  · intro ma mi ef n c
    unfold Header.new
    rw [if_pos (by omega)]
    exact ⟨_, rfl⟩

example : 65535 < ({ exampleFile with wkt := List.replicate 70000 65 } : SpocFile).wkt.length :=
  lt_of_lt_of_eq (by decide) (List.length_replicate (n := 70000) (a := (65 : UInt8))).symm

/-- **C05, negation.**  A header object with any WKT longer than 65535 bytes is written without
complaint, but the length field holds the length modulo 65536 and the header never reads back. -/
theorem c05_header_truncated (h : Header) (hs : h.signature = [0x53, 0x50, 0x4F, 0x43])
    (hw : 65535 < h.wkt.length) :
    h.write.res = .ok () ∧
    ofLe ((h.write.bytes.drop 6).take 2) = h.wkt.length % 65536 ∧
    ∀ tl h' s', Header.read { rest := h.write.bytes ++ tl } = .ok (h', s') → h'.wkt ≠ h.wkt := by
  have hsig : h.checkSignature = true := by rw [Header.checkSignature_iff, hs]; rfl
  rw [Header.write_ok hsig]
  refine ⟨rfl, ?_, ?_⟩
  · simp only [Header.bytes, hs]
    have e : (([0x53, 0x50, 0x4F, 0x43] : Bytes).take 4 ++ (leBytes 1 h.major.toNat ++
        (leBytes 1 h.minor.toNat ++ (leBytes 2 h.wkt.length ++ (h.wkt ++
        (leBytes 1 h.extraFields.toNat ++ (leBytes 8 h.totalPoints.toNat ++
        leBytes 1 h.compressed.toNat))))))) =
        (([0x53, 0x50, 0x4F, 0x43] : Bytes) ++ leBytes 1 h.major.toNat ++ leBytes 1 h.minor.toNat) ++
        (leBytes 2 h.wkt.length ++ (h.wkt ++
        (leBytes 1 h.extraFields.toNat ++ (leBytes 8 h.totalPoints.toNat ++
        leBytes 1 h.compressed.toNat)))) := by simp
    rw [e, List.drop_left' (by simp), List.take_left' (by simp), ofLe_leBytes]
    norm_num
  · intro tl h' s' hr heq
    rcases Header.read_general { rest := h.bytes ++ tl } with ⟨h2, s2, h3, h4, _⟩ | ⟨e, he⟩
    · simp only at hr
      rw [h3] at hr
      simp only [Res.ok.injEq, Prod.mk.injEq] at hr
      rw [hr.1, heq] at h4
      omega
    · simp only at hr
      rw [he] at hr
      simp at hr

example : 65535 < ({ Header.default with wkt := List.replicate 65536 65 } : Header).wkt.length :=
  lt_of_lt_of_eq (by decide) (List.length_replicate (n := 65536) (a := (65 : UInt8))).symm

/-! ## C06 -/

/-- Writing a list of files to one stream. -/
def writeAll (b : Build) (z : Zlib) : List SpocFile → Bytes
  | [] => []
  | f :: fs => (writeFile b z f).bytes ++ writeAll b z fs

/-- Reading `n` files from one stream. -/
def readAll (b : Build) (z : Zlib) : Nat → IStream → Res (List SpocFile × IStream)
  | 0, s => .ok ([], s)
  | n + 1, s => do
    let (f, s) ← readFile b z s
    let (fs, s) ← readAll b z n s
    .ok (f :: fs, s)

/-- A file that survives writing and reading. -/
def Survives (z : Zlib) (f : SpocFile) : Prop :=
  Writable f ∧ (f.compressed = false → ∀ q ∈ f.prs, q.extra.length ≤ 123) ∧
    (f.compressed = true → FitsZlib z f.prs.length ∧ NoHiddenNegZero f.prs)

/-- C01 and C02 together. -/
theorem survives_roundtrip (b : Build) (z : Zlib) (hz : z.Correct) (f : SpocFile)
    (hf : Survives z f) :
    (writeFile b z f).res = .ok () ∧
    ∀ tl, readFile b z { rest := (writeFile b z f).bytes ++ tl } = .ok (f, { rest := tl }) := by
  cases hc : f.compressed with
  | false => exact c01_uncompressed_roundtrip_partial b z f hf.1 hc (hf.2.1 hc)
  | true => exact c02_compressed_roundtrip_partial b z hz f hf.1 hc (hf.2.2 hc).1 (hf.2.2 hc).2

/-- **C06** (partial in the same way as C01 and C02: it is about the files that survive a
round trip).  Files written one after another are read back one after another. -/
theorem c06_concatenated_files_partial (b : Build) (z : Zlib) (hz : z.Correct) (fs : List SpocFile)
    (hfs : ∀ f ∈ fs, Survives z f) (tl : Bytes) :
    readAll b z fs.length { rest := writeAll b z fs ++ tl } = .ok (fs, { rest := tl }) := by
  induction fs with
  | nil => rfl
  | cons f fs ih =>
    simp only [List.length_cons, readAll, writeAll, List.append_assoc]
    rw [(survives_roundtrip b z hz f (hfs f (by simp))).2]
    simp only [Res.ok_bind, ih (fun g hg => hfs g (by simp [hg]))]

example : Survives toyZlib exampleFile ∧
    Survives toyZlib { exampleFile with compressed := true, prs := [] } := by
  refine ⟨⟨exampleFile_writable, fun _ => by decide, fun h => by simp [exampleFile] at h⟩,
    ⟨⟨rfl, rfl, by decide, ?_, ?_, by decide⟩, by decide, fun _ => ⟨toyZlib_fits (by decide), ?_⟩⟩⟩
  · intro p hp; simp at hp
  · intro p hp; simp at hp
  · intro g _ _ p hp; simp at hp

/-! ## C07 -/

/-- **C07** (partial).  The full property (a truncated file raises an exception) is false, see
`c07_truncation_unnoticed`.  What holds: as long as the cut is behind the header, the reader
returns the announced number of records, and all the records that are completely contained in the
truncated stream are returned correctly.  Missing: detection of the truncation. -/
theorem c07_truncated_prefix_partial (b : Build) (z : Zlib) (f : SpocFile) (hf : Writable f)
    (hc : f.compressed = false) (hextra : ∀ q ∈ f.prs, q.extra.length ≤ 123)
    (k : Nat) (hk : k ≤ f.prs.length) (pre : Bytes) (hpre : pre <+: (writeFile b z f).bytes)
    (hlen : (writeFile b z { f with prs := f.prs.take k }).bytes.length ≤ pre.length) :
    ∃ f' s', readFile b z { rest := pre } = .ok (f', s') ∧ f'.prs.length = f.prs.length ∧
      f'.wkt = f.wkt ∧ f'.prs.take k = f.prs.take k := by
  have hv := (uniform_iff f).mp hf.uniform
  have hrec := (isValid_iff f).mp hv
  have hvk : ({ f with prs := f.prs.take k } : SpocFile).isValid = true :=
    allSame_of _ (n := f.extraFields) (fun q hq => hrec q (List.mem_of_mem_take hq))
  rw [writeFile_uncompressed_eq b z hc hv hf.wkt] at hpre
  rw [writeFile_uncompressed_eq b z (f := { f with prs := f.prs.take k }) hc hvk hf.wkt] at hlen
  simp only at hpre hlen
  have hhl : (hdr { f with prs := f.prs.take k }).bytes.length = (hdr f).bytes.length := by
    simp [hdr, Header.bytes]
  rw [List.length_append, hhl] at hlen
  obtain ⟨rest, hrest⟩ := hpre
  -- the truncated stream is the header, the first `k` records and something
  have hsplit : f.prs.flatMap PointRecord.bytes =
      (f.prs.take k).flatMap PointRecord.bytes ++ (f.prs.drop k).flatMap PointRecord.bytes := by
    rw [← List.flatMap_append, List.take_append_drop]
  have hp : ∃ junk, pre = (hdr f).bytes ++ ((f.prs.take k).flatMap PointRecord.bytes ++ junk) := by
    refine ⟨pre.drop ((hdr f).bytes.length + ((f.prs.take k).flatMap PointRecord.bytes).length), ?_⟩
    have h1 : pre.take ((hdr f).bytes.length + ((f.prs.take k).flatMap PointRecord.bytes).length) =
        (hdr f).bytes ++ (f.prs.take k).flatMap PointRecord.bytes := by
      have h2 := congrArg (List.take ((hdr f).bytes.length +
        ((f.prs.take k).flatMap PointRecord.bytes).length)) hrest
      rw [List.take_append_of_le_length hlen, hsplit, ← List.append_assoc,
        List.take_left' (by simp)] at h2
      exact h2
    conv_lhs => rw [← List.take_append_drop ((hdr f).bytes.length +
      ((f.prs.take k).flatMap PointRecord.bytes).length) pre, h1]
    simp [List.append_assoc]
  obtain ⟨junk, rfl⟩ := hp
  unfold readFile
  rw [read_hdr hf]
  simp only [Res.ok_bind]
  rw [if_neg (by simp [hdr, hc])]
  rw [hdr_total hf, hdr_extra hf]
  obtain ⟨p', s', h1, h2, h3, h4⟩ := readLoop_prefix b f.extraFields f.prs.length
    (recordsPerBuffer_pos (extraFields_le hextra)) junk (f.prs.length + 1) (f.prs.take k)
    (List.replicate bufferSize 0) (List.replicate f.prs.length (PointRecord.blank f.extraFields)) 0
    (by simp) (by simp)
    (by intro q hq; rw [List.eq_of_mem_replicate hq]; simp [PointRecord.blank])
    (fun q hq => hrec q (List.mem_of_mem_take hq)) (by simp) (by omega) (by omega)
  rw [readUncompressedPoints, h1]
  have hv' := allSame_of p' h3
  simp only [Res.ok_bind, SpocFile.new', SpocFile.new, hv', Bool.not_true, Bool.false_eq_true,
    if_false]
  refine ⟨_, _, rfl, h2, rfl, ?_⟩
  have hmin : min k f.prs.length = k := by omega
  simpa [hmin] using h4

example : (writeFile .release toyZlib exampleFile).bytes.dropLast <+:
    (writeFile .release toyZlib exampleFile).bytes ∧
    (writeFile .release toyZlib { exampleFile with prs := exampleFile.prs.take 1 }).bytes.length ≤
    (writeFile .release toyZlib exampleFile).bytes.dropLast.length :=
  ⟨List.dropLast_prefix _, by decide +kernel⟩

/-- The compression library plays no role for uncompressed files. -/
theorem readFile_uncompressed_indep (b : Build) (z z' : Zlib) (s : IStream)
    (h : (match Header.read s with | .ok (h, _) => h.compressed == 0 | _ => true) = true) :
    readFile b z s = readFile b z' s := by
  unfold readFile
  cases hr : Header.read s with
  | ok a =>
    obtain ⟨h', s1⟩ := a
    rw [hr] at h
    simp only [beq_iff_eq] at h
    have hne : ¬ h'.compressed ≠ 0 := by simp [h]
    simp only [Res.ok_bind, if_neg hne]
  | throw e => simp only [Res.throw_bind]
  | ub e => simp only [Res.ub_bind]
  | abort => simp only [Res.abort_bind]
  | hang => simp only [Res.hang_bind]

/-- **C07, negation.**  A file with two points, cut in the middle of the second one, is read without
complaint, and the second point was never in the file; the empty stream reads as an empty file. -/
theorem c07_truncation_unnoticed (b : Build) (z : Zlib) :
    (∃ f : SpocFile, Writable f ∧ f.compressed = false ∧
      ∃ pre, pre <+: (writeFile b z f).bytes ∧ pre ≠ (writeFile b z f).bytes ∧
      ∃ f' s', readFile b z { rest := pre } = .ok (f', s') ∧ ∃ q ∈ f'.prs, q ∉ f.prs) ∧
    readFile b z { rest := [] } = .ok (SpocFile.empty, { rest := [], good := false }) := by
  constructor
  · let f : SpocFile := { major := majorVersion, minor := minorVersion, wkt := [], compressed := false,
                          prs := [{ x := F64.one }, { y := F64.one }] }
    have hf : Writable f := ⟨rfl, rfl, by decide, by unfold Uniform; decide, by decide, by decide⟩
    have hw : writeFile b z f = ⟨(hdr f).bytes ++ f.prs.flatMap PointRecord.bytes, .ok ()⟩ :=
      writeFile_uncompressed_eq b z rfl (by decide) (by decide)
    refine ⟨f, hf, rfl, ((hdr f).bytes ++ f.prs.flatMap PointRecord.bytes).take 60, ?_, ?_, ?_⟩
    · rw [hw]; exact List.take_prefix _ _
    · rw [hw]
      intro h
      have := congrArg List.length h
      revert this
      decide
    · refine ⟨{ f with prs := [{ x := F64.one }, {}] }, { rest := [], good := false }, ?_,
        {}, by simp, by decide⟩
      have hind := readFile_uncompressed_indep b z toyZlib
        { rest := ((hdr f).bytes ++ f.prs.flatMap PointRecord.bytes).take 60 }
        (by decide +kernel)
      rw [hind]
      cases b <;> decide +kernel
  · cases b <;> rfl

/-! ## C08 -/

/-- **C08.**  On any stream of at least six bytes, the header is accepted exactly if the stream
starts with the signature and the current version, and otherwise every reader throws. -/
theorem c08_foreign_rejected (b : Build) (z : Zlib) (bs : Bytes) (hlen : 6 ≤ bs.length) :
    (bs.take 6 ≠ [0x53, 0x50, 0x4F, 0x43, majorVersion, minorVersion] →
      (∃ e, Header.read { rest := bs } = .throw e) ∧
      (∃ e, readFile b z { rest := bs } = .throw e) ∧
      (∃ e, readFileUncompressed b { rest := bs } = .throw e) ∧
      (∃ e, readFileCompressed z { rest := bs } = .throw e)) ∧
    (bs.take 6 = [0x53, 0x50, 0x4F, 0x43, majorVersion, minorVersion] →
      ∃ h s', Header.read { rest := bs } = .ok (h, s')) := by
  obtain ⟨b0, b1, b2, b3, b4, b5, tl, rfl⟩ : ∃ b0 b1 b2 b3 b4 b5 tl,
      bs = b0 :: b1 :: b2 :: b3 :: b4 :: b5 :: tl := by
    match bs, hlen with
    | b0 :: b1 :: b2 :: b3 :: b4 :: b5 :: tl, _ => exact ⟨b0, b1, b2, b3, b4, b5, tl, rfl⟩
  have e1 : IStream.readInto { rest := b0 :: b1 :: b2 :: b3 :: b4 :: b5 :: tl }
      Header.default.signature = ([b0, b1, b2, b3], { rest := b4 :: b5 :: tl }) :=
    IStream.readInto_append (old := Header.default.signature) (xs := [b0, b1, b2, b3]) rfl
  have e2 : IStream.readUInt { rest := b4 :: b5 :: tl } 1 Header.default.major.toNat =
      (b4.toNat, { rest := b5 :: tl }) := by
    simp [IStream.readUInt, IStream.readInto, IStream.read, overlay, ofLe, leBytes]
  have e3 : IStream.readUInt { rest := b5 :: tl } 1 Header.default.minor.toNat =
      (b5.toNat, { rest := tl }) := by
    simp [IStream.readUInt, IStream.readInto, IStream.read, overlay, ofLe, leBytes]
  have hthrow : (b0 :: b1 :: b2 :: b3 :: b4 :: b5 :: tl).take 6 ≠
      [0x53, 0x50, 0x4F, 0x43, majorVersion, minorVersion] →
      ∃ e, Header.read { rest := b0 :: b1 :: b2 :: b3 :: b4 :: b5 :: tl } = .throw e := by
    intro hne
    unfold Header.read
    simp only [e1, e2, e3, UInt8.ofNat_toNat]
    split
    · exact ⟨_, rfl⟩
    · rename_i hs
      split
      · exact ⟨_, rfl⟩
      · rename_i h4
        split
        · exact ⟨_, rfl⟩
        · rename_i h5
          exfalso
          apply hne
          have hs' : Header.checkSignature { Header.default with signature := [b0, b1, b2, b3] } =
            true := by simpa using hs
          rw [Header.checkSignature_iff] at hs'
          simp only [List.take_succ_cons, List.take_zero, Header.sig, List.cons.injEq,
            and_true] at hs'
          simp only [not_not] at h4 h5
          simp [hs', h4, h5]
  refine ⟨fun hne => ?_, fun heq => ?_⟩
  · obtain ⟨e, he⟩ := hthrow hne
    exact ⟨⟨e, he⟩, ⟨e, by simp [readFile, he]⟩, ⟨e, by simp [readFileUncompressed, he]⟩,
      ⟨e, by simp [readFileCompressed, he]⟩⟩
  · simp only [List.take_succ_cons, List.take_zero, List.cons.injEq, and_true] at heq
    obtain ⟨rfl, rfl, rfl, rfl, rfl, rfl⟩ := heq
    unfold Header.read
    simp only [e1, e2, e3, UInt8.ofNat_toNat]
    have hsig : Header.checkSignature { Header.default with signature := [0x53, 0x50, 0x4F, 0x43] } =
      true := by decide
    simp only [hsig, Bool.not_true, Bool.false_eq_true, if_false, ne_eq, not_true]
    exact ⟨_, _, rfl⟩

example : 6 ≤ ([0x53, 0x50, 0x4F, 0x43, 0, 2, 9] : Bytes).length ∧
    ([0x53, 0x50, 0x4F, 0x43, 0, 2, 9] : Bytes).take 6 ≠
      [0x53, 0x50, 0x4F, 0x43, majorVersion, minorVersion] := by decide

/-- C08: the two writers refuse each other's files without writing anything, in either build. -/
theorem c08_wrong_writer (b : Build) (z : Zlib) (f : SpocFile) :
    (f.compressed = true → (writeFileUncompressed b f).bytes = [] ∧ ∃ e, (writeFileUncompressed b f).res = .throw e) ∧
    (f.compressed = false → (writeFileCompressed b z f).bytes = [] ∧ ∃ e, (writeFileCompressed b z f).res = .throw e) := by
  constructor <;> intro h
  · unfold writeFileUncompressed
    rw [h]
    cases b <;> simp only [require]
    · cases f.isValid
      · exact ⟨rfl, _, rfl⟩
      · exact ⟨rfl, _, rfl⟩
    · exact ⟨rfl, _, rfl⟩
  · unfold writeFileCompressed
    rw [h]
    cases b <;> simp only [require]
    · cases f.isValid
      · exact ⟨rfl, _, rfl⟩
      · exact ⟨rfl, _, rfl⟩
    · exact ⟨rfl, _, rfl⟩

example : ({ SpocFile.empty with compressed := true, prs := [{}] } : SpocFile).compressed = true := rfl

/-! ## C09 -/

/-- **C09.**  Whatever the bytes, reading never accesses memory outside of its buffers and never
fails an assertion, and a file that is returned has exactly the number of points and extra fields
that the header announces. -/
theorem c09_reader_safe (b : Build) (z : Zlib) (s : IStream) :
    (∀ w, readFile b z s ≠ .ub w) ∧ readFile b z s ≠ .abort ∧
    ∀ f s', readFile b z s = .ok (f, s') →
      ∃ h s1, Header.read s = .ok (h, s1) ∧ f.prs.length = h.totalPoints.toNat ∧
        (∀ q ∈ f.prs, q.extra.length = h.extraFields.toNat) ∧ f.wkt = h.wkt ∧
        (f.compressed = true ↔ h.compressed ≠ 0) := by
  unfold readFile
  rcases Header.read_general s with ⟨h, s1, h1, -⟩ | ⟨e, he⟩
  case inr => rw [he]; simp
  rw [h1]
  simp only [Res.ok_bind]
  have fin : ∀ (p : List PointRecord) (s2 : IStream), p.length = h.totalPoints.toNat →
      (∀ q ∈ p, q.extra.length = h.extraFields.toNat) →
      ∀ r : Res (SpocFile × IStream), r = (SpocFile.new' h.wkt (decide (h.compressed ≠ 0)) p >>=
        fun f => Res.ok (f, s2)) →
      (∀ w, r ≠ .ub w) ∧ r ≠ .abort ∧ ∀ f s', r = .ok (f, s') →
      ∃ h' s1', Res.ok (h, s1) = .ok (h', s1') ∧ f.prs.length = h'.totalPoints.toNat ∧
        (∀ q ∈ f.prs, q.extra.length = h'.extraFields.toNat) ∧ f.wkt = h'.wkt ∧
        (f.compressed = true ↔ h'.compressed ≠ 0) := by
    intro p s2 hl hq r hr
    subst hr
    have hv := allSame_of p hq
    simp only [SpocFile.new', SpocFile.new, hv, Bool.not_true, Bool.false_eq_true, if_false,
      Res.ok_bind]
    refine ⟨by simp, by simp, ?_⟩
    intro f s' hfs
    simp only [Res.ok.injEq, Prod.mk.injEq] at hfs
    obtain ⟨rfl, rfl⟩ := hfs
    exact ⟨h, s1, rfl, hl, hq, rfl, by simp⟩
  by_cases hc : h.compressed ≠ 0
  · rw [if_pos hc]
    rcases readCompressedPoints_general z s1 h.totalPoints.toNat h.extraFields.toNat with
      ⟨p, s2, h2, hl, hq⟩ | ⟨e, he⟩
    · rw [h2]
      exact fin p s2 hl hq _ rfl
    · rw [he]; simp
  · rw [if_neg hc]
    by_cases hef : 0 < recordsPerBuffer h.extraFields.toNat
    · obtain ⟨p, s2, h2, hl, hq⟩ := readUncompressedPoints_general b s1 h.totalPoints.toNat
        h.extraFields.toNat hef
      rw [h2]
      exact fin p s2 hl hq _ rfl
    · by_cases h0 : h.totalPoints.toNat = 0
      · rw [h0, readUncompressedPoints_zero]
        exact fin [] s1 (by simp [h0]) (by simp) _ rfl
      · rw [readUncompressedPoints, readLoop_stuck b _ _ (by omega) _ _ _ _ _ (by simp; omega)
          (by omega)]
        simp

example : (readFile .debug toyZlib
    { rest := [0x53, 0x50, 0x4F, 0x43, 0, 1, 0, 0, 2, 1] }).isOk = true := by decide +kernel

/-! ## C10 -/

/-- **C10** (partial: input and compressed stream below 4 GiB; above, zlib's 32-bit byte counter
wraps, see `c10_4gib_lost`).  Compression followed by decompression is the identity. -/
theorem c10_compress_roundtrip_partial (z : Zlib) (hz : z.Correct) (bs : Bytes)
    (h1 : bs.length < 2 ^ 32) (h2 : (z.deflate bs).length < 2 ^ 32) :
    ∃ cs, Compression.compress z bs = .ok cs ∧ cs = z.deflate bs ∧
      Compression.decompress z cs = .ok bs ∧
      Compression.decompressTo z cs bs.length = .ok bs := by
  refine ⟨_, Compression.compress_eq z h1, rfl, Compression.decompress_deflate hz h2, ?_⟩
  simp [Compression.decompressTo, Compression.decompress_deflate hz h2]

example : toyZlib.Correct ∧ ([1, 2, 3] : Bytes).length < 2 ^ 32 ∧
    (toyZlib.deflate [1, 2, 3]).length < 2 ^ 32 := ⟨toyZlib_correct, by decide, by decide⟩

/-- The chunk loop delivers every pending byte, for every size of the buffer and every length,
in particular multiples of the buffer size. -/
theorem c10_chunk_loop (buf : Nat) (hb : 0 < buf) (pending : Bytes) :
    Compression.drain buf (pending.length + 1) pending [] = .ok pending := by
  rw [Compression.drain_eq hb _ _ _ (by omega), List.nil_append]

example : 0 < Compression.bufferSize := Compression.bufferSize_pos

/-- **C10, negation.**  An input of exactly 4 GiB is compressed to the empty stream. -/
theorem c10_4gib_lost (z : Zlib) (hz : z.Correct) (h0 : (z.deflate []).length < 2 ^ 32) :
    ∃ bs : Bytes, bs.length = 2 ^ 32 ∧ ∃ cs, Compression.compress z bs = .ok cs ∧
      Compression.decompress z cs = .ok [] := by
  refine ⟨List.replicate (2 ^ 32) 0, List.length_replicate, z.deflate [], ?_,
    Compression.decompress_deflate hz h0⟩
  have : (List.replicate (2 ^ 32) (0 : UInt8)).take
      (Compression.availIn (List.replicate (2 ^ 32) (0 : UInt8)).length) = [] := by
    rw [List.length_replicate]
    have : Compression.availIn (2 ^ 32) = 0 := by decide
    rw [this, List.take_zero]
  simp only [Compression.compress, this]
  rw [Compression.drain_eq Compression.bufferSize_pos _ _ _ (by omega), List.nil_append]

example : toyZlib.Correct ∧ (toyZlib.deflate []).length < 2 ^ 32 := ⟨toyZlib_correct, by decide⟩

/-! ## C64 -/

/-- **C64.**  A file read from any uncompressed stream can be written, what is written reads back
as the same file, and writing once more produces the same bytes. -/
theorem c64_rewrite_canonical (b : Build) (z : Zlib) (s s' : IStream) (f : SpocFile)
    (hr : readFile b z s = .ok (f, s')) (hc : f.compressed = false) :
    (writeFile b z f).res = .ok () ∧
    ∀ tl, ∃ f', readFile b z { rest := (writeFile b z f).bytes ++ tl } = .ok (f', { rest := tl }) ∧
      f' = f ∧ (writeFile b z f').bytes = (writeFile b z f).bytes := by
  obtain ⟨h, s1, h1, h2, h3, h4, h5⟩ := (c09_reader_safe b z s).2.2 f s' hr
  have hvers : f.major = majorVersion ∧ f.minor = minorVersion := by
    unfold readFile at hr
    rw [h1] at hr
    have key : ∀ (x : Res (List PointRecord × IStream)),
        (x >>= fun a => SpocFile.new' h.wkt (decide (h.compressed ≠ 0)) a.1 >>=
          fun f => Res.ok (f, a.2)) = .ok (f, s') →
        f.major = majorVersion ∧ f.minor = minorVersion := by
      intro x hx
      rw [Res.bind_eq_ok] at hx
      obtain ⟨⟨p, s2⟩, _, hx⟩ := hx
      simp only [SpocFile.new', SpocFile.new] at hx
      split at hx
      · simp at hx
      · simp only [Res.ok_bind, Res.ok.injEq, Prod.mk.injEq] at hx
        rw [← hx.1]
        exact ⟨rfl, rfl⟩
    simp only [Res.ok_bind] at hr
    split at hr
    · exact key _ hr
    · exact key _ hr
  have hw : h.wkt.length ≤ 0xFFFF := by
    rcases Header.read_general s with ⟨h', s1', e, e2, -⟩ | ⟨e, he⟩
    · rw [h1] at e
      simp only [Res.ok.injEq, Prod.mk.injEq] at e
      rw [e.1]; exact e2
    · rw [h1] at he; simp at he
  have hwr : Writable f :=
    { major := hvers.1
      minor := hvers.2
      wkt := by rw [h4]; exact hw
      uniform := fun p hp q hq => by rw [h3 p hp, h3 q hq]
      extra := fun q hq => by rw [h3 q hq]; have := h.extraFields.toNat_lt; omega
      count := by rw [h2]; exact h.totalPoints.toNat_lt }
  have hext : ∀ q ∈ f.prs, q.extra.length ≤ 123 := by
    intro q hq
    rw [h3 q hq]
    by_contra hgt
    -- the reader would not have returned
    have hpos : 0 < h.totalPoints.toNat := by
      rw [← h2]; exact List.length_pos_iff.mpr (List.ne_nil_of_mem hq)
    unfold readFile at hr
    rw [h1] at hr
    simp only [Res.ok_bind] at hr
    have hc0 : ¬ h.compressed ≠ 0 := by
      intro hne
      have := h5.mpr hne
      rw [hc] at this
      simp at this
    rw [if_neg hc0, readUncompressedPoints,
      readLoop_stuck b _ _ (recordsPerBuffer_zero (by omega)) _ _ _ _ _ (by simpa using hpos) hpos] at hr
    simp at hr
  have := c01_uncompressed_roundtrip_partial b z f hwr hc hext
  exact ⟨this.1, fun tl => ⟨f, this.2 tl, rfl, rfl⟩⟩

example : (match readFile .debug toyZlib { rest := [0x53, 0x50, 0x4F, 0x43, 0, 1, 0, 0, 2, 1] } with
    | .ok (f, _) => f.prs.length == 1 && !f.compressed
    | _ => false) = true := by decide +kernel

end Spoc.Props
