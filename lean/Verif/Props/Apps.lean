import Verif.Proofs.Apps

/-!
# Properties of the compress, decompress and srs applications and of the streaming copy (C03, C62, C63)
-/

namespace Spoc.Props

open Spoc Spec Io

/-! ## C03 -/

theorem compress_eq {b : Build} {z : Zlib} {s s' : IStream} {f : SpocFile}
    (hr : readFile b z s = .ok (f, s')) (hc : f.compressed = false) :
    Apps.compress b z s = writeFile b z { f with compressed := true } := by
  have h := (readFileUncompressed_eq (z := z)).mpr ⟨hr, hc⟩
  unfold Apps.compress
  rw [fileOf_ok h, Out.lift_ok_bind]
  exact writeFile_of_compressed (readable_writable hr).wkt rfl

theorem decompress_eq {b : Build} {z : Zlib} {s s' : IStream} {f : SpocFile}
    (hr : readFile b z s = .ok (f, s')) (hc : f.compressed = true) :
    Apps.decompress b z s = writeFile b z { f with compressed := false } := by
  have h := (readFileCompressed_eq (b := b)).mpr ⟨hr, hc⟩
  unfold Apps.decompress
  rw [fileOf_ok h, Out.lift_ok_bind]
  exact writeFile_of_uncompressed (readable_writable hr).wkt rfl

theorem writable_flag {f : SpocFile} (hf : Writable f) (c : Bool) :
    Writable { f with compressed := c } :=
  ⟨hf.major, hf.minor, hf.wkt, hf.uniform, hf.extra, hf.count⟩

/-- **C03** (partial: a column that consists of zeros only must not contain a negative zero, see
`c03_negative_zero_lost`, and the columns must fit zlib's 32-bit counters).  The compress
application accepts an uncompressed file; the result is a compressed file that differs in
nothing but the flag; decompressing it produces the bytes of the original cloud. -/
theorem c03_compress_decompress_partial (b : Build) (z : Zlib) (hz : z.Correct) (s s' : IStream)
    (f : SpocFile) (hr : readFile b z s = .ok (f, s')) (hc : f.compressed = false)
    (hfit : FitsZlib z f.prs.length) (h0 : NoHiddenNegZero f.prs) :
    (Apps.compress b z s).res = .ok () ∧
    ∀ tl, readFile b z { rest := (Apps.compress b z s).bytes ++ tl } =
        .ok ({ f with compressed := true }, { rest := tl }) ∧
      Apps.decompress b z { rest := (Apps.compress b z s).bytes ++ tl } = writeFile b z f ∧
      (writeFile b z f).res = .ok () ∧
      ∀ tl', readFile b z { rest := (writeFile b z f).bytes ++ tl' } = .ok (f, { rest := tl' }) := by
  have hwr := readable_writable hr
  have h2 := c02_compressed_roundtrip_partial b z hz { f with compressed := true }
    (writable_flag hwr true) rfl hfit h0
  have h64 := c64_rewrite_canonical b z s s' f hr hc
  rw [compress_eq hr hc]
  refine ⟨h2.1, fun tl => ⟨h2.2 tl, ?_, h64.1, fun tl' => ?_⟩⟩
  · rw [decompress_eq (h2.2 tl) rfl, ← hc]
  · obtain ⟨f', h, e, _⟩ := h64.2 tl'
    rw [h, e]

/-- The premises of C03 are met by a stream with two points and an extra field. -/
def c03Stream : IStream := { rest := (writeFile .debug toyZlib exampleFile).bytes }

example : toyZlib.Correct ∧ readFile .debug toyZlib c03Stream = .ok (exampleFile, { rest := [] }) ∧
    exampleFile.compressed = false ∧ FitsZlib toyZlib exampleFile.prs.length := by
  refine ⟨toyZlib_correct, ?_, rfl, toyZlib_fits (by decide)⟩
  have := (c01_uncompressed_roundtrip_partial .debug toyZlib exampleFile exampleFile_writable rfl
    (by decide)).2 []
  rw [List.append_nil] at this
  exact this

/-- **C03**, for every uncompressed file that fits: the cloud comes back up to the sign of zero
coordinates. -/
theorem c03_values (b : Build) (z : Zlib) (hz : z.Correct) (s s' : IStream) (f : SpocFile)
    (hr : readFile b z s = .ok (f, s')) (hc : f.compressed = false)
    (hfit : FitsZlib z f.prs.length) (tl : Bytes) :
    (Apps.compress b z s).res = .ok () ∧
    ∃ f', Apps.decompress b z { rest := (Apps.compress b z s).bytes ++ tl } = writeFile b z f' ∧
      (writeFile b z f').res = .ok () ∧
      f'.wkt = f.wkt ∧ f'.compressed = false ∧ List.Forall₂ SameUpToSignOfZero f.prs f'.prs := by
  have hwr := readable_writable hr
  have h1 := read_compressed_canon b hz { f with compressed := true } (writable_flag hwr true) rfl hfit
  obtain ⟨g, hg, hw, hcomp, hsame⟩ := c02_compressed_roundtrip_values b z hz { f with compressed := true }
    (writable_flag hwr true) rfl hfit tl
  have hgw : Writable g := readable_writable hg
  rw [compress_eq hr hc]
  refine ⟨h1.1, { g with compressed := false }, decompress_eq hg hcomp, ?_, hw, rfl, hsame⟩
  rw [writeFile_uncompressed_eq b z (f := { g with compressed := false }) rfl
    ((uniform_iff _).mp hgw.uniform) hgw.wkt]

/-- **C03**: the compress application accepts exactly the uncompressed files; it writes nothing
when it rejects.  Likewise decompress accepts only compressed files. -/
theorem c03_accepts_uncompressed (b : Build) (z : Zlib) (s : IStream) :
    ((Apps.compress b z s).res = .ok () → ∃ f s', readFile b z s = .ok (f, s') ∧ f.compressed = false) ∧
    ((Apps.decompress b z s).res = .ok () → ∃ f s', readFile b z s = .ok (f, s') ∧ f.compressed = true) ∧
    (∀ f s', readFile b z s = .ok (f, s') → f.compressed = true →
      ∃ e, Apps.compress b z s = ⟨[], .throw e⟩) ∧
    (∀ f s', readFile b z s = .ok (f, s') → f.compressed = false →
      ∃ e, Apps.decompress b z s = ⟨[], .throw e⟩) := by
  have hdr_of : ∀ f s', readFile b z s = .ok (f, s') → ∃ h s1, Header.read s = .ok (h, s1) ∧
      (f.compressed = true ↔ h.compressed ≠ 0) := by
    intro f s' hr
    obtain ⟨h, s1, h1, _, _, _, h5⟩ := (c09_reader_safe b z s).2.2 f s' hr
    exact ⟨h, s1, h1, h5⟩
  refine ⟨?_, ?_, ?_, ?_⟩
  · intro h
    cases hr : readFileUncompressed b s with
    | ok a => exact ⟨a.1, a.2, (readFileUncompressed_eq (z := z)).mp hr⟩
    | throw e => simp [Apps.compress, hr, Apps.fileOf] at h
    | ub e => simp [Apps.compress, hr, Apps.fileOf, Out.lift, Bind.bind, Out.bind, Res.bind] at h
    | abort => simp [Apps.compress, hr, Apps.fileOf, Out.lift, Bind.bind, Out.bind, Res.bind] at h
    | hang => simp [Apps.compress, hr, Apps.fileOf, Out.lift, Bind.bind, Out.bind, Res.bind] at h
  · intro h
    cases hr : readFileCompressed z s with
    | ok a => exact ⟨a.1, a.2, (readFileCompressed_eq (b := b)).mp hr⟩
    | throw e => simp [Apps.decompress, hr, Apps.fileOf] at h
    | ub e => simp [Apps.decompress, hr, Apps.fileOf, Out.lift, Bind.bind, Out.bind, Res.bind] at h
    | abort => simp [Apps.decompress, hr, Apps.fileOf, Out.lift, Bind.bind, Out.bind, Res.bind] at h
    | hang => simp [Apps.decompress, hr, Apps.fileOf, Out.lift, Bind.bind, Out.bind, Res.bind] at h
  · intro f s' hr hc
    obtain ⟨h, s1, h1, h5⟩ := hdr_of f s' hr
    have hne := h5.mp hc
    refine ⟨"Uncompressed reader can't read a compressed file", ?_⟩
    unfold Apps.compress readFileUncompressed
    rw [h1]
    simp [hne, Apps.fileOf]
  · intro f s' hr hc
    obtain ⟨h, s1, h1, h5⟩ := hdr_of f s' hr
    have he : h.compressed = 0 := by
      by_contra hne
      rw [h5.mpr hne] at hc
      simp at hc
    refine ⟨"Compressed reader can't read an uncompressed file", ?_⟩
    unfold Apps.decompress readFileCompressed
    rw [h1]
    simp [he, Apps.fileOf]

example : readFile .debug toyZlib c03Stream = .ok (exampleFile, { rest := [] }) := by
  have := (c01_uncompressed_roundtrip_partial .debug toyZlib exampleFile exampleFile_writable rfl
    (by decide)).2 []
  rw [List.append_nil] at this
  exact this

/-- **C03, negation.**  A cloud whose x coordinates are all zero, one of them negative, does not come
back: the sign is lost, and the files differ bit by bit. -/
theorem c03_negative_zero_lost (b : Build) (z : Zlib) (hz : z.Correct) (hfit : FitsZlib z 1) :
    ∃ (s : IStream) (f : SpocFile), readFile b z s = .ok (f, { rest := [] }) ∧ f.compressed = false ∧
      ∀ tl, ∃ f', Apps.decompress b z { rest := (Apps.compress b z s).bytes ++ tl } = writeFile b z f' ∧
        f' ≠ f := by
  let f : SpocFile := { major := majorVersion, minor := minorVersion, wkt := [], compressed := false,
                        prs := [{ x := F64.negZero }] }
  have hf : Writable f := ⟨rfl, rfl, by decide, by unfold Uniform; decide, by decide, by decide⟩
  have hr := (c01_uncompressed_roundtrip_partial b z f hf rfl (by decide)).2 []
  refine ⟨_, f, hr, rfl, fun tl => ?_⟩
  rw [compress_eq hr rfl]
  have h1 := (read_compressed_canon b hz { f with compressed := true } (writable_flag hf true) rfl hfit).2 tl
  exact ⟨_, decompress_eq h1 rfl, by decide⟩

example : toyZlib.Correct ∧ FitsZlib toyZlib 1 := ⟨toyZlib_correct, toyZlib_fits (by decide)⟩

/-! ## C62 -/

/-- **C62** (partial for compressed files: the assumptions of C02 on zlib's counters and on hidden
negative zeros; nothing is assumed for uncompressed files).  The srs application writes a file
that differs in nothing but the WKT. -/
theorem c62_set_srs_partial (b : Build) (z : Zlib) (hz : z.Correct) (srs : Bytes)
    (hs : srs.length ≤ 65535) (s s' : IStream) (f : SpocFile) (hr : readFile b z s = .ok (f, s'))
    (hc : f.compressed = true → FitsZlib z f.prs.length ∧ NoHiddenNegZero f.prs) :
    (Apps.setSrs b z srs s).res = .ok () ∧
    ∀ tl, readFile b z { rest := (Apps.setSrs b z srs s).bytes ++ tl } =
        .ok ({ f with wkt := srs }, { rest := tl }) ∧
      Apps.showSrs { rest := (Apps.setSrs b z srs s).bytes ++ tl } = ⟨srs ++ [10], .ok ()⟩ := by
  have hwr := readable_writable hr
  have hwr' : Writable { f with wkt := srs } :=
    ⟨hwr.major, hwr.minor, hs, hwr.uniform, hwr.extra, hwr.count⟩
  have hsv : Survives z { f with wkt := srs } := by
    refine ⟨hwr', ?_, hc⟩
    intro h q hq
    -- a readable uncompressed file has at most 123 extra fields
    obtain ⟨h', s1, h1, h2, h3, h4, h5⟩ := (c09_reader_safe b z s).2.2 f s' hr
    rw [h3 q hq]
    by_contra hgt
    have hpos : 0 < h'.totalPoints.toNat := by
      rw [← h2]; exact List.length_pos_iff.mpr (List.ne_nil_of_mem hq)
    unfold readFile at hr
    rw [h1] at hr
    simp only [Res.ok_bind] at hr
    have hc0 : ¬ h'.compressed ≠ 0 := by
      intro hne
      have := h5.mpr hne
      simp only at h
      rw [h] at this
      simp at this
    rw [if_neg hc0, readUncompressedPoints,
      readLoop_stuck b _ _ (recordsPerBuffer_zero (by omega)) _ _ _ _ _ (by simpa using hpos) hpos] at hr
    simp at hr
  have key := survives_roundtrip b z hz _ hsv
  have hset : Apps.setSrs b z srs s = writeFile b z { f with wkt := srs } := by
    unfold Apps.setSrs
    rw [fileOf_ok hr, Out.lift_ok_bind]
    rfl
  rw [hset]
  refine ⟨key.1, fun tl => ⟨key.2 tl, ?_⟩⟩
  obtain ⟨h, s1, h1, _, _, h4, _⟩ := (c09_reader_safe b z _).2.2 _ _ (key.2 tl)
  unfold Apps.showSrs
  rw [h1]
  simp only at h4
  simp [Out.emit, ← h4]

example : readFile .release toyZlib { rest := (writeFile .release toyZlib exampleFile).bytes } =
    .ok (exampleFile, { rest := [] }) ∧ ([0x57, 0x4B] : Bytes).length ≤ 65535 := by
  have := (c01_uncompressed_roundtrip_partial .release toyZlib exampleFile exampleFile_writable rfl
    (by decide)).2 []
  rw [List.append_nil] at this
  exact ⟨this, by decide⟩

/-- **C62**: a WKT that is too long is rejected, nothing is written. -/
theorem c62_long_srs_rejected (b : Build) (z : Zlib) (srs : Bytes) (hs : 65535 < srs.length)
    (s s' : IStream) (f : SpocFile) (hr : readFile b z s = .ok (f, s')) :
    ∃ e, Apps.setSrs b z srs s = ⟨[], .throw e⟩ := by
  have hset : Apps.setSrs b z srs s = writeFile b z { f with wkt := srs } := by
    unfold Apps.setSrs
    rw [fileOf_ok hr, Out.lift_ok_bind]
    rfl
  rw [hset]
  exact (c05_long_wkt_refused_partial b z { f with wkt := srs } hs).1

example : 65535 < (List.replicate 65536 (0 : UInt8)).length := by
  rw [List.length_replicate]; decide

/-! ## C63 -/

/-- **C63.**  The streaming copy of an uncompressed file reproduces its bytes, for every number of
extra fields that the format can represent; what follows the file is not touched. -/
theorem c63_noop_identity (b : Build) (z : Zlib) (f : SpocFile) (hf : Writable f)
    (hc : f.compressed = false) (tl : Bytes) :
    Apps.noop { rest := (writeFile b z f).bytes ++ tl } = ⟨(writeFile b z f).bytes, .ok ()⟩ := by
  have hv := (uniform_iff f).mp hf.uniform
  rw [writeFile_uncompressed_eq b z hc hv hf.wkt]
  unfold Apps.noop
  simp only [List.append_assoc, read_hdr hf, Out.lift_ok_bind]
  rw [if_neg (by simp [hdr, hc]), hdr_write]
  simp only [Out.mk_ok_bind]
  rw [hdr_total hf, hdr_extra hf, copyLoop_eq _ _ _ ((isValid_iff f).mp hv)]

example : Writable hangFile ∧ hangFile.compressed = false := ⟨hangFile_writable, rfl⟩

/-- **C63**: a compressed file is rejected before anything is written. -/
theorem c63_noop_rejects_compressed (s s' : IStream) (h : Header) (hr : Header.read s = .ok (h, s'))
    (hc : h.compressed ≠ 0) : ∃ e, Apps.noop s = ⟨[], .throw e⟩ := by
  refine ⟨"Expected an uncompressed file", ?_⟩
  unfold Apps.noop
  rw [hr]
  simp only [Out.lift_ok_bind, if_pos hc]
  rfl

example : ∃ h s', Header.read { rest := [0x53, 0x50, 0x4F, 0x43, 0, 1, 0, 0, 0,
    0, 0, 0, 0, 0, 0, 0, 0, 1] } = .ok (h, s') ∧ h.compressed ≠ 0 :=
  ⟨{ Header.default with compressed := 1 }, { rest := [] }, by decide +kernel, by decide⟩

end Spoc.Props
