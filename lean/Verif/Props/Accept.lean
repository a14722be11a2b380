import Verif.Proofs.Accept
import Verif.Props.Format

/-!
# C95: which bytes are read as a file
-/

namespace Spoc.Props

open Spec Spec.Format Io FormatProofs

/-- One direction of `c95_accepted_iff`: bytes that hold a file are read as this file. -/
theorem reads_of_holds (b : Build) {z : Zlib} {bs tl : Bytes} {f : SpocFile} (h : Holds z bs f tl) :
    readFile b z { rest := bs } = .ok (f, { rest := tl }) := by
  obtain ⟨major, minor, wkt, compressed, prs⟩ := f
  obtain ⟨h1, h2, hw, hn, extra, he, hx, h⟩ := h
  dsimp only at h1 h2 hw hn hx h
  subst h1 h2
  rcases h with ⟨rfl, h, rfl⟩ | ⟨rfl, flag, blks, hf1, hf2, hb, rfl⟩
  · rcases h with h | rfl
    · exact c87_reads_partial b z wkt extra prs hw h hn hx tl
    · obtain ⟨h1, h2, h3, h4⟩ := read_described (flag := 0) hw (by omega : extra < 256) (points := 0) (by norm_num) (by omega) tl
      unfold readFile uncompressed
      simp only [List.flatMap_nil, List.length_nil]
      rw [show layout ([] : List (DataType × Nat)) = [] from rfl, List.append_nil, h1, Res.ok_bind]
      dsimp only
      rw [if_neg (by rw [h4]; simp), h2, h3, readUncompressedPoints_zero]
      have hc : ¬ (describedHeader wkt extra 0 0).compressed ≠ 0 := by rw [h4]; simp
      simp only [Res.ok_bind, SpocFile.new', SpocFile.new, allSame_of [] hx, Bool.not_true, Bool.false_eq_true, if_false,
        decide_eq_false hc]
      rfl
  · exact c87_reads_compressed b z wkt extra flag prs hw he hf1 hf2 hn hx blks hb tl

/-- **C95.**  Which bytes are accepted, without exception: reading succeeds without running into the end of the stream, and delivers the
file `f`, if and only if the bytes begin with the documented layout of `f`; what follows is left in the stream.  (A compressed file is
assumed to be below 4 GiB, cf. `c10_4gib_lost`.) -/
theorem c95_accepted_iff (b : Build) (z : Zlib) (bs tl : Bytes) (f : SpocFile) (hsz : f.compressed = true → bs.length < 2 ^ 32) :
    readFile b z { rest := bs } = .ok (f, { rest := tl }) ↔ Holds z bs f tl := by
  refine ⟨fun h => ?_, reads_of_holds b⟩
  unfold readFile at h
  rw [Res.bind_eq_ok] at h
  obtain ⟨⟨hd, s1⟩, h1, h⟩ := h
  dsimp only at h
  have he := hd.extraFields.toNat_lt
  have hc := hd.compressed.toNat_lt
  have ht := hd.totalPoints.toNat_lt
  have fin : ∀ {x : Res (List PointRecord × IStream)} {cb : Bool},
      (x >>= fun r => SpocFile.new' hd.wkt cb r.1 >>= fun f => Res.ok (f, r.2)) = .ok (f, { rest := tl }) →
      ∃ prs, x = .ok (prs, { rest := tl }) ∧ f = { major := 0, minor := 1, wkt := hd.wkt, compressed := cb, prs := prs } := by
    intro x cb hx
    simp only [Res.bind_eq_ok] at hx
    obtain ⟨⟨prs, s2⟩, h2, f', h3, h4⟩ := hx
    simp only [Res.ok.injEq, Prod.mk.injEq] at h4
    obtain ⟨rfl, rfl⟩ := h4
    simp only [SpocFile.new', SpocFile.new] at h3
    split at h3
    · simp at h3
    simp only [Res.ok.injEq] at h3
    exact ⟨prs, h2, h3.symm⟩
  by_cases hz : hd.compressed ≠ 0
  · rw [if_pos hz] at h
    obtain ⟨prs, h2, rfl⟩ := fin h
    obtain ⟨blks, g1, r1, l1, x1, k1⟩ := readCompressedPoints_good h2 rfl (by
      intro g
      have r0 := (Header.read_good h1 g).2.1
      have := congrArg List.length r0
      rw [List.length_append] at this
      have := hsz (by simpa using hz)
      dsimp only at *
      omega)
    obtain ⟨-, r0, e1, e2, e3, hw⟩ := Header.read_good h1 g1
    refine ⟨rfl, rfl, hw, by dsimp only; omega, hd.extraFields.toNat, by omega, x1, .inr ⟨by simpa using hz, hd.compressed.toNat, blks, ?_,
      by omega, k1, ?_⟩⟩
    · rw [Nat.one_le_iff_ne_zero]
      intro h0
      exact hz (UInt8.toNat_inj.mp h0)
    · dsimp only at r0 ⊢
      rw [r0, r1, ← header_eq hd e1 e2 e3, l1]
      simp only [Format.compressed, List.append_assoc]
  · rw [if_neg hz] at h
    obtain ⟨prs, h2, rfl⟩ := fin h
    obtain ⟨g1, r1, l1, x1, k1⟩ := readUncompressedPoints_good h2 rfl
    obtain ⟨-, r0, e1, e2, e3, hw⟩ := Header.read_good h1 g1
    refine ⟨rfl, rfl, hw, by dsimp only; omega, hd.extraFields.toNat, by omega, x1, .inl ⟨by simpa using hz, ?_, ?_⟩⟩
    · rcases k1 with k1 | k1
      · exact .inl k1
      · right
        rw [k1] at l1
        exact List.length_eq_zero_iff.mp l1
    · dsimp only at r0 ⊢
      have hz0 : hd.compressed.toNat = 0 := by rw [not_not.mp hz]; rfl
      rw [r0, r1, ← header_eq hd e1 e2 e3, hz0]
      simp only [uncompressed, List.append_assoc, records_eq, l1]

/-- What comes behind a file does not matter: it is left in the stream. -/
theorem c95_rest_untouched (b : Build) (z : Zlib) (bs tl more : Bytes) (f : SpocFile) (hsz : f.compressed = true → bs.length < 2 ^ 32)
    (h : readFile b z { rest := bs } = .ok (f, { rest := tl })) :
    readFile b z { rest := bs ++ more } = .ok (f, { rest := tl ++ more }) := by
  obtain ⟨h1, h2, hw, hn, extra, he, hx, h⟩ := (c95_accepted_iff b z bs tl f hsz).mp h
  apply reads_of_holds b
  refine ⟨h1, h2, hw, hn, extra, he, hx, ?_⟩
  rcases h with ⟨hc, h, e⟩ | ⟨hc, flag, blks, hf1, hf2, hb, e⟩
  · exact .inl ⟨hc, h, by rw [e, List.append_assoc]⟩
  · exact .inr ⟨hc, flag, blks, hf1, hf2, hb, by rw [e, List.append_assoc]⟩

/-- **C95 / C07**, truncation can be noticed: whoever looks at the state of the stream after reading finds out whether the file was
complete.  If some bytes are read as a file to their last byte, and the end is cut off, then reading throws, or the stream is not good
afterwards. -/
theorem c95_truncation_seen (b : Build) (z : Zlib) (bs pre : Bytes) (f : SpocFile)
    (h : readFile b z { rest := bs } = .ok (f, { rest := [] })) (hsz : bs.length < 2 ^ 32) (hpre : pre <+: bs) (hne : pre ≠ bs)
    (f' : SpocFile) (s' : IStream) (h' : readFile b z { rest := pre } = .ok (f', s')) : s'.good = false := by
  by_contra hg
  rw [Bool.not_eq_false] at hg
  obtain ⟨tl', g⟩ := s'
  dsimp only at hg
  subst hg
  obtain ⟨r, rfl⟩ := hpre
  rw [List.length_append] at hsz
  have := c95_rest_untouched b z pre tl' r f' (fun _ => by omega) h'
  rw [h] at this
  simp only [Res.ok.injEq, Prod.mk.injEq, IStream.mk.injEq] at this
  obtain ⟨-, h2, -⟩ := this
  have : r = [] := (List.append_eq_nil_iff.mp h2.symm).2
  rw [this] at hne
  simp at hne

/-- The same for what the library has written. -/
theorem c95_truncation_of_written_seen (b : Build) (z : Zlib) (hz : z.Correct) (f : SpocFile) (hf : Writable f)
    (hextra : f.compressed = false → ∀ q ∈ f.prs, q.extra.length ≤ 123) (hfit : f.compressed = true → FitsZlib z f.prs.length)
    (hsz : (writeFile b z f).bytes.length < 2 ^ 32) (pre : Bytes) (hpre : pre <+: (writeFile b z f).bytes)
    (hne : pre ≠ (writeFile b z f).bytes) (f' : SpocFile) (s' : IStream) (h' : readFile b z { rest := pre } = .ok (f', s')) :
    s'.good = false := by
  cases hc : f.compressed with
  | false =>
    have := (c01_uncompressed_roundtrip_partial b z f hf hc (hextra hc)).2 []
    rw [List.append_nil] at this
    exact c95_truncation_seen b z _ pre f this hsz hpre hne f' s' h'
  | true =>
    obtain ⟨f2, h2, -⟩ := c02_compressed_roundtrip_values b z hz f hf hc (hfit hc) []
    rw [List.append_nil] at h2
    exact c95_truncation_seen b z _ pre f2 h2 hsz hpre hne f' s' h'

/-- **C95**, compressed columns of the wrong size are refused: if the blocks of a compressed file are not all fitting (one of them is
damaged, or holds more or fewer values than the header announces) then reading throws. -/
theorem c95_wrong_column_refused (b : Build) (z : Zlib) (wkt : Bytes) (extra points flag : Nat) (blks : List Bytes) (tl : Bytes)
    (hw : wkt.length ≤ 65535) (he : extra ≤ 255) (hp : points < 2 ^ 64) (hf : 1 ≤ flag) (hf' : flag ≤ 255) (hn : blks.length = 9 + extra)
    (hl : ∀ bl ∈ blks, bl.length < 2 ^ 32) (hbad : ¬ List.Forall₂ (Fitting z points) (columnTypes extra) blks) :
    ∃ e, readFile b z { rest := Format.compressed wkt extra points flag blks ++ tl } = .throw e := by
  obtain ⟨h1, h2, h3, h4⟩ := read_described (flag := flag) hw (by omega : extra < 256) hp (by omega) (blocks blks ++ tl)
  unfold readFile Format.compressed
  rw [List.append_assoc, h1, Res.ok_bind]
  dsimp only
  rw [if_pos (h4.mpr (by omega)), h2, h3]
  rcases readColumns_general z { rest := blocks blks ++ tl } points extra with ⟨cs, s', hc, -⟩ | ⟨e, hc⟩
  · exact absurd (readColumns_fitting blks tl hn hl hc) hbad
  · refine ⟨e, ?_⟩
    unfold readCompressedPoints
    rw [hc]
    rfl

/-! ## Examples -/

/-- The file with two points and three extra fields of the examples is stored in its documented layout; some bytes follow. -/
example : Holds toyZlib (uncompressed exampleFile.wkt 3 exampleFile.prs ++ [1, 2]) exampleFile [1, 2] :=
  ⟨rfl, rfl, by decide, by decide, 3, by decide, by decide, .inl ⟨rfl, .inl (by decide), rfl⟩⟩

/-- Cutting off the last byte: the hypotheses of `c95_truncation_seen` hold, and the file is read nevertheless, with a bad stream. -/
example : readFile .debug toyZlib { rest := uncompressed [] 0 [{ c := 7, b := 3 }] }
      = .ok ({ major := 0, minor := 1, wkt := [], compressed := false, prs := [{ c := 7, b := 3 }] }, { rest := [] })
    ∧ (uncompressed [] 0 [{ c := 7, b := 3 }]).dropLast <+: uncompressed [] 0 [{ c := 7, b := 3 }]
    ∧ (uncompressed [] 0 [{ c := 7, b := 3 }]).dropLast ≠ uncompressed [] 0 [{ c := 7, b := 3 }]
    ∧ readFile .debug toyZlib { rest := (uncompressed [] 0 [{ c := 7, b := 3 }]).dropLast }
      = .ok ({ major := 0, minor := 1, wkt := [], compressed := false, prs := [{ c := 7, b := 3 }] }, { rest := [], good := false }) := by
  have h := c87_reads_partial .debug toyZlib [] 0 [{ c := 7, b := 3 }] (by decide) (by decide) (by decide) (by decide) []
  rw [List.append_nil] at h
  exact ⟨h, List.dropLast_prefix _, by decide +kernel, by decide +kernel⟩

/-- The hypotheses of `c95_truncation_of_written_seen` for a compressed file. -/
example : toyZlib.Correct ∧ Writable exampleFile ∧ FitsZlib toyZlib exampleFile.prs.length :=
  ⟨toyZlib_correct, exampleFile_writable, toyZlib_fits (by decide)⟩

/-- One point, but two classes: the block of the classes is not fitting. -/
example : ¬ List.Forall₂ (Fitting toyZlib 1) (columnTypes 0) [[], [], [], 0 :: columnBytes (.uint32, [7, 8]), [], [], [], [], []] := by
  intro h
  simp only [columnTypes, List.replicate_zero, List.append_nil, List.forall₂_cons] at h
  obtain ⟨-, -, -, h, -⟩ := h
  rcases h with h | ⟨-, h⟩
  · simp at h
  · revert h; decide +kernel

end Spoc.Props
