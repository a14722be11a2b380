import Verif.Model.Apps
import Verif.Props.Io

/-!
# Lemmas for the applications that copy files
-/

namespace Spoc.Props

open Spoc Spec Io

/-- What the reader delivers can be written. -/
theorem readable_writable {b : Build} {z : Zlib} {s s' : IStream} {f : SpocFile}
    (hr : readFile b z s = .ok (f, s')) : Writable f := by
  obtain ⟨h, s1, h1, h2, h3, h4, h5⟩ := (c09_reader_safe b z s).2.2 f s' hr
  have hvers : f.major = majorVersion ∧ f.minor = minorVersion := by
    unfold readFile at hr
    rw [h1] at hr
    have key : ∀ (x : Res (List PointRecord × IStream)),
        (x >>= fun a => SpocFile.new' h.wkt (decide (h.compressed ≠ 0)) a.1 >>=
          fun f => Res.ok (f, a.2)) = .ok (f, s') →
        f.major = majorVersion ∧ f.minor = minorVersion := by
      intro x hx
      rw [Res.bind_eq_ok] at hx
      obtain ⟨⟨p, s2⟩, _, hx⟩ := hx
      simp only [SpocFile.new', SpocFile.new] at hx
      split at hx
      · simp at hx
      · simp only [Res.ok_bind, Res.ok.injEq, Prod.mk.injEq] at hx
        rw [← hx.1]
        exact ⟨rfl, rfl⟩
    simp only [Res.ok_bind] at hr
    split at hr
    · exact key _ hr
    · exact key _ hr
  have hw : h.wkt.length ≤ 0xFFFF := by
    rcases Header.read_general s with ⟨h', s1', e, e2, -⟩ | ⟨e, he⟩
    · rw [h1] at e
      simp only [Res.ok.injEq, Prod.mk.injEq] at e
      rw [e.1]; exact e2
    · rw [h1] at he; simp at he
  exact
    { major := hvers.1
      minor := hvers.2
      wkt := by rw [h4]; exact hw
      uniform := fun p hp q hq => by rw [h3 p hp, h3 q hq]
      extra := fun q hq => by rw [h3 q hq]; have := h.extraFields.toNat_lt; omega
      count := by rw [h2]; exact h.totalPoints.toNat_lt }

/-- The special reader for uncompressed files agrees with the general one. -/
theorem readFileUncompressed_eq {b : Build} {z : Zlib} {s s' : IStream} {f : SpocFile} :
    readFileUncompressed b s = .ok (f, s') ↔ readFile b z s = .ok (f, s') ∧ f.compressed = false := by
  unfold readFileUncompressed readFile
  cases hr : Header.read s with
  | ok a =>
    obtain ⟨h, s1⟩ := a
    simp only [Res.ok_bind]
    by_cases hc : h.compressed = 0
    · simp only [hc, ne_eq, not_true_eq_false, if_false, decide_false]
      constructor
      · intro h'
        refine ⟨h', ?_⟩
        rw [Res.bind_eq_ok] at h'
        obtain ⟨⟨p, s2⟩, _, hx⟩ := h'
        simp only [SpocFile.new', SpocFile.new] at hx
        split at hx
        · simp at hx
        · simp only [Res.ok_bind, Res.ok.injEq, Prod.mk.injEq] at hx
          rw [← hx.1]
      · exact fun h' => h'.1
    · simp only [ne_eq, hc, not_false_eq_true, if_true, decide_true]
      constructor
      · intro h'; simp at h'
      · rintro ⟨h', hf⟩
        rw [Res.bind_eq_ok] at h'
        obtain ⟨⟨p, s2⟩, _, hx⟩ := h'
        simp only [SpocFile.new', SpocFile.new] at hx
        split at hx
        · simp at hx
        · simp only [Res.ok_bind, Res.ok.injEq, Prod.mk.injEq] at hx
          rw [← hx.1] at hf
          simp at hf
  | throw e => simp
  | ub e => simp
  | abort => simp
  | hang => simp

/-- The special reader for compressed files agrees with the general one. -/
theorem readFileCompressed_eq {b : Build} {z : Zlib} {s s' : IStream} {f : SpocFile} :
    readFileCompressed z s = .ok (f, s') ↔ readFile b z s = .ok (f, s') ∧ f.compressed = true := by
  unfold readFileCompressed readFile
  cases hr : Header.read s with
  | ok a =>
    obtain ⟨h, s1⟩ := a
    simp only [Res.ok_bind]
    by_cases hc : h.compressed = 0
    · simp only [hc, ne_eq, not_true_eq_false, if_false, decide_false, if_true]
      constructor
      · intro h'; simp at h'
      · rintro ⟨h', hf⟩
        rw [Res.bind_eq_ok] at h'
        obtain ⟨⟨p, s2⟩, _, hx⟩ := h'
        simp only [SpocFile.new', SpocFile.new] at hx
        split at hx
        · simp at hx
        · simp only [Res.ok_bind, Res.ok.injEq, Prod.mk.injEq] at hx
          rw [← hx.1] at hf
          simp at hf
    · simp only [ne_eq, hc, not_false_eq_true, if_true, decide_true, if_false]
      constructor
      · intro h'
        refine ⟨h', ?_⟩
        rw [Res.bind_eq_ok] at h'
        obtain ⟨⟨p, s2⟩, _, hx⟩ := h'
        simp only [SpocFile.new', SpocFile.new] at hx
        split at hx
        · simp at hx
        · simp only [Res.ok_bind, Res.ok.injEq, Prod.mk.injEq] at hx
          rw [← hx.1]
      · exact fun h' => h'.1
  | throw e => simp
  | ub e => simp
  | abort => simp
  | hang => simp

/-- The writers for one kind of file agree with the general one. -/
theorem writeFile_of_compressed {b : Build} {z : Zlib} {f : SpocFile} (hw : f.wkt.length ≤ 65535)
    (hc : f.compressed = true) : writeFileCompressed b z f = writeFile b z f := by
  unfold writeFile
  rw [getHeader_eq hw]
  simp only [Out.lift_ok_bind]
  rw [if_pos (by simp [hdr, hc])]

theorem writeFile_of_uncompressed {b : Build} {z : Zlib} {f : SpocFile} (hw : f.wkt.length ≤ 65535)
    (hc : f.compressed = false) : writeFileUncompressed b f = writeFile b z f := by
  unfold writeFile
  rw [getHeader_eq hw]
  simp only [Out.lift_ok_bind]
  rw [if_neg (by simp [hdr, hc])]

theorem fileOf_ok {r : Res (SpocFile × IStream)} {f : SpocFile} {s : IStream} (h : r = .ok (f, s)) :
    Apps.fileOf r = .ok f := by
  rw [h]; rfl

theorem copyLoop_eq (ef : Nat) (recs : List PointRecord) (tl : Bytes)
    (hrec : ∀ q ∈ recs, q.extra.length = ef) :
    Apps.copyLoop ef recs.length { rest := recs.flatMap PointRecord.bytes ++ tl } =
      ⟨recs.flatMap PointRecord.bytes, .ok ()⟩ := by
  induction recs with
  | nil => rfl
  | cons q qs ih =>
    have hq : q.extra.length = ef := hrec q (by simp)
    simp only [List.length_cons, Apps.copyLoop, List.flatMap_cons, List.append_assoc]
    rw [← hq, PointRecord.read_bytes]
    simp only [PointRecord.write_eq, Out.mk_ok_bind]
    rw [hq, ih (fun p hp => hrec p (by simp [hp]))]

end Spoc.Props
