import Verif.Proofs.Diff
import Verif.Props.Apps

/-!
# C54, C55, C56: the diff application
-/

namespace Spoc.Props

open Spec Diff Io

/-- A file whose header can be built and describes it: the spatial reference fits, and so do the numbers. -/
structure Describable (f : SpocFile) : Prop where
  wkt : f.wkt.length ≤ 65535
  uniform : Uniform f.prs
  extra : extraCount f.prs < 256
  count : f.prs.length < 2 ^ 64

theorem describable_of_writable {f : SpocFile} (hf : Writable f) : Describable f where
  wkt := hf.wkt
  uniform := hf.uniform
  extra := by
    cases h : f.prs with
    | nil => simp [extraCount]
    | cons p ps =>
      have := hf.extra p (by rw [h]; simp)
      simp only [extraCount, List.head?_cons, Option.map_some, Option.getD_some]; omega
  count := hf.count

/-- What the result of `diff` should be, with the option to reverse it. -/
def verdict (reverse : Bool) (same : Prop) (code : Int) : Prop :=
  if reverse then (same ∧ code = 1) ∨ (¬ same ∧ code = 0) else (same ∧ code = 0) ∨ (¬ same ∧ code = -1)

theorem verdict_of {r : Bool} {same : Prop} (h : r = true ↔ same) (reverse : Bool) :
    verdict reverse same (if reverse then (if (if r then 0 else -1 : Int) = 0 then 1 else 0) else (if r then 0 else -1)) := by
  cases r <;> cases reverse <;> simp_all [verdict]

/-- **C54**: the full comparison reports success exactly if headers and records are the same, and reversed exactly if not. -/
theorem c54_full (b : Build) (f g : SpocFile) (hf : Describable f) (hg : Describable g) (reverse : Bool) :
    ∃ code, diff b f g false false [] reverse = .ok code ∧ verdict reverse (SameHeader f g ∧ SameData f g) code := by
  obtain ⟨h, h1, h2⟩ := eqHeaders_eq f g hf.wkt hg.wkt hf.extra hg.extra hf.count hg.count
  obtain ⟨d, d1, d2⟩ := eqData_eq b f.prs g.prs hf.uniform hg.uniform
  have key : (h && d) = true ↔ SameHeader f g ∧ SameData f g := by rw [Bool.and_eq_true, h2, d2]; rfl
  refine ⟨_, ?_, verdict_of key reverse⟩
  unfold diff
  simp only [List.isEmpty_nil, Bool.not_true, Bool.not_false, Bool.true_and, Bool.and_true, Bool.false_or, if_true, if_false,
    Bool.false_eq_true, h1, d1, Res.ok_bind]
  cases reverse <;> rfl

/-- **C54**: the header-only comparison decides whether the headers are the same, whatever the records. -/
theorem c54_header_only (b : Build) (f g : SpocFile) (hf : Describable f) (hg : Describable g) (reverse : Bool) :
    ∃ code, diff b f g true false [] reverse = .ok code ∧ verdict reverse (SameHeader f g) code := by
  obtain ⟨h, h1, h2⟩ := eqHeaders_eq f g hf.wkt hg.wkt hf.extra hg.extra hf.count hg.count
  refine ⟨_, ?_, verdict_of h2 reverse⟩
  unfold diff
  simp only [List.isEmpty_nil, Bool.not_true, Bool.not_false, Bool.true_and, Bool.and_true, Bool.false_or, if_true, if_false,
    Bool.false_eq_true, h1, Res.ok_bind]
  cases reverse <;> rfl

/-- **C54**: the data-only comparison decides whether the records are the same, whatever the headers. -/
theorem c54_data_only (b : Build) (f g : SpocFile) (hf : Uniform f.prs) (hg : Uniform g.prs) (headerOnly reverse : Bool) :
    ∃ code, diff b f g headerOnly true [] reverse = .ok code ∧ verdict reverse (SameData f g) code := by
  obtain ⟨d, d1, d2⟩ := eqData_eq b f.prs g.prs hf hg
  refine ⟨_, ?_, verdict_of d2 reverse⟩
  unfold diff
  simp only [List.isEmpty_nil, Bool.not_true, Bool.not_false, Bool.true_and, Bool.and_true, Bool.true_or, if_true, if_false,
    Bool.false_eq_true, d1, Res.ok_bind]
  cases reverse <;> rfl

/-- What the options of one comparison ask for. -/
inductive Mode where
  | full | header | data

/-- The command line of a comparison. -/
def modeOptions : Mode → Bool → List (String × Str)
  | .full, r => if r then [("reverse", [])] else []
  | .header, r => ("header-only", []) :: if r then [("reverse", [])] else []
  | .data, r => ("data-only", []) :: if r then [("reverse", [])] else []

/-- What it should decide. -/
def Same : Mode → SpocFile → SpocFile → Prop
  | .full, f, g => SameHeader f g ∧ SameData f g
  | .header, f, g => SameHeader f g
  | .data, f, g => SameData f g

/-- **C54**: the application on two readable files exits with status 0 exactly if what it was asked to compare is the same, and with
the reverse option exactly if it is not. -/
theorem c54_app (b : Build) (z : Zlib) (m : Mode) (reverse : Bool) (s t s' t' : IStream) (f g : SpocFile)
    (hs : readFile b z s = .ok (f, s')) (ht : readFile b z t = .ok (g, t')) :
    exitStatus (Diff.main b z (modeOptions m reverse) (some s) (some t)) = some 0 ↔ (Same m f g ↔ reverse = false) := by
  have df := describable_of_writable (readable_writable hs)
  have dg := describable_of_writable (readable_writable ht)
  have fin : ∀ {same : Prop} {code : Int}, verdict reverse same code →
      (exitStatus (.ok code) = some 0 ↔ (same ↔ reverse = false)) := by
    intro same code hv
    cases reverse <;> simp only [verdict, if_true, if_false, Bool.false_eq_true] at hv <;>
      rcases hv with ⟨h, rfl⟩ | ⟨h, rfl⟩ <;> simp [exitStatus, h]
  cases m with
  | full =>
    obtain ⟨code, h1, h2⟩ := c54_full b f g df dg reverse
    have : Diff.main b z (modeOptions .full reverse) (some s) (some t) = diff b f g false false [] reverse := by
      cases reverse <;> simp [Diff.main, modeOptions, getArgs, hs, ht, Apps.fileOf]
    rw [this, h1]; exact fin h2
  | header =>
    obtain ⟨code, h1, h2⟩ := c54_header_only b f g df dg reverse
    have : Diff.main b z (modeOptions .header reverse) (some s) (some t) = diff b f g true false [] reverse := by
      cases reverse <;> simp [Diff.main, modeOptions, getArgs, hs, ht, Apps.fileOf]
    rw [this, h1]; exact fin h2
  | data =>
    obtain ⟨code, h1, h2⟩ := c54_data_only b f g df.uniform dg.uniform false reverse
    have : Diff.main b z (modeOptions .data reverse) (some s) (some t) = diff b f g false true [] reverse := by
      cases reverse <;> simp [Diff.main, modeOptions, getArgs, hs, ht, Apps.fileOf]
    rw [this, h1]; exact fin h2

/-- **C54**: the status 0 is only given for two files that could be opened and read, so a script never takes a missing or damaged file
for the same, nor, with the option to reverse, for a different one. -/
theorem c54_success (b : Build) (z : Zlib) (m : Mode) (reverse : Bool) (file1 file2 : Option IStream)
    (h : exitStatus (Diff.main b z (modeOptions m reverse) file1 file2) = some 0) :
    ∃ s t s' t' f g, file1 = some s ∧ file2 = some t ∧ readFile b z s = .ok (f, s') ∧ readFile b z t = .ok (g, t')
      ∧ (Same m f g ↔ reverse = false) := by
  have hargs : ∃ a : Args, getArgs (modeOptions m reverse) {} = .ok a ∧ a.help = false ∧ a.version = false
      ∧ (a.headerOnly && a.dataOnly && !a.fields.isEmpty) = false := by
    cases m <;> cases reverse <;> exact ⟨_, rfl, rfl, rfl, rfl⟩
  obtain ⟨a, e, a1, a2, a3⟩ := hargs
  have h' := h
  unfold Diff.main at h'
  rw [e, Res.ok_bind] at h'
  simp only [a1, a2, a3, Bool.false_eq_true, if_false] at h'
  cases file1 with
  | none => simp [exitStatus] at h'
  | some s =>
  cases file2 with
  | none => simp [exitStatus] at h'
  | some t =>
  dsimp only at h'
  cases hs : readFile b z s with
  | ok fr =>
    cases ht : readFile b z t with
    | ok gr => exact ⟨s, t, fr.2, gr.2, fr.1, gr.1, rfl, rfl, hs, ht, (c54_app b z m reverse s t fr.2 gr.2 fr.1 gr.1 hs ht).mp h⟩
    | throw x => rw [hs, ht] at h'; simp [exitStatus, Apps.fileOf] at h'
    | ub x => rw [hs, ht] at h'; simp [exitStatus, Apps.fileOf] at h'
    | abort => rw [hs, ht] at h'; simp [exitStatus, Apps.fileOf] at h'
    | hang => rw [hs, ht] at h'; simp [exitStatus, Apps.fileOf] at h'
  | throw x => rw [hs] at h'; simp [exitStatus, Apps.fileOf] at h'
  | ub x => rw [hs] at h'; simp [exitStatus, Apps.fileOf] at h'
  | abort => rw [hs] at h'; simp [exitStatus, Apps.fileOf] at h'
  | hang => rw [hs] at h'; simp [exitStatus, Apps.fileOf] at h'

/-- The file of the examples with another coordinate in the second record. -/
def otherFile : SpocFile :=
  { exampleFile with prs := [{ x := F64.one, c := 2, extra := [1, 2, 3] },
      { y := F64.one, p := 7, b := 65535, extra := [4, 5, 18446744073709551615] }] }

theorem otherFile_writable : Writable otherFile where
  major := rfl
  minor := rfl
  wkt := by decide
  uniform := by unfold Uniform; decide
  extra := by decide
  count := by decide

example : Describable exampleFile ∧ Describable otherFile ∧ SameHeader exampleFile otherFile
    ∧ diff .debug exampleFile otherFile true false [] false = .ok 0
    ∧ diff .debug exampleFile otherFile false false [] false = .ok (-1)
    ∧ diff .debug exampleFile otherFile false false [] true = .ok 0
    ∧ diff .debug exampleFile exampleFile false true [] false = .ok 0
    ∧ diff .debug exampleFile exampleFile false true [] true = .ok 1 :=
  ⟨describable_of_writable exampleFile_writable, describable_of_writable otherFile_writable, ⟨rfl, rfl, rfl, rfl, rfl, rfl⟩,
    by decide +kernel, by decide +kernel, by decide +kernel, by decide +kernel, by decide +kernel⟩

example : ∃ s' t', readFile .release toyZlib { rest := (writeFile .release toyZlib exampleFile).bytes } = .ok (exampleFile, s')
    ∧ readFile .release toyZlib { rest := (writeFile .release toyZlib otherFile).bytes } = .ok (otherFile, t') := by
  have h1 := (c01_uncompressed_roundtrip_partial .release toyZlib exampleFile exampleFile_writable rfl (by decide)).2 []
  have h2 := (c01_uncompressed_roundtrip_partial .release toyZlib otherFile otherFile_writable rfl (by decide)).2 []
  rw [List.append_nil] at h1 h2
  exact ⟨_, _, h1, h2⟩

example : exitStatus (Diff.main .release toyZlib (modeOptions .full false)
    (some { rest := (writeFile .release toyZlib exampleFile).bytes }) (some { rest := (writeFile .release toyZlib exampleFile).bytes }))
    = some 0 := by
  have h1 := (c01_uncompressed_roundtrip_partial .release toyZlib exampleFile exampleFile_writable rfl (by decide)).2 []
  rw [List.append_nil] at h1
  rw [c54_app .release toyZlib .full false _ _ _ _ _ _ h1 h1]
  refine ⟨fun _ => rfl, fun _ => ⟨⟨rfl, rfl, rfl, rfl, rfl, rfl⟩, ?_⟩⟩
  unfold SameData
  rw [List.forall₂_same]
  simp only [exampleFile, SameRecord, SamePlace, NoNaNRecord, NoNaN, pt]
  decide +kernel

/-- The command line check meant to allow one of the three modes admits two of them: with header-only and data-only together, the
headers are not compared. -/
theorem c54_two_modes (b : Build) (z : Zlib) (s t s' t' : IStream) (f g : SpocFile)
    (hs : readFile b z s = .ok (f, s')) (ht : readFile b z t = .ok (g, t')) :
    Diff.main b z [("header-only", []), ("data-only", [])] (some s) (some t)
      = Diff.main b z [("data-only", [])] (some s) (some t) := by
  simp [Diff.main, getArgs, hs, ht, Apps.fileOf, diff]

/-! ## C55 -/

theorem sameRecord_symm {a b : PointRecord} (h : SameRecord a b) : SameRecord b a := by
  obtain ⟨h1, h2, ⟨h3, h4, h5⟩, h6, h7, h8, h9, h10, h11, h12⟩ := h
  exact ⟨h2, h1, ⟨h3.symm, h4.symm, h5.symm⟩, h6.symm, h7.symm, h8.symm, h9.symm, h10.symm, h11.symm, h12.symm⟩

theorem sameData_comm (f g : SpocFile) : SameData f g ↔ SameData g f := by
  constructor <;> intro h <;> exact List.Forall₂.flip (List.Forall₂.imp (fun _ _ => sameRecord_symm) h)

theorem sameHeader_comm (f g : SpocFile) : SameHeader f g ↔ SameHeader g f := by
  constructor <;> rintro ⟨h1, h2, h3, h4, h5, h6⟩ <;> exact ⟨h1.symm, h2.symm, h3.symm, h4.symm, h5.symm, h6.symm⟩

theorem sameField_comm {n : Char} (h : n ∈ fieldNames) (a b : PointRecord) : SameField n a b ↔ SameField n b a := by
  rcases fieldNames_cases h with ⟨hc, -⟩ | ⟨hc, -⟩
  · simp only [letters, List.mem_cons, List.not_mem_nil, or_false] at hc
    rcases hc with rfl | rfl | rfl | rfl | rfl | rfl | rfl | rfl | rfl <;> simp only [SameField] <;>
      first
        | exact eq_comm
        | (constructor <;> rintro ⟨x, y, z⟩ <;> exact ⟨y, x, z.symm⟩)
  · simp only [digits, List.mem_cons, List.not_mem_nil, or_false] at hc
    rcases hc with rfl | rfl | rfl | rfl | rfl | rfl | rfl | rfl | rfl | rfl <;> exact eq_comm

/-- **C55** for the default and the two partial comparisons: a file without NaN coordinates is the same as itself. -/
theorem c55_self_partial (b : Build) (f : SpocFile) (hf : Describable f) (hn : ∀ q ∈ f.prs, NoNaNRecord q)
    (headerOnly dataOnly : Bool) : diff b f f headerOnly dataOnly [] false = .ok 0 := by
  have hd : SameData f f := by
    unfold SameData
    rw [List.forall₂_same]
    exact fun q hq => ⟨hn q hq, hn q hq, ⟨rfl, rfl, rfl⟩, rfl, rfl, rfl, rfl, rfl, rfl, rfl⟩
  have hh : SameHeader f f := ⟨rfl, rfl, rfl, rfl, rfl, rfl⟩
  have fin : ∀ {same : Prop} {code : Int}, verdict false same code → same → code = 0 := by
    intro same code hv hs
    simp only [verdict, Bool.false_eq_true, if_false] at hv
    rcases hv with ⟨-, h⟩ | ⟨h, -⟩
    · exact h
    · exact absurd hs h
  cases dataOnly with
  | true =>
    obtain ⟨c, h1, h2⟩ := c54_data_only b f f hf.uniform hf.uniform headerOnly false
    rw [h1, fin h2 hd]
  | false =>
    cases headerOnly with
    | true =>
      obtain ⟨c, h1, h2⟩ := c54_header_only b f f hf hf false
      rw [h1, fin h2 hh]
    | false =>
      obtain ⟨c, h1, h2⟩ := c54_full b f f hf hf false
      rw [h1, fin h2 ⟨hh, hd⟩]

/-- The header of every file is the same as itself, NaN or not. -/
theorem c55_self_header (b : Build) (f : SpocFile) (hf : Describable f) : diff b f f true false [] false = .ok 0 := by
  obtain ⟨c, h1, h2⟩ := c54_header_only b f f hf hf false
  simp only [verdict, Bool.false_eq_true, if_false] at h2
  rcases h2 with ⟨-, h⟩ | ⟨h, -⟩
  · rw [h1, h]
  · exact absurd ⟨rfl, rfl, rfl, rfl, rfl, rfl⟩ h

theorem eqFields_comm (b : Build) (ps qs : List PointRecord) (hp : Uniform ps) (hq : Uniform qs) (fields : Str) :
    eqFields b ps qs fields = eqFields b qs ps fields := by
  induction fields with
  | nil => rfl
  | cons c cs ih =>
    have : eqField b ps qs c = eqField b qs ps c := by
      by_cases hc : c ∈ fieldNames
      · obtain ⟨r, h1, h2, h3⟩ := eqField_eq b ps qs hp hq hc
        obtain ⟨r', h1', h2', h3'⟩ := eqField_eq b qs ps hq hp hc
        have hh : HasField c ps qs ↔ HasField c qs ps := by unfold HasField; simp only [and_comm]
        have : r = r' := by
          by_cases h : HasField c ps qs
          · rw [Bool.eq_iff_iff, h2 h, h2' (hh.mp h)]
            constructor <;> intro hf <;>
              exact List.Forall₂.flip (List.Forall₂.imp (fun a b => (sameField_comm hc a b).mp) hf)
          · rw [h3 h, h3' (fun h' => h (hh.mpr h'))]
        rw [h1, h1', this]
      · rw [eqField_unknown b ps qs hc, eqField_unknown b qs ps hc]
    simp only [eqFields, this, ih]

/-- **C55**: the result of every kind of comparison does not depend on the order of the files. -/
theorem c55_symmetric (b : Build) (f g : SpocFile) (hf : Describable f) (hg : Describable g) (headerOnly dataOnly : Bool)
    (fields : Str) (reverse : Bool) :
    diff b f g headerOnly dataOnly fields reverse = diff b g f headerOnly dataOnly fields reverse := by
  have hh : eqHeaders f g = eqHeaders g f := by
    obtain ⟨r, h1, h2⟩ := eqHeaders_eq f g hf.wkt hg.wkt hf.extra hg.extra hf.count hg.count
    obtain ⟨r', h1', h2'⟩ := eqHeaders_eq g f hg.wkt hf.wkt hg.extra hf.extra hg.count hf.count
    have : r = r' := by rw [Bool.eq_iff_iff, h2, h2', sameHeader_comm]
    rw [h1, h1', this]
  have hd : eqData b f.prs g.prs = eqData b g.prs f.prs := by
    obtain ⟨r, h1, h2⟩ := eqData_eq b f.prs g.prs hf.uniform hg.uniform
    obtain ⟨r', h1', h2'⟩ := eqData_eq b g.prs f.prs hg.uniform hf.uniform
    have : r = r' := by
      rw [Bool.eq_iff_iff, h2, h2']; exact sameData_comm f g
    rw [h1, h1', this]
  have hx := eqFields_comm b f.prs g.prs hf.uniform hg.uniform fields
  simp only [diff, hh, hd, hx]

/-- A file with a NaN coordinate, which the reader accepts. -/
def nanFile : SpocFile := { exampleFile with prs := [{ x := F64.nan }] }

theorem nanFile_writable : Writable nanFile where
  major := rfl
  minor := rfl
  wkt := by decide
  uniform := by unfold Uniform; decide
  extra := by decide
  count := by decide

/-- **C55, negation**: a file with a NaN coordinate can be written and read, and is reported to differ from itself. -/
theorem c55_nan_differs (b : Build) : ∃ bytes s',
    readFile b toyZlib { rest := bytes } = .ok (nanFile, s')
    ∧ exitStatus (Diff.main b toyZlib [] (some { rest := bytes }) (some { rest := bytes })) = some 255 := by
  have h := (c01_uncompressed_roundtrip_partial b toyZlib nanFile nanFile_writable rfl (by decide)).2 []
  refine ⟨_, _, h, ?_⟩
  have : Diff.main b toyZlib [] (some { rest := (writeFile b toyZlib nanFile).bytes ++ [] })
      (some { rest := (writeFile b toyZlib nanFile).bytes ++ [] }) = diff b nanFile nanFile false false [] false := by
    simp only [Diff.main, getArgs, h, Apps.fileOf, Res.ok_bind]
    rfl
  rw [this]
  cases b <;> decide +kernel

example : Describable exampleFile ∧ ∀ q ∈ exampleFile.prs, NoNaNRecord q := by
  refine ⟨describable_of_writable exampleFile_writable, ?_⟩
  simp only [exampleFile, NoNaNRecord, NoNaN, pt]
  decide +kernel

/-! ## C56 -/

/-- **C56**: with known names of fields that both files have, the comparison succeeds exactly if each of them is the same. -/
theorem c56_fields_partial (b : Build) (f g : SpocFile) (hf : Uniform f.prs) (hg : Uniform g.prs) (fields : Str)
    (hne : fields ≠ []) (hk : ∀ n ∈ fields, n ∈ fieldNames) (hh : ∀ n ∈ fields, HasField n f.prs g.prs)
    (headerOnly dataOnly reverse : Bool) :
    ∃ code, diff b f g headerOnly dataOnly fields reverse = .ok code
      ∧ verdict reverse (∀ n ∈ fields, List.Forall₂ (SameField n) f.prs g.prs) code := by
  have key : ∃ r, eqFields b f.prs g.prs fields = .ok r ∧ (r = true ↔ ∀ n ∈ fields, List.Forall₂ (SameField n) f.prs g.prs) := by
    clear hne
    induction fields with
    | nil => exact ⟨true, rfl, by simp⟩
    | cons c cs ih =>
      obtain ⟨r, h1, h2⟩ := ih (fun n hn => hk n (by simp [hn])) (fun n hn => hh n (by simp [hn]))
      obtain ⟨q, k1, k2, -⟩ := eqField_eq b f.prs g.prs hf hg (hk c (by simp))
      have k2 := k2 (hh c (by simp))
      simp only [eqFields, k1, Res.ok_bind]
      cases q with
      | true =>
        refine ⟨r, by simp [h1], ?_⟩
        rw [h2, List.forall_mem_cons]
        simp [k2.mp rfl]
      | false =>
        refine ⟨false, rfl, ?_⟩
        simp only [Bool.false_eq_true, false_iff]
        intro h
        simpa using k2.mpr (h c (by simp))
  obtain ⟨r, h1, h2⟩ := key
  refine ⟨_, ?_, verdict_of h2 reverse⟩
  unfold diff
  have : fields.isEmpty = false := by cases fields <;> simp_all
  simp only [this, Bool.not_true, Bool.not_false, Bool.true_and, Bool.false_and, if_true, if_false, Bool.false_eq_true, h1,
    Res.ok_bind]
  cases reverse <;> rfl

/-- **C56**: without differences in the fields named before it, an unknown name is rejected. -/
theorem c56_unknown_partial (b : Build) (f g : SpocFile) (hf : Uniform f.prs) (hg : Uniform g.prs) (before after : Str)
    (n : Char) (hk : ∀ m ∈ before, m ∈ fieldNames ∧ HasField m f.prs g.prs ∧ List.Forall₂ (SameField m) f.prs g.prs)
    (hn : n ∉ fieldNames) (headerOnly dataOnly reverse : Bool) :
    ∃ e, diff b f g headerOnly dataOnly (before ++ n :: after) reverse = .throw e := by
  have key : ∃ e, eqFields b f.prs g.prs (before ++ n :: after) = .throw e := by
    induction before with
    | nil => exact ⟨_, by simp only [List.nil_append, eqFields, eqField_unknown b f.prs g.prs hn]; rfl⟩
    | cons c cs ih =>
      obtain ⟨e, he⟩ := ih (fun m hm => hk m (by simp [hm]))
      obtain ⟨k1, k2, k3⟩ := hk c (by simp)
      obtain ⟨q, h1, h2, -⟩ := eqField_eq b f.prs g.prs hf hg k1
      have := (h2 k2).mpr k3
      subst this
      exact ⟨e, by simp only [List.cons_append, eqFields, h1, Res.ok_bind, if_true, he]⟩
  obtain ⟨e, he⟩ := key
  refine ⟨e, ?_⟩
  unfold diff
  have : (before ++ n :: after).isEmpty = false := by cases before <;> rfl
  simp only [this, Bool.not_true, Bool.not_false, Bool.true_and, Bool.false_and, if_true, if_false, Bool.false_eq_true, he,
    Res.ok_bind]
  rfl

example : Uniform exampleFile.prs ∧ (∀ n ∈ "xc2".toList, n ∈ fieldNames)
    ∧ (∀ n ∈ "xc2".toList, HasField n exampleFile.prs otherFile.prs)
    ∧ diff .debug exampleFile otherFile false false "xc2".toList false = .ok 0
    ∧ diff .debug exampleFile otherFile false false "xcy2".toList false = .ok (-1) := by
  refine ⟨exampleFile_writable.uniform, by decide, ?_, by decide +kernel, by decide +kernel⟩
  unfold HasField
  decide

/-- The fields that the options name. -/
def namedFields (os : List (String × Str)) : Str := os.flatMap (fun o => if o.1 = "field" then o.2 else [])

theorem diff_getArgs_fields (os : List (String × Str)) (hos : ∀ o ∈ os, o.1 ∈ ["field", "reverse", "verbose"]) (a : Diff.Args) :
    ∃ a', Diff.getArgs os a = .ok a' ∧ a'.fields = a.fields ++ namedFields os
      ∧ (a'.reverse = true ↔ a.reverse = true ∨ ∃ o ∈ os, o.1 = "reverse")
      ∧ a'.help = a.help ∧ a'.version = a.version ∧ a'.headerOnly = a.headerOnly ∧ a'.dataOnly = a.dataOnly := by
  induction os generalizing a with
  | nil => exact ⟨a, rfl, by simp [namedFields], by simp, rfl, rfl, rfl, rfl⟩
  | cons o os ih =>
    obtain ⟨name, arg⟩ := o
    have ih := ih (fun o h => hos o (List.mem_cons_of_mem _ h))
    have hn : name ∈ ["field", "reverse", "verbose"] := hos _ List.mem_cons_self
    simp only [List.mem_cons, List.not_mem_nil, or_false] at hn
    unfold Diff.getArgs
    rcases hn with rfl | rfl | rfl
    · obtain ⟨a', h1, h2, h3, h4⟩ := ih { a with fields := a.fields ++ arg }
      refine ⟨a', by simpa (decide := true) using h1, ?_, ?_, h4⟩
      · simp [h2, namedFields]
      · simpa (decide := true) using h3
    · obtain ⟨a', h1, h2, h3, h4⟩ := ih { a with reverse := true }
      refine ⟨a', by simpa (decide := true) using h1, ?_, ?_, h4⟩
      · simp (decide := true) [h2, namedFields]
      · simp [h3]
    · obtain ⟨a', h1, h2, h3, h4⟩ := ih { a with verbose := true }
      refine ⟨a', by simpa (decide := true) using h1, ?_, ?_, h4⟩
      · simp (decide := true) [h2, namedFields]
      · simpa (decide := true) using h3

open Classical in
/-- **C56** for the application: the option can be given several times, and all fields that are named are compared. -/
theorem c56_app_partial (b : Build) (zl : Zlib) (os : List (String × Str)) (hos : ∀ o ∈ os, o.1 ∈ ["field", "reverse", "verbose"])
    (hne : namedFields os ≠ []) (s t s' t' : IStream) (f g : SpocFile)
    (hf : Io.readFile b zl s = .ok (f, s')) (hg : Io.readFile b zl t = .ok (g, t'))
    (hk : ∀ n ∈ namedFields os, n ∈ fieldNames ∧ HasField n f.prs g.prs) :
    ∃ code, Diff.main b zl os (some s) (some t) = .ok code
      ∧ verdict (decide (∃ o ∈ os, o.1 = "reverse")) (∀ o ∈ os, o.1 = "field" → ∀ n ∈ o.2, List.Forall₂ (SameField n) f.prs g.prs) code := by
  obtain ⟨a, h1, h2, h3, h4, h5, h6, h7⟩ := diff_getArgs_fields os hos {}
  have h2 : a.fields = namedFields os := by simpa using h2
  have h3 : a.reverse = decide (∃ o ∈ os, o.1 = "reverse") := by
    rw [Bool.eq_iff_iff, h3]; simp
  have h8 : (∀ n ∈ namedFields os, List.Forall₂ (SameField n) f.prs g.prs)
      ↔ ∀ o ∈ os, o.1 = "field" → ∀ n ∈ o.2, List.Forall₂ (SameField n) f.prs g.prs := by
    constructor
    · intro h o ho e n hn
      exact h n (List.mem_flatMap.mpr ⟨o, ho, by rw [if_pos e]; exact hn⟩)
    · intro h n hn
      obtain ⟨o, ho, hn⟩ := List.mem_flatMap.mp hn
      split at hn
      · next e => exact h o ho e n hn
      · simp at hn
  obtain ⟨code, e, hv⟩ := c56_fields_partial b f g (readable_writable hf).uniform (readable_writable hg).uniform (namedFields os) hne
    (fun n hn => (hk n hn).1) (fun n hn => (hk n hn).2) false false (decide (∃ o ∈ os, o.1 = "reverse"))
  rw [h8] at hv
  refine ⟨code, ?_, hv⟩
  unfold Diff.main
  rw [h1, Res.ok_bind, h4, h5, h6, h7]
  simp only [Bool.false_eq_true, if_false, Bool.false_and]
  rw [Apps.fileOf, hf, Res.ok_bind, Res.ok_bind, Apps.fileOf, hg, Res.ok_bind, Res.ok_bind, h2, h3]
  exact e

example : ∃ s s', Io.readFile .release toyZlib s = .ok (exampleFile, s')
    ∧ (∀ n ∈ namedFields [("field", ['x']), ("reverse", []), ("field", ['c', '1'])], n ∈ fieldNames ∧ HasField n exampleFile.prs exampleFile.prs) := by
  have h1 : Survives toyZlib exampleFile := ⟨exampleFile_writable, fun _ => by decide, fun h => by simp [exampleFile] at h⟩
  have := (survives_roundtrip .release toyZlib toyZlib_correct exampleFile h1).2 []
  refine ⟨_, _, this, ?_⟩
  unfold HasField
  decide

/-- **C56, negation**: an extra field that only one of the files has is not reported as a difference. -/
theorem c56_missing_ignored (b : Build) :
    ¬ List.Forall₂ (SameField '0') exampleFile.prs nanFile.prs
    ∧ ∃ f g : SpocFile, Writable f ∧ Writable g ∧ f.prs.length = g.prs.length
      ∧ ¬ List.Forall₂ (SameField '0') f.prs g.prs ∧ diff b f g false false ['0'] false = .ok 0 := by
  refine ⟨fun h => by simpa [exampleFile, nanFile] using h.length_eq, { exampleFile with prs := [{ extra := [5] }] },
    { exampleFile with prs := [{ }] }, ⟨rfl, rfl, by decide, by unfold Uniform; decide, by decide, by decide⟩,
    ⟨rfl, rfl, by decide, by unfold Uniform; decide, by decide, by decide⟩, rfl, ?_, ?_⟩
  · intro h
    simp only [List.forall₂_cons] at h
    revert h
    simp [SameField]
  · cases b <;> decide +kernel

/-- **C56, negation**: an unknown name after a field that differs is not rejected: the result is the ordinary "different", and with
the reverse option even success. -/
theorem c56_unknown_unnoticed (b : Build) :
    '?' ∉ fieldNames ∧ diff b exampleFile otherFile false false "y?".toList false = .ok (-1)
    ∧ diff b exampleFile otherFile false false "y?".toList true = .ok 0 := by
  refine ⟨by decide, ?_, ?_⟩ <;> cases b <;> decide +kernel

end Spoc.Props
