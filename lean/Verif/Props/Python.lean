import Verif.Model.Python
import Verif.Props.File
import Verif.Proofs.Apps
import Verif.Proofs.WriteSafe

/-!
# C82: files written and read from Python, and C83: the Python objects
-/

namespace Spoc.Props

open Spec Python Text Io

/-! ## C82 -/

/-- The file can be written, and read afterwards. -/
def PyCanWrite (s : State) (n : Str) : Prop :=
  match s.fs n with
  | some x => x.writable = true ∧ x.readable = true
  | none => s.canCreate n = true

/-- The UTF-8 encoding of a text. -/
def utf8 (t : Str) : Bytes := t.flatMap String.utf8EncodeChar

theorem toStr_utf8 (t : Str) : toStr (utf8 t) = .ok t := by
  have h : ByteArray.mk (utf8 t).toArray = t.utf8Encode := by
    unfold List.utf8Encode utf8
    apply ByteArray.ext
    rw [List.data_toByteArray]
  unfold toStr
  rw [h, List.utf8Decode?_utf8Encode]

theorem toStr_ok {b : Bytes} {t : Str} (h : toStr b = .ok t) : b = utf8 t := by
  unfold toStr at h
  split at h
  · next s hs =>
    have h0 := ByteArray.utf8Encode_get_utf8Decode? (b := ByteArray.mk b.toArray) (h := by rw [hs]; rfl)
    simp only [hs, Option.get_some] at h0
    injection h with h
    rw [h] at h0
    have h1 := congrArg (fun x : ByteArray => x.data.toList) h0
    simpa [List.utf8Encode, utf8] using h1.symm
  · simp at h

theorem writeFile_build (b b' : Build) {z : Zlib} (hz : z.Correct) {f : SpocFile} (hf : Survives z f) :
    Io.writeFile b z f = Io.writeFile b' z f := by
  have hv := (uniform_iff f).mp hf.1.uniform
  cases hc : f.compressed with
  | false => rw [writeFile_uncompressed_eq b z hc hv hf.1.wkt, writeFile_uncompressed_eq b' z hc hv hf.1.wkt]
  | true =>
    have h8 : 8 * f.prs.length < 2 ^ 32 := (hf.2.2 hc).1.1
    rw [writeFile_compressed_eq b hz hc hv hf.1.wkt h8, writeFile_compressed_eq b' hz hc hv hf.1.wkt h8]

theorem object_ok {α : Type} {l : List α} {h : Nat} {a : α} : object l h = .ok a ↔ l[h]? = some a := by
  unfold object
  cases l[h]? <;> simp

/-- A program with some objects and no files on the disk. -/
def pyExample : State where
  fs := fun _ => none
  canCreate := fun _ => true
  recs := [{}, { extra := [7, 8] }, { x := F64.one }]
  files := [exampleFile, { exampleFile with prs := [] }]

example : pyExample.files[0]? = some exampleFile ∧ Survives toyZlib exampleFile ∧ PyCanWrite pyExample "a.spoc".toList :=
  ⟨rfl, ⟨exampleFile_writable, fun _ => by decide, fun h => by simp [exampleFile] at h⟩, rfl⟩

/-- **C82** (partial as C01 and C02 are: for files that survive a round trip).  A file object that is written can be read again, by this
program or another, whatever else happens to other files in between; the new object is the same cloud, and the header tells what is in it. -/
theorem c82_write_read_partial (P P' : Params) (hz : P.zlib.Correct) (hP : P'.zlib = P.zlib) (s : State) (h : Nat) (f : SpocFile) (n : Str)
    (hf : s.files[h]? = some f) (hs : Survives P.zlib f) (hc : PyCanWrite s n) :
    ∃ fs', step P s (.writespocfile n h) = ({ s with fs := fs' }, .ok .nothing) ∧ (∀ m, m ≠ n → fs' m = s.fs m)
      ∧ ∀ t : State, t.fs n = fs' n →
        step P' t (.readspocfile n) = ({ t with files := t.files ++ [f] }, .ok (.newFile t.files.length))
          ∧ ∃ hd : Header, step P' t (.readheader n) = (t, .ok (.header hd)) ∧ hd.totalPoints.toNat = f.prs.length
            ∧ (∀ q ∈ f.prs, hd.extraFields.toNat = q.extra.length) ∧ hd.wkt = f.wkt ∧ (hd.compressed ≠ 0 ↔ f.compressed = true) := by
  obtain ⟨x, h1, h2⟩ : ∃ x, Tile.openWrite s.canCreate s.fs n = some x ∧ x.readable = true := by
    unfold PyCanWrite at hc
    unfold Tile.openWrite
    cases hx : s.fs n with
    | some x =>
      simp only [hx] at hc
      exact ⟨_, if_pos hc.1, hc.2⟩
    | none =>
      simp only [hx] at hc
      exact ⟨_, if_pos hc, rfl⟩
  have hw := survives_roundtrip P.build P.zlib hz f hs
  refine ⟨s.fs.set n { x with content := (Io.writeFile P.build P.zlib f).bytes }, ?_, fun m hm => by simp [Tile.FS.set, hm], ?_⟩
  · simp only [step, object_ok.mpr hf, writespocfile, h1, hw.1]
    rfl
  · intro t ht
    have hr : Io.readFile P'.build P'.zlib { rest := (Io.writeFile P.build P.zlib f).bytes } = .ok (f, { rest := [] }) := by
      have hw' := (survives_roundtrip P'.build P.zlib hz f hs).2 []
      rw [List.append_nil, writeFile_build P'.build P.build hz hs] at hw'
      rw [hP]
      exact hw'
    have ho : Main.openRead t.fs n = some { rest := (Io.writeFile P.build P.zlib f).bytes } := by
      unfold Main.openRead
      rw [ht]
      simp [Tile.FS.set, h2]
    have hcopy : f.copy = .ok f := (c12_frame f [] false [] (by intro p hp; simp at hp) hs.1.uniform).2.2.2.2.2.2
    obtain ⟨hd, s1, g1, g2, g3, g4, g5⟩ := (c09_reader_safe _ _ _).2.2 _ _ hr
    refine ⟨?_, hd, ?_, g2.symm, fun q hq => (g3 q hq).symm, g4.symm, g5.symm⟩
    · simp only [step, action, readspocfile, ho, hr, Res.ok_bind, hcopy, transact]
    · simp only [step, action, readheader, ho, g1, Res.ok_bind, transact]

/-- The record objects with these numbers have these values. -/
def HaveValues (s : State) (rs : List Nat) (qs : List PointRecord) : Prop := List.Forall₂ (fun r q => s.recs[r]? = some q) rs qs

theorem mapM_object {s : State} {rs : List Nat} {qs : List PointRecord} (h : HaveValues s rs qs) :
    rs.mapM (object s.recs) = .ok qs := by
  unfold HaveValues at h
  induction h with
  | nil => rfl
  | cons h1 _ ih => rw [List.mapM_cons, object_ok.mpr h1, ih]; rfl

/-- A file object as `SpocFile (t, c)` and `setPointRecords` make it. -/
def made (t : Str) (c : Bool) (qs : List PointRecord) : SpocFile :=
  { major := majorVersion, minor := minorVersion, wkt := utf8 t, compressed := c, prs := qs }

/-- **C82** (partial in the same way).  A cloud made in Python from a text, a flag and records, written, and read by another program, has
the same text, the same flag and the same records. -/
theorem c82_made_in_python_partial (P P' : Params) (hz : P.zlib.Correct) (hP : P'.zlib = P.zlib) (s : State) (t : Str) (c : Bool)
    (rs : List Nat) (qs : List PointRecord) (n : Str) (hq : HaveValues s rs qs) (hs : Survives P.zlib (made t c qs)) (hc : PyCanWrite s n) :
    ∃ s', run P s [.newFile (.str t) c, .setPointRecords s.files.length rs, .writespocfile n s.files.length]
        = (s', [.ok (.newFile s.files.length), .ok .nothing, .ok .nothing])
      ∧ (∀ m, m ≠ n → s'.fs m = s.fs m)
      ∧ ∀ canCreate, ∃ t', run P' (start s'.fs canCreate) [.readspocfile n, .getWKT 0, .getCompressed 0, .getPointRecords 0]
          = (t', [.ok (.newFile 0), .ok (.text t), .ok (.flag c), .ok (.newRecords (List.range' 0 qs.length))]) ∧ t'.recs = qs := by
  have hu : Uniform qs := hs.1.uniform
  have hall : allSameSizeExtra qs = true := (allSame_uniform qs).mpr hu
  let s1 : State := { s with files := s.files ++ [made t c []] }
  let s2 : State := { s with files := s.files ++ [made t c qs] }
  have e1 : step P s (.newFile (.str t) c) = (s1, .ok (.newFile s.files.length)) := by
    simp only [step, action, SpocFile.new', SpocFile.new, PyText.toStd]
    rfl
  have e2 : step P s1 (.setPointRecords s.files.length rs) = (s2, .ok .nothing) := by
    have ha : object s1.files s.files.length = .ok (made t c []) := object_ok.mpr (by simp [s1])
    have hb : rs.mapM (object s1.recs) = .ok qs := mapM_object hq
    simp only [step, action, ha, Res.ok_bind, hb, SpocFile.setPointRecords, hall, Bool.not_true, Bool.false_eq_true, if_false, transact]
    simp [s1, s2, made]
  obtain ⟨fs', e3, hm, hr⟩ := c82_write_read_partial P P' hz hP s2 s.files.length (made t c qs) n (by simp [s2]) hs hc
  refine ⟨{ s2 with fs := fs' }, ?_, hm, ?_⟩
  · simp only [run, e1, e2, e3]
  · intro cc
    have e4 := (hr (start fs' cc) rfl).1
    refine ⟨{ fs := fs', canCreate := cc, recs := qs, files := [made t c qs] }, ?_, rfl⟩
    have e5 : ({ start fs' cc with files := (start fs' cc).files ++ [made t c qs] } : State)
        = { fs := fs', canCreate := cc, recs := [], files := [made t c qs] } := rfl
    rw [e5] at e4
    simp only [run, e4]
    simp only [step, action, object, List.getElem?_cons_zero, Res.ok_bind, made, toStr_utf8, transact, List.nil_append, List.length_nil, start]

example : HaveValues pyExample [0, 2] [{}, { x := F64.one }] ∧ Survives toyZlib (made "wkt".toList false [{}, { x := F64.one }])
    ∧ utf8 "Zürich".toList = [90, 195, 188, 114, 105, 99, 104] :=
  ⟨.cons rfl (.cons rfl .nil), ⟨⟨rfl, rfl, by decide, by unfold Uniform; decide, by decide, by decide⟩, fun _ => by decide, fun h => by simp [made] at h⟩,
    by decide⟩

/-- **C82**: a file that cannot be opened raises an exception, and nothing changes. -/
theorem c82_cannot_open (P : Params) (s : State) (n : Str) :
    ((s.fs n).all (fun x => !x.readable) = true → (∃ e, step P s (.readheader n) = (s, .throw e)) ∧ ∃ e, step P s (.readspocfile n) = (s, .throw e))
    ∧ ((∀ x, s.fs n = some x → x.writable = false) → (s.fs n = none → s.canCreate n = false) → ∀ h,
        ∃ e, step P s (.writespocfile n h) = (s, .throw e)) := by
  constructor
  · intro h
    have ho : Main.openRead s.fs n = none := by
      unfold Main.openRead
      cases hx : s.fs n with
      | none => rfl
      | some x =>
        rw [hx] at h
        simp only [Option.all_some, Bool.not_eq_true'] at h
        simp [h]
    exact ⟨⟨_, by simp only [step, action, readheader, ho]; rfl⟩, ⟨_, by simp only [step, action, readspocfile, ho]; rfl⟩⟩
  · intro h1 h2 h
    have ho : Tile.openWrite s.canCreate s.fs n = none := by
      unfold Tile.openWrite
      cases hx : s.fs n with
      | none => simp [h2 hx]
      | some x => simp [h1 x hx]
    simp only [step]
    unfold object
    cases s.files[h]? with
    | none => exact ⟨_, rfl⟩
    | some f => exact ⟨_, by simp only [writespocfile, ho]; rfl⟩

example : (pyExample.fs "a.spoc".toList).all (fun x => !x.readable) = true
    ∧ (∀ x, pyExample.fs "a.spoc".toList = some x → x.writable = false) := ⟨rfl, fun x h => by simp [pyExample] at h⟩

/-- **C82, negation.**  A text that is too long for the format is noticed only after the old file has been emptied. -/
theorem c82_failed_write_empties (P : Params) (s : State) (h : Nat) (f : SpocFile) (n : Str) (x : Tile.File) (hf : s.files[h]? = some f)
    (hw : 65535 < f.wkt.length) (hx : s.fs n = some x) (hx' : x.writable = true) :
    ∃ s' e, step P s (.writespocfile n h) = (s', .throw e) ∧ s'.fs n = some { x with content := [] } := by
  have ho : Tile.openWrite s.canCreate s.fs n = some { x with content := [] } := by
    unfold Tile.openWrite
    simp [hx, hx']
  have hwr : Io.writeFile P.build P.zlib f = ⟨[], .throw "The OGC WKT length may not exceed 65535"⟩ := by
    unfold Io.writeFile
    rw [getHeader_throw hw]
    rfl
  refine ⟨{ s with fs := s.fs.set n { x with content := [] } }, "The OGC WKT length may not exceed 65535", ?_, by simp [Tile.FS.set]⟩
  · simp only [step, object_ok.mpr hf, writespocfile, ho, hwr]
    rfl

example : ∃ s : State, ∃ f : SpocFile, s.files[0]? = some f ∧ 65535 < f.wkt.length
    ∧ s.fs "a.spoc".toList = some { content := [1, 2, 3], readable := true, writable := true } :=
  ⟨⟨fun _ => some { content := [1, 2, 3], readable := true, writable := true }, fun _ => true, [],
      [{ exampleFile with wkt := List.replicate 65536 65 }]⟩, _, rfl, by rw [List.length_replicate]; decide, rfl⟩

/-! ## C83 -/

/-- The file object that a call is meant to change. -/
def changesFile : Call → Option Nat
  | .setWKT h _ => some h
  | .setCompressed h _ => some h
  | .setPointRecord h _ _ => some h
  | .setPointRecords h _ => some h
  | _ => none

/-- The record object that a call is meant to change. -/
def changesRecord : Call → Option Nat
  | .assign r _ => some r
  | _ => none

/-- The file on the disk that a call is meant to change. -/
def changesDisk : Call → Option Str
  | .writespocfile n _ => some n
  | _ => none

/-- Everything except what the call is meant to change is as before. -/
structure Frame (c : Call) (s s' : State) : Prop where
  files : ∀ h f, s.files[h]? = some f → changesFile c ≠ some h → s'.files[h]? = some f
  recs : ∀ r q, s.recs[r]? = some q → changesRecord c ≠ some r → s'.recs[r]? = some q
  disk : ∀ m, changesDisk c ≠ some m → s'.fs m = s.fs m

theorem Frame.same (c : Call) (s : State) : Frame c s s := ⟨fun _ _ h _ => h, fun _ _ h _ => h, fun _ _ => rfl⟩

theorem frame_transact {c : Call} {s : State} {r : Res (State × Value)} (h : ∀ s' v, r = .ok (s', v) → Frame c s s') :
    Frame c s (transact s r).1 := by
  cases r with
  | ok a => exact h a.1 a.2 rfl
  | throw e => exact Frame.same c s
  | ub w => exact Frame.same c s
  | abort => exact Frame.same c s
  | hang => exact Frame.same c s

theorem getElem?_append_old {α : Type} {l l' : List α} {h : Nat} {a : α} (e : l[h]? = some a) : (l ++ l')[h]? = some a := by
  rw [List.getElem?_append_left (List.getElem?_eq_some_iff.mp e).1]
  exact e

theorem frame_recs {c : Call} {s : State} {l : List PointRecord} : Frame c s { s with recs := s.recs ++ l } :=
  ⟨fun _ _ h _ => h, fun _ _ h _ => getElem?_append_old h, fun _ _ => rfl⟩

theorem frame_files {c : Call} {s : State} {l : List SpocFile} : Frame c s { s with files := s.files ++ l } :=
  ⟨fun _ _ h _ => getElem?_append_old h, fun _ _ h _ => h, fun _ _ => rfl⟩

theorem frame_set {c : Call} {s : State} {h : Nat} {f : SpocFile} (hc : changesFile c = some h) :
    Frame c s { s with files := s.files.set h f } := by
  refine ⟨fun k g e hk => ?_, fun _ _ h _ => h, fun _ _ => rfl⟩
  rw [hc] at hk
  rw [List.getElem?_set_ne (fun e => hk (congrArg some e))]
  exact e

/-- What an action can do to the objects. -/
theorem action_cases {P : Params} {s s' : State} {c : Call} {v : Value} (h : action P s c = .ok (s', v)) :
    s' = s ∨ (∃ l, s' = { s with recs := s.recs ++ l }) ∨ (∃ r q, changesRecord c = some r ∧ s' = { s with recs := s.recs.set r q })
      ∨ (∃ f, Uniform f.prs ∧ f.major = majorVersion ∧ f.minor = minorVersion ∧ s' = { s with files := s.files ++ [f] })
      ∨ ∃ k f f', changesFile c = some k ∧ s.files[k]? = some f ∧ s' = { s with files := s.files.set k f' }
          ∧ (Uniform f.prs → Uniform f'.prs) ∧ f'.major = f.major ∧ f'.minor = f.minor := by
  cases c with
  | newRecord =>
    simp only [action, Res.ok.injEq, Prod.mk.injEq] at h
    exact .inr (.inl ⟨_, h.1.symm⟩)
  | look r =>
    obtain ⟨q, -, h⟩ := Res.bind_eq_ok.mp h
    simp only [Res.ok.injEq, Prod.mk.injEq] at h
    exact .inl h.1.symm
  | assign r a =>
    obtain ⟨q, -, h⟩ := Res.bind_eq_ok.mp h
    obtain ⟨q', -, h⟩ := Res.bind_eq_ok.mp h
    simp only [Res.ok.injEq, Prod.mk.injEq] at h
    exact .inr (.inr (.inl ⟨r, q', rfl, h.1.symm⟩))
  | appendExtra r n =>
    obtain ⟨q, -, h⟩ := Res.bind_eq_ok.mp h
    simp only [Res.ok.injEq, Prod.mk.injEq] at h
    exact .inl h.1.symm
  | newFile t c =>
    obtain ⟨f, hf, h⟩ := Res.bind_eq_ok.mp h
    simp only [Res.ok.injEq, Prod.mk.injEq] at h
    simp only [SpocFile.new', SpocFile.new] at hf
    split at hf
    · simp at hf
    · injection hf with hf
      subst hf
      exact .inr (.inr (.inr (.inl ⟨_, by intro p hp; simp at hp, rfl, rfl, h.1.symm⟩)))
  | getMajorVersion k =>
    obtain ⟨q, -, h⟩ := Res.bind_eq_ok.mp h
    simp only [Res.ok.injEq, Prod.mk.injEq] at h
    exact .inl h.1.symm
  | getMinorVersion k =>
    obtain ⟨q, -, h⟩ := Res.bind_eq_ok.mp h
    simp only [Res.ok.injEq, Prod.mk.injEq] at h
    exact .inl h.1.symm
  | getWKT k =>
    obtain ⟨q, -, h⟩ := Res.bind_eq_ok.mp h
    obtain ⟨t, -, h⟩ := Res.bind_eq_ok.mp h
    simp only [Res.ok.injEq, Prod.mk.injEq] at h
    exact .inl h.1.symm
  | setWKT k t =>
    obtain ⟨f, hf, h⟩ := Res.bind_eq_ok.mp h
    simp only [Res.ok.injEq, Prod.mk.injEq] at h
    exact .inr (.inr (.inr (.inr ⟨k, f, _, rfl, object_ok.mp hf, h.1.symm, id, rfl, rfl⟩)))
  | getCompressed k =>
    obtain ⟨q, -, h⟩ := Res.bind_eq_ok.mp h
    simp only [Res.ok.injEq, Prod.mk.injEq] at h
    exact .inl h.1.symm
  | setCompressed k b =>
    obtain ⟨f, hf, h⟩ := Res.bind_eq_ok.mp h
    simp only [Res.ok.injEq, Prod.mk.injEq] at h
    exact .inr (.inr (.inr (.inr ⟨k, f, _, rfl, object_ok.mp hf, h.1.symm, id, rfl, rfl⟩)))
  | getPointRecord k i =>
    obtain ⟨f, -, h⟩ := Res.bind_eq_ok.mp h
    obtain ⟨i', -, h⟩ := Res.bind_eq_ok.mp h
    obtain ⟨q, -, h⟩ := Res.bind_eq_ok.mp h
    simp only [Res.ok.injEq, Prod.mk.injEq] at h
    exact .inr (.inl ⟨_, h.1.symm⟩)
  | setPointRecord k i r =>
    obtain ⟨f, hf, h⟩ := Res.bind_eq_ok.mp h
    obtain ⟨i', -, h⟩ := Res.bind_eq_ok.mp h
    obtain ⟨q, -, h⟩ := Res.bind_eq_ok.mp h
    obtain ⟨f', hf', h⟩ := Res.bind_eq_ok.mp h
    simp only [Res.ok.injEq, Prod.mk.injEq] at h
    have key : (Uniform f.prs → Uniform f'.prs) ∧ f'.major = f.major ∧ f'.minor = f.minor := by
      unfold SpocFile.setPointRecord at hf'
      obtain ⟨-, -, hf'⟩ := Res.bind_eq_ok.mp hf'
      split at hf'
      · simp at hf'
      · next he =>
        split at hf'
        · next hi =>
          injection hf' with hf'
          subst hf'
          refine ⟨fun hu => ?_, rfl, rfl⟩
          have hx : ∀ p ∈ f.prs, p.extra.length = f.extraFields := (isValid_iff f).mp ((uniform_iff f).mp hu)
          have hy : ∀ p ∈ f.prs.set i' q, p.extra.length = f.extraFields := by
            intro p hp
            rcases List.mem_or_eq_of_mem_set hp with hp | hp
            · exact hx p hp
            · rw [hp]
              exact not_not.mp he
          intro p hp p' hp'
          rw [hy p hp, hy p' hp']
        · simp at hf'
    exact .inr (.inr (.inr (.inr ⟨k, f, f', rfl, object_ok.mp hf, h.1.symm, key⟩)))
  | getPointRecords k =>
    obtain ⟨f, -, h⟩ := Res.bind_eq_ok.mp h
    simp only [Res.ok.injEq, Prod.mk.injEq] at h
    exact .inr (.inl ⟨_, h.1.symm⟩)
  | setPointRecords k rs =>
    obtain ⟨f, hf, h⟩ := Res.bind_eq_ok.mp h
    obtain ⟨qs, -, h⟩ := Res.bind_eq_ok.mp h
    obtain ⟨f', hf', h⟩ := Res.bind_eq_ok.mp h
    simp only [Res.ok.injEq, Prod.mk.injEq] at h
    have key : (Uniform f.prs → Uniform f'.prs) ∧ f'.major = f.major ∧ f'.minor = f.minor := by
      unfold SpocFile.setPointRecords at hf'
      split at hf'
      · simp at hf'
      · next he =>
        injection hf' with hf'
        subst hf'
        exact ⟨fun _ => (allSame_uniform qs).mp (by simpa using he), rfl, rfl⟩
    exact .inr (.inr (.inr (.inr ⟨k, f, f', rfl, object_ok.mp hf, h.1.symm, key⟩)))
  | getColumn k col =>
    obtain ⟨q, -, h⟩ := Res.bind_eq_ok.mp h
    simp only [Res.ok.injEq, Prod.mk.injEq] at h
    exact .inl h.1.symm
  | getExtra k e =>
    obtain ⟨q, -, h⟩ := Res.bind_eq_ok.mp h
    obtain ⟨t, -, h⟩ := Res.bind_eq_ok.mp h
    obtain ⟨t, -, h⟩ := Res.bind_eq_ok.mp h
    simp only [Res.ok.injEq, Prod.mk.injEq] at h
    exact .inl h.1.symm
  | readheader n =>
    obtain ⟨q, -, h⟩ := Res.bind_eq_ok.mp h
    simp only [Res.ok.injEq, Prod.mk.injEq] at h
    exact .inl h.1.symm
  | readspocfile n =>
    obtain ⟨f, hf, h⟩ := Res.bind_eq_ok.mp h
    simp only [Res.ok.injEq, Prod.mk.injEq] at h
    unfold readspocfile at hf
    split at hf
    · simp at hf
    · obtain ⟨⟨g, s2⟩, hg, hf⟩ := Res.bind_eq_ok.mp hf
      have hw := readable_writable hg
      have hcopy : g.copy = .ok g := (c12_frame g [] false [] (by intro p hp; simp at hp) hw.uniform).2.2.2.2.2.2
      dsimp only at hf
      rw [hcopy] at hf
      injection hf with hf
      subst hf
      exact .inr (.inr (.inr (.inl ⟨_, hw.uniform, hw.major, hw.minor, h.1.symm⟩)))
  | writespocfile n k => simp [action] at h

/-- **C83**: a call changes nothing but what it is called for: other file objects, other records and other files on the disk stay as they
are.  In particular a record obtained from a file is a copy, and so is one put into a file. -/
theorem c83_frame (P : Params) (s : State) (c : Call) : Frame c s (step P s c).1 := by
  cases c with
  | writespocfile n h =>
    simp only [step]
    cases object s.files h with
    | ok f =>
      refine ⟨fun _ _ h _ => h, fun _ _ h _ => h, fun m hm => ?_⟩
      simp only [writespocfile]
      split
      · rfl
      · have hne : m ≠ n := fun e => hm (by rw [e]; rfl)
        simp [Tile.FS.set, hne]
    | throw e => exact Frame.same _ s
    | ub w => exact Frame.same _ s
    | abort => exact Frame.same _ s
    | hang => exact Frame.same _ s
  | _ =>
    refine frame_transact fun s' v h => ?_
    rcases action_cases h with rfl | ⟨l, rfl⟩ | ⟨r, q, hr, rfl⟩ | ⟨f, -, -, -, rfl⟩ | ⟨k, f, f', hk, -, rfl, -⟩
    · exact Frame.same _ _
    · exact frame_recs
    · refine ⟨fun _ _ h _ => h, fun k g e hk => ?_, fun _ _ => rfl⟩
      rw [hr] at hk
      rw [List.getElem?_set_ne (fun e => hk (congrArg some e))]
      exact e
    · exact frame_files
    · exact frame_set hk

example : changesFile (.getPointRecord 0 0) = none ∧ changesRecord (.assign 0 (.c 5)) = some 0 ∧ changesDisk (.writespocfile [] 0) = some [] :=
  ⟨rfl, rfl, rfl⟩

/-- **C83**: a call that raises an exception changes no object, and changes the disk only if it is `writespocfile`. -/
theorem c83_exception (P : Params) (s s' : State) (c : Call) (e : String) (h : step P s c = (s', .throw e)) :
    s'.files = s.files ∧ s'.recs = s.recs ∧ (changesDisk c = none → s' = s) := by
  cases c with
  | writespocfile n k =>
    simp only [step] at h
    cases ho : object s.files k with
    | ok f =>
      rw [ho] at h
      simp only [Prod.mk.injEq] at h
      obtain ⟨rfl, -⟩ := h
      exact ⟨rfl, rfl, fun h => by simp [changesDisk] at h⟩
    | throw e => rw [ho] at h; simp only [Prod.mk.injEq] at h; obtain ⟨rfl, -⟩ := h; exact ⟨rfl, rfl, fun _ => rfl⟩
    | ub w => rw [ho] at h; simp at h
    | abort => rw [ho] at h; simp at h
    | hang => rw [ho] at h; simp at h
  | _ =>
    simp only [step, transact] at h
    split at h
    · simp at h
    all_goals first
      | (simp only [Prod.mk.injEq] at h; obtain ⟨rfl, -⟩ := h; exact ⟨rfl, rfl, fun _ => rfl⟩)

example (P : Params) : ∃ e, step P pyExample (.assign 0 (.i 65536)) = (pyExample, .throw e) := ⟨"TypeError", rfl⟩

/-- All file objects are consistent: their records agree in the number of extra fields, and they are of the current version. -/
def Consistent (s : State) : Prop := ∀ f ∈ s.files, Uniform f.prs ∧ f.major = majorVersion ∧ f.minor = minorVersion

theorem consistent_step {P : Params} {s : State} (h : Consistent s) (c : Call) : Consistent (step P s c).1 := by
  cases c with
  | writespocfile n k =>
    simp only [step]
    cases object s.files k <;> exact h
  | _ =>
    simp only [step, transact]
    split
    · next s' v ha =>
      rcases action_cases ha with rfl | ⟨l, rfl⟩ | ⟨r, q, hr, rfl⟩ | ⟨f, h1, h2, h3, rfl⟩ | ⟨k, f, f', hk, hf, rfl, h1, h2, h3⟩
      · exact h
      · exact h
      · exact h
      · intro g hg
        rcases List.mem_append.mp hg with hg | hg
        · exact h g hg
        · rw [List.mem_singleton.mp hg]
          exact ⟨h1, h2, h3⟩
      · intro g hg
        rcases List.mem_or_eq_of_mem_set hg with hg | hg
        · exact h g hg
        · have := h f (List.mem_of_getElem? hf)
          rw [hg, h2, h3]
          exact ⟨h1 this.1, this.2⟩
    all_goals exact h

/-- **C83**: whatever a program does, its file objects are consistent at every moment. -/
theorem c83_consistent (P : Params) (fs : Tile.FS) (canCreate : Str → Bool) (cs : List Call) :
    ∀ f ∈ (run P (start fs canCreate) cs).1.files, Uniform f.prs ∧ f.major = majorVersion ∧ f.minor = minorVersion := by
  have key : ∀ (cs : List Call) (s : State), Consistent s → Consistent (run P s cs).1 := by
    intro cs
    induction cs with
    | nil => exact fun s h => h
    | cons c cs ih =>
      intro s h
      have h' := consistent_step (P := P) h c
      simp only [run]
      split
      · next s' v e => rw [e] at h'; exact ih _ h'
      · next s' v e => rw [e] at h'; exact ih _ h'
      · next s' r h1 h2 e => rw [e] at h'; exact h'
  exact key cs _ (fun f hf => by simp [start] at hf)

theorem toUnsigned_nat {bits k : Nat} (h : k < 2 ^ bits) : toUnsigned bits (k : Int) = .ok k := by
  unfold toUnsigned
  rw [if_pos ⟨Int.natCast_nonneg k, by exact_mod_cast h⟩]
  rfl

/-- **C83**: what has been set is what is obtained. -/
theorem c83_set_get (P : Params) (s : State) (h : Nat) (f : SpocFile) (hf : s.files[h]? = some f) :
    (∀ t, (run P s [.setWKT h (.str t), .getWKT h]).2 = [.ok .nothing, .ok (.text t)])
    ∧ (∀ c, (run P s [.setCompressed h c, .getCompressed h]).2 = [.ok .nothing, .ok (.flag c)])
    ∧ (∀ rs qs, HaveValues s rs qs → Uniform qs →
        ∃ s' ns, run P s [.setPointRecords h rs, .getPointRecords h] = (s', [.ok .nothing, .ok (.newRecords ns)]) ∧ HaveValues s' ns qs)
    ∧ (∀ i r q, i < f.prs.length → i < 2 ^ 64 → s.recs[r]? = some q → (∀ p ∈ f.prs, q.extra.length = p.extra.length) →
        ∃ s' n, run P s [.setPointRecord h i r, .getPointRecord h i] = (s', [.ok .nothing, .ok (.newRecords [n])]) ∧ s'.recs[n]? = some q) := by
  have hlt : h < s.files.length := (List.getElem?_eq_some_iff.mp hf).1
  have ho := object_ok.mpr hf
  have hset : ∀ g : SpocFile, object (s.files.set h g) h = .ok g := fun g => object_ok.mpr (by simp [hlt])
  refine ⟨fun t => ?_, fun c => ?_, fun rs qs hq hu => ?_, fun i r q hi hi' hr he => ?_⟩
  · have e1 : step P s (.setWKT h (.str t)) = ({ s with files := s.files.set h (f.setWkt (utf8 t)) }, .ok .nothing) := by
      simp only [step, action, ho, Res.ok_bind, transact]; rfl
    have e2 : step P { s with files := s.files.set h (f.setWkt (utf8 t)) } (.getWKT h)
        = ({ s with files := s.files.set h (f.setWkt (utf8 t)) }, .ok (.text t)) := by
      simp only [step, action, hset, Res.ok_bind, SpocFile.setWkt, toStr_utf8, transact]
    simp only [run, e1, e2]
  · have e1 : step P s (.setCompressed h c) = ({ s with files := s.files.set h (f.setCompressed c) }, .ok .nothing) := by
      simp only [step, action, ho, Res.ok_bind, transact]
    have e2 : step P { s with files := s.files.set h (f.setCompressed c) } (.getCompressed h)
        = ({ s with files := s.files.set h (f.setCompressed c) }, .ok (.flag c)) := by
      simp only [step, action, hset, Res.ok_bind, SpocFile.setCompressed, transact]
    simp only [run, e1, e2]
  · have hall : allSameSizeExtra qs = true := (allSame_uniform qs).mpr hu
    have e1 : step P s (.setPointRecords h rs) = ({ s with files := s.files.set h { f with prs := qs } }, .ok .nothing) := by
      simp only [step, action, ho, Res.ok_bind, mapM_object hq, SpocFile.setPointRecords, hall, Bool.not_true, Bool.false_eq_true,
        if_false, transact]
    have e2 : step P { s with files := s.files.set h { f with prs := qs } } (.getPointRecords h)
        = ({ s with files := s.files.set h { f with prs := qs }, recs := s.recs ++ qs },
            .ok (.newRecords (List.range' s.recs.length qs.length))) := by
      simp only [step, action, hset, Res.ok_bind, transact]
    refine ⟨_, List.range' s.recs.length qs.length, by simp only [run, e1, e2]; rfl, ?_⟩
    unfold HaveValues
    dsimp only
    rw [List.forall₂_iff_get]
    refine ⟨by simp, fun i h1 h2 => ?_⟩
    simp only [List.length_range'] at h1
    simp [h1]
  · have hex : q.extra.length = f.extraFields := by
      rw [extraFields_eq]
      cases hp : f.prs with
      | nil => rw [hp] at hi; simp at hi
      | cons a l => exact he a (by rw [hp]; simp)
    have hu : toUnsigned 64 (i : Int) = .ok i := toUnsigned_nat hi'
    have e1 : step P s (.setPointRecord h i r) = ({ s with files := s.files.set h { f with prs := f.prs.set i q } }, .ok .nothing) := by
      simp only [step, action, ho, Res.ok_bind, hu, object_ok.mpr hr, SpocFile.setPointRecord, hi, decide_true, require_true, hex, ne_eq,
        not_true_eq_false, if_false, if_true, transact]
    have e2 : step P { s with files := s.files.set h { f with prs := f.prs.set i q } } (.getPointRecord h i)
        = ({ s with files := s.files.set h { f with prs := f.prs.set i q }, recs := s.recs ++ [q] }, .ok (.newRecords [s.recs.length])) := by
      have hl : i < (f.prs.set i q).length := by simpa using hi
      simp only [step, action, hset, Res.ok_bind, hu, SpocFile.getPointRecord, hl, decide_true, cassert_true, List.getElem?_set_self hi,
        transact]
    exact ⟨_, s.recs.length, by simp only [run, e1, e2]; rfl, by simp⟩

example : pyExample.files[0]? = some exampleFile ∧ HaveValues pyExample [1, 1] [{ extra := [7, 8] }, { extra := [7, 8] }]
    ∧ Uniform [({ extra := [7, 8] } : PointRecord), { extra := [7, 8] }] := ⟨rfl, .cons rfl (.cons rfl .nil), by unfold Uniform; decide⟩

/-- **C83**: records that do not fit are rejected with an exception. -/
theorem c83_rejects (P : Params) (s : State) (h : Nat) (f : SpocFile) (hf : s.files[h]? = some f) :
    (∀ rs qs, HaveValues s rs qs → ¬ Uniform qs → ∃ e, step P s (.setPointRecords h rs) = (s, .throw e))
    ∧ (∀ i r q p, i < f.prs.length → i < 2 ^ 64 → s.recs[r]? = some q → f.prs.head? = some p → q.extra.length ≠ p.extra.length →
        ∃ e, step P s (.setPointRecord h i r) = (s, .throw e))
    ∧ (∀ i r, i < 0 → (∃ e, step P s (.getPointRecord h i) = (s, .throw e)) ∧ ∃ e, step P s (.setPointRecord h i r) = (s, .throw e)) := by
  have ho := object_ok.mpr hf
  refine ⟨fun rs qs hq hu => ?_, fun i r q p hi hi' hr hp he => ?_, fun i r hi => ?_⟩
  · have hall : allSameSizeExtra qs = false := by
      cases hb : allSameSizeExtra qs with
      | false => rfl
      | true => exact absurd ((allSame_uniform qs).mp hb) hu
    exact ⟨"The point record extra fields have inconsistent sizes", by
      simp only [step, action, ho, Res.ok_bind, mapM_object hq, SpocFile.setPointRecords, hall, Bool.not_false, if_true, transact,
        Res.throw_bind]⟩
  · have hex : q.extra.length ≠ f.extraFields := by
      rw [extraFields_eq, hp]
      exact he
    have hu : toUnsigned 64 (i : Int) = .ok i := toUnsigned_nat hi'
    refine ⟨"spoc_file::set_point_record(): the point record extra fields size is inconsistent with existing point records", ?_⟩
    simp only [step, action, ho, Res.ok_bind, hu, object_ok.mpr hr, SpocFile.setPointRecord, hi, decide_true, require_true, hex, ne_eq,
      not_false_eq_true, if_true, transact, Res.throw_bind]
  · have hu : toUnsigned 64 i = .throw "TypeError" := by
      unfold toUnsigned
      rw [if_neg (by omega)]
    exact ⟨⟨"TypeError", by simp only [step, action, ho, Res.ok_bind, hu, Res.throw_bind, transact]⟩,
      ⟨"TypeError", by simp only [step, action, ho, Res.ok_bind, hu, Res.throw_bind, transact]⟩⟩

example : HaveValues pyExample [0, 1] [{}, { extra := [7, 8] }] ∧ ¬ Uniform [({} : PointRecord), { extra := [7, 8] }] :=
  ⟨.cons rfl (.cons rfl .nil), by unfold Uniform; decide⟩

theorem getExtra_all (b : Build) (k : Nat) (ps : List PointRecord) (hp : ∀ q ∈ ps, k < q.extra.length) :
    ∃ l, Diff.getExtra b k ps = .ok l
      ∧ List.Forall₂ (fun (q : PointRecord) n => q.extra[k]?.map (·.toNat) = some n) ps (l.map (·.toNat)) := by
  induction ps with
  | nil => exact ⟨[], rfl, .nil⟩
  | cons p ps ih =>
    obtain ⟨l, h1, h2⟩ := ih fun q hq => hp q (by simp [hq])
    have hk' := hp p (by simp)
    refine ⟨p.extra[k] :: l, ?_, .cons (by simp [hk']) h2⟩
    unfold Diff.getExtra at h1 ⊢
    rw [List.mapM_cons, h1]
    simp only [hk', decide_true, cassert_true, Res.ok_bind, List.getElem?_eq_getElem, pure, Res.ok_bind]

/-- **C83**: the records of a file as lists of numbers. -/
theorem c83_columns (P : Params) (s : State) (h : Nat) (f : SpocFile) (hf : s.files[h]? = some f) :
    step P s (.getColumn h .x) = (s, .ok (.floats (f.prs.map PointRecord.x)))
    ∧ step P s (.getColumn h .y) = (s, .ok (.floats (f.prs.map PointRecord.y)))
    ∧ step P s (.getColumn h .z) = (s, .ok (.floats (f.prs.map PointRecord.z)))
    ∧ step P s (.getColumn h .c) = (s, .ok (.ints (f.prs.map (·.c.toNat))))
    ∧ step P s (.getColumn h .p) = (s, .ok (.ints (f.prs.map (·.p.toNat))))
    ∧ step P s (.getColumn h .i) = (s, .ok (.ints (f.prs.map (·.i.toNat))))
    ∧ step P s (.getColumn h .r) = (s, .ok (.ints (f.prs.map (·.r.toNat))))
    ∧ step P s (.getColumn h .g) = (s, .ok (.ints (f.prs.map (·.g.toNat))))
    ∧ step P s (.getColumn h .b) = (s, .ok (.ints (f.prs.map (·.b.toNat))))
    ∧ ∀ k : Nat, k < 2 ^ 64 → (∀ q ∈ f.prs, k < q.extra.length) →
        ∃ l, step P s (.getExtra h k) = (s, .ok (.ints l)) ∧ List.Forall₂ (fun (q : PointRecord) n => q.extra[k]?.map (·.toNat) = some n) f.prs l := by
  have ho := object_ok.mpr hf
  refine ⟨?_, ?_, ?_, ?_, ?_, ?_, ?_, ?_, ?_, fun k hk hq => ?_⟩
  on_goal 10 =>
    obtain ⟨l, h1, h2⟩ := getExtra_all P.build k f.prs hq
    refine ⟨l.map (·.toNat), ?_, h2⟩
    have hu := toUnsigned_nat hk
    have ha : action P s (.getExtra h k) = .ok (s, .ints (l.map (·.toNat))) := by
      simp only [action, ho, Res.ok_bind, hu, h1]
    simp only [step, ha, transact]
  all_goals simp only [step, action, ho, Res.ok_bind, column, transact]

/-- What the assignment of an attribute asks for. -/
def Assigned (q q' : PointRecord) : Attr → Prop
  | .x v => q' = { q with x := v }
  | .y v => q' = { q with y := v }
  | .z v => q' = { q with z := v }
  | .c n => q' = { q with c := q'.c } ∧ (q'.c.toNat : Int) = n
  | .p n => q' = { q with p := q'.p } ∧ (q'.p.toNat : Int) = n
  | .i n => q' = { q with i := q'.i } ∧ (q'.i.toNat : Int) = n
  | .r n => q' = { q with r := q'.r } ∧ (q'.r.toNat : Int) = n
  | .g n => q' = { q with g := q'.g } ∧ (q'.g.toNat : Int) = n
  | .b n => q' = { q with b := q'.b } ∧ (q'.b.toNat : Int) = n
  | .extra l => q' = { q with extra := q'.extra } ∧ q'.extra.map (fun e => (e.toNat : Int)) = l

theorem toUnsigned_cases (bits : Nat) (n : Int) :
    (∃ m : Nat, toUnsigned bits n = .ok m ∧ (m : Int) = n ∧ m < 2 ^ bits)
      ∨ toUnsigned bits n = .throw "TypeError" ∧ ¬ ∃ m : Nat, (m : Int) = n ∧ m < 2 ^ bits := by
  unfold toUnsigned
  by_cases h : 0 ≤ n ∧ n < 2 ^ bits
  · obtain ⟨m, rfl⟩ := Int.eq_ofNat_of_zero_le h.1
    refine .inl ⟨m, by rw [if_pos h]; rfl, rfl, by exact_mod_cast h.2⟩
  · refine .inr ⟨if_neg h, ?_⟩
    rintro ⟨m, rfl, hm⟩
    exact h ⟨Int.natCast_nonneg m, by exact_mod_cast hm⟩

theorem toUnsigned_list (l : List Int) :
    (∃ ms : List Nat, l.mapM (toUnsigned 64) = .ok ms ∧ (ms.map UInt64.ofNat).map (fun e => (e.toNat : Int)) = l)
      ∨ l.mapM (toUnsigned 64) = .throw "TypeError" ∧ ¬ ∃ es : List UInt64, es.map (fun e => (e.toNat : Int)) = l := by
  induction l with
  | nil => exact .inl ⟨[], rfl, rfl⟩
  | cons n l ih =>
    rw [List.mapM_cons]
    rcases toUnsigned_cases 64 n with ⟨m, h1, h2, h3⟩ | ⟨h1, h2⟩
    · rw [h1]
      rcases ih with ⟨ms, h4, h5⟩ | ⟨h4, h5⟩
      · rw [h4]
        refine .inl ⟨m :: ms, rfl, ?_⟩
        simp only [List.map_cons, h5, List.cons.injEq, and_true]
        rw [UInt64.toNat_ofNat', Nat.mod_eq_of_lt h3, h2]
      · rw [h4]
        refine .inr ⟨rfl, ?_⟩
        rintro ⟨es, he⟩
        cases es with
        | nil => simp at he
        | cons e es => exact h5 ⟨es, by simpa using (List.cons.inj he).2⟩
    · rw [h1]
      refine .inr ⟨rfl, ?_⟩
      rintro ⟨es, he⟩
      cases es with
      | nil => simp at he
      | cons e es => exact h2 ⟨e.toNat, (List.cons.inj he).1, e.toNat_lt⟩

theorem assign_spec (q : PointRecord) (a : Attr) :
    (∃ q', a.assign q = .ok q' ∧ Assigned q q' a) ∨ (∃ e, a.assign q = .throw e) ∧ ¬ ∃ q', Assigned q q' a := by
  cases a with
  | x v => exact .inl ⟨_, rfl, rfl⟩
  | y v => exact .inl ⟨_, rfl, rfl⟩
  | z v => exact .inl ⟨_, rfl, rfl⟩
  | c n =>
    rcases toUnsigned_cases 32 n with ⟨m, h1, h2, h3⟩ | ⟨h1, h2⟩
    · exact .inl ⟨_, by simp only [Attr.assign, h1, Res.ok_bind]; rfl, rfl, by simp only [UInt32.toNat_ofNat', Nat.mod_eq_of_lt h3, h2]⟩
    · exact .inr ⟨⟨_, by simp only [Attr.assign, h1]; rfl⟩, fun ⟨q', _, h⟩ => h2 ⟨_, h, q'.c.toNat_lt⟩⟩
  | p n =>
    rcases toUnsigned_cases 32 n with ⟨m, h1, h2, h3⟩ | ⟨h1, h2⟩
    · exact .inl ⟨_, by simp only [Attr.assign, h1, Res.ok_bind]; rfl, rfl, by simp only [UInt32.toNat_ofNat', Nat.mod_eq_of_lt h3, h2]⟩
    · exact .inr ⟨⟨_, by simp only [Attr.assign, h1]; rfl⟩, fun ⟨q', _, h⟩ => h2 ⟨_, h, q'.p.toNat_lt⟩⟩
  | i n =>
    rcases toUnsigned_cases 16 n with ⟨m, h1, h2, h3⟩ | ⟨h1, h2⟩
    · exact .inl ⟨_, by simp only [Attr.assign, h1, Res.ok_bind]; rfl, rfl, by simp only [UInt16.toNat_ofNat', Nat.mod_eq_of_lt h3, h2]⟩
    · exact .inr ⟨⟨_, by simp only [Attr.assign, h1]; rfl⟩, fun ⟨q', _, h⟩ => h2 ⟨_, h, q'.i.toNat_lt⟩⟩
  | r n =>
    rcases toUnsigned_cases 16 n with ⟨m, h1, h2, h3⟩ | ⟨h1, h2⟩
    · exact .inl ⟨_, by simp only [Attr.assign, h1, Res.ok_bind]; rfl, rfl, by simp only [UInt16.toNat_ofNat', Nat.mod_eq_of_lt h3, h2]⟩
    · exact .inr ⟨⟨_, by simp only [Attr.assign, h1]; rfl⟩, fun ⟨q', _, h⟩ => h2 ⟨_, h, q'.r.toNat_lt⟩⟩
  | g n =>
    rcases toUnsigned_cases 16 n with ⟨m, h1, h2, h3⟩ | ⟨h1, h2⟩
    · exact .inl ⟨_, by simp only [Attr.assign, h1, Res.ok_bind]; rfl, rfl, by simp only [UInt16.toNat_ofNat', Nat.mod_eq_of_lt h3, h2]⟩
    · exact .inr ⟨⟨_, by simp only [Attr.assign, h1]; rfl⟩, fun ⟨q', _, h⟩ => h2 ⟨_, h, q'.g.toNat_lt⟩⟩
  | b n =>
    rcases toUnsigned_cases 16 n with ⟨m, h1, h2, h3⟩ | ⟨h1, h2⟩
    · exact .inl ⟨_, by simp only [Attr.assign, h1, Res.ok_bind]; rfl, rfl, by simp only [UInt16.toNat_ofNat', Nat.mod_eq_of_lt h3, h2]⟩
    · exact .inr ⟨⟨_, by simp only [Attr.assign, h1]; rfl⟩, fun ⟨q', _, h⟩ => h2 ⟨_, h, q'.b.toNat_lt⟩⟩
  | extra l =>
    rcases toUnsigned_list l with ⟨ms, h1, h2⟩ | ⟨h1, h2⟩
    · exact .inl ⟨_, by simp only [Attr.assign, h1, Res.ok_bind]; rfl, rfl, h2⟩
    · exact .inr ⟨⟨_, by simp only [Attr.assign, h1]; rfl⟩, fun ⟨q', _, h⟩ => h2 ⟨_, h⟩⟩

/-- **C83**: an attribute takes exactly the values its type can hold; any other value raises an exception. -/
theorem c83_attributes (P : Params) (s : State) (r : Nat) (q : PointRecord) (hq : s.recs[r]? = some q) (a : Attr) :
    (∀ q', Assigned q q' a → ∃ s', run P s [.assign r a, .look r] = (s', [.ok .nothing, .ok (.record q')]))
    ∧ ((¬ ∃ q', Assigned q q' a) → ∃ e, step P s (.assign r a) = (s, .throw e)) := by
  have hlt : r < s.recs.length := (List.getElem?_eq_some_iff.mp hq).1
  have ho := object_ok.mpr hq
  have huniq : ∀ {q1 q2 : PointRecord}, Assigned q q1 a → Assigned q q2 a → q1 = q2 := by
    intro q1 q2 h1 h2
    cases a with
    | x v => exact h1.trans h2.symm
    | y v => exact h1.trans h2.symm
    | z v => exact h1.trans h2.symm
    | c n =>
      have : q1.c = q2.c := UInt32.toNat_inj.mp (by have := h1.2.trans h2.2.symm; exact_mod_cast this)
      rw [h1.1, h2.1, this]
    | p n =>
      have : q1.p = q2.p := UInt32.toNat_inj.mp (by have := h1.2.trans h2.2.symm; exact_mod_cast this)
      rw [h1.1, h2.1, this]
    | i n =>
      have : q1.i = q2.i := UInt16.toNat_inj.mp (by have := h1.2.trans h2.2.symm; exact_mod_cast this)
      rw [h1.1, h2.1, this]
    | r n =>
      have : q1.r = q2.r := UInt16.toNat_inj.mp (by have := h1.2.trans h2.2.symm; exact_mod_cast this)
      rw [h1.1, h2.1, this]
    | g n =>
      have : q1.g = q2.g := UInt16.toNat_inj.mp (by have := h1.2.trans h2.2.symm; exact_mod_cast this)
      rw [h1.1, h2.1, this]
    | b n =>
      have : q1.b = q2.b := UInt16.toNat_inj.mp (by have := h1.2.trans h2.2.symm; exact_mod_cast this)
      rw [h1.1, h2.1, this]
    | extra l =>
      have : q1.extra = q2.extra :=
        List.map_injective_iff.mpr (fun x y h => UInt64.toNat_inj.mp (by exact_mod_cast h)) (h1.2.trans h2.2.symm)
      rw [h1.1, h2.1, this]
  constructor
  · intro q' hq'
    rcases assign_spec q a with ⟨q1, h1, h2⟩ | ⟨-, h2⟩
    · obtain rfl := huniq h2 hq'
      have e1 : step P s (.assign r a) = ({ s with recs := s.recs.set r q1 }, .ok .nothing) := by
        simp only [step, action, ho, Res.ok_bind, h1, transact]
      have ho' : object (s.recs.set r q1) r = .ok q1 := object_ok.mpr (by simp [hlt])
      have e2 : step P { s with recs := s.recs.set r q1 } (.look r) = ({ s with recs := s.recs.set r q1 }, .ok (.record q1)) := by
        simp only [step, action, ho', Res.ok_bind, transact]
      exact ⟨_, by simp only [run, e1, e2]; rfl⟩
    · exact absurd ⟨q', hq'⟩ h2
  · intro hn
    rcases assign_spec q a with ⟨q1, h1, h2⟩ | ⟨⟨e, h1⟩, -⟩
    · exact absurd ⟨q1, h2⟩ hn
    · exact ⟨e, by simp only [step, action, ho, Res.ok_bind, h1, Res.throw_bind, transact]⟩

example : Assigned {} { c := 4294967295 } (.c 4294967295) ∧ (¬ ∃ q', Assigned {} q' (.c 4294967296)) ∧ ¬ ∃ q', Assigned {} q' (.extra [0, -1]) := by
  refine ⟨⟨rfl, by decide⟩, ?_, ?_⟩
  · rintro ⟨q', -, h⟩
    have := q'.c.toNat_lt
    omega
  · rintro ⟨q', -, h⟩
    have h2 := congrArg (fun l : List Int => l.getD 1 0) h
    cases hx : q'.extra with
    | nil => rw [hx] at h2; simp at h2
    | cons a l =>
      cases l with
      | nil => rw [hx] at h2; simp at h2
      | cons b l =>
        rw [hx] at h2
        simp only [List.map_cons, List.getD_cons_succ, List.getD_cons_zero] at h2
        omega

/-- The indices are not behind the end. -/
def InRange (s : State) : Call → Prop
  | .getPointRecord h i => ∀ f, s.files[h]? = some f → i < f.prs.length
  | .setPointRecord h i _ => ∀ f, s.files[h]? = some f → i < f.prs.length
  | .getExtra h k => ∀ f, s.files[h]? = some f → ∀ q ∈ f.prs, k < q.extra.length
  | _ => True

theorem object_tame {α : Type} (l : List α) (h : Nat) : (object l h).Tame := by
  unfold object
  split
  · exact .of_ok
  · exact .of_throw

theorem assign_tame (q : PointRecord) (a : Attr) : (a.assign q).Tame := by
  rcases assign_spec q a with ⟨q', h, -⟩ | ⟨⟨e, h⟩, -⟩
  · exact .inl ⟨q', h⟩
  · exact .inr ⟨e, h⟩

theorem Tame.bind_object {α β : Type} {l : List α} {h : Nat} {f : α → Res β} (hf : ∀ a, l[h]? = some a → (f a).Tame) :
    (object l h >>= f).Tame := by
  cases ho : object l h with
  | ok a => exact hf a (object_ok.mp ho)
  | throw e => exact .of_throw
  | ub w => rcases object_tame l h with ⟨a, e⟩ | ⟨a, e⟩ <;> rw [ho] at e <;> simp at e
  | abort => rcases object_tame l h with ⟨a, e⟩ | ⟨a, e⟩ <;> rw [ho] at e <;> simp at e
  | hang => rcases object_tame l h with ⟨a, e⟩ | ⟨a, e⟩ <;> rw [ho] at e <;> simp at e

theorem transact_tame {s : State} {r : Res (State × Value)} (h : r.Tame) : (transact s r).2.Tame := by
  rcases h with ⟨a, rfl⟩ | ⟨e, rfl⟩
  · exact .of_ok
  · exact .of_throw

theorem bind_unsigned {β : Type} {bits : Nat} {n : Int} {f : Nat → Res β} (hf : ∀ m : Nat, (m : Int) = n → (f m).Tame) :
    (toUnsigned bits n >>= f).Tame := by
  rcases toUnsigned_cases bits n with ⟨m, h1, h2, -⟩ | ⟨h1, -⟩
  · rw [h1]
    exact hf m h2
  · rw [h1]
    exact .of_throw

/-- **C83** (partial: the indices must not be behind the end, see `c83_index_undefined`, and a file that is read may not make the reader
hang, see C09).  Every call returns or raises an exception. -/
theorem c83_safe_partial (P : Params) (s : State) (hs : Consistent s) (c : Call) (hc : InRange s c) :
    (∃ v, (step P s c).2 = .ok v) ∨ (∃ e, (step P s c).2 = .throw e) ∨ (step P s c).2 = .hang ∧ ∃ n, c = .readspocfile n := by
  have key : (step P s c).2.Tame ∨ (step P s c).2 = .hang ∧ ∃ n, c = .readspocfile n := by
    cases c with
    | newRecord => exact .inl (transact_tame .of_ok)
    | look r => exact .inl (transact_tame (Tame.bind_object fun _ _ => .of_ok))
    | assign r a => exact .inl (transact_tame (Tame.bind_object fun q _ => (assign_tame q a).bind fun _ => .of_ok))
    | appendExtra r n => exact .inl (transact_tame (Tame.bind_object fun _ _ => .of_ok))
    | newFile t c =>
      refine .inl (transact_tame (Res.Tame.bind ?_ fun _ => .of_ok))
      unfold SpocFile.new' SpocFile.new
      split
      · exact .of_throw
      · exact .of_ok
    | getMajorVersion h => exact .inl (transact_tame (Tame.bind_object fun _ _ => .of_ok))
    | getMinorVersion h => exact .inl (transact_tame (Tame.bind_object fun _ _ => .of_ok))
    | getWKT h =>
      refine .inl (transact_tame (Tame.bind_object fun f _ => Res.Tame.bind ?_ fun _ => .of_ok))
      unfold toStr
      split
      · exact .of_ok
      · exact .of_throw
    | setWKT h t => exact .inl (transact_tame (Tame.bind_object fun _ _ => .of_ok))
    | getCompressed h => exact .inl (transact_tame (Tame.bind_object fun _ _ => .of_ok))
    | setCompressed h b => exact .inl (transact_tame (Tame.bind_object fun _ _ => .of_ok))
    | getPointRecord h i =>
      refine .inl (transact_tame (Tame.bind_object fun f hf => bind_unsigned fun m hm => Res.Tame.bind ?_ fun _ => .of_ok))
      have hlt : m < f.prs.length := by have := hc f hf; omega
      unfold SpocFile.getPointRecord
      simp only [hlt, decide_true, cassert_true, Res.ok_bind, List.getElem?_eq_getElem]
      exact .of_ok
    | setPointRecord h i r =>
      refine .inl (transact_tame (Tame.bind_object fun f hf => bind_unsigned fun m hm => Tame.bind_object fun q _ =>
        Res.Tame.bind ?_ fun _ => .of_ok))
      have hlt : m < f.prs.length := by have := hc f hf; omega
      unfold SpocFile.setPointRecord
      simp only [hlt, decide_true, require_true, Res.ok_bind, if_true]
      split
      · exact .of_throw
      · exact .of_ok
    | getPointRecords h => exact .inl (transact_tame (Tame.bind_object fun _ _ => .of_ok))
    | setPointRecords h rs =>
      refine .inl (transact_tame (Tame.bind_object fun f hf => Res.Tame.bind (Res.Tame.mapM (object_tame _) rs) fun qs =>
        Res.Tame.bind ?_ fun _ => .of_ok))
      unfold SpocFile.setPointRecords
      split
      · exact .of_throw
      · exact .of_ok
    | getColumn h col => exact .inl (transact_tame (Tame.bind_object fun _ _ => .of_ok))
    | getExtra h k =>
      refine .inl (transact_tame (Tame.bind_object fun f hf => bind_unsigned fun m hm => Res.Tame.bind ?_ fun _ => .of_ok))
      obtain ⟨l, h1, -⟩ := getExtra_all P.build m f.prs (fun q hq => by have := hc f hf q hq; omega)
      rw [h1]
      exact .of_ok
    | readheader n =>
      refine .inl (transact_tame (Res.Tame.bind ?_ fun _ => .of_ok))
      unfold readheader
      split
      · exact .of_throw
      · next i _ =>
        rcases Header.read_general i with ⟨h, s1, h1, -⟩ | ⟨e, he⟩
        · rw [h1]; exact .of_ok
        · rw [he]; exact .of_throw
    | readspocfile n =>
      simp only [step, action]
      unfold readspocfile
      cases Main.openRead s.fs n with
      | none => exact .inl (transact_tame .of_throw)
      | some i =>
        have hsafe := c09_reader_safe P.build P.zlib i
        dsimp only
        cases hr : Io.readFile P.build P.zlib i with
        | ok a =>
          obtain ⟨f, s1⟩ := a
          rw [hr] at hsafe
          refine .inl (transact_tame ?_)
          simp only [Res.ok_bind]
          refine Res.Tame.bind ?_ fun _ => .of_ok
          unfold SpocFile.copy SpocFile.new
          split
          · exact .of_throw
          · exact .of_ok
        | throw e => exact .inl (transact_tame .of_throw)
        | ub w => exact absurd hr (hsafe.1 w)
        | abort => exact absurd hr hsafe.2.1
        | hang => exact .inr ⟨rfl, n, rfl⟩
    | writespocfile n h =>
      left
      simp only [step]
      cases ho : object s.files h with
      | ok f =>
        have hv := (uniform_iff f).mp (hs f (List.mem_of_getElem? (object_ok.mp ho))).1
        dsimp only
        refine Res.Tame.bind (x := (writespocfile P s.canCreate s.fs n f).2) ?_ fun _ => .of_ok
        unfold writespocfile
        split
        · exact .of_throw
        · exact writeFile_tame _ _ hv
      | throw e => exact .of_throw
      | ub w => rcases object_tame s.files h with ⟨a, e⟩ | ⟨a, e⟩ <;> rw [ho] at e <;> simp at e
      | abort => rcases object_tame s.files h with ⟨a, e⟩ | ⟨a, e⟩ <;> rw [ho] at e <;> simp at e
      | hang => rcases object_tame s.files h with ⟨a, e⟩ | ⟨a, e⟩ <;> rw [ho] at e <;> simp at e
  rcases key with h | h
  · rcases h with h | h
    · exact .inl h
    · exact .inr (.inl h)
  · exact .inr (.inr h)

example : Consistent { pyExample with files := [exampleFile] } ∧ InRange pyExample (.getPointRecord 0 1) ∧ ¬ InRange pyExample (.getPointRecord 1 0) := by
  refine ⟨?_, ?_, ?_⟩
  · intro f hf
    rw [List.mem_singleton.mp hf]
    exact ⟨exampleFile_writable.uniform, rfl, rfl⟩
  · intro f hf
    simp only [pyExample, List.getElem?_cons_zero, Option.some.injEq] at hf
    subst hf
    decide
  · intro h
    have := h _ rfl
    simp at this

/-- **C83, negation.**  `r.extra.append (…)` is accepted and changes nothing. -/
theorem c83_append_lost (P : Params) (s : State) (r : Nat) (q : PointRecord) (hq : s.recs[r]? = some q) (n : Int) :
    run P s [.appendExtra r n, .look r] = (s, [.ok .nothing, .ok (.record q)]) := by
  simp only [run, step, action, object_ok.mpr hq, Res.ok_bind, transact]

/-- **C83, negation.**  An index behind the last record, or an extra field that does not exist, raises no exception: the program is
terminated, or its behaviour is undefined. -/
theorem c83_index_undefined (P : Params) (s : State) (h : Nat) (f : SpocFile) (hf : s.files[h]? = some f) (i : Nat) (hi : i < 2 ^ 64) :
    (f.prs.length ≤ i → (step P s (.getPointRecord h i)).2 = .abort ∨ ∃ w, (step P s (.getPointRecord h i)).2 = .ub w)
    ∧ (∀ q l, f.prs = q :: l → q.extra.length ≤ i → (step P s (.getExtra h i)).2 = .abort ∨ ∃ w, (step P s (.getExtra h i)).2 = .ub w)
    ∧ (P.build = .release → f.prs.length ≤ i → ∀ r q, s.recs[r]? = some q → q.extra.length = f.extraFields →
        ∃ w, (step P s (.setPointRecord h i r)).2 = .ub w) := by
  have ho := object_ok.mpr hf
  have hu := toUnsigned_nat hi
  refine ⟨fun hl => ?_, fun q l hl he => ?_, fun hb hl r q hr he => ?_⟩
  · have hlt : ¬ i < f.prs.length := by omega
    have hn : f.prs[i]? = none := List.getElem?_eq_none hl
    cases hb : P.build with
    | debug =>
      left
      simp [step, action, ho, hu, SpocFile.getPointRecord, hlt, hb, cassert, transact]
    | release =>
      right
      exact ⟨"vector index out of range", by simp [step, action, ho, hu, SpocFile.getPointRecord, hb, hn, cassert, transact]⟩
  · have hlt : ¬ i < q.extra.length := by omega
    have hn : q.extra[i]? = none := List.getElem?_eq_none he
    cases hb : P.build with
    | debug =>
      left
      simp [step, action, ho, hu, Diff.getExtra, hl, hlt, hb, cassert, transact]
    | release =>
      right
      exact ⟨"vector index out of range", by simp [step, action, ho, hu, Diff.getExtra, hl, hb, hn, cassert, transact]⟩
  · have hlt : ¬ i < f.prs.length := by omega
    exact ⟨"vector index out of range", by
      simp [step, action, ho, hu, object_ok.mpr hr, SpocFile.setPointRecord, hb, he, hlt, Spoc.require, transact]⟩

/-- **C83, negation.**  A text given as `bytes` that are no UTF-8 is accepted, and the text cannot be obtained any more. -/
theorem c83_text_not_utf8 (P : Params) (s : State) (h : Nat) (f : SpocFile) (hf : s.files[h]? = some f) (b : Bytes) (hb : ∀ t, b ≠ utf8 t) :
    ∃ s' e, run P s [.setWKT h (.bytes b), .getWKT h] = (s', [.ok .nothing, .throw e]) := by
  have hlt : h < s.files.length := (List.getElem?_eq_some_iff.mp hf).1
  have ho' : ∀ g : SpocFile, object (s.files.set h g) h = .ok g := fun g => object_ok.mpr (by simp [hlt])
  have ht : toStr b = .throw "UnicodeDecodeError" := by
    cases hx : toStr b with
    | ok t => exact absurd (toStr_ok hx) (hb t)
    | throw e => unfold toStr at hx; split at hx <;> simp_all
    | ub w => unfold toStr at hx; split at hx <;> simp_all
    | abort => unfold toStr at hx; split at hx <;> simp_all
    | hang => unfold toStr at hx; split at hx <;> simp_all
  refine ⟨{ s with files := s.files.set h (f.setWkt b) }, "UnicodeDecodeError", ?_⟩
  simp only [run, step, action, object_ok.mpr hf, Res.ok_bind, transact, PyText.toStd, ho', SpocFile.setWkt, ht, Res.throw_bind]

example : ∀ t, ([255] : Bytes) ≠ utf8 t := by
  intro t h
  have h1 : toStr [255] = .ok t := by rw [h]; exact toStr_utf8 t
  have h2 : toStr [255] = .throw "UnicodeDecodeError" := by decide +kernel
  rw [h2] at h1
  simp at h1

end Spoc.Props
