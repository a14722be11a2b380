import Verif.Model.PyExamples
import Verif.Props.Python
import Verif.Proofs.Fixed

/-!
# C135: what the Python examples print is true
-/

namespace Spoc.Props

open Spec Python Text PyExamples

/-! ## What a reader of the output expects -/

/-- The lines of a text. -/
def printed (l : List Str) : Str := l.flatMap (fun t => t ++ ['\n'])

/-- Python reads this cloud from the file of this name, and its spatial reference is this text. -/
structure PyReads (P : Python.Params) (fs : Tile.FS) (n : Str) (f : SpocFile) (t : Str) : Prop where
  read : readspocfile P fs n = .ok f
  text : f.wkt = utf8 t

/-- What a reader expects to see of the header of the file `n` with the cloud `f`: the number of characters of the spatial reference, the number of extra
fields of every record, the number of records, and a number that is zero exactly if the cloud is not compressed. -/
def PyHeaderLines (n : Str) (f : SpocFile) (t : Str) (l : List Str) : Prop :=
  ∃ extra compressed : Nat, (∀ q ∈ f.prs, q.extra.length = extra) ∧ (f.compressed = true ↔ compressed ≠ 0)
    ∧ l = [n, "\tversion 0.1".toList, "\twkt ".toList ++ showNat t.length ++ " bytes".toList, "\textra_fields ".toList ++ showNat extra,
      "\ttotal_points ".toList ++ showNat f.prs.length, "\tcompressed ".toList ++ showNat compressed]

/-- A number with five decimals next to the coordinate, or its name. -/
def ShowsCoordinate (x : F64) (s : Str) : Prop :=
  (x.isFinite = true → ∃ d : Numeral, d.Ok ∧ s = d.text ∧ |d.value - x.val| ≤ 1 / 2 / 10 ^ 5)
    ∧ (x.isNaN = true → s = "nan".toList) ∧ (x.isInf = true → s = if x.neg then "-inf".toList else "inf".toList)

/-- What a reader expects to see of a record. -/
def RecordShown (q : PointRecord) (s : Str) : Prop :=
  ∃ x y z, ShowsCoordinate q.x x ∧ ShowsCoordinate q.y y ∧ ShowsCoordinate q.z z
    ∧ s = "\t\t(".toList ++ x ++ ", ".toList ++ y ++ ", ".toList ++ z ++ ") cls=".toList ++ showNat q.c.toNat ++ ", id=".toList ++ showNat q.p.toNat
      ++ ", intensity=".toList ++ showNat q.i.toNat ++ " rgb=[".toList ++ showNat q.r.toNat ++ ", ".toList ++ showNat q.g.toNat ++ ", ".toList
      ++ showNat q.b.toNat ++ "]".toList

/-- What a reader expects to see of the spatial reference: all of a short one, both ends of a long one. -/
def TextShown (t s : Str) : Prop :=
  (t.length < 10 → s = "\tWKT '".toList ++ t ++ "'".toList)
    ∧ (10 ≤ t.length → ∃ a m b, t = a ++ m ++ b ∧ a.length = 5 ∧ b.length = 5 ∧ s = "\tWKT '".toList ++ a ++ "...".toList ++ b ++ "'".toList)

/-- What a reader expects to see of the file `n` with the cloud `f`: of the records the first three and the last three, or all of them if there are
fewer. -/
def PyFileLines (n : Str) (f : SpocFile) (t : Str) (l : List Str) : Prop :=
  ∃ w first last heads tails, TextShown t w ∧ first <+: f.prs ∧ first.length = min 3 f.prs.length ∧ last <:+ f.prs ∧ last.length = min 3 f.prs.length
    ∧ List.Forall₂ RecordShown first heads ∧ List.Forall₂ RecordShown last tails
    ∧ l = [n, "\tSPOC Version 0.1".toList, w, "\tCompressed ".toList ++ (if f.compressed then "True".toList else "False".toList),
        '\t' :: showNat f.prs.length ++ " point records".toList] ++ heads ++ ["\t\t...".toList] ++ tails

/-! ## Texts -/

theorem say_append_ok {l m : List (Res Str)} {s : Str} (h : say l = (s, .ok ())) : say (l ++ m) = (s ++ (say m).1, (say m).2) := by
  induction l generalizing s with
  | nil =>
    simp only [say, Prod.mk.injEq, and_true] at h
    rw [← h]
    rfl
  | cons a l ih =>
    cases a with
    | ok t =>
      simp only [say, Prod.mk.injEq] at h
      have := ih (s := (say l).1) (by rw [← h.2])
      simp only [List.cons_append, say, this, ← h.1, List.append_assoc]
    | _ => simp [say] at h

theorem say_append_bad {l m : List (Res Str)} (h : (say l).2 ≠ .ok ()) : say (l ++ m) = say l := by
  induction l with
  | nil => simp [say] at h
  | cons a l ih =>
    cases a with
    | ok t =>
      simp only [say] at h
      simp only [List.cons_append, say, ih h]
    | _ => rfl

theorem say_ok_append {l m : List (Res Str)} : (say (l ++ m)).2 = .ok () ↔ (say l).2 = .ok () ∧ (say m).2 = .ok () := by
  by_cases h : (say l).2 = .ok ()
  · rw [say_append_ok (l := l) (s := (say l).1) (by rw [← h])]
    simp [h]
  · rw [say_append_bad h]
    simp [h]

theorem say_lines (l : List Str) : say (l.map line) = (printed l, .ok ()) := by
  induction l with
  | nil => rfl
  | cons a l ih => simp [say, line, ih, printed]

theorem printed_append (l m : List Str) : printed (l ++ m) = printed l ++ printed m := by simp [printed]

theorem say_flatMap {α : Type} {k : α → List (Res Str)} {l : List α} {g : α → List Str} (h : ∀ a ∈ l, say (k a) = (printed (g a), .ok ())) :
    say (l.flatMap k) = (printed (l.flatMap g), .ok ()) := by
  induction l with
  | nil => rfl
  | cons a l ih =>
    rw [List.flatMap_cons, say_append_ok (h a (by simp)), ih (fun b hb => h b (by simp [hb])), List.flatMap_cons, printed_append]

theorem say_flatMap_ok {α : Type} {k : α → List (Res Str)} {l : List α} : (say (l.flatMap k)).2 = .ok () ↔ ∀ a ∈ l, (say (k a)).2 = .ok () := by
  induction l with
  | nil => simp [say]
  | cons a l ih => rw [List.flatMap_cons, say_ok_append, ih]; simp

theorem say_showing_ok {α : Type} {r : Res α} {k : α → List (Res Str)} : (say (showing r k)).2 = .ok () ↔ ∃ a, r = .ok a ∧ (say (k a)).2 = .ok () := by
  cases r <;> simp [showing, say]

/-! ## Files -/

theorem readspocfile_eq {P : Python.Params} {fs : Tile.FS} {n : Str} {f : SpocFile} (h : readspocfile P fs n = .ok f) :
    ∃ i s, Main.openRead fs n = some i ∧ Io.readFile P.build P.zlib i = .ok (f, s) ∧ Writable f := by
  unfold readspocfile at h
  split at h
  · simp at h
  · next i hi =>
    obtain ⟨⟨g, s2⟩, hg, hf⟩ := Res.bind_eq_ok.mp h
    have hw := readable_writable hg
    have hcopy : g.copy = .ok g := (c12_frame g [] false [] (by intro p hp; simp at hp) hw.uniform).2.2.2.2.2.2
    dsimp only at hf
    rw [hcopy] at hf
    injection hf with hf
    subst hf
    exact ⟨i, s2, hi, hg, hw⟩

theorem readspocfile_header {P : Python.Params} {fs : Tile.FS} {n : Str} {f : SpocFile} (h : readspocfile P fs n = .ok f) :
    ∃ hd, readheader fs n = .ok hd ∧ f.prs.length = hd.totalPoints.toNat ∧ (∀ q ∈ f.prs, q.extra.length = hd.extraFields.toNat) ∧ f.wkt = hd.wkt
      ∧ (f.compressed = true ↔ hd.compressed ≠ 0) ∧ hd.major = majorVersion ∧ hd.minor = minorVersion := by
  obtain ⟨i, s, hi, hr, -⟩ := readspocfile_eq h
  obtain ⟨hd, s1, h1, h2, h3, h4, h5⟩ := (c09_reader_safe P.build P.zlib i).2.2 f s hr
  refine ⟨hd, ?_, h2, h3, h4, h5, ?_⟩
  · unfold readheader
    rw [hi]
    simp [h1]
  · rcases Header.read_general i with ⟨h', s', e, -, -, e1, e2⟩ | ⟨e, he⟩
    · rw [e] at h1
      simp only [Res.ok.injEq, Prod.mk.injEq] at h1
      rw [← h1.1]
      exact ⟨e1, e2⟩
    · rw [he] at h1
      simp at h1

theorem headerBlock_eq {P : Python.Params} {fs : Tile.FS} {n : Str} {f : SpocFile} {t : Str} (h : PyReads P fs n f t) :
    ∃ l, PyHeaderLines n f t l ∧ say (headerBlock fs n) = (printed l, .ok ()) := by
  obtain ⟨hd, h1, h2, h3, h4, h5, h6, h7⟩ := readspocfile_header h.read
  refine ⟨_, ⟨hd.extraFields.toNat, hd.compressed.toNat, h3, ?_, rfl⟩, ?_⟩
  · rw [h5]
    exact not_congr ⟨fun e => by rw [e]; rfl, fun e => UInt8.toNat_inj.mp e⟩
  · rw [← say_lines]
    congr 1
    unfold headerBlock
    rw [h1]
    simp only [showing]
    rw [h6, h7, ← h4, h.text, wktOf, toStr_utf8, h2]
    rfl

theorem fixed5_shows (x : F64) : ShowsCoordinate x (fixed5 x) := by
  have hnn : x.isNaN = true → x.isFinite = false ∧ x.isInf = false := by
    unfold F64.isNaN F64.isFinite F64.isInf
    simp only [decide_eq_true_eq, decide_eq_false_iff_not]
    omega
  have hin : x.isInf = true → x.isNaN = false := fun h => by
    cases hx : x.isNaN with
    | false => rfl
    | true => rw [(hnn hx).2] at h; simp at h
  refine ⟨fun hf => ?_, fun hn => by simp [fixed5, hn], fun hi => ?_⟩
  · have hx : x.isNaN = false := by
      cases hx : x.isNaN with
      | false => rfl
      | true => rw [(hnn hx).1] at hf; simp at hf
    unfold fixed5
    rw [hx]
    exact ⟨fixedNumeral 5 x, showFixed_numeral (by norm_num) hf⟩
  · unfold fixed5 showFixed
    rw [hin hi, hi]
    cases x.neg <;> rfl

theorem recordLine_shown (q : PointRecord) : RecordShown q (recordLine q) := by
  have e : ") cls=".toList = ")".toList ++ " cls=".toList := by decide
  unfold RecordShown recordLine
  rw [e]
  generalize ")".toList = s1
  generalize " cls=".toList = s2
  exact ⟨fixed5 q.x, fixed5 q.y, fixed5 q.z, fixed5_shows q.x, fixed5_shows q.y, fixed5_shows q.z, by simp only [List.append_assoc]⟩

theorem wktLine_shown (t : Str) : TextShown t (wktLine t) := by
  refine ⟨fun h => by simp [wktLine, h], fun h => ⟨t.take 5, (t.drop 5).take (t.length - 10), t.drop (t.length - 5), ?_, ?_, ?_, ?_⟩⟩
  · have e : t.drop (t.length - 5) = (t.drop 5).drop (t.length - 10) := by
      rw [List.drop_drop]
      congr 1
      omega
    rw [e, List.append_assoc, List.take_append_drop, List.take_append_drop]
  · simp; omega
  · simp; omega
  · rw [wktLine, if_neg (by omega)]

theorem fileBlock_eq {P : Python.Params} {fs : Tile.FS} {n : Str} {f : SpocFile} {t : Str} (h : PyReads P fs n f t) :
    ∃ l, PyFileLines n f t l ∧ say (fileBlock P fs n) = (printed l, .ok ()) := by
  obtain ⟨i, s, hi, hr, hw⟩ := readspocfile_eq h.read
  refine ⟨_, ⟨wktLine t, f.prs.take 3, f.prs.drop (f.prs.length - 3), (f.prs.take 3).map recordLine, (f.prs.drop (f.prs.length - 3)).map recordLine,
    wktLine_shown t, List.take_prefix _ _, by simp, List.drop_suffix _ _, by simp; omega, ?_, ?_, rfl⟩, ?_⟩
  · rw [List.forall₂_map_right_iff]
    exact List.forall₂_same.mpr fun q _ => recordLine_shown q
  · rw [List.forall₂_map_right_iff]
    exact List.forall₂_same.mpr fun q _ => recordLine_shown q
  · rw [← say_lines]
    congr 1
    unfold fileBlock
    rw [h.read]
    simp only [showing]
    rw [hw.major, hw.minor, h.text, wktOf, toStr_utf8]
    simp only [List.map_append, List.map_map]
    rfl

/-! ## C135 -/

/-- **C135**: for files that can be read, whatever their bytes are, the example shows for every one of them first its header and then its contents, and
both describe the cloud that is read from the file: in particular the number of points of the header is the number of records that are read, and
the records shown are the first and the last of them. -/
theorem c135_shown (P : Python.Params) (fs : Tile.FS) (ns : List Str) (cloud : Str → SpocFile) (text : Str → Str)
    (h : ∀ n ∈ ns, PyReads P fs n (cloud n) (text n)) :
    ∃ hl fl : Str → List Str, (∀ n ∈ ns, PyHeaderLines n (cloud n) (text n) (hl n) ∧ PyFileLines n (cloud n) (text n) (fl n))
      ∧ fileio P fs ns = (printed (["Headers:".toList] ++ ns.flatMap hl ++ [[], "Files:".toList] ++ ns.flatMap fl), .ok ()) := by
  classical
  have h1 : ∀ n, ∃ l, n ∈ ns → PyHeaderLines n (cloud n) (text n) l ∧ say (headerBlock fs n) = (printed l, .ok ()) := fun n => by
    by_cases hn : n ∈ ns
    · obtain ⟨l, hl⟩ := headerBlock_eq (h n hn)
      exact ⟨l, fun _ => hl⟩
    · exact ⟨[], fun e => absurd e hn⟩
  have h2 : ∀ n, ∃ l, n ∈ ns → PyFileLines n (cloud n) (text n) l ∧ say (fileBlock P fs n) = (printed l, .ok ()) := fun n => by
    by_cases hn : n ∈ ns
    · obtain ⟨l, hl⟩ := fileBlock_eq (h n hn)
      exact ⟨l, fun _ => hl⟩
    · exact ⟨[], fun e => absurd e hn⟩
  choose hl hhl using h1
  choose fl hfl using h2
  refine ⟨hl, fl, fun n hn => ⟨(hhl n hn).1, (hfl n hn).1⟩, ?_⟩
  unfold fileio
  have e1 : say [line "Headers:".toList] = (printed ["Headers:".toList], .ok ()) := say_lines ["Headers:".toList]
  have e2 : say [line [], line "Files:".toList] = (printed [[], "Files:".toList], .ok ()) := say_lines [[], "Files:".toList]
  have e3 := say_flatMap (k := headerBlock fs) (l := ns) (g := hl) fun n hn => (hhl n hn).2
  have e4 := say_flatMap (k := fileBlock P fs) (l := ns) (g := fl) fun n hn => (hfl n hn).2
  rw [List.append_assoc, List.append_assoc, say_append_ok e1, say_append_ok e3, say_append_ok e2, e4]
  simp only [printed_append, List.append_assoc]

/-- **C135**: the example comes to its end exactly if every file can be read and every spatial reference is UTF-8. -/
theorem c135_ends (P : Python.Params) (fs : Tile.FS) (ns : List Str) :
    (fileio P fs ns).2 = .ok () ↔ ∀ n ∈ ns, ∃ f t, PyReads P fs n f t := by
  constructor
  · intro h n hn
    unfold fileio at h
    rw [say_ok_append, say_flatMap_ok] at h
    have := h.2 n hn
    unfold fileBlock at this
    obtain ⟨f, hf, h1⟩ := say_showing_ok.mp this
    obtain ⟨t, ht, -⟩ := say_showing_ok.mp (say_ok_append.mp h1).2
    exact ⟨f, t, hf, toStr_ok ht⟩
  · intro h
    have h1 : ∀ n, ∃ f t, n ∈ ns → PyReads P fs n f t := fun n => by
      by_cases hn : n ∈ ns
      · obtain ⟨f, t, h⟩ := h n hn
        exact ⟨f, t, fun _ => h⟩
      · exact ⟨SpocFile.empty, [], fun e => absurd e hn⟩
    choose cl tx hct using h1
    obtain ⟨hl, fl, -, e⟩ := c135_shown P fs ns cl tx hct
    rw [e]

/-- **C135**: if the header of one file cannot be read, the headers before it have been shown, nothing of the later files, and no contents at all. -/
theorem c135_stops (P : Python.Params) (fs : Tile.FS) (ns later : List Str) (bad : Str) (cloud : Str → SpocFile) (text : Str → Str)
    (h : ∀ n ∈ ns, PyReads P fs n (cloud n) (text n)) (e : String) (hb : readheader fs bad = .throw e) :
    ∃ hl : Str → List Str, (∀ n ∈ ns, PyHeaderLines n (cloud n) (text n) (hl n))
      ∧ fileio P fs (ns ++ bad :: later) = (printed (["Headers:".toList] ++ ns.flatMap hl), .throw e) := by
  classical
  have h1 : ∀ n, ∃ l, n ∈ ns → PyHeaderLines n (cloud n) (text n) l ∧ say (headerBlock fs n) = (printed l, .ok ()) := fun n => by
    by_cases hn : n ∈ ns
    · obtain ⟨l, hl⟩ := headerBlock_eq (h n hn)
      exact ⟨l, fun _ => hl⟩
    · exact ⟨[], fun e => absurd e hn⟩
  choose hl hhl using h1
  refine ⟨hl, fun n hn => (hhl n hn).1, ?_⟩
  have e1 : say [line "Headers:".toList] = (printed ["Headers:".toList], .ok ()) := say_lines ["Headers:".toList]
  have e3 := say_flatMap (k := headerBlock fs) (l := ns) (g := hl) fun n hn => (hhl n hn).2
  have e2 : headerBlock fs bad = [.throw e] := by
    unfold headerBlock
    rw [hb]
    rfl
  unfold fileio
  rw [List.flatMap_append, List.flatMap_cons, e2, List.append_assoc, List.append_assoc, List.append_assoc, say_append_ok e1, say_append_ok e3]
  rw [printed_append]
  simp [say]

/-- The sum of the numbers of records. -/
def recordsOf (cloud : Str → SpocFile) (ns : List Str) : Nat := (ns.map fun n => (cloud n).prs.length).sum

/-- **C135**: the timing example says how many records there are in all files together; it comes to its end exactly if every file can be read. -/
theorem c135_timings (P : Python.Params) (fs : Tile.FS) (ns : List Str) (t1 t2 : Str) :
    (∀ cloud : Str → SpocFile, (∀ n ∈ ns, readspocfile P fs n = .ok (cloud n)) →
      timings P fs ns t1 t2 = (printed ["Reading all headers...".toList, t1 ++ " seconds elapsed".toList, "Reading all point records...".toList,
        t2 ++ " seconds elapsed".toList, showNat (recordsOf cloud ns) ++ " total point records read".toList], .ok ()))
    ∧ ((timings P fs ns t1 t2).2 = .ok () → ∀ n ∈ ns, ∃ f, readspocfile P fs n = .ok f) := by
  have count : ∀ (cloud : Str → SpocFile) (l : List Str) (k : Nat), (∀ n ∈ l, readspocfile P fs n = .ok (cloud n)) →
      l.foldlM (fun m fn => (do
        let f ← readspocfile P fs fn
        .ok (m + f.prs.length) : Res Nat)) k = .ok (k + recordsOf cloud l) := by
    intro cloud l
    induction l with
    | nil => intro k _; rfl
    | cons a l ih =>
      intro k h
      rw [List.foldlM_cons, h a (by simp)]
      simp only [Res.ok_bind]
      rw [ih _ (fun n hn => h n (by simp [hn]))]
      simp [recordsOf, Nat.add_assoc]
  have heads : ∀ (l : List Str), (∀ n ∈ l, ∃ f, readspocfile P fs n = .ok f) → ∃ hs, l.mapM (readheader fs) = .ok hs := by
    intro l
    induction l with
    | nil => intro _; exact ⟨[], rfl⟩
    | cons a l ih =>
      intro h
      obtain ⟨f, hf⟩ := h a (by simp)
      obtain ⟨hd, e, -⟩ := readspocfile_header hf
      obtain ⟨hs, e'⟩ := ih fun n hn => h n (by simp [hn])
      exact ⟨hd :: hs, by rw [List.mapM_cons, e, Res.ok_bind, e']; rfl⟩
  have all : ∀ (l : List Str) (k m : Nat), l.foldlM (fun m fn => (do
        let f ← readspocfile P fs fn
        .ok (m + f.prs.length) : Res Nat)) k = .ok m → ∀ n ∈ l, ∃ f, readspocfile P fs n = .ok f := by
    intro l
    induction l with
    | nil => intro _ _ _ n hn; simp at hn
    | cons a l ih =>
      intro k m h n hn
      rw [List.foldlM_cons] at h
      obtain ⟨k', h1, h2⟩ := Res.bind_eq_ok.mp h
      obtain ⟨f, hf, -⟩ := Res.bind_eq_ok.mp h1
      rcases List.mem_cons.mp hn with rfl | hn
      · exact ⟨f, hf⟩
      · exact ih k' m h2 n hn
  constructor
  · intro cloud h
    obtain ⟨hs, e⟩ := heads ns fun n hn => ⟨_, h n hn⟩
    rw [← say_lines]
    unfold timings countRecords
    rw [e, count cloud ns 0 h, Nat.zero_add]
    rfl
  · intro h
    unfold timings at h
    obtain ⟨hs, -, h1⟩ := say_showing_ok.mp (say_ok_append.mp h).2
    obtain ⟨m, hm, -⟩ := say_showing_ok.mp (say_ok_append.mp h1).2
    exact all ns 0 m hm

theorem utf8_ascii (t : Str) : t.length ≤ (utf8 t).length ∧ ((utf8 t).length = t.length ↔ ∀ c ∈ t, c.val ≤ 0x7f) := by
  induction t with
  | nil => simp [utf8]
  | cons a t ih =>
    have e : (utf8 (a :: t)).length = a.utf8Size + (utf8 t).length := by
      simp [utf8, String.length_utf8EncodeChar]
    have pos := a.utf8Size_pos
    have one : a.utf8Size = 1 ↔ a.val ≤ 0x7f := by
      unfold Char.utf8Size
      show (if a.val ≤ 0x7f then 1 else if a.val ≤ 0x7ff then 2 else if a.val ≤ 0xffff then 3 else 4) = 1 ↔ a.val ≤ 0x7f
      by_cases h1 : a.val ≤ 0x7f
      · simp [h1]
      · by_cases h2 : a.val ≤ 0x7ff
        · simp [h1, h2]
        · by_cases h3 : a.val ≤ 0xffff <;> simp [h1, h2, h3]
    rw [e, List.length_cons, List.forall_mem_cons, ← one, ← ih.2]
    omega

/-- **C135**: the number of bytes that is shown for the spatial reference is right exactly if all its characters are ASCII; otherwise it is too small. -/
theorem c135_bytes_partial (P : Python.Params) (fs : Tile.FS) (n : Str) (f : SpocFile) (t : Str) (h : PyReads P fs n f t) :
    (t.length = f.wkt.length ↔ ∀ c ∈ t, c.val ≤ 0x7f) ∧ t.length ≤ f.wkt.length := by
  rw [h.text]
  exact ⟨eq_comm.trans (utf8_ascii t).2, (utf8_ascii t).1⟩

/-- **C135**: a spatial reference that is not UTF-8 stops the example at its third line, and none of the later files is shown. -/
theorem c135_not_utf8 (P : Python.Params) (fs : Tile.FS) (n : Str) (later : List Str) (f : SpocFile) (h : readspocfile P fs n = .ok f)
    (ht : ∀ t, f.wkt ≠ utf8 t) : fileio P fs (n :: later) = (printed ["Headers:".toList, n, "\tversion 0.1".toList], .throw "UnicodeDecodeError") := by
  obtain ⟨hd, h1, -, -, h4, -, h6, h7⟩ := readspocfile_header h
  have hs : toStr f.wkt = .throw "UnicodeDecodeError" := by
    cases e : toStr f.wkt with
    | ok t => exact absurd (toStr_ok e) (ht t)
    | _ =>
      unfold toStr at e
      split at e <;> simp at e
      try rw [← e]
  have e2 : headerBlock fs n = [n, "\tversion 0.1".toList].map line ++ [.throw "UnicodeDecodeError"] := by
    unfold headerBlock
    rw [h1]
    simp only [showing]
    rw [h6, h7, ← h4, wktOf, hs]
    rfl
  have e1 : say [line "Headers:".toList] = (printed ["Headers:".toList], .ok ()) := say_lines ["Headers:".toList]
  unfold fileio
  rw [List.flatMap_cons, e2, List.append_assoc, List.append_assoc, say_append_ok e1]
  rw [List.append_assoc ([n, "\tversion 0.1".toList].map line), List.append_assoc ([n, "\tversion 0.1".toList].map line),
    say_append_ok (say_lines _)]
  simp only [List.cons_append, say]
  simp only [printed, List.flatMap_cons, List.flatMap_nil, List.append_nil, List.append_assoc]

/-! ## Examples -/

/-- A cloud whose spatial reference is this. -/
def wktCloud (b : Bytes) : SpocFile := { exampleFile with wkt := b }

/-- A disk with a cloud whose spatial reference is the letter é, one whose spatial reference is not a text, one without, and a file that holds no cloud. -/
def wktDisk : Tile.FS := fun n =>
  if n = ['e'] then some { content := (Io.writeFile .release toyZlib (wktCloud [0xC3, 0xA9])).bytes, readable := true, writable := true }
  else if n = ['f'] then some { content := (Io.writeFile .release toyZlib (wktCloud [0xFF])).bytes, readable := true, writable := true }
  else if n = ['a'] then some { content := (Io.writeFile .release toyZlib exampleFile).bytes, readable := true, writable := true }
  else if n = ['x'] then some { content := [1, 2, 3], readable := true, writable := true }
  else none

theorem wktDisk_reads {n : Str} {f : SpocFile} (hf : Survives toyZlib f)
    (h : Main.openRead wktDisk n = some { rest := (Io.writeFile .release toyZlib f).bytes }) : readspocfile ⟨.release, toyZlib⟩ wktDisk n = .ok f := by
  have hr := (survives_roundtrip .release toyZlib toyZlib_correct f hf).2 []
  rw [List.append_nil] at hr
  unfold readspocfile
  rw [h]
  simp only [hr, Res.ok_bind]
  exact (c12_frame f [] false [] (by intro p hp; simp at hp) hf.1.uniform).2.2.2.2.2.2

theorem wktCloud_survives {b : Bytes} (h : b.length ≤ 0xFFFF) : Survives toyZlib (wktCloud b) :=
  ⟨⟨exampleFile_writable.major, exampleFile_writable.minor, h, exampleFile_writable.uniform, exampleFile_writable.extra, exampleFile_writable.count⟩,
    fun _ => by show ∀ q ∈ exampleFile.prs, _; decide, fun h => by simp [wktCloud, exampleFile] at h⟩

theorem wktDisk_e : PyReads ⟨.release, toyZlib⟩ wktDisk ['e'] (wktCloud [0xC3, 0xA9]) ['é'] :=
  ⟨wktDisk_reads (wktCloud_survives (by decide)) rfl, by decide⟩

theorem wktDisk_a : PyReads ⟨.release, toyZlib⟩ wktDisk ['a'] exampleFile ['W', 'K', 'T'] :=
  ⟨wktDisk_reads (wktCloud_survives (b := [0x57, 0x4B, 0x54]) (by decide)) rfl, by decide⟩

example : ∀ n ∈ [['a'], ['e']], ∃ f t, PyReads ⟨.release, toyZlib⟩ wktDisk n f t := fun n hn => by
  rcases List.mem_cons.mp hn with rfl | hn
  · exact ⟨_, _, wktDisk_a⟩
  · rw [List.mem_singleton.mp hn]
    exact ⟨_, _, wktDisk_e⟩

example : (∀ n ∈ [['a']], PyReads ⟨.release, toyZlib⟩ wktDisk n exampleFile ['W', 'K', 'T'])
    ∧ (readheader wktDisk ['x']).isOk = false ∧ readheader wktDisk ['q'] = .throw "Could not open file for reading" :=
  ⟨fun n hn => by rw [List.mem_singleton.mp hn]; exact wktDisk_a, by decide +kernel, rfl⟩

example : ∀ c ∈ "GEOGCS[WGS 84]".toList, c.val ≤ 0x7f := by decide

example : readspocfile ⟨.release, toyZlib⟩ wktDisk ['f'] = .ok (wktCloud [0xFF]) ∧ ∀ t, (wktCloud [0xFF]).wkt ≠ utf8 t :=
  ⟨wktDisk_reads (wktCloud_survives (by decide)) rfl, fun t h => by
    have h1 := toStr_utf8 t
    rw [← h] at h1
    revert h1
    have : (toStr (wktCloud [0xFF]).wkt).isOk = false := by decide +kernel
    intro h1
    rw [h1] at this
    simp [Res.isOk] at this⟩

/-- **C135**, the full statement is false: what is called a number of bytes is a number of characters.  The file holds two bytes, and the example
speaks of one. -/
theorem c135_bytes : ∃ (P : Python.Params) (fs : Tile.FS) (n : Str) (f : SpocFile),
    readspocfile P fs n = .ok f ∧ f.wkt.length = 2
      ∧ ∃ before after, (fileio P fs [n]).1 = before ++ "\twkt 1 bytes\n".toList ++ after ∧ (fileio P fs [n]).2 = .ok () := by
  refine ⟨⟨.release, toyZlib⟩, wktDisk, ['e'], _, wktDisk_e.read, rfl, ?_⟩
  obtain ⟨hl, fl, h, e⟩ := c135_shown ⟨.release, toyZlib⟩ wktDisk [['e']] (fun _ => wktCloud [0xC3, 0xA9]) (fun _ => ['é'])
    (fun n hn => by rw [List.mem_singleton.mp hn]; exact wktDisk_e)
  obtain ⟨x, c, -, -, hl'⟩ := (h ['e'] (by simp)).1
  rw [e]
  refine ⟨printed ["Headers:".toList, ['e'], "\tversion 0.1".toList],
    printed (["\textra_fields ".toList ++ showNat x, "\ttotal_points ".toList ++ showNat 2, "\tcompressed ".toList ++ showNat c]
      ++ [[], "Files:".toList] ++ [['e']].flatMap fl), ?_, rfl⟩
  rw [List.flatMap_singleton, hl']
  have e1 : ("\twkt 1 bytes\n".toList : Str) = printed ["\twkt ".toList ++ showNat (['é'] : Str).length ++ " bytes".toList] := by decide
  rw [e1, ← printed_append, ← printed_append]
  rfl

end Spoc.Props
