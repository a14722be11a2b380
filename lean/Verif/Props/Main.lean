import Verif.Proofs.Main

/-!
# C71, C72, C73: what the applications do to files
-/

namespace Spoc.Props

open Getopt Cmd Main Spec Spec.Cmd Text

/-- The content of the file `n`. -/
def content (fs : Tile.FS) (n : Str) : Option Bytes := (fs n).map (·.content)

/-! ## C71: failure -/

theorem zero_ok {r : Res Unit} (h : r = .ok ()) : zero r = .ok 0 := by rw [h]; rfl

theorem outputStream_failed {w : World} {o : Str} {x : Out Unit} (hx : x.res = .ok ()) (h : ∀ c, (outputStream w o x).res ≠ .ok c) :
    (outputStream w o x).fs = w.fs := by
  revert h
  unfold outputStream
  split
  · intro _; rfl
  · split
    · intro h; exact absurd (zero_ok hx) (h 0)
    · intro _; rfl

theorem readThenWrite_failed {w : World} {i o : Str} {read : IStream → Res SpocFile} {write : SpocFile → Out Unit}
    (hw : ∀ s f, read s = .ok f → (write f).res = .ok ()) (h : ∀ c, (readThenWrite w i o read write).res ≠ .ok c) :
    (readThenWrite w i o read write).fs = w.fs := by
  revert h
  unfold readThenWrite
  split
  · rename_i f hf
    obtain ⟨s, _, hs⟩ := Res.bind_eq_ok.mp hf
    exact outputStream_failed (hw s f hs)
  · intro _; rfl

theorem setSrs_stays (b : Build) (z : Zlib) (t : Bytes) (w : World) : (outputStream w [] (Apps.setSrs b z t w.stdin)).fs = w.fs := rfl

theorem srsArgs_srs {os : List (String × Str)} {a a' : SrsArgs} (h : Cmd.srsArgs os a = .ok a') :
    ∀ t, a'.srs = some t → a.srs = some t ∨ ("srs", t) ∈ os := by
  induction os generalizing a with
  | nil =>
    rw [Cmd.srsArgs, Res.ok.injEq] at h
    intro t ht; rw [h]; exact Or.inl ht
  | cons x os ih =>
    obtain ⟨name, arg⟩ := x
    unfold Cmd.srsArgs at h
    intro t ht
    split at h
    · rw [← Res.ok.inj h] at ht; exact Or.inl ht
    split at h
    · rcases ih h t ht with h | h
      · exact Or.inl h
      · exact Or.inr (List.mem_cons_of_mem _ h)
    split at h
    · rcases ih h t ht with h | h
      · exact Or.inl h
      · exact Or.inr (List.mem_cons_of_mem _ h)
    split at h
    · rename_i hn
      rcases ih h t ht with h | h
      · rw [← Option.some.inj h, ← hn]; exact Or.inr List.mem_cons_self
      · exact Or.inr (List.mem_cons_of_mem _ h)
    · simp at h

/-- C71: if an application fails, every file is as it was before: its output file is neither created nor emptied nor half written.
Missing: tile (writes several files), transform and srs with a text of more than 65535 bytes, for which it is false
(`c71_transform_truncates`, `c71_srs_truncates`). -/
theorem c71_failure_keeps_files_partial (n : Name) (p : Params) (hsh : p.shuffle.Lawful) (argv : List Str) (w : World)
    (hn : n ≠ .tile ∧ n ≠ .transform) (hs : n = .srs → ∀ t, ("srs", t) ∈ n.table.options argv → t.length ≤ 65535)
    (hf : ∀ c, (n.run p argv w).res ≠ .ok c) : (n.run p argv w).fs = w.fs := by
  cases n
  case tile => exact absurd rfl hn.1
  case transform => exact absurd rfl hn.2
  case merge => rfl
  case info => rfl
  case diff =>
    simp only [Name.run, Main.diff]
    repeat' split
    all_goals rfl
  case compress =>
    revert hf
    simp only [Name.run, Main.compress]
    split
    · split
      · intro _; rfl
      split
      · intro _; rfl
      · apply readThenWrite_failed
        intro s f h
        obtain ⟨s', h⟩ := Main.fileOf_ok h
        exact writeFileCompressed_ok _ _ ⟨(readUncompressed_ready h).1.1, (readUncompressed_ready h).1.2⟩ rfl
    · intro _; rfl
  case decompress =>
    revert hf
    simp only [Name.run, Main.decompress]
    split
    · split
      · intro _; rfl
      split
      · intro _; rfl
      · apply readThenWrite_failed
        intro s f h
        obtain ⟨s', h⟩ := Main.fileOf_ok h
        exact writeFileUncompressed_ok _ ⟨(readCompressed_ready h).1.1, (readCompressed_ready h).1.2⟩ rfl
    · intro _; rfl
  case filter =>
    revert hf
    simp only [Name.run, Main.filter]
    split
    · split
      · intro _; rfl
      split
      · intro _; rfl
      · apply readThenWrite_failed
        intro s f h
        obtain ⟨g, h1, h2⟩ := Res.bind_eq_ok.mp h
        obtain ⟨s', h1⟩ := Main.fileOf_ok h1
        exact writeFile_ok _ _ (process_ready hsh (readFile_ready h1) h2)
    · intro _; rfl
  case tool =>
    revert hf
    simp only [Name.run, Main.tool]
    split
    · split
      · intro _; rfl
      split
      · intro _; rfl
      split
      · intro _; rfl
      split
      · split <;> (intro _; rfl)
      · apply readThenWrite_failed
        intro s f h
        obtain ⟨g, h1, h2⟩ := Res.bind_eq_ok.mp h
        obtain ⟨s', h1⟩ := Main.fileOf_ok h1
        exact writeFile_ok _ _ (run_ready (readFile_ready h1) h2)
    · intro _; rfl
  case srs =>
    revert hf
    simp only [Name.run, Main.srs]
    split
    · rename_i a ha
      split
      · intro _; rfl
      split
      · intro _; rfl
      split
      · intro _; rfl
      · intro _; rfl
      · rename_i i o t _ ht
        split
        · rename_i f hr
          split
          · intro hf
            have hr' : Ready f := by
              split at hr
              · obtain ⟨s', h1⟩ := Main.fileOf_ok hr
                exact readFile_ready h1
              · simp at hr
            have hl : t.length ≤ 65535 := by
              rcases srsArgs_srs ha t ht with h | h
              · simp at h
              · exact hs rfl t h
            exact absurd (zero_ok (writeFile_ok _ _ (f := f.setWkt (Main.bytes t)) ⟨hr'.1, by simpa [SpocFile.setWkt, Main.bytes] using hl⟩)) (hf 0)
          · intro _; rfl
        · intro _; rfl
      · intro _; rfl
      · intro _; rfl
    · intro _; rfl

/-- The words `--srs t i o`. -/
def srsLine (t i o : Str) : List Str := [['-', '-', 's', 'r', 's', '=' ] ++ t, ['-', '-'], i, o]

theorem srsLine_parse (t i o : Str) : Name.srs.table.options (srsLine t i o) = [("srs", t)] ∧ Name.srs.table.operands (srsLine t i o) = [i, o] := by
  have h := c68_end_of_options .srs [.longEq ['s', 'r', 's'] ⟨['s', 'r', 's'], true, 115⟩ t]
    (by simpa [Valid, Names] using (by decide : (⟨['s', 'r', 's'], true, 115⟩ : LongOpt) ∈ Name.srs.table.longs)) [i, o]
  exact h

/-- C71 is false for srs: a text that does not fit into the header is noticed only when the output file has been emptied; if it is also the
input file, the points are lost. -/
theorem c71_srs_truncates (p : Params) (w : World) (t i : Str) (ht : 65535 < t.length) (x : Tile.File) (f : SpocFile) (s : IStream)
    (hx : w.fs i = some x) (hr : x.readable = true) (hw : x.writable = true)
    (hf : Io.readFile p.build p.zlib { rest := x.content } = .ok (f, s)) :
    (∃ e, (Name.srs.run p (srsLine t i i) w).res = .throw e) ∧ content (Name.srs.run p (srsLine t i i) w).fs i = some [] := by
  obtain ⟨h1, h2⟩ := srsLine_parse t i i
  have hl : 65535 < (f.setWkt (Main.bytes t)).wkt.length := by simpa [SpocFile.setWkt, Main.bytes] using ht
  have hg := Io.getHeader_throw hl
  have hwr : Io.writeFile p.build p.zlib (f.setWkt (Main.bytes t)) = ⟨[], .throw "The OGC WKT length may not exceed 65535"⟩ := by
    rw [Io.writeFile, hg]
    rfl
  have ha : Cmd.srsArgs [("srs", t)] {} = .ok { srs := some t } := rfl
  simp only [Name.table] at h1 h2
  simp only [Name.run, Main.srs, h1, h2, ha, openRead, hx, hr, if_true, hf, Apps.fileOf, Tile.openWrite, hw, Res.ok_bind, hwr]
  refine ⟨⟨_, rfl⟩, ?_⟩
  simp [content, Tile.FS.set]

/-- The words `--copy-field=i,c i o`. -/
def transformLine (i o : Str) : List Str :=
  [['-', '-', 'c', 'o', 'p', 'y', '-', 'f', 'i', 'e', 'l', 'd', '=', 'i', ',', 'c'], ['-', '-'], i, o]

theorem transformLine_parse (i o : Str) :
    transformArgs (transformLine i o) = .ok ({ commands := [⟨"copy-field", ['i', ',', 'c']⟩] }, i, o) := by
  have h := c68_end_of_options .transform
    [.longEq ['c', 'o', 'p', 'y', '-', 'f', 'i', 'e', 'l', 'd'] ⟨['c', 'o', 'p', 'y', '-', 'f', 'i', 'e', 'l', 'd'], true, 1003⟩ ['i', ',', 'c']]
    (by simpa [Valid, Names] using
      (by decide : (⟨['c', 'o', 'p', 'y', '-', 'f', 'i', 'e', 'l', 'd'], true, 1003⟩ : LongOpt) ∈ Name.transform.table.longs)) [i, o]
  obtain ⟨h1, h2⟩ := h
  have e1 : Cmd.transform.options (transformLine i o) = [("copy-field", ['i', ',', 'c'])] := h1
  have e2 : Cmd.transform.operands (transformLine i o) = [i, o] := h2
  rw [transformArgs, e1, e2]
  rfl

theorem readInto_head (c : UInt8) (l : Bytes) (a : UInt8) (old : Bytes) :
    (IStream.readInto { rest := c :: l } (a :: old)).1[0]? = some c := by
  have h : ∃ m, (IStream.read { rest := c :: l } (a :: old).length).1 = c :: m := by
    unfold IStream.read
    simp only [if_true]
    split
    · exact ⟨_, rfl⟩
    · exact ⟨_, rfl⟩
  obtain ⟨m, h⟩ := h
  rw [IStream.readInto, h]
  rfl

theorem apply_not_spoc (b : Build) (env : Transform.Env) (cs : List Transform.Command) (seed : Nat) {c : UInt8} (hc : c ≠ 83) (l : Bytes) :
    Transform.apply b env { rest := c :: l } cs seed = ⟨[], .throw "Invalid spoc file format"⟩ := by
  have h : Header.read { rest := c :: l } = .throw "Invalid spoc file format" := by
    have : ({ Header.default with signature := (IStream.readInto { rest := c :: l } Header.default.signature).1 } : Header).checkSignature
        = false := by
      have : (IStream.readInto { rest := c :: l } Header.default.signature).1[0]? = some c := by
        exact readInto_head c l 83 _
      rw [Header.checkSignature, if_pos]
      simpa [this] using hc
    unfold Header.read
    simp only [this]
    rfl
  unfold Transform.apply Transform.readHeaderUncompressed
  rw [h]
  cases b <;> rfl

/-- C71 is false for transform: it empties its output file and only then finds out that the input is not a SPOC file. -/
theorem c71_transform_truncates (p : Params) (w : World) (i o : Str) (hi : i ≠ []) (ho : o ≠ []) (hio : i ≠ o) (x y : Tile.File)
    (hx : w.fs i = some x) (hr : x.readable = true) (c : UInt8) (l : Bytes) (he : x.content = c :: l) (hc : c ≠ 83) (hy : w.fs o = some y)
    (hw : y.writable = true) :
    (∃ e, (Name.transform.run p (transformLine i o) w).res = .throw e)
      ∧ content (Name.transform.run p (transformLine i o) w).fs o = some [] := by
  have h1 := transformLine_parse i o
  simp only [Name.run, Main.transform, h1, inputStream, openRead, hx, hr, he, List.isEmpty_iff, hi, ho, hio, if_true, if_false, List.isEmpty_cons,
    Bool.false_eq_true, decide_false, Bool.and_false, apply_not_spoc _ _ _ _ hc, outputStream, Tile.openWrite, hy, hw]
  refine ⟨⟨_, rfl⟩, ?_⟩
  simp [content, Tile.FS.set]

/-! ## C72: the same name for input and output -/

/-- The file can be opened for writing. -/
def CanWrite (w : World) (n : Str) : Prop :=
  match w.fs n with
  | some f => f.writable = true
  | none => w.canCreate n = true

/-- `r` has written to `i` what `r'` has written to `o`, with the same outcome, or both have written nothing. -/
def SameWritten (w : World) (i o : Str) (r r' : Result) : Prop :=
  r.res = r'.res ∧ r.out = r'.out
    ∧ ((r.fs = w.fs ∧ r'.fs = w.fs)
      ∨ (∃ c, content r.fs i = some c ∧ content r'.fs o = some c) ∧ (∀ n, n ≠ i → r.fs n = w.fs n) ∧ (∀ n, n ≠ o → r'.fs n = w.fs n))

theorem sameWritten_refl {w : World} {i o : Str} {r : Result} (h : r.fs = w.fs) : SameWritten w i o r r := ⟨rfl, rfl, Or.inl ⟨h, h⟩⟩

theorem openWrite_ok {w : World} {o : Str} (h : CanWrite w o) : ∃ f, Tile.openWrite w.canCreate w.fs o = some f := by
  unfold CanWrite at h
  unfold Tile.openWrite
  split at h
  · rename_i f hf
    rw [hf]; simp only [h, if_true]; exact ⟨_, rfl⟩
  · rename_i hf
    rw [hf]; simp only [h, if_true]; exact ⟨_, rfl⟩

theorem set_same {w : World} {i o : Str} {f g : Tile.File} {c : Bytes} {out : Bytes} {r : Res Int} :
    SameWritten w i o ⟨w.fs.set i { f with content := c }, out, r⟩ ⟨w.fs.set o { g with content := c }, out, r⟩ :=
  ⟨rfl, rfl, Or.inr ⟨⟨c, by simp [content, Tile.FS.set], by simp [content, Tile.FS.set]⟩, fun n hn => by simp [Tile.FS.set, hn],
    fun n hn => by simp [Tile.FS.set, hn]⟩⟩

theorem outputStream_same {w : World} {i o : Str} (hi : i ≠ []) (ho : o ≠ []) (hwi : CanWrite w i) (hwo : CanWrite w o) (x : Out Unit) :
    SameWritten w i o (outputStream w i x) (outputStream w o x) := by
  obtain ⟨f, hf⟩ := openWrite_ok hwi
  obtain ⟨g, hg⟩ := openWrite_ok hwo
  simp only [outputStream, List.isEmpty_iff, hi, ho, if_false, hf, hg]
  exact set_same

theorem readThenWrite_same {w : World} {i o : Str} (hi : i ≠ []) (ho : o ≠ []) (hwi : CanWrite w i) (hwo : CanWrite w o)
    (read : IStream → Res SpocFile) (write : SpocFile → Out Unit) :
    SameWritten w i o (readThenWrite w i i read write) (readThenWrite w i o read write) := by
  unfold readThenWrite
  split
  · exact outputStream_same hi ho hwi hwo _
  · exact sameWritten_refl rfl

theorem withOperands_cases {α : Type} (r : Res α) (help : α → Bool) (i : Str) :
    (∃ a, help a = true ∧ ∀ o, withOperands r help ([], []) (inOut [i, o]) = .ok (a, [], []))
      ∨ (∃ a, ∀ o, withOperands r help ([], []) (inOut [i, o]) = .ok (a, i, o))
      ∨ (∃ e, (∀ x, e ≠ .ok x) ∧ ∀ o, withOperands r help ([], []) (inOut [i, o]) = e) := by
  cases r with
  | ok a =>
    by_cases h : help a = true
    · exact Or.inl ⟨a, h, fun o => by simp [withOperands, h]⟩
    · exact Or.inr (Or.inl ⟨a, fun o => by simp [withOperands, h, inOut]⟩)
  | throw e => exact Or.inr (Or.inr ⟨.throw e, by simp, fun o => rfl⟩)
  | ub e => exact Or.inr (Or.inr ⟨.ub e, by simp, fun o => rfl⟩)
  | abort => exact Or.inr (Or.inr ⟨.abort, by simp, fun o => rfl⟩)
  | hang => exact Or.inr (Or.inr ⟨.hang, by simp, fun o => rfl⟩)

/-- A file without points. -/
def emptyCloud : Bytes := [83, 80, 79, 67, 0, 1, 0, 0, 0, 0, 0, 0, 0, 0, 0, 0, 0, 0]

theorem emptyCloud_read (b : Build) (z : Zlib) : Io.readFile b z { rest := emptyCloud } = .ok (⟨0, 1, [], false, []⟩, { rest := [] }) := by
  cases b <;> rfl

theorem apply_empty (b : Build) (env : Transform.Env) (seed : Nat) :
    Transform.apply b env { rest := [] } [⟨"copy-field", ['i', ',', 'c']⟩] seed = ⟨emptyCloud, .ok ()⟩ := by
  cases b <;> rfl

/-- C72 is false for transform: it empties the file, reads the empty file as an empty point cloud, and reports success. -/
theorem c72_transform_in_place (p : Params) (w : World) (i : Str) (hi : i ≠ []) (x : Tile.File)
    (hx : w.fs i = some x) (hr : x.readable = true) (hw : x.writable = true) :
    (Name.transform.run p (transformLine i i) w).res = .ok 0
      ∧ content (Name.transform.run p (transformLine i i) w).fs i = some emptyCloud := by
  have h1 := transformLine_parse i i
  have he : i.isEmpty = false := by simpa using hi
  simp only [Name.run, Main.transform, h1, inputStream, openRead, hx, hr, he, if_true, List.isEmpty_cons, Bool.false_eq_true,
    if_false, decide_true, outputStream, Tile.openWrite, hw, Bool.and_true, Bool.not_false, apply_empty]
  refine ⟨rfl, ?_⟩
  simp [content, Tile.FS.set]

theorem srs_given {os : List (String × Str)} {a a' : SrsArgs} (h : Cmd.srsArgs os a = .ok a') (hs : a.srs ≠ none ∨ ∃ t, ("srs", t) ∈ os) :
    a'.help = true ∨ a'.srs ≠ none := by
  induction os generalizing a with
  | nil =>
    rw [Cmd.srsArgs, Res.ok.injEq] at h
    simpa [h] using Or.inr hs
  | cons x os ih =>
    obtain ⟨name, arg⟩ := x
    unfold Cmd.srsArgs at h
    split at h
    · rw [← Res.ok.inj h]; exact Or.inl rfl
    · rename_i n1
      split at h
      · rename_i n2
        refine ih h (hs.imp id fun ⟨t, ht⟩ => ⟨t, ?_⟩)
        rcases List.mem_cons.mp ht with e | e
        · rw [Prod.mk.injEq] at e; rw [← e.1] at n2; exact absurd n2 (by decide)
        · exact e
      split at h
      · rename_i n2
        refine ih h (hs.imp id fun ⟨t, ht⟩ => ⟨t, ?_⟩)
        rcases List.mem_cons.mp ht with e | e
        · rw [Prod.mk.injEq] at e; rw [← e.1] at n2; exact absurd n2 (by decide)
        · exact e
      split at h
      · exact ih h (Or.inl (by simp))
      · simp at h

/-- C72: with the name of the input file as the name of the output file, an application writes to that file what it would have written to
another one, with the same outcome.  (srs needs `--srs`, otherwise both names are input files.)  Missing: transform, for which it is false
(`c72_transform_in_place`). -/
theorem c72_in_place_partial (n : Name) (p : Params) (w : World) (argv argv' : List Str) (i o : Str)
    (hn : n = .compress ∨ n = .decompress ∨ n = .filter ∨ n = .tool ∨ (n = .srs ∧ ∃ t, ("srs", t) ∈ n.table.options argv))
    (hopt : n.table.options argv = n.table.options argv') (ha : n.table.operands argv = [i, i]) (ha' : n.table.operands argv' = [i, o])
    (hi : i ≠ []) (ho : o ≠ []) (hwi : CanWrite w i) (hwo : CanWrite w o) :
    SameWritten w i o (n.run p argv w) (n.run p argv' w) := by
  rcases hn with rfl | rfl | rfl | rfl | ⟨rfl, hs⟩
  · simp only [Name.table] at hopt ha ha'
    simp only [Name.run, Main.compress, Main.basicArgs, hopt, ha, ha']
    rcases withOperands_cases (Cmd.basicArgs (Cmd.compress.options argv') {}) (·.help) i with ⟨a, h, e⟩ | ⟨a, e⟩ | ⟨r, hr, e⟩
    · simp only [e, h]
      split <;> exact sameWritten_refl rfl
    · simp only [e]
      split
      · exact sameWritten_refl rfl
      split
      · exact sameWritten_refl rfl
      · exact readThenWrite_same hi ho hwi hwo _ _
    · simp only [e]
      cases r with
      | ok x => exact absurd rfl (hr x)
      | _ => exact sameWritten_refl rfl
  · simp only [Name.table] at hopt ha ha'
    simp only [Name.run, Main.decompress, Main.basicArgs, hopt, ha, ha']
    rcases withOperands_cases (Cmd.basicArgs (Cmd.decompress.options argv') {}) (·.help) i with ⟨a, h, e⟩ | ⟨a, e⟩ | ⟨r, hr, e⟩
    · simp only [e, h]
      split <;> exact sameWritten_refl rfl
    · simp only [e]
      split
      · exact sameWritten_refl rfl
      split
      · exact sameWritten_refl rfl
      · exact readThenWrite_same hi ho hwi hwo _ _
    · simp only [e]
      cases r with
      | ok x => exact absurd rfl (hr x)
      | _ => exact sameWritten_refl rfl
  · simp only [Name.table] at hopt ha ha'
    simp only [Name.run, Main.filter, filterArgs, hopt, ha, ha']
    rcases withOperands_cases (Filter.getArgs (Cmd.filter.options argv') {}) (·.help) i with ⟨a, h, e⟩ | ⟨a, e⟩ | ⟨r, hr, e⟩
    · simp only [e, h]
      split <;> exact sameWritten_refl rfl
    · simp only [e]
      split
      · exact sameWritten_refl rfl
      split
      · exact sameWritten_refl rfl
      · exact readThenWrite_same hi ho hwi hwo _ _
    · simp only [e]
      cases r with
      | ok x => exact absurd rfl (hr x)
      | _ => exact sameWritten_refl rfl
  · simp only [Name.table] at hopt ha ha'
    simp only [Name.run, Main.tool, toolArgs, hopt, ha, ha']
    rcases withOperands_cases (Tool.getArgs (Cmd.tool.options argv') {}) (·.help) i with ⟨a, h, e⟩ | ⟨a, e⟩ | ⟨r, hr, e⟩
    · simp only [e, h]
      split <;> exact sameWritten_refl rfl
    · simp only [e]
      split
      · exact sameWritten_refl rfl
      split
      · exact sameWritten_refl rfl
      split
      · exact sameWritten_refl rfl
      split
      · apply sameWritten_refl
        split <;> rfl
      · exact readThenWrite_same hi ho hwi hwo _ _
    · simp only [e]
      cases r with
      | ok x => exact absurd rfl (hr x)
      | _ => exact sameWritten_refl rfl
  · simp only [Name.table] at hopt ha ha' hs
    simp only [Name.run, Main.srs, hopt, ha, ha']
    rw [hopt] at hs
    cases h : Cmd.srsArgs (Cmd.srs.options argv') {} with
    | ok a =>
      simp only
      split
      · exact sameWritten_refl rfl
      split
      · exact sameWritten_refl rfl
      rename_i hh
      rcases srs_given h (Or.inr hs) with h' | h'
      · exact absurd h' hh
      obtain ⟨t, ht⟩ := Option.ne_none_iff_exists'.mp h'
      obtain ⟨f, hf⟩ := openWrite_ok hwi
      obtain ⟨g, hg⟩ := openWrite_ok hwo
      rw [ht]
      simp only [hf, hg]
      split
      · exact set_same
      · exact sameWritten_refl rfl
    | _ => exact sameWritten_refl rfl

/-! ## C73: redirection -/

/-- `r0` printed what `r` has written to `o`, or both have written nothing and printed the same; the outcome is the same. -/
def Redirected (w : World) (o : Str) (r r0 : Result) : Prop :=
  r.res = r0.res ∧ r0.fs = w.fs
    ∧ ((r.fs = w.fs ∧ r.out = r0.out) ∨ (r.out = [] ∧ content r.fs o = some r0.out ∧ ∀ n, n ≠ o → r.fs n = w.fs n))

theorem redirected_refl {w : World} {o : Str} {r : Result} (h : r.fs = w.fs) : Redirected w o r r := ⟨rfl, h, Or.inl ⟨h, rfl⟩⟩

theorem set_redirected {w : World} {o : Str} {f : Tile.File} {c : Bytes} {r : Res Int} :
    Redirected w o ⟨w.fs.set o { f with content := c }, [], r⟩ ⟨w.fs, c, r⟩ :=
  ⟨rfl, rfl, Or.inr ⟨rfl, by simp [content, Tile.FS.set], fun n hn => by simp [Tile.FS.set, hn]⟩⟩

theorem outputStream_redirected {w : World} {s : IStream} {o : Str} (ho : o ≠ []) (hwo : CanWrite w o) (x : Out Unit) :
    Redirected w o (outputStream w o x) (outputStream { w with stdin := s } [] x) := by
  obtain ⟨g, hg⟩ := openWrite_ok hwo
  simp only [outputStream, List.isEmpty_iff, ho, if_false, hg, if_true]
  exact set_redirected

theorem inputStream_file {w : World} {i : Str} {x : Tile.File} (hi : i ≠ []) (hx : w.fs i = some x) (hr : x.readable = true) :
    inputStream w i = .ok { rest := x.content } := by
  simp only [inputStream, List.isEmpty_iff, hi, if_false, openRead, hx, hr, if_true]

theorem readThenWrite_redirected {w : World} {i o : Str} (hi : i ≠ []) (ho : o ≠ []) {x : Tile.File} (hx : w.fs i = some x)
    (hr : x.readable = true) (hwo : CanWrite w o) (read : IStream → Res SpocFile) (write : SpocFile → Out Unit) :
    Redirected w o (readThenWrite w i o read write) (readThenWrite { w with stdin := { rest := x.content } } [] [] read write) := by
  unfold readThenWrite
  rw [inputStream_file hi hx hr]
  simp only [inputStream, List.isEmpty_nil, if_true]
  split
  · exact outputStream_redirected ho hwo _
  · exact redirected_refl rfl

theorem operands_cases {α : Type} (r : Res α) (help : α → Bool) (i o : Str) :
    (∃ a, help a = true ∧ withOperands r help ([], []) (inOut [i, o]) = .ok (a, [], [])
        ∧ withOperands r help ([], []) (inOut []) = .ok (a, [], []))
      ∨ (∃ a, withOperands r help ([], []) (inOut [i, o]) = .ok (a, i, o) ∧ withOperands r help ([], []) (inOut []) = .ok (a, [], []))
      ∨ (∃ e, (∀ x, e ≠ .ok x) ∧ withOperands r help ([], []) (inOut [i, o]) = e ∧ withOperands r help ([], []) (inOut []) = e) := by
  cases r with
  | ok a =>
    by_cases h : help a = true
    · exact Or.inl ⟨a, h, by simp [withOperands, h], by simp [withOperands, h]⟩
    · exact Or.inr (Or.inl ⟨a, by simp [withOperands, h, inOut], by simp [withOperands, inOut]⟩)
  | throw e => exact Or.inr (Or.inr ⟨.throw e, by simp, rfl, rfl⟩)
  | ub e => exact Or.inr (Or.inr ⟨.ub e, by simp, rfl, rfl⟩)
  | abort => exact Or.inr (Or.inr ⟨.abort, by simp, rfl, rfl⟩)
  | hang => exact Or.inr (Or.inr ⟨.hang, by simp, rfl, rfl⟩)

/-- C73: with the names of an input and an output file, an application does what it does without names when the input file is redirected to
its standard input and its standard output to the output file. -/
theorem c73_redirection (n : Name) (p : Params) (w : World) (argv argv' : List Str) (i o : Str)
    (hn : n = .compress ∨ n = .decompress ∨ n = .filter ∨ n = .tool ∨ n = .transform
      ∨ (n = .srs ∧ ∃ t, ("srs", t) ∈ n.table.options argv))
    (hopt : n.table.options argv = n.table.options argv') (ha : n.table.operands argv = [i, o]) (ha' : n.table.operands argv' = [])
    (hi : i ≠ []) (ho : o ≠ []) (hio : i ≠ o) (x : Tile.File) (hx : w.fs i = some x) (hr' : x.readable = true) (hwo : CanWrite w o) :
    Redirected w o (n.run p argv w) (n.run p argv' { w with stdin := { rest := x.content } }) := by
  rcases hn with rfl | rfl | rfl | rfl | rfl | ⟨rfl, hs⟩
  · simp only [Name.table] at hopt ha ha'
    simp only [Name.run, Main.compress, Main.basicArgs, hopt, ha, ha']
    rcases operands_cases (Cmd.basicArgs (Cmd.compress.options argv') {}) (·.help) i o with ⟨a, h, e, e'⟩ | ⟨a, e, e'⟩ | ⟨r, hr, e, e'⟩
    · simp only [e, e', h]
      split <;> exact redirected_refl rfl
    · simp only [e, e']
      split
      · exact redirected_refl rfl
      split
      · exact redirected_refl rfl
      · exact readThenWrite_redirected hi ho hx hr' hwo _ _
    · simp only [e, e']
      cases r with
      | ok x => exact absurd rfl (hr x)
      | _ => exact redirected_refl rfl
  · simp only [Name.table] at hopt ha ha'
    simp only [Name.run, Main.decompress, Main.basicArgs, hopt, ha, ha']
    rcases operands_cases (Cmd.basicArgs (Cmd.decompress.options argv') {}) (·.help) i o with ⟨a, h, e, e'⟩ | ⟨a, e, e'⟩ | ⟨r, hr, e, e'⟩
    · simp only [e, e', h]
      split <;> exact redirected_refl rfl
    · simp only [e, e']
      split
      · exact redirected_refl rfl
      split
      · exact redirected_refl rfl
      · exact readThenWrite_redirected hi ho hx hr' hwo _ _
    · simp only [e, e']
      cases r with
      | ok x => exact absurd rfl (hr x)
      | _ => exact redirected_refl rfl
  · simp only [Name.table] at hopt ha ha'
    simp only [Name.run, Main.filter, filterArgs, hopt, ha, ha']
    rcases operands_cases (Filter.getArgs (Cmd.filter.options argv') {}) (·.help) i o with ⟨a, h, e, e'⟩ | ⟨a, e, e'⟩ | ⟨r, hr, e, e'⟩
    · simp only [e, e', h]
      split <;> exact redirected_refl rfl
    · simp only [e, e']
      split
      · exact redirected_refl rfl
      split
      · exact redirected_refl rfl
      · exact readThenWrite_redirected hi ho hx hr' hwo _ _
    · simp only [e, e']
      cases r with
      | ok x => exact absurd rfl (hr x)
      | _ => exact redirected_refl rfl
  · simp only [Name.table] at hopt ha ha'
    simp only [Name.run, Main.tool, toolArgs, hopt, ha, ha']
    rcases operands_cases (Tool.getArgs (Cmd.tool.options argv') {}) (·.help) i o with ⟨a, h, e, e'⟩ | ⟨a, e, e'⟩ | ⟨r, hr, e, e'⟩
    · simp only [e, e', h]
      split <;> exact redirected_refl rfl
    · simp only [e, e']
      split
      · exact redirected_refl rfl
      split
      · exact redirected_refl rfl
      split
      · exact redirected_refl rfl
      split
      · rw [inputStream_file hi hx hr']
        simp only [inputStream, List.isEmpty_nil, if_true]
        apply redirected_refl
        split <;> rfl
      · exact readThenWrite_redirected hi ho hx hr' hwo _ _
    · simp only [e, e']
      cases r with
      | ok x => exact absurd rfl (hr x)
      | _ => exact redirected_refl rfl
  · simp only [Name.table] at hopt ha ha'
    simp only [Name.run, Main.transform, transformArgs, hopt, ha, ha']
    rcases operands_cases (Transform.getArgs (Cmd.transform.options argv') {}) (·.help) i o with ⟨a, h, e, e'⟩ | ⟨a, e, e'⟩ | ⟨r, hr, e, e'⟩
    · simp only [e, e', h]
      split <;> exact redirected_refl rfl
    · simp only [e, e']
      split
      · exact redirected_refl rfl
      split
      · exact redirected_refl rfl
      split
      · exact redirected_refl rfl
      · rw [inputStream_file hi hx hr']
        simp only [inputStream, List.isEmpty_nil, if_true, hio, decide_false, Bool.and_false, Bool.false_eq_true, if_false, Bool.not_true,
          Bool.false_and]
        exact outputStream_redirected ho hwo _
    · simp only [e, e']
      cases r with
      | ok x => exact absurd rfl (hr x)
      | _ => exact redirected_refl rfl
  · simp only [Name.table] at hopt ha ha' hs
    simp only [Name.run, Main.srs, hopt, ha, ha']
    rw [hopt] at hs
    cases h : Cmd.srsArgs (Cmd.srs.options argv') {} with
    | ok a =>
      simp only
      split
      · exact redirected_refl rfl
      split
      · exact redirected_refl rfl
      rename_i hh
      rcases srs_given h (Or.inr hs) with h' | h'
      · exact absurd h' hh
      obtain ⟨t, ht⟩ := Option.ne_none_iff_exists'.mp h'
      obtain ⟨g, hg⟩ := openWrite_ok hwo
      rw [ht]
      simp only [hg, openRead, hx, hr', if_true, outputStream, List.isEmpty_nil, Apps.setSrs]
      cases Apps.fileOf (Io.readFile p.build p.zlib { rest := x.content }) with
      | ok f => exact set_redirected
      | _ => exact ⟨rfl, rfl, Or.inl ⟨rfl, rfl⟩⟩
    | _ => exact redirected_refl rfl

/-- A world with one SPOC file. -/
def exampleWorld : World where
  fs := fun n => if n = ['a'] then some { content := emptyCloud, readable := true, writable := true } else none
  canCreate _ := true
  stdin := { rest := [] }

example : CanWrite exampleWorld ['a'] ∧ CanWrite exampleWorld ['b'] := by
  simp [CanWrite, exampleWorld]

example (p : Params) (t : Str) : SameWritten exampleWorld ['a'] ['b'] (Name.srs.run p (srsLine t ['a'] ['a']) exampleWorld)
    (Name.srs.run p (srsLine t ['a'] ['b']) exampleWorld) := by
  apply c72_in_place_partial .srs p exampleWorld _ _ _ _ (Or.inr (Or.inr (Or.inr (Or.inr ⟨rfl, t, ?_⟩))))
  · rw [(srsLine_parse t _ _).1, (srsLine_parse t _ _).1]
  · exact (srsLine_parse t _ _).2
  · exact (srsLine_parse t _ _).2
  · decide
  · decide
  · simp [CanWrite, exampleWorld]
  · simp [CanWrite, exampleWorld]
  · rw [(srsLine_parse t _ _).1]
    exact List.mem_cons_self

example (p : Params) : Redirected exampleWorld ['b'] (Name.transform.run p (transformLine ['a'] ['b']) exampleWorld)
    (Name.transform.run p [['-', '-', 'c', 'o', 'p', 'y', '-', 'f', 'i', 'e', 'l', 'd', '=', 'i', ',', 'c']]
      { exampleWorld with stdin := { rest := emptyCloud } }) := by
  refine c73_redirection .transform p exampleWorld _ _ ['a'] ['b'] (Or.inr (Or.inr (Or.inr (Or.inr (Or.inl rfl))))) ?_ ?_ ?_ (by decide) (by decide) (by decide)
    ⟨emptyCloud, true, true⟩ rfl rfl ?_
  · decide +kernel
  · decide +kernel
  · decide +kernel
  · simp [CanWrite, exampleWorld]

example (p : Params) (t : Str) (ht : 65535 < t.length) :
    content (Name.srs.run p (srsLine t ['a'] ['a']) exampleWorld).fs ['a'] = some [] :=
  (c71_srs_truncates p exampleWorld t ['a'] ht _ _ _ rfl rfl rfl (emptyCloud_read _ _)).2

example (p : Params) : ∃ e, (Name.compress.run p [['z']] exampleWorld).res = .throw e := ⟨_, rfl⟩

end Spoc.Props
