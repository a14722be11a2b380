import Verif.Props.Python
import Verif.Props.Builds
import Verif.Props.EndToEnd
import Verif.Proofs.Tool

/-!
# C150: Python and the applications see the same columns

`getX` … `getExtra` of the Python module (/repo/spocpy/spocpy/spocpy.cpp lines 103-112) and `spoc_tool --get-field` (/repo/apps/tool/tool.h, get_field).
-/

namespace Spoc.Props

open Spec Text Main

/-- The call that asks for a field of the first file object. -/
def columnCall : Field → Python.Call
  | .x => .getColumn 0 .x
  | .y => .getColumn 0 .y
  | .z => .getColumn 0 .z
  | .c => .getColumn 0 .c
  | .p => .getColumn 0 .p
  | .i => .getColumn 0 .i
  | .r => .getColumn 0 .r
  | .g => .getColumn 0 .g
  | .b => .getColumn 0 .b
  | .e n => .getExtra 0 n

/-- A list of numbers as text, one in each line: integers in full, doubles with 16 digits. -/
def linesOf : Python.Value → Str
  | .floats l => l.flatMap (fun v => showDouble 16 v ++ ['\n'])
  | .ints l => l.flatMap (fun n => Nat.toDigits 10 n ++ ['\n'])
  | _ => []

/-- The numbers in a list, doubles as their bit patterns. -/
def numbersIn : Python.Value → List Nat
  | .floats l => l.map (·.bits.toNat)
  | .ints l => l
  | _ => []

theorem readFile_any (z : Zlib) (s : IStream) : ∀ b b' : Build, Io.readFile b z s = Io.readFile b' z s
  | .debug, .debug => Eq.refl _
  | .release, .release => Eq.refl _
  | .debug, .release => c92_read z s
  | .release, .debug => (c92_read z s).symm

theorem column_step (P : Python.Params) (S : Python.State) (f : SpocFile) (hS : S.files[0]? = some f) (fld : Field) (hidx : ∀ n, fld = .e n → n < 2 ^ 31)
    (hget : ∀ q ∈ f.prs, fld.get q ≠ none) :
    ∃ v, Python.step P S (columnCall fld) = (S, .ok v) ∧ (numbersIn v).map some = f.prs.map fld.get
      ∧ linesOf v = wordsText (f.prs.map (fun q => (Tool.fieldText fld q, ['\n']))) := by
  have ob : Python.object S.files 0 = .ok f := object_ok.mpr hS
  have col : ∀ k, Python.step P S (.getColumn 0 k) = (S, .ok (Python.column f.prs k)) := by
    intro k
    simp only [Python.step, Python.action, ob, Res.ok_bind, Python.transact]
  cases fld with
  | e n =>
    have hk : ∀ q ∈ f.prs, n < q.extra.length := by
      intro q hq
      by_contra hc
      exact hget q hq (by simp [Field.get, List.getElem?_eq_none (not_lt.mp hc)])
    have hn : Python.toUnsigned 64 (n : Int) = .ok n := by
      have := hidx n rfl
      unfold Python.toUnsigned
      rw [if_pos (by omega)]
      simp
    refine ⟨.ints (f.prs.map (fun q => (q.extra.getD n 0).toNat)), ?_, ?_, ?_⟩
    · simp only [columnCall, Python.step, Python.action, ob, hn, Diff.getExtra_eq _ n f.prs hk, Res.ok_bind, Python.transact, Diff.column, List.map_map, Function.comp_def]
    · simp only [numbersIn, List.map_map]
      refine List.map_congr_left (fun q hq => ?_)
      simp [Field.get, List.getElem?_eq_getElem (hk q hq)]
    · simp only [linesOf, wordsText, List.flatMap, List.map_map]
      refine congrArg List.flatten ?_
      refine List.map_congr_left (fun q hq => ?_)
      simp [Tool.fieldText, showNat, Field.get, List.getElem?_eq_getElem (hk q hq)]
  | _ =>
    refine ⟨_, col _, ?_, ?_⟩
    · simp [Python.column, numbersIn, Field.get]
    · simp [Python.column, linesOf, wordsText, Tool.fieldText, showNat, Field.get, List.flatMap, Function.comp_def]

/-- **C150**, reading: what the applications have as a cloud in a file is what `readspocfile` gives a Python program. -/
theorem c150_read (p : Main.Params) (P : Python.Params) (hP : P.zlib = p.zlib) (t : Python.State) (i : Str) (f : SpocFile) (hf : HasCloud p t.fs i f) :
    Python.step P t (.readspocfile i) = ({ t with files := t.files ++ [f] }, .ok (.newFile t.files.length)) := by
  obtain ⟨x, s', hx, hr, hfile⟩ := id hf
  have hu := (readable_writable hfile).uniform
  have hopen : openRead t.fs i = some { rest := x.content } := by simp [openRead, hx, hr]
  have hread : Python.readspocfile P t.fs i = .ok f := by
    unfold Python.readspocfile
    rw [hopen]
    simp only [hP, readFile_any _ _ P.build p.build, hfile, Res.ok_bind, Tool.copy_ok hu]
  simp only [Python.step, Python.action, hread, Res.ok_bind, Python.transact]

/-- **C150**, writing, for clouds that survive a round trip (C01, C02): what a Python program writes is what the applications have as a cloud, so that all that is
proved of the applications holds for it; other files are left alone. -/
theorem c150_written (p : Main.Params) (P : Python.Params) (hz : P.zlib.Correct) (hP : P.zlib = p.zlib) (s : Python.State) (h : Nat) (f : SpocFile) (n : Str)
    (hf : s.files[h]? = some f) (hs : Survives P.zlib f) (hc : PyCanWrite s n) :
    ∃ fs', Python.step P s (.writespocfile n h) = ({ s with fs := fs' }, .ok .nothing) ∧ HasCloud p fs' n f ∧ ∀ m, m ≠ n → fs' m = s.fs m := by
  obtain ⟨x, h1, h2⟩ : ∃ x, Tile.openWrite s.canCreate s.fs n = some x ∧ x.readable = true := by
    unfold PyCanWrite at hc
    unfold Tile.openWrite
    cases hx : s.fs n with
    | some x =>
      simp only [hx] at hc
      exact ⟨_, if_pos hc.1, hc.2⟩
    | none =>
      simp only [hx] at hc
      exact ⟨_, if_pos hc, rfl⟩
  have hw := survives_roundtrip P.build P.zlib hz f hs
  have hr := hw.2 []
  rw [List.append_nil] at hr
  refine ⟨s.fs.set n { x with content := (Io.writeFile P.build P.zlib f).bytes }, ?_, ⟨{ x with content := (Io.writeFile P.build P.zlib f).bytes }, { rest := [] }, by simp [Tile.FS.set], h2, ?_⟩, fun m hm => by simp [Tile.FS.set, hm]⟩
  · simp only [Python.step, object_ok.mpr hf, Python.writespocfile, h1, hw.1]
    rfl
  · rw [← hP, readFile_any _ _ p.build P.build]
    exact hr

/-- **C150**: for a file that the applications can read, a Python program on the same disk gets exactly the numbers that are stored in it, and
`spoc_tool --get-field` prints exactly these numbers, one in each line, in the same order. -/
theorem c150_columns (p : Main.Params) (P : Python.Params) (hP : P.zlib = p.zlib) (w : World) (canCreate : Str → Bool) (i : Str) (hi : i ≠ []) (f : SpocFile)
    (hf : HasCloud p w.fs i f) (fld : Field) (hidx : ∀ n, fld = .e n → n < 2 ^ 31) (hget : ∀ q ∈ f.prs, fld.get q ≠ none) (argv : List Str)
    (hopt : Cmd.tool.options argv = [("get-field", fld.name)]) (hops : Cmd.tool.operands argv = [i]) :
    ∃ s v, Python.run P (Python.start w.fs canCreate) [.readspocfile i, columnCall fld] = (s, [.ok (.newFile 0), .ok v])
      ∧ (numbersIn v).map some = f.prs.map fld.get
      ∧ Name.tool.run p argv w = ⟨w.fs, Main.bytes (linesOf v), .ok 0⟩ := by
  obtain ⟨x, s', hx, hr, hfile⟩ := id hf
  have hu := (readable_writable hfile).uniform
  have hopen : openRead w.fs i = some { rest := x.content } := by simp [openRead, hx, hr]
  have hread : Python.readspocfile P w.fs i = .ok f := by
    unfold Python.readspocfile
    rw [hopen]
    simp only [hP, readFile_any _ _ P.build p.build, hfile, Res.ok_bind, Tool.copy_ok hu]
  have h1 : Python.step P (Python.start w.fs canCreate) (.readspocfile i) = (⟨w.fs, canCreate, [], [f]⟩, .ok (.newFile 0)) := by
    simp only [Python.step, Python.action, Python.start, hread, Res.ok_bind, Python.transact, List.nil_append, List.length_nil]
  obtain ⟨v, h2, h3, h4⟩ := column_step P ⟨w.fs, canCreate, [], [f]⟩ f rfl fld hidx hget
  refine ⟨_, v, by simp only [Python.run, h1, h2]; rfl, h3, ?_⟩
  have hin : inputStream w i = .ok { rest := x.content } := by simp [inputStream, hi, hopen]
  have ha : Tool.getArgs (Cmd.tool.options argv) {} = .ok { command := ⟨"get-field", fld.name⟩ } := by
    rw [hopt]
    rfl
  have hname : AppUtils.consumeFieldName p.build fld.name = .ok (fld.name, []) := by
    have hne : fld.name.isEmpty = false := by cases fld <;> rfl
    unfold AppUtils.consumeFieldName
    rw [hne, Bool.not_false, cassert_true, Res.ok_bind]
    have e1 : fld.name.takeWhile isAlnum = fld.name := List.takeWhile_eq_self_iff.mpr (name_alnum fld)
    have e2 : fld.name.dropWhile isAlnum = [] := List.dropWhile_eq_nil_iff.mpr (name_alnum fld)
    simp only [e1, e2, (c61_field_names_accepted fld hidx).1]
    rfl
  simp only [Name.run, Main.tool, toolArgs, withOperands, ha, hops, Cmd.inOut, Res.ok_bind, Bool.false_eq_true, if_false, if_true, hin, Apps.fileOf, hfile, hname,
    Tool.getField_eq p.build f hidx hget, h4]
  simp

/-- The hypotheses of `c150_columns` hold, for the column y. -/
example : ∃ s v, Python.run ⟨.debug, toyZlib⟩ (Python.start exampleDisk.fs (fun _ => true)) [.readspocfile ['a'], .getColumn 0 .y] = (s, [.ok (.newFile 0), .ok v])
    ∧ Name.tool.run exampleParams ["--get-field=y".toList, ['a']] exampleDisk = ⟨exampleDisk.fs, Main.bytes (linesOf v), .ok 0⟩ := by
  obtain ⟨s, v, h1, -, h2⟩ := c150_columns exampleParams ⟨.debug, toyZlib⟩ rfl exampleDisk (fun _ => true) ['a'] (by decide) cloudA cloudA_on_disk.1 .y (by simp)
    (by simp [Field.get]) ["--get-field=y".toList, ['a']] (by decide +kernel) (by decide +kernel)
  exact ⟨s, v, h1, h2⟩

/-- The hypotheses of `c150_read` hold, for a compressed file. -/
example := c150_read exampleParams ⟨.debug, toyZlib⟩ rfl (Python.start exampleDisk.fs (fun _ => true)) ['z'] _ cloudZ_on_disk

/-- The hypotheses of `c150_written` hold. -/
example := c150_written exampleParams ⟨.debug, toyZlib⟩ toyZlib_correct rfl ⟨exampleDisk.fs, fun _ => true, [], [cloudA]⟩ 0 cloudA ['o'] rfl cloudA_survives rfl

end Spoc.Props
