import Verif.Base.TextIo
import Verif.Model.Apps
import Verif.Model.AppUtils
import Verif.Model.Voxel

/-!
# Model of the tool application (`/repo/apps/tool`)

Simplifications: text printed before a failure is not part of the outcome of `getField`; memory is unlimited; messages to the log are
not modelled, except the one about the number of assigned points.
-/

namespace Spoc.Tool

open Text AppUtils

/-- The conversion of an `int` to `size_t`. -/
def sizeT (n : Int) : Nat := (n % 2 ^ 64).toNat

/-- The index of the extra field (`/repo/apps/tool/tool.h` lines 36-38 and 186-192). -/
def extraIndex (f : SpocFile) (name : Str) : Nat :=
  if isExtraField name then sizeT (getExtraIndex name) else f.extraFields + 1

/-- One iteration of the loop of `get_field` (`/repo/apps/tool/tool.h` lines 43-61): what is printed for a point.  The precision set in
lines 22-33 is `digits10 + 1 = 16`. -/
def showField (b : Build) (name : Str) (j : Nat) (p : PointRecord) : Res Str :=
  match name.head? with
  | some 'x' => .ok (showDouble 16 p.x ++ ['\n'])
  | some 'y' => .ok (showDouble 16 p.y ++ ['\n'])
  | some 'z' => .ok (showDouble 16 p.z ++ ['\n'])
  | some 'c' => .ok (showNat p.c.toNat ++ ['\n'])
  | some 'p' => .ok (showNat p.p.toNat ++ ['\n'])
  | some 'i' => .ok (showNat p.i.toNat ++ ['\n'])
  | some 'r' => .ok (showNat p.r.toNat ++ ['\n'])
  | some 'g' => .ok (showNat p.g.toNat ++ ['\n'])
  | some 'b' => .ok (showNat p.b.toNat ++ ['\n'])
  | some 'e' => do
    cassert b (isExtraField name)
    cassert b (decide (j < p.extra.length))
    match p.extra[j]? with
    | some e => .ok (showNat e.toNat ++ ['\n'])
    | none => .ub "vector index out of range"
  | _ => .ok []

/-- `get_field` (`/repo/apps/tool/tool.h` lines 14-63): the text that is printed. -/
def getField (b : Build) (f : SpocFile) (name : Str) : Res Str := do
  require b (checkFieldName name)
  let ts ← f.prs.mapM (showField b name (extraIndex f name))
  .ok ts.flatten

/-- The values read by the loop of `set_field` (`/repo/apps/tool/tool.h` lines 164-177). -/
def readValues {α : Type} (read : TextIn → α × TextIn) : Nat → TextIn → Res (List α)
  | 0, _ => .ok []
  | n + 1, s =>
    let (v, s) := read s
    if s.eof then .throw "Reached end-of-file before reading all field values"
    else do
      let vs ← readValues read n s
      .ok (v :: vs)

/-- Are the values of a field floating-point numbers? (`/repo/apps/tool/tool.h` lines 143-152) -/
def isFloatField (name : Str) : Bool :=
  decide (name.head? = some 'x' ∨ name.head? = some 'y' ∨ name.head? = some 'z')

/-- The conversion of a `size_t` to a 32-bit unsigned integer. -/
def toU32 (v : UInt64) : UInt32 := UInt32.ofNat v.toNat
/-- The conversion of a `size_t` to a 16-bit unsigned integer. -/
def toU16 (v : UInt64) : UInt16 := UInt16.ofNat v.toNat

/-- Set a floating-point field (`/repo/apps/tool/tool.h` lines 204-206). -/
def setDouble (name : Str) (v : F64) (p : PointRecord) : PointRecord :=
  match name.head? with
  | some 'x' => { p with x := v }
  | some 'y' => { p with y := v }
  | some 'z' => { p with z := v }
  | _ => p

/-- Set an integer field (`/repo/apps/tool/tool.h` lines 207-220). -/
def setInt (b : Build) (name : Str) (j : Nat) (v : UInt64) (p : PointRecord) : Res PointRecord :=
  match name.head? with
  | some 'c' => .ok { p with c := toU32 v }
  | some 'p' => .ok { p with p := toU32 v }
  | some 'i' => .ok { p with i := toU16 v }
  | some 'r' => .ok { p with r := toU16 v }
  | some 'g' => .ok { p with g := toU16 v }
  | some 'b' => .ok { p with b := toU16 v }
  | some 'e' => do
    cassert b (isExtraField name)
    cassert b (decide (j < p.extra.length))
    if j < p.extra.length then .ok { p with extra := p.extra.set j v } else .ub "vector index out of range"
  | _ => .ok p

/-- The records with missing extra fields added (`/repo/apps/tool/tool.h` lines 179-197). -/
def addExtra (f : SpocFile) (name : Str) : List PointRecord :=
  let j := extraIndex f name
  if isExtraField name ∧ f.extraFields ≤ j then
    f.prs.map (fun p => { p with extra := SpocFile.resizeExtra ((j + 1) % 2 ^ 64) p.extra })
  else f.prs

/-- `set_field` (`/repo/apps/tool/tool.h` lines 130-229). -/
def setField (b : Build) (f : SpocFile) (text : TextIn) (name : Str) : Res SpocFile := do
  require b f.isValid
  require b text.good
  require b (checkFieldName name)
  let n := f.prs.length
  let ps ← if isFloatField name then do
      let vs ← readValues (fun s => s.readDouble F64.zero) n text
      .ok (((addExtra f name).zip vs).map (fun pv => setDouble name pv.2 pv.1))
    else do
      let vs ← readValues (fun s => s.readU64 0) n text
      ((addExtra f name).zip vs).mapM (fun pv => setInt b name (extraIndex f name) pv.2 pv.1)
  f.cloneEmpty.setPointRecords ps

/-- The sums of `recenter` (`/repo/apps/tool/tool.h` lines 73-83). -/
def sumOf (field : PointRecord → F64) (ps : List PointRecord) : F64 :=
  ps.foldl (fun s p => F64.add s (field p)) F64.zero

/-- The mean of `recenter` (`/repo/apps/tool/tool.h` lines 86-89). -/
def meanOf (sum : F64) (n : Nat) : F64 := if n = 0 then F64.zero else F64.div sum (F64.ofNat n)

/-- `recenter` (`/repo/apps/tool/tool.h` lines 66-110). -/
def recenter (b : Build) (f : SpocFile) (zFlag : Bool) : Res SpocFile := do
  require b f.isValid
  let n := f.prs.length
  let cx := meanOf (sumOf (·.x) f.prs) n
  let cy := meanOf (sumOf (·.y) f.prs) n
  let cz := meanOf (if zFlag then sumOf (·.z) f.prs else F64.zero) n
  f.cloneEmpty.setPointRecords (f.prs.map (fun p =>
    { p with x := F64.sub p.x cx, y := F64.sub p.y cy, z := if zFlag then F64.sub p.z cz else p.z }))

/-- `resize_extra` (`/repo/apps/tool/tool.h` lines 113-128). -/
def resizeExtra (b : Build) (f : SpocFile) (sz : Int) : Res SpocFile := do
  require b f.isValid
  require b (decide (0 ≤ sz))
  let g ← f.copy
  .ok (g.resizeExtraFields (sizeT sz))

/-- `subtract_min` (`/repo/apps/tool/tool.h` lines 232-261). -/
def subtractMin (b : Build) (f : SpocFile) (zFlag : Bool) : Res SpocFile := do
  require b f.isValid
  let e := Extent.ofPoints f.prs
  f.cloneEmpty.setPointRecords (f.prs.map (fun p =>
    { p with x := F64.sub p.x e.minp.x, y := F64.sub p.y e.minp.y, z := if zFlag then F64.sub p.z e.minp.z else p.z }))

/-- The inner loop of `upsample_classifications` (`/repo/apps/tool/tool.h` lines 318-334) for one low-resolution point. -/
def assignClass (b : Build) (c : UInt32) : List Nat → SpocFile → Res SpocFile
  | [], h => .ok h
  | j :: js, h => do
    cassert b (decide (j < h.prs.length))
    let r ← h.getPointRecord b j
    let h ← h.setPointRecord b j { r with c := c }
    assignClass b c js h

/-- The outer loop (`/repo/apps/tool/tool.h` lines 298-336): the low-resolution points from number `i` on with their voxels `vl`, and
the number of assignments so far. -/
def upsampleLoop (b : Build) (l : SpocFile) (vmh : Voxel.Map) : List VoxelIndex → Nat → SpocFile → Nat → Res (SpocFile × Nat)
  | [], _, h, k => .ok (h, k)
  | v :: vs, i, h, k =>
    match vmh.find v with
    | none => upsampleLoop b l vmh vs (i + 1) h k
    | some indexes => do
      cassert b (!indexes.isEmpty)
      let p ← l.getPointRecord b i
      let h ← assignClass b p.c indexes h
      upsampleLoop b l vmh vs (i + 1) h (k + indexes.length)

/-- `upsample_classifications` (`/repo/apps/tool/tool.h` lines 264-351): the file and the number of assignments, which is
only printed. -/
def upsample (b : Build) (l f : SpocFile) (resolution : F64) : Res (SpocFile × Nat) := do
  require b l.isValid
  require b f.isValid
  require b (F64.gt resolution F64.zero)
  let h ← f.copy
  let vh ← Voxel.getIndexes f.prs resolution
  let eh := Extent.ofPoints h.prs
  let vl ← Voxel.getIndexesIn l.prs eh resolution
  upsampleLoop b l (Voxel.getMap vh) vl 0 h 0

/-- `struct command` (`/repo/apps/tool/tool_cmd.h` lines 15-19). -/
structure Command where
  name : String := ""
  params : Str := []
  deriving DecidableEq, Repr

/-- `struct args` (`/repo/apps/tool/tool_cmd.h` lines 21-31), without the names of input and output. -/
structure Args where
  help : Bool := false
  verbose : Bool := false
  version : Bool := false
  resolution : F64 := F64.zero
  command : Command := {}
  fieldFn : Str := []
  deriving DecidableEq, Repr

/-- `set_command` (`/repo/apps/tool/tool_cmd.h` lines 44-55). -/
def setCommand (a : Args) (name : String) (s : Str) : Res Args :=
  if a.command.name ≠ "" then .throw "You can only specify one command at a time"
  else .ok { a with command := { name := name, params := s } }

/-- The names of the commands (`/repo/apps/tool/tool_cmd.h` lines 67-78). -/
def commandNames : List String :=
  ["get-field", "recenter-xy", "recenter-xyz", "resize-extra", "set-field", "subtract-min-xy", "subtract-min-xyz",
   "upsample-classifications"]

/-- The loop of `get_args` (`/repo/apps/tool/tool_cmd.h` lines 57-153). -/
def getArgs : List (String × Str) → Args → Res Args
  | [], a => .ok a
  | (name, arg) :: os, a =>
    if name = "help" then .ok { a with help := true }
    else if name = "verbose" then getArgs os { a with verbose := true }
    else if name = "version" then getArgs os { a with version := true }
    else if name ∈ commandNames then do
      let a ← setCommand a name arg
      getArgs os a
    else if name = "field-filename" then getArgs os { a with fieldFn := arg }
    else if name = "resolution" then getArgs os { a with resolution := atof arg }
    else .throw "Invalid option"

/-- What the application writes: nothing, text, or what `write_spoc_file` writes to the output, which is opened only then. -/
inductive Output where
  | nothing
  | text (t : Str)
  | file (o : Out Unit)
  deriving DecidableEq

/-- The files that the application opens by name: texts and SPOC files; `none` if a file cannot be opened. -/
structure Files where
  text : Str → Option Str
  spoc : Str → Option IStream

/-- The commands that change the file (`/repo/apps/tool/tool.cpp` lines 67-113). -/
def run (b : Build) (zl : Zlib) (files : Files) (a : Args) (f : SpocFile) : Res SpocFile :=
  if a.command.name = "recenter-xy" then recenter b f false
  else if a.command.name = "recenter-xyz" then recenter b f true
  else if a.command.name = "resize-extra" then
    match stoi a.command.params with
    | none => .throw "stoi"
    | some (n, _) =>
      if n < 0 then .throw "The number of extra fields must be >= 0"
      else if n > 255 then .throw "The number of extra fields must be < 256"
      else resizeExtra b f n
  else if a.command.name = "set-field" then
    if a.fieldFn.isEmpty then .throw "You must set the 'field-filename' option when using the 'set-field' command"
    else
      match files.text a.fieldFn with
      | none => .throw "Could not open file for reading"
      | some t => do
        let (name, _) ← consumeFieldName b a.command.params
        setField b f { rest := t } name
  else if a.command.name = "subtract-min-xy" then subtractMin b f false
  else if a.command.name = "subtract-min-xyz" then subtractMin b f true
  else if a.command.name = "upsample-classifications" then
    if F64.le a.resolution F64.zero then
      .throw "The 'resolution' option must be set to a value > 0.0 when using the 'upsample' command"
    else
      match files.spoc a.command.params with
      | none => .throw "Could not open file for reading"
      | some s => do
        let g ← Apps.fileOf (Io.readFile b zl s)
        let (h, _) ← upsample b f g a.resolution
        .ok h
  else .throw "An unknown command was encountered"

/-- `main` (`/repo/apps/tool/tool.cpp` lines 9-127). -/
def main (b : Build) (zl : Zlib) (files : Files) (options : List (String × Str)) (input : IStream) : Res Output := do
  let a ← getArgs options {}
  if a.version then .ok .nothing
  else if a.help then .ok .nothing
  else if a.command.name = "" then .throw "No command was specified"
  else do
    let f ← Apps.fileOf (Io.readFile b zl input)
    if a.command.name = "get-field" then do
      let (name, _) ← consumeFieldName b a.command.params
      let t ← getField b f name
      .ok (.text t)
    else do
      let g ← run b zl files a f
      .ok (.file (Io.writeFile b zl g))

end Spoc.Tool
