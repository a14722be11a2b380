import Verif.Model.AppUtils
import Verif.Model.Apps
import Verif.Model.Utils

/-!
# Model of the transform application (`/repo/apps/transform`)

`sin`, `cos`, `std::stod` and the random number distributions are parameters.
-/

namespace Spoc

/-- Conversion of a `double` to `uint32_t`: truncation; undefined if the value does not fit. -/
def F64.toU32 (x : F64) : Res UInt32 :=
  if x.isFinite then
    if 0 ≤ x.trunc ∧ x.trunc < 2 ^ 32 then .ok (UInt32.ofNat x.trunc.toNat)
    else .ub "double out of range of uint32_t"
  else .ub "double out of range of uint32_t"

/-- Conversion of a `double` to `uint16_t`: truncation; undefined if the value does not fit. -/
def F64.toU16 (x : F64) : Res UInt16 :=
  if x.isFinite then
    if 0 ≤ x.trunc ∧ x.trunc < 2 ^ 16 then .ok (UInt16.ofNat x.trunc.toNat)
    else .ub "double out of range of uint16_t"
  else .ub "double out of range of uint16_t"

namespace Transform

open AppUtils

/-- The random offsets: for seed and the three parameters, what the three distributions
deliver at the `n`-th call of the operation. -/
structure Noise where
  gauss : Nat → F64 → F64 → F64 → Nat → Pt F64
  uniform : Nat → F64 → F64 → F64 → Nat → Pt F64

/-- Library functions that are parameters of the model. -/
structure Env where
  trig : Trig
  noise : Noise
  stod : Stod

/-- `OP` (`/repo/apps/transform/transform.h` line 42).  A function from records to records
that may hold state; the state is the number of the call. -/
abbrev Op := Nat → PointRecord → Res PointRecord

/-- `get_add_x_op` (`/repo/apps/transform/transform.h` lines 44-48). -/
def addXOp (v : F64) : Op := fun _ p => .ok { p with x := F64.add p.x v }
/-- `get_add_y_op` (`/repo/apps/transform/transform.h` lines 50-54). -/
def addYOp (v : F64) : Op := fun _ p => .ok { p with y := F64.add p.y v }
/-- `get_add_z_op` (`/repo/apps/transform/transform.h` lines 56-60). -/
def addZOp (v : F64) : Op := fun _ p => .ok { p with z := F64.add p.z v }

/-- `field_name[0]` as a switch label; the terminating zero of an empty string is not a label. -/
def label (name : Str) : Char := name.headD (Char.ofNat 0)

/-- The extra index (`/repo/apps/transform/transform.h` lines 85-90, 201-203, 260-262,
405-407): an `int` converted to `size_t`. -/
def extraIndex (name : Str) (extraFields : Nat) : Nat :=
  if isExtraField name then (UInt64.ofInt (getExtraIndex name)).toNat else extraFields + 1

/-- The source value of the copy command (`/repo/apps/transform/transform.h` lines 96-113). -/
def copySrc (name : Str) (j : Nat) (p : PointRecord) : Res Nat :=
  match label name with
  | 'c' => .ok p.c.toNat
  | 'p' => .ok p.p.toNat
  | 'i' => .ok p.i.toNat
  | 'r' => .ok p.r.toNat
  | 'g' => .ok p.g.toNat
  | 'b' => .ok p.b.toNat
  | 'e' => match p.extra[j]? with
    | none => .throw "Invalid extra field specification"
    | some v => .ok v.toNat
  | _ => .ok 0

/-- Setting the destination of the copy command (`/repo/apps/transform/transform.h` lines
116-132); the value is converted to the type of the field. -/
def copyDst (name : Str) (j : Nat) (src : Nat) (p : PointRecord) : Res PointRecord :=
  match label name with
  | 'c' => .ok { p with c := UInt32.ofNat src }
  | 'p' => .ok { p with p := UInt32.ofNat src }
  | 'i' => .ok { p with i := UInt16.ofNat src }
  | 'r' => .ok { p with r := UInt16.ofNat src }
  | 'g' => .ok { p with g := UInt16.ofNat src }
  | 'b' => .ok { p with b := UInt16.ofNat src }
  | 'e' =>
    if j ≥ p.extra.length then .throw "Invalid extra field specification"
    else .ok { p with extra := p.extra.set j (UInt64.ofNat src) }
  | _ => .ok p

/-- x, y or z? (`/repo/apps/transform/transform.h` lines 69-82, 193-198, 242-247) -/
def isXYZ (name : Str) : Bool := label name == 'x' || label name == 'y' || label name == 'z'

/-- `get_copy_field_op` (`/repo/apps/transform/transform.h` lines 62-138).  (The `assert`s
repeat the switch label.) -/
def copyFieldOp (name1 name2 : Str) (extraFields : Nat) : Res Op :=
  if isXYZ name1 then .throw "Cannot run the copy command on floating point fields (X, Y, Z)"
  else if isXYZ name2 then .throw "Cannot run the copy command on floating point fields (X, Y, Z)"
  else
    let j1 := extraIndex name1 extraFields
    let j2 := extraIndex name2 extraFields
    .ok (fun _ p => do
      let src ← copySrc name1 j1 p
      copyDst name2 j2 src p)

/-- Adding offsets where the parameter is not zero (`/repo/apps/transform/transform.h` lines
156-161 and 455-460). -/
def addNoise (sx sy sz : F64) (d : Pt F64) (p : PointRecord) : PointRecord :=
  { p with
    x := if F64.fne sx F64.zero then F64.add p.x d.x else p.x
    y := if F64.fne sy F64.zero then F64.add p.y d.y else p.y
    z := if F64.fne sz F64.zero then F64.add p.z d.z else p.z }

/-- `get_gaussian_noise_op` (`/repo/apps/transform/transform.h` lines 140-166). -/
def gaussianOp (nz : Noise) (seed : Nat) (sx sy sz : F64) : Op :=
  fun n p => .ok (addNoise sx sy sz (nz.gauss seed sx sy sz n) p)

/-- `get_uniform_noise_op` (`/repo/apps/transform/transform.h` lines 439-465). -/
def uniformOp (nz : Noise) (seed : Nat) (mx my mz : F64) : Op :=
  fun n p => .ok (addNoise mx my mz (nz.uniform seed mx my mz n) p)

/-- `static_cast<int> (x / precision) * precision` (`/repo/apps/transform/transform.h` lines 175-177). -/
def quantizeCoord (precision x : F64) : Res F64 := do
  let n ← F64.toInt32 (F64.div x precision)
  .ok (F64.mul (F64.ofInt n) precision)

/-- `get_quantize_op` (`/repo/apps/transform/transform.h` lines 169-182). -/
def quantizeOp (precision : F64) : Op := fun _ p => do
  let x ← quantizeCoord precision p.x
  let y ← quantizeCoord precision p.y
  let z ← quantizeCoord precision p.z
  .ok { p with x := x, y := y, z := z }

/-- The body of the replace operation (`/repo/apps/transform/transform.h` lines 209-228). -/
def replaceBody (name : Str) (v1 v2 : UInt32) (j : Nat) (p : PointRecord) : Res PointRecord :=
  match label name with
  | 'c' => .ok (if p.c.toNat = v1.toNat then { p with c := UInt32.ofNat v2.toNat } else p)
  | 'p' => .ok (if p.p.toNat = v1.toNat then { p with p := UInt32.ofNat v2.toNat } else p)
  | 'i' => .ok (if p.i.toNat = v1.toNat then { p with i := UInt16.ofNat v2.toNat } else p)
  | 'r' => .ok (if p.r.toNat = v1.toNat then { p with r := UInt16.ofNat v2.toNat } else p)
  | 'g' => .ok (if p.g.toNat = v1.toNat then { p with g := UInt16.ofNat v2.toNat } else p)
  | 'b' => .ok (if p.b.toNat = v1.toNat then { p with b := UInt16.ofNat v2.toNat } else p)
  | 'e' => match p.extra[j]? with
    | none => .throw "Invalid extra field specification"
    | some v => .ok (if v.toNat = v1.toNat then
        { p with extra := p.extra.set j (UInt64.ofNat v2.toNat) } else p)
  | _ => .ok p

/-- `get_replace_op` (`/repo/apps/transform/transform.h` lines 185-232). -/
def replaceOp (name : Str) (v1 v2 : UInt32) (extraFields : Nat) : Res Op :=
  if isXYZ name then .throw "Cannot run the replace command on floating point fields (X, Y, Z)"
  else
    let j := extraIndex name extraFields
    .ok (fun _ p => replaceBody name v1 v2 j p)

/-- Does the field have the value `v`? (`/repo/apps/transform/transform.h` lines 275-292) -/
def hasValue (name : Str) (j : Nat) (p : PointRecord) (v : UInt32) : Res Bool :=
  match label name with
  | 'c' => .ok (decide (p.c.toNat = v.toNat))
  | 'p' => .ok (decide (p.p.toNat = v.toNat))
  | 'i' => .ok (decide (p.i.toNat = v.toNat))
  | 'r' => .ok (decide (p.r.toNat = v.toNat))
  | 'g' => .ok (decide (p.g.toNat = v.toNat))
  | 'b' => .ok (decide (p.b.toNat = v.toNat))
  | 'e' => match p.extra[j]? with
    | none => .throw "Invalid extra field specification"
    | some w => .ok (decide (w.toNat = v.toNat))
  | _ => .ok false

/-- The loop over the values (`/repo/apps/transform/transform.h` lines 271-297): replace? -/
def replaceNotLoop (name : Str) (j : Nat) (p : PointRecord) : List UInt32 → Res Bool
  | [] => .ok true
  | v :: vs => do
    if (← hasValue name j p v) then .ok false
    else replaceNotLoop name j p vs

/-- The replacement (`/repo/apps/transform/transform.h` lines 300-317), as written: the fields p, i,
r, g, b are tested, but c is assigned.  `r` is an `int`; converted to `uint64_t` it is sign-extended. -/
def replaceNotAssign (name : Str) (j : Nat) (r : Int) (p : PointRecord) : Res PointRecord :=
  match label name with
  | 'c' => .ok { p with c := UInt32.ofInt r }
  | 'p' => .ok { p with c := UInt32.ofInt r }
  | 'i' => .ok { p with c := UInt32.ofInt r }
  | 'r' => .ok { p with c := UInt32.ofInt r }
  | 'g' => .ok { p with c := UInt32.ofInt r }
  | 'b' => .ok { p with c := UInt32.ofInt r }
  | 'e' =>
    if j < p.extra.length then .ok { p with extra := p.extra.set j (UInt64.ofInt r) }
    else .ub "vector index out of range"
  | _ => .ok p

/-- Conversion of `unsigned` to `int` (two's complement). -/
def toInt (v : UInt32) : Int := Int.bmod v.toNat (2 ^ 32)

/-- `get_replace_not_op` (`/repo/apps/transform/transform.h` lines 235-323). -/
def replaceNotOp (name : Str) (v : List UInt32) (extraFields : Nat) : Res Op :=
  if isXYZ name then .throw "Cannot run the replace command on floating point fields (X, Y, Z)"
  else if v.length < 2 then
    .throw "Not enough values were specified in the replace-not command"
  else
    let r := toInt (v.getLastD 0)
    let v := v.dropLast
    let j := extraIndex name extraFields
    .ok (fun _ p => do
      let replace ← replaceNotLoop name j p v
      if replace then replaceNotAssign name j r p else .ok p)

/-- `get_rotate_x_op` (`/repo/apps/transform/transform.h` lines 325-342). -/
def rotateXOp (t : Trig) (degrees : F64) : Op := fun _ p =>
  let r := Affine.radians degrees
  let y := F64.sub (F64.mul p.y (t.cos r)) (F64.mul p.z (t.sin r))
  let z := F64.add (F64.mul p.y (t.sin r)) (F64.mul p.z (t.cos r))
  .ok { p with y := y, z := z }

/-- `get_rotate_y_op` (`/repo/apps/transform/transform.h` lines 344-361). -/
def rotateYOp (t : Trig) (degrees : F64) : Op := fun _ p =>
  let r := Affine.radians degrees
  let x := F64.sub (F64.mul p.x (t.cos r)) (F64.mul p.z (t.sin r))
  let z := F64.add (F64.mul p.x (t.sin r)) (F64.mul p.z (t.cos r))
  .ok { p with x := x, z := z }

/-- `get_rotate_z_op` (`/repo/apps/transform/transform.h` lines 363-380). -/
def rotateZOp (t : Trig) (degrees : F64) : Op := fun _ p =>
  let r := Affine.radians degrees
  let x := F64.sub (F64.mul p.x (t.cos r)) (F64.mul p.y (t.sin r))
  let y := F64.add (F64.mul p.x (t.sin r)) (F64.mul p.y (t.cos r))
  .ok { p with x := x, y := y }

/-- `get_scale_x_op` (`/repo/apps/transform/transform.h` lines 382-386). -/
def scaleXOp (v : F64) : Op := fun _ p => .ok { p with x := F64.mul p.x v }
/-- `get_scale_y_op` (`/repo/apps/transform/transform.h` lines 388-392). -/
def scaleYOp (v : F64) : Op := fun _ p => .ok { p with y := F64.mul p.y v }
/-- `get_scale_z_op` (`/repo/apps/transform/transform.h` lines 394-398). -/
def scaleZOp (v : F64) : Op := fun _ p => .ok { p with z := F64.mul p.z v }

/-- `get_set_op` (`/repo/apps/transform/transform.h` lines 400-437): the number is converted to
the type of the field. -/
def setOp (name : Str) (v : F64) (extraFields : Nat) : Op :=
  let j := extraIndex name extraFields
  fun _ p =>
    match label name with
    | 'x' => .ok { p with x := v }
    | 'y' => .ok { p with y := v }
    | 'z' => .ok { p with z := v }
    | 'c' => do let n ← F64.toU32 v; .ok { p with c := n }
    | 'p' => do let n ← F64.toU32 v; .ok { p with p := n }
    | 'i' => do let n ← F64.toU16 v; .ok { p with i := n }
    | 'r' => do let n ← F64.toU16 v; .ok { p with r := n }
    | 'g' => do let n ← F64.toU16 v; .ok { p with g := n }
    | 'b' => do let n ← F64.toU16 v; .ok { p with b := n }
    | 'e' =>
      if j ≥ p.extra.length then .throw "Invalid extra field specification"
      else do let n ← F64.toU64 v; .ok { p with extra := p.extra.set j n }
    | _ => .ok p

/-- `struct command` (`/repo/apps/transform/transform_cmd.h` lines 15-19). -/
structure Command where
  name : String
  params : Str
  deriving DecidableEq, Repr

/-- The operation for one command (`/repo/apps/transform/transform.h` lines 492-652). -/
def parseCommand (b : Build) (env : Env) (seed ef : Nat) (c : Command) : Res Op :=
  let num (k : F64 → Op) : Res Op := do
    let (v, _) ← consumeDouble env.stod c.params
    .ok (k v)
  let z := F64.zero
  if c.name = "add-x" then num addXOp
  else if c.name = "add-y" then num addYOp
  else if c.name = "add-z" then num addZOp
  else if c.name = "copy-field" then do
    let (f1, s) ← consumeFieldName b c.params
    let (f2, _) ← consumeFieldName b s
    copyFieldOp f1 f2 ef
  else if c.name = "gaussian-noise" then num (fun v => gaussianOp env.noise seed v v v)
  else if c.name = "gaussian-noise-x" then num (fun v => gaussianOp env.noise seed v z z)
  else if c.name = "gaussian-noise-y" then num (fun v => gaussianOp env.noise seed z v z)
  else if c.name = "gaussian-noise-z" then num (fun v => gaussianOp env.noise seed z z v)
  else if c.name = "quantize-xyz" then num quantizeOp
  else if c.name = "replace" then do
    let (l, s) ← consumeFieldName b c.params
    let (v1, s) ← consumeInt s
    let (v2, _) ← consumeInt s
    replaceOp l v1 v2 ef
  else if c.name = "replace-not" then do
    let (l, s) ← consumeFieldName b c.params
    let (v, _) ← consumeInts s
    replaceNotOp l v ef
  else if c.name = "rotate-x" then num (rotateXOp env.trig)
  else if c.name = "rotate-y" then num (rotateYOp env.trig)
  else if c.name = "rotate-z" then num (rotateZOp env.trig)
  else if c.name = "scale-x" then num scaleXOp
  else if c.name = "scale-y" then num scaleYOp
  else if c.name = "scale-z" then num scaleZOp
  else if c.name = "set" then do
    let (l, s) ← consumeFieldName b c.params
    let (v, _) ← consumeDouble env.stod s
    .ok (setOp l v ef)
  else if c.name = "uniform-noise" then num (fun v => uniformOp env.noise seed v v v)
  else if c.name = "uniform-noise-x" then num (fun v => uniformOp env.noise seed v z z)
  else if c.name = "uniform-noise-y" then num (fun v => uniformOp env.noise seed z v z)
  else if c.name = "uniform-noise-z" then num (fun v => uniformOp env.noise seed z z v)
  else .throw "An unknown command was encountered"

/-- Each operation, one by one (`/repo/apps/transform/transform.h` lines 667-668), for point
number `n`. -/
def applyOps (n : Nat) : List Op → PointRecord → Res PointRecord
  | [], p => .ok p
  | op :: ops, p => do
    let p ← op n p
    applyOps n ops p

/-- The loop over the points (`/repo/apps/transform/transform.h` lines 656-672): `k` points are
left, `n` is the number of the next one. -/
def pointLoop (ops : List Op) (ef : Nat) : Nat → Nat → IStream → Out Unit
  | 0, _, _ => pure ()
  | k + 1, n, s => do
    let (p, s) := PointRecord.read s ef
    let p ← Out.lift (applyOps n ops p)
    p.write
    pointLoop ops ef k (n + 1) s

/-- `read_header_uncompressed` (`/repo/apps/transform/transform.h` lines 21-37). -/
def readHeaderUncompressed (b : Build) (s : IStream) : Res (Header × IStream) := do
  require b s.good
  let (h, s) ← Header.read s
  if h.compressed ≠ 0 then .throw "Expected an uncompressed file"
  else do
    require b h.isValid
    .ok (h, s)

/-- `apply` (`/repo/apps/transform/transform.h` lines 467-674).  The output stream is assumed to be good. -/
def apply (b : Build) (env : Env) (s : IStream) (commands : List Command) (seed : Nat) : Out Unit := do
  Out.lift (require b s.good)
  let (h, s) ← Out.lift (readHeaderUncompressed b s)
  Out.lift (require b h.isValid)
  h.write
  let ops ← Out.lift (commands.mapM (parseCommand b env seed h.extraFields.toNat))
  pointLoop ops h.extraFields.toNat h.totalPoints.toNat 0 s

/-! ## Command line -/

/-- `command_values` (`/repo/apps/transform/transform_cmd.h` lines 32-56) and the letters used as values. -/
inductive Val
  | help | verbose | version | seed
  | addX | addY | addZ | copyField
  | gaussianNoise | gaussianNoiseX | gaussianNoiseY | gaussianNoiseZ
  | quantizeXYZ | replace | replaceNot | rotateX | rotateY | rotateZ
  | scaleX | scaleY | scaleZ | set
  | uniformNoise | uniformNoiseX | uniformNoiseY | uniformNoiseZ
  deriving DecidableEq, Repr

/-- `long_options` (`/repo/apps/transform/transform_cmd.h` lines 73-101): name, has an argument, value. -/
def longOptions : List (String × Bool × Val) :=
  [("help", false, .help), ("verbose", false, .verbose), ("version", false, .version),
   ("add-x", true, .addX), ("add-y", true, .addY), ("add-z", true, .addZ),
   ("copy-field", true, .copyField),
   ("gaussian-noise", true, .gaussianNoise), ("gaussian-noise-x", true, .gaussianNoiseX),
   ("gaussian-noise-y", true, .gaussianNoiseY), ("gaussian-noise-z", true, .gaussianNoiseZ),
   ("quantize-xyz", true, .quantizeXYZ), ("random-seed", true, .seed),
   ("replace", true, .replace), ("replace-not", true, .replaceNot),
   ("rotate-x", true, .rotateX), ("rotate-y", true, .rotateY), ("rotate-z", true, .rotateZ),
   ("scale-x", true, .scaleX), ("scale-y", true, .scaleY), ("scale-z", true, .scaleZ),
   ("set", true, .set),
   ("uniform-noise", true, .uniformNoise), ("uniform-noise-x", true, .uniformNoiseX),
   ("uniform-noise-y", true, .uniformNoiseY), ("uniform-noise-z", true, .uniformNoiseZ)]

/-- `struct args` (`/repo/apps/transform/transform_cmd.h` lines 21-30); file names are not modelled. -/
structure Args where
  help : Bool := false
  verbose : Bool := false
  version : Bool := false
  commands : List Command := []
  seed : Int := 0
  deriving DecidableEq, Repr

/-- The switch (`/repo/apps/transform/transform_cmd.h` lines 107-196); `none` is the value '?' that
`getopt_long` returns for an option that is not in the table.  `help` makes `get_args` return. -/
def dispatch (a : Args) (v : Option Val) (optarg : Str) : Res Args :=
  let push (name : String) : Res Args := .ok { a with commands := a.commands ++ [⟨name, optarg⟩] }
  match v with
  | some .help => .ok { a with help := true }
  | some .verbose => .ok { a with verbose := true }
  | some .version => .ok { a with version := true }
  | some .addX => push "add-x"
  | some .addY => push "add-y"
  | some .addZ => push "add-z"
  | some .copyField => push "copy-field"
  | some .quantizeXYZ => push "quantize-xyz"
  | some .seed => .ok { a with seed := Text.strtol optarg }
  | some .replace => push "replace"
  | some .replaceNot => push "replace-not"
  | some .rotateX => push "rotate-x"
  | some .rotateY => push "rotate-y"
  | some .rotateZ => push "rotate-z"
  | some .scaleX => push "scale-x"
  | some .scaleY => push "scale-y"
  | some .scaleZ => push "scale-z"
  | some .set => push "set"
  | _ => .throw "Invalid option"

/-- What `getopt_long` returns for the long option `name` (exact spelling; abbreviations are not modelled). -/
def lookup (name : String) : Option Val :=
  (longOptions.find? (fun o => o.1 == name)).map (fun o => o.2.2)

/-- `get_args` (`/repo/apps/transform/transform_cmd.h` lines 67-212) for a list of long options with their
arguments. -/
def getArgs : List (String × Str) → Args → Res Args
  | [], a => .ok a
  | (name, arg) :: os, a => do
    let a' ← dispatch a (lookup name) arg
    if lookup name = some .help then .ok a' else getArgs os a'

/-- `main` (`/repo/apps/transform/transform.cpp` lines 16-60) on standard input and output. -/
def main (b : Build) (env : Env) (options : List (String × Str)) (s : IStream) : Out Unit := do
  let a ← Out.lift (getArgs options {})
  if a.version then Out.emit "Version 0.1\n".toUTF8.toList
  else if a.help then pure ()
  else if a.commands.isEmpty then Out.lift (.throw "No command was specified")
  else apply b env s a.commands (UInt64.ofInt a.seed).toNat

end Transform

end Spoc
