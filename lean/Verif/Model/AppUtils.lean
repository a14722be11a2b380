import Verif.Base.Res
import Verif.Base.Text
import Verif.Base.F64

/-!
# Model of `/repo/spoc/app_utils.h` (parsing of command parameters)

`input_stream` and `output_stream` (lines 18-77) choose between a file and the standard
streams; the models of the applications take the byte stream itself.
-/

namespace Spoc.AppUtils

open Text

/-- `field_strings` (`/repo/spoc/app_utils.h` line 79). -/
def fieldStrings : List Str := [['x'], ['y'], ['z'], ['c'], ['p'], ['i'], ['r'], ['g'], ['b']]

/-- `is_extra_field` (`/repo/spoc/app_utils.h` lines 81-85).  `f[0]` of an empty string is the
terminating zero. -/
def isExtraField (f : Str) : Bool := decide (f.head? = some 'e')

/-- `get_extra_index` (`/repo/spoc/app_utils.h` lines 87-103). -/
def getExtraIndex (f : Str) : Int :=
  if !isExtraField f then -1
  else match stoi (f.drop 1) with
    | some (n, _) => n
    | none => -1

/-- `check_field_name` (`/repo/spoc/app_utils.h` lines 105-121). -/
def checkFieldName (f : Str) : Bool :=
  if f ∈ fieldStrings then true
  else if f.length ≤ 1 then false
  else if f.head? ≠ some 'e' then false
  else if getExtraIndex f ≥ 0 then true
  else false

/-- `consume_field_name` (`/repo/spoc/app_utils.h` lines 123-147): the name and the rest of
the string.  Letters and digits are taken, then one separator character is skipped. -/
def consumeFieldName (b : Build) (s : Str) : Res (Str × Str) := do
  cassert b (!s.isEmpty)
  let name := s.takeWhile isAlnum
  let rest := s.dropWhile isAlnum
  if !checkFieldName name then .throw "Invalid field name"
  else .ok (name, rest.drop 1)

/-- `consume_int` (`/repo/spoc/app_utils.h` lines 149-157): the `int` is converted to
`unsigned`. -/
def consumeInt (s : Str) : Res (UInt32 × Str) :=
  match stoi s with
  | none => .throw "Could not parse int value string"
  | some (v, n) => .ok (UInt32.ofInt v, s.drop (n + 1))

/-- The loop of `consume_ints` (`/repo/spoc/app_utils.h` lines 166-171); `hang` if `fuel`
iterations did not suffice. -/
def consumeIntsLoop : Nat → Str → Res (List UInt32 × Str)
  | 0, _ => .hang
  | fuel + 1, s =>
    match consumeInt s with
    | .ok (v, r) => do
      let (vs, r) ← consumeIntsLoop fuel r
      .ok (v :: vs, r)
    | _ => .ok ([], s)

/-- `consume_ints` (`/repo/spoc/app_utils.h` lines 159-173). -/
def consumeInts (s : Str) : Res (List UInt32 × Str) := do
  let (v, r) ← consumeInt s
  let (vs, r) ← consumeIntsLoop (r.length + 1) r
  .ok (v :: vs, r)

/-- `std::stod` as a parameter: `none` if it throws, otherwise the value and the number of
characters used. -/
abbrev Stod := Str → Option (F64 × Nat)

/-- `consume_double` (`/repo/spoc/app_utils.h` lines 175-183). -/
def consumeDouble (stod : Stod) (s : Str) : Res (F64 × Str) :=
  match stod s with
  | none => .throw "Could not parse number value string"
  | some (v, n) => .ok (v, s.drop (n + 1))

end Spoc.AppUtils
