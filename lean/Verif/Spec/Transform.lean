import Verif.Spec.Fields
import Verif.Spec.Io

/-!
# Specification vocabulary for the transform application
-/

namespace Spoc.Spec

/-- A letter or a digit (ASCII). -/
def LetterOrDigit (c : Char) : Prop :=
  ('a' ≤ c ∧ c ≤ 'z') ∨ ('A' ≤ c ∧ c ≤ 'Z') ∨ ('0' ≤ c ∧ c ≤ '9')

/-- A digit (ASCII). -/
def Digit (c : Char) : Prop := '0' ≤ c ∧ c ≤ '9'

/-- `t` is the longest beginning of `s` that consists of letters and digits, `rest` what follows. -/
structure Token (s t rest : List Char) : Prop where
  eq : s = t ++ rest
  all : ∀ c ∈ t, LetterOrDigit c
  max : ∀ c, rest.head? = some c → ¬ LetterOrDigit c

/-- The word `t` denotes the field `f`: it is the name of the field, or, for an extra field, `e`, the
index in decimal, and something that does not begin with a digit. -/
def Denotes (t : List Char) (f : Field) : Prop :=
  t = f.name ∨ ∃ ds more, f = .e (Nat.ofDigitChars 10 ds 0) ∧ t = 'e' :: (ds ++ more) ∧ ds ≠ [] ∧
    (∀ c ∈ ds, Digit c) ∧ ∀ c, more.head? = some c → ¬ Digit c

/-- The fields that the commands with a number as argument change. -/
def geometric : List (String × List Field) :=
  [("add-x", [.x]), ("add-y", [.y]), ("add-z", [.z]),
   ("gaussian-noise", [.x, .y, .z]), ("gaussian-noise-x", [.x]), ("gaussian-noise-y", [.y]),
   ("gaussian-noise-z", [.z]),
   ("uniform-noise", [.x, .y, .z]), ("uniform-noise-x", [.x]), ("uniform-noise-y", [.y]),
   ("uniform-noise-z", [.z]),
   ("quantize-xyz", [.x, .y, .z]),
   ("rotate-x", [.y, .z]), ("rotate-y", [.x, .z]), ("rotate-z", [.x, .y]),
   ("scale-x", [.x]), ("scale-y", [.y]), ("scale-z", [.z])]

/-- The command with this name and these parameters names these fields for modification. -/
inductive Named : String → List Char → List Field → Prop
  | number {name : String} {params : List Char} {fs : List Field} :
      (name, fs) ∈ geometric → Named name params fs
  | first {name : String} {params t rest : List Char} {f : Field} :
      name ∈ ["set", "replace", "replace-not"] → Token params t rest → Denotes t f →
      Named name params [f]
  | second {params t rest t' rest' : List Char} {f : Field} :
      Token params t rest → Token (rest.drop 1) t' rest' → Denotes t' f →
      Named "copy-field" params [f]

/-- The header and the records of a well-formed uncompressed file. -/
structure Uncompressed (h : Header) (prs : List PointRecord) : Prop where
  signature : h.signature = [0x53, 0x50, 0x4F, 0x43]
  major : h.major = majorVersion
  minor : h.minor = minorVersion
  wkt : h.wkt.length ≤ 65535
  flag : h.compressed = 0
  extra : ∀ q ∈ prs, q.extra.length = h.extraFields.toNat
  count : prs.length = h.totalPoints.toNat

/-- Its bytes. -/
def image (h : Header) (prs : List PointRecord) : Bytes :=
  h.write.bytes ++ prs.flatMap (fun q => q.write.bytes)

end Spoc.Spec
