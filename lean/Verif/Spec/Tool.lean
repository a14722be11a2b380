import Verif.Spec.Numeral
import Verif.Spec.Fields
import Verif.Base.TextIo
import Verif.Model.File

/-!
# Specification of the tool commands

Texts of numbers, and what it means to set a field.
-/

namespace Spoc.Spec

open Text

/-- A separator: at least one white space character, and nothing else. -/
def IsSep (s : Str) : Prop := s ≠ [] ∧ ∀ c ∈ s, isSpace c = true

/-- A text of words with a separator after each of them. -/
def wordsText (items : List (Str × Str)) : Str := (items.map (fun ws => ws.1 ++ ws.2)).flatten

/-- A text: leading white space, words with separators, and the rest. -/
def numbersText (lead : Str) (items : List (Str × Str)) (tail : Str) : TextIn := { rest := lead ++ (wordsText items ++ tail) }

/-- An integer as text: a sign or none, and digits. -/
structure IntNumeral where
  sg : Str := []
  ds : Str
  deriving DecidableEq, Repr

namespace IntNumeral

/-- The text. -/
def text (n : IntNumeral) : Str := n.sg ++ n.ds

/-- The number. -/
def value (n : IntNumeral) : Int := if n.sg = ['-'] then - (decVal n.ds : Int) else (decVal n.ds : Int)

/-- Well-formed, and the absolute value has at most 64 bits. -/
structure Ok (n : IntNumeral) : Prop where
  sg : Numeral.IsSign n.sg
  ne : n.ds ≠ []
  ds : ∀ c ∈ n.ds, isDigit c = true
  fits : decVal n.ds < 2 ^ 64

end IntNumeral

/-- The number of extra fields that are needed to have the field. -/
def Field.needs : Field → Nat
  | .e n => n + 1
  | _ => 0

/-- `q` is `p` with the field `f` set to `v`: missing extra fields are added with the value zero, and
nothing else is changed. -/
structure SetTo (f : Field) (v : Nat) (p q : PointRecord) : Prop where
  value : f.get q = some v
  size : q.extra.length = max p.extra.length f.needs
  same : ∀ h : Field, h ≠ f → h.get p ≠ none → h.get q = h.get p
  zero : ∀ k, .e k ≠ f → p.extra.length ≤ k → k < q.extra.length → (Field.e k).get q = some 0

/-- Everything in the file except the points. -/
def SameApart (f g : SpocFile) : Prop :=
  g.major = f.major ∧ g.minor = f.minor ∧ g.wkt = f.wkt ∧ g.compressed = f.compressed

end Spoc.Spec
