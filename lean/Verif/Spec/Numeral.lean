import Verif.Base.Text
import Verif.Base.F64

/-!
# Decimal numerals
-/

namespace Spoc.Spec

open Text

/-- A decimal numeral: sign, digits before the point, digits behind the point (if there is a point), and
exponent mark, sign and digits (if there is an exponent). -/
structure Numeral where
  sg : Str := []
  ip : Str := []
  fp : Option Str := none
  ex : Option (Char × Str × Str) := none
  deriving DecidableEq, Repr

namespace Numeral

/-- The digits behind the point. -/
def frac (n : Numeral) : Str := n.fp.getD []

/-- The text from the point to the exponent. -/
def fracText (n : Numeral) : Str :=
  match n.fp with
  | none => []
  | some f => '.' :: f

/-- The text of the exponent. -/
def expText (n : Numeral) : Str :=
  match n.ex with
  | none => []
  | some (e, s, d) => e :: (s ++ d)

/-- The numeral as text. -/
def text (n : Numeral) : Str := n.sg ++ (n.ip ++ (n.fracText ++ n.expText))

/-- A sign, or nothing. -/
def IsSign (s : Str) : Prop := s = [] ∨ s = ['+'] ∨ s = ['-']

/-- A well-formed numeral. -/
structure Ok (n : Numeral) : Prop where
  sg : IsSign n.sg
  ip : ∀ c ∈ n.ip, isDigit c = true
  fp : ∀ c ∈ n.frac, isDigit c = true
  ne : n.ip ++ n.frac ≠ []
  ex : ∀ e s d, n.ex = some (e, s, d) → (e = 'e' ∨ e = 'E') ∧ IsSign s ∧ d ≠ [] ∧ ∀ c ∈ d, isDigit c = true

/-- Is it a negative number (or minus zero)? -/
def negative (n : Numeral) : Bool := decide (n.sg = ['-'])

/-- The digits as a number. -/
def mantissa (n : Numeral) : Nat := decVal (n.ip ++ n.frac)

/-- The power of ten by which the digits are multiplied. -/
def exponent (n : Numeral) : Int :=
  (match n.ex with
   | none => 0
   | some (_, s, d) => if s = ['-'] then - (decVal d : Int) else (decVal d : Int)) - n.frac.length

end Numeral

/-- Text that cannot continue a number: it is empty or begins with white space. -/
def Stops (r : Str) : Prop := ∀ c, r.head? = some c → isSpace c = true

end Spoc.Spec
