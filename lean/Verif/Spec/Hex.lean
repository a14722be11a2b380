import Mathlib.Data.Real.Basic
import Verif.Spec.Numeral

/-!
# Hexadecimal numerals

How numbers are written in base 16, as `printf ("%a")` does.
-/

namespace Spoc.Spec

open Text

/-- A hexadecimal digit: its value, and whether it is written in upper case. -/
abbrev HexDigit := Fin 16 × Bool

/-- The digit as a character. -/
def HexDigit.char (d : HexDigit) : Char :=
  if d.2 then ['0', '1', '2', '3', '4', '5', '6', '7', '8', '9', 'A', 'B', 'C', 'D', 'E', 'F'][d.1]
  else ['0', '1', '2', '3', '4', '5', '6', '7', '8', '9', 'a', 'b', 'c', 'd', 'e', 'f'][d.1]

/-- A hexadecimal numeral: sign, `x` or `X`, digits before the point, digits behind the point (if there is a point), and
exponent mark, sign and decimal digits (if there is an exponent). -/
structure HexNumeral where
  sg : Str := []
  upper : Bool := false
  ip : List HexDigit := []
  fp : Option (List HexDigit) := none
  ex : Option (Char × Str × Str) := none
  deriving DecidableEq, Repr

namespace HexNumeral

/-- The digits behind the point. -/
def frac (n : HexNumeral) : List HexDigit := n.fp.getD []

/-- The text from the point to the exponent. -/
def fracText (n : HexNumeral) : Str :=
  match n.fp with
  | none => []
  | some f => '.' :: f.map HexDigit.char

/-- The text of the exponent. -/
def expText (n : HexNumeral) : Str :=
  match n.ex with
  | none => []
  | some (e, s, d) => e :: (s ++ d)

/-- The numeral as text. -/
def text (n : HexNumeral) : Str :=
  n.sg ++ ('0' :: (if n.upper then 'X' else 'x') :: (n.ip.map HexDigit.char ++ (n.fracText ++ n.expText)))

/-- A well-formed numeral. -/
structure Ok (n : HexNumeral) : Prop where
  sg : Numeral.IsSign n.sg
  ne : n.ip ++ n.frac ≠ []
  ex : ∀ e s d, n.ex = some (e, s, d) → (e = 'p' ∨ e = 'P') ∧ Numeral.IsSign s ∧ d ≠ [] ∧ ∀ c ∈ d, c.isDigit = true

/-- The digits as a number. -/
def mantissa (n : HexNumeral) : Nat := (n.ip ++ n.frac).foldl (fun m d => 16 * m + d.1.val) 0

/-- The power of two by which the digits are multiplied. -/
def power (n : HexNumeral) : Int :=
  match n.ex with
  | none => 0
  | some (_, s, d) => if s = ['-'] then - (decVal d : Int) else (decVal d : Int)

/-- The number. -/
noncomputable def value (n : HexNumeral) : ℝ :=
  (if n.sg = ['-'] then -1 else 1) * (n.mantissa / 16 ^ n.frac.length) * 2 ^ n.power

end HexNumeral

end Spoc.Spec
