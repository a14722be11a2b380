/-!
# Text

Strings are lists of characters.  The classification functions are those of the "C" locale
(the applications never call `setlocale`); characters outside of ASCII are neither digits nor
letters nor white space.
-/

namespace Spoc

/-- A `std::string`. -/
abbrev Str := List Char

namespace Text

/-- `isspace`: space, \t, \n, \v, \f, \r -/
def isSpace (c : Char) : Bool :=
  decide (c.toNat = 32) || (decide (9 ≤ c.toNat) && decide (c.toNat ≤ 13))

/-- `isdigit` -/
def isDigit (c : Char) : Bool := decide (48 ≤ c.toNat) && decide (c.toNat ≤ 57)

/-- `isalpha` -/
def isAlpha (c : Char) : Bool :=
  (decide (65 ≤ c.toNat) && decide (c.toNat ≤ 90)) || (decide (97 ≤ c.toNat) && decide (c.toNat ≤ 122))

/-- `isalnum` -/
def isAlnum (c : Char) : Bool := isDigit c || isAlpha c

/-- The value of a string of decimal digits. -/
def decVal (ds : Str) : Nat := Nat.ofDigitChars 10 ds 0

/-- The sign that `strtol` and the like accept in front of the digits: negative?, number of
characters, rest. -/
def sign (s : Str) : Bool × Nat × Str :=
  match s with
  | '-' :: r => (true, 1, r)
  | '+' :: r => (false, 1, r)
  | r => (false, 0, r)

/-- The decimal number that `strtol (s, &end, 10)` finds: skip white space, optional sign,
digits.  The value before any range check, and the number of characters used; `none` if
there are no digits. -/
def scanInt (s : Str) : Option (Int × Nat) :=
  let ws := s.takeWhile isSpace
  let (neg, k, r) := sign (s.dropWhile isSpace)
  let ds := r.takeWhile isDigit
  if ds.isEmpty then none
  else some (if neg then - (decVal ds : Int) else (decVal ds : Int), ws.length + k + ds.length)

/-- `std::stoi`: `none` if an exception is thrown (no digits: `std::invalid_argument`; value
not representable: `std::out_of_range`), otherwise the value and the number of characters used. -/
def stoi (s : Str) : Option (Int × Nat) :=
  match scanInt s with
  | none => none
  | some (v, n) => if -(2 ^ 31) ≤ v ∧ v < 2 ^ 31 then some (v, n) else none

/-- The value of `strtol`: clamped to the range of `long`, 0 if there is no number. -/
def strtol (s : Str) : Int :=
  match scanInt s with
  | none => 0
  | some (v, _) => max (-(2 ^ 63)) (min v (2 ^ 63 - 1))

/-- `atoi`: glibc converts the result of `strtol` to `int`, keeping the low 32 bits. -/
def atoi (s : Str) : Int := Int.bmod (strtol s) (2 ^ 32)

/-- `operator<<` of an unsigned integer: decimal digits without leading zeros. -/
def showNat (n : Nat) : Str := Nat.toDigits 10 n

/-- `operator<<` of a signed integer. -/
def showInt (n : Int) : Str := if n < 0 then '-' :: showNat n.natAbs else showNat n.natAbs

end Text

end Spoc
