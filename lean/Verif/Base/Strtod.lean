import Verif.Base.Text
import Verif.Base.F64

/-!
# `strtod`

The C library function `strtod` in the "C" locale, and `std::stod` and `atof`, which are defined by it.  The result is correctly
rounded (as it is in glibc).

Simplification: the characters in parentheses after `nan` are accepted, but the payload is not modelled.
-/

namespace Spoc

namespace Text

/-- The exponent part of a number: a mark, an optional sign, digits.  Value and number of characters; `(0, 0)` if there
is none. -/
def scanExp (mark : Char → Bool) (s : Str) : Int × Nat :=
  match s with
  | [] => (0, 0)
  | c :: r =>
    if mark c then
      let (neg, k, r) := sign r
      let ds := r.takeWhile isDigit
      if ds.isEmpty then (0, 0)
      else (if neg then - (decVal ds : Int) else (decVal ds : Int), 1 + k + ds.length)
    else (0, 0)

/-- `e` or `E` -/
def isE (c : Char) : Bool := decide (c = 'e') || decide (c = 'E')
/-- `p` or `P` -/
def isP (c : Char) : Bool := decide (c = 'p') || decide (c = 'P')

/-- The fractional digits at a decimal point, and the number of characters with the point. -/
def scanFrac (digit : Char → Bool) (s : Str) : Str × Nat :=
  match s with
  | '.' :: t => (t.takeWhile digit, 1 + (t.takeWhile digit).length)
  | _ => ([], 0)

/-- A number without sign: mantissa, exponent, number of characters. -/
structure Scanned where
  mantissa : Nat
  exponent : Int
  length : Nat
  deriving DecidableEq, Repr

/-- A decimal number: digits, optionally a point and digits, optionally an exponent; at least one digit.  The value is
`mantissa * 10 ^ exponent`. -/
def scanDec (s : Str) : Option Scanned :=
  let a := s.takeWhile isDigit
  let (f, n) := scanFrac isDigit (s.dropWhile isDigit)
  if a.isEmpty && f.isEmpty then none
  else
    let (e, k) := scanExp isE (s.drop (a.length + n))
    some { mantissa := decVal (a ++ f), exponent := e - f.length, length := a.length + n + k }

/-- `isxdigit` -/
def isHex (c : Char) : Bool :=
  isDigit c || (decide (65 ≤ c.toNat) && decide (c.toNat ≤ 70)) || (decide (97 ≤ c.toNat) && decide (c.toNat ≤ 102))

/-- Value of a hexadecimal digit. -/
def hexDigit (c : Char) : Nat :=
  if isDigit c then c.toNat - 48 else if c.toNat ≤ 70 then c.toNat - 55 else c.toNat - 87

/-- The value of a string of hexadecimal digits. -/
def hexVal (ds : Str) : Nat := ds.foldl (fun n c => n * 16 + hexDigit c) 0

/-- A hexadecimal number after `0x`.  The value is `mantissa * 2 ^ exponent`. -/
def scanHex (s : Str) : Option Scanned :=
  let a := s.takeWhile isHex
  let (f, n) := scanFrac isHex (s.dropWhile isHex)
  if a.isEmpty && f.isEmpty then none
  else
    let (e, k) := scanExp isP (s.drop (a.length + n))
    some { mantissa := hexVal (a ++ f), exponent := e - 4 * f.length, length := a.length + n + k }

/-- `tolower` -/
def lower (c : Char) : Char := if 65 ≤ c.toNat ∧ c.toNat ≤ 90 then Char.ofNat (c.toNat + 32) else c

/-- Does `s` begin with the lower-case word `w`, up to case? -/
def beginsWith (w s : Str) : Bool := decide ((s.take w.length).map lower = w)

end Text

namespace F64

/-- Numerator of `m * base ^ k` in units of 2^-1074. -/
def scaledNum (base m : Nat) (k : Int) : Nat := m * base ^ k.toNat * one1074
/-- Denominator of `m * base ^ k`. -/
def scaledDen (base : Nat) (k : Int) : Nat := base ^ (-k).toNat

/-- The double nearest to `± m * base ^ k`. -/
def ofScaled (neg : Bool) (base m : Nat) (k : Int) : F64 :=
  rnd neg (if neg then - (scaledNum base m k : Int) else (scaledNum base m k : Int)) (scaledDen base k)

/-- Does `strtod` report `ERANGE`?  It does if the result overflows, or if it is not exact and the value rounded to 53 bits is below
2^-1022 (2^52 units; values from 2^52 - 1/4 units are rounded up to that). -/
def rangeError (base m : Nat) (k : Int) : Bool :=
  let A := scaledNum base m k
  let B := scaledDen base k
  decide (infMag ≤ roundMag A B) || (decide (4 * A < (2 ^ 54 - 1) * B) && decide (fixMag (roundMag A B) * B ≠ A))

end F64

namespace Text

/-- What `strtod` returns: the value, the number of characters used (0 if there is no number), and whether
it reports `ERANGE`. -/
structure Strtod where
  value : F64
  length : Nat
  range : Bool
  deriving DecidableEq, Repr

/-- `strtod` after white space and sign. -/
def strtodBody (neg : Bool) (s : Str) : Option Strtod :=
  if beginsWith "infinity".toList s then some { value := F64.inf neg, length := 8, range := false }
  else if beginsWith "inf".toList s then some { value := F64.inf neg, length := 3, range := false }
  else if beginsWith "nan".toList s then
    let r := s.drop 3
    let body := (r.drop 1).takeWhile (fun c => isAlnum c || decide (c = '_'))
    let n := if r.head? = some '(' ∧ (r.drop (1 + body.length)).head? = some ')' then body.length + 2 else 0
    some { value := F64.mk' neg F64.nan.mag, length := 3 + n, range := false }
  else
    let hex := if beginsWith "0x".toList s then scanHex (s.drop 2) else none
    match hex with
    | some h => some { value := F64.ofScaled neg 2 h.mantissa h.exponent, length := 2 + h.length,
                       range := F64.rangeError 2 h.mantissa h.exponent }
    | none =>
      match scanDec s with
      | some d => some { value := F64.ofScaled neg 10 d.mantissa d.exponent, length := d.length,
                         range := F64.rangeError 10 d.mantissa d.exponent }
      | none => none

/-- `strtod` -/
def strtod (s : Str) : Strtod :=
  let ws := s.takeWhile isSpace
  let (neg, k, r) := sign (s.dropWhile isSpace)
  match strtodBody neg r with
  | some t => { t with length := ws.length + k + t.length }
  | none => { value := F64.zero, length := 0, range := false }

/-- `std::stod`: `none` if it throws (no number, or `ERANGE`). -/
def stod (s : Str) : Option (F64 × Nat) :=
  let t := strtod s
  if t.length = 0 then none else if t.range then none else some (t.value, t.length)

/-- `atof` -/
def atof (s : Str) : F64 := (strtod s).value

end Text

end Spoc
