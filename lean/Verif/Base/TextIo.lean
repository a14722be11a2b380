import Verif.Base.Strtod

/-!
# Formatted input and output of numbers

`operator>>` for `double` and `size_t`, and `operator<<` for `double`, of libstdc++ in the "C" locale.

Simplifications: characters are read from a complete text, so `badbit` does not occur; format flags other than the precision
have their default values.
-/

namespace Spoc

namespace Text

/-- A text `std::istream`: the characters that are left, `eofbit` and `failbit`. -/
structure TextIn where
  rest : Str
  eof : Bool := false
  fail : Bool := false
  deriving DecidableEq, Repr

/-- `good ()` -/
def TextIn.good (s : TextIn) : Bool := !s.eof && !s.fail

/-- `istream::sentry`: skip white space.  `none` if nothing may be read. -/
def TextIn.sentry (s : TextIn) : Bool × TextIn :=
  if !s.good then (false, { s with fail := true })
  else
    let r := s.rest.dropWhile isSpace
    if r.isEmpty then (false, { rest := [], eof := true, fail := true }) else (true, { s with rest := r })

/-- `operator>>` of a `size_t` with the value `old` (`num_get::_M_extract_int`): the new value and stream.  A number that does
not fit gives the largest value and an error, a negative number its two's complement. -/
def TextIn.readU64 (s : TextIn) (old : UInt64) : UInt64 × TextIn :=
  let (ok, s) := s.sentry
  if !ok then (old, s)
  else
    let (neg, _, r) := sign s.rest
    let ds := r.takeWhile isDigit
    let rest := r.dropWhile isDigit
    if ds.isEmpty then (0, { rest := rest, eof := rest.isEmpty, fail := true })
    else if 2 ^ 64 ≤ decVal ds then (UInt64.ofNat (2 ^ 64 - 1), { rest := rest, eof := rest.isEmpty, fail := true })
    else (if neg then - UInt64.ofNat (decVal ds) else UInt64.ofNat (decVal ds), { rest := rest, eof := rest.isEmpty, fail := false })

/-- The characters of a number after sign and leading zeros (`num_get::_M_extract_float`): digits, one point, one
exponent mark with a sign right behind it.  The flags tell whether a digit, a point and an exponent mark have been found.  The
characters collected, and the rest. -/
def collectLoop (mant dec sci : Bool) : Str → Str × Str
  | [] => ([], [])
  | c :: r =>
    if isDigit c then
      let (t, rest) := collectLoop true dec sci r
      (c :: t, rest)
    else if c = '.' ∧ dec = false ∧ sci = false then
      let (t, rest) := collectLoop mant true sci r
      ('.' :: t, rest)
    else if isE c = true ∧ sci = false ∧ mant = true then
      match r with
      | [] => (['e'], [])
      | d :: r' =>
        if d = '+' ∨ d = '-' then
          let (t, rest) := collectLoop mant dec true r'
          ('e' :: d :: t, rest)
        else
          let (t, rest) := collectLoop mant dec true (d :: r')
          ('e' :: t, rest)
    else ([], c :: r)

/-- The sign of a number, as collected. -/
def signChars (s : Str) : Str × Str :=
  match s with
  | '-' :: r => (['-'], r)
  | '+' :: r => (['+'], r)
  | r => ([], r)

/-- The characters collected for a `double` (`num_get::_M_extract_float`), and the rest: leading zeros count as one. -/
def collectFloat (s : Str) : Str × Str :=
  let (sg, r) := signChars s
  let z := r.takeWhile (fun c => decide (c = '0'))
  let (t, rest) := collectLoop (!z.isEmpty) false false (r.dropWhile (fun c => decide (c = '0')))
  (sg ++ ((if z.isEmpty then [] else ['0']) ++ t), rest)

/-- `operator>>` of a `double` with the value `old` (`num_get::do_get` and `__convert_to_v`). -/
def TextIn.readDouble (s : TextIn) (old : F64) : F64 × TextIn :=
  let (ok, s) := s.sentry
  if !ok then (old, s)
  else
    let (t, rest) := collectFloat s.rest
    let v := strtod t
    if v.length = 0 ∨ v.length ≠ t.length then (F64.zero, { rest := rest, eof := rest.isEmpty, fail := true })
    else if v.value.isInf then
      (if v.value.neg then F64.lowest else F64.maxVal, { rest := rest, eof := rest.isEmpty, fail := true })
    else (v.value, { rest := rest, eof := rest.isEmpty, fail := false })

/-! ## Output -/

/-- The decimal exponent of `A / B`: the largest `X` with `10 ^ X ≤ A / B`. -/
def decExp (A B : Nat) : Int :=
  if B ≤ A then ((showNat (A / B)).length : Int) - 1 else - ((showNat ((B - 1) / A)).length : Int)

/-- `A / B` rounded to `P` significant digits, ties to even: the digits as a number, and the exponent of the first one. -/
def decRound (P A B : Nat) : Nat × Int :=
  let X := decExp A B
  let k := X - (P - 1 : Nat)
  let N := F64.divHE (A * 10 ^ (-k).toNat) (B * 10 ^ k.toNat)
  if N = 10 ^ P then (10 ^ (P - 1), X + 1) else (N, X)

/-- Without zeros at the end. -/
def stripZeros (s : Str) : Str := (s.reverse.dropWhile (fun c => decide (c = '0'))).reverse

/-- Digits before and behind the point; the point is left out if no digits are left behind it. -/
def withFrac (i f : Str) : Str := if (stripZeros f).isEmpty then i else i ++ '.' :: stripZeros f

/-- The exponent part: sign and at least two digits. -/
def showExp (X : Int) : Str :=
  'e' :: (if X < 0 then '-' else '+') :: (if X.natAbs < 10 then '0' :: showNat X.natAbs else showNat X.natAbs)

/-- The conversion `%.Pg` given `P` digits and the exponent of the first one. -/
def formatG (P : Nat) (ds : Str) (X : Int) : Str :=
  if -4 ≤ X ∧ X < (P : Int) then
    if X < 0 then withFrac ['0'] (List.replicate (-X - 1).toNat '0' ++ ds)
    else withFrac (ds.take (X + 1).toNat) (ds.drop (X + 1).toNat)
  else withFrac (ds.take 1) (ds.drop 1) ++ showExp X

/-- `operator<<` of a `double` with precision `P`, which is `printf ("%.*g", P, x)` (`num_put::_M_insert_float`). -/
def showDouble (P : Nat) (x : F64) : Str :=
  let sg := if x.neg then ['-'] else []
  if x.isNaN then sg ++ "nan".toList
  else if x.isInf then sg ++ "inf".toList
  else if x.mag = 0 then sg ++ ['0']
  else
    let (N, X) := decRound P (F64.fixMag x.mag) F64.one1074
    sg ++ formatG P (showNat N) X

end Text

end Spoc
