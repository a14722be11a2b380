/-!
# IEEE-754 binary64 (`double`)

A `double` is its 64-bit pattern.  Every finite double is an integer multiple of 2^-1074, so
its exact value is represented by an integer (`F64.fv`, in units of 2^-1074).  The arithmetic operations
compute the exact result and round it to nearest, ties to even (the default rounding mode on x86-64 SSE2).

Simplifications: a NaN result is always `F64.nan` (payload and sign of computed NaNs
are not modelled); floating-point exception flags are not modelled.
-/

namespace Spoc

/-- A C++ `double`: the 64-bit pattern. -/
structure F64 where
  bits : UInt64
  deriving DecidableEq, Repr

namespace F64

/-- The magnitude pattern of infinity: exponent all ones, fraction zero. -/
def infMag : Nat := 0x7FF0000000000000

/-- The sign bit. -/
def neg (x : F64) : Bool := decide (2 ^ 63 ≤ x.bits.toNat)

/-- The pattern without the sign bit. -/
def mag (x : F64) : Nat := x.bits.toNat % 2 ^ 63

/-- A double from sign and magnitude pattern. -/
def mk' (neg : Bool) (mag : Nat) : F64 :=
  ⟨UInt64.ofNat (mag + if neg then 2 ^ 63 else 0)⟩

/-- not a number -/
def isNaN (x : F64) : Bool := decide (infMag < x.mag)
/-- plus or minus infinity -/
def isInf (x : F64) : Bool := decide (x.mag = infMag)
/-- neither NaN nor infinity -/
def isFinite (x : F64) : Bool := decide (x.mag < infMag)

/-- Value of a magnitude pattern in units of 2^-1074: subnormal numbers have no hidden bit. -/
def fixMag (m : Nat) : Nat :=
  if m < 2 ^ 52 then m else (2 ^ 52 + m % 2 ^ 52) * 2 ^ (m / 2 ^ 52 - 1)

/-- Exact value in units of 2^-1074 (infinities are given the value of the next power of two
above the largest finite double; meaningless for NaN). -/
def fv (x : F64) : Int := if x.neg then - (fixMag x.mag : Int) else (fixMag x.mag : Int)

/-- Number of units of 2^-1074 in 1. -/
def one1074 : Nat := 2 ^ 1074

/-- Division of naturals rounded to nearest, ties to even. -/
def divHE (a b : Nat) : Nat :=
  let q := a / b
  let r := a % b
  if 2 * r < b then q
  else if b < 2 * r then q + 1
  else if q % 2 = 0 then q else q + 1

/-- The number of low-order bits dropped when a quantity with integer part `q` is rounded to 53 bits. -/
def dropBits (q : Nat) : Nat := if q < 2 ^ 53 then 0 else q.log2 - 52

/-- Magnitude pattern of the double nearest to `A / B` units of 2^-1074 (ties to even, overflow to infinity). -/
def roundMag (A B : Nat) : Nat :=
  let k := dropBits (A / B)
  min (k * 2 ^ 52 + divHE A (B * 2 ^ k)) infMag

/-- Round the exact value `A / B` (units of 2^-1074); `zneg` is the sign of a zero result. -/
def rnd (zneg : Bool) (A : Int) (B : Nat) : F64 :=
  if A = 0 then mk' zneg 0 else mk' (decide (A < 0)) (roundMag A.natAbs B)

/-- the NaN used for every invalid operation -/
def nan : F64 := ⟨0x7FF8000000000000⟩
/-- infinity -/
def inf (neg : Bool) : F64 := mk' neg infMag
/-- zero -/
def zero : F64 := ⟨0⟩
/-- minus zero -/
def negZero : F64 := ⟨0x8000000000000000⟩
/-- one -/
def one : F64 := ⟨0x3FF0000000000000⟩
/-- minus one -/
def negOne : F64 := ⟨0xBFF0000000000000⟩
/-- `std::numeric_limits<double>::max ()` -/
def maxVal : F64 := ⟨0x7FEFFFFFFFFFFFFF⟩
/-- `std::numeric_limits<double>::lowest ()` -/
def lowest : F64 := ⟨0xFFEFFFFFFFFFFFFF⟩

/-- unary minus -/
def negate (x : F64) : F64 := mk' (!x.neg) x.mag

/-- `x + y` -/
def add (x y : F64) : F64 :=
  if x.isNaN || y.isNaN then nan
  else if x.isInf then
    if y.isInf && (x.neg != y.neg) then nan else x
  else if y.isInf then y
  else rnd (x.neg && y.neg) (x.fv + y.fv) 1

/-- `x - y` -/
def sub (x y : F64) : F64 := add x (negate y)

/-- `x * y` -/
def mul (x y : F64) : F64 :=
  if x.isNaN || y.isNaN then nan
  else if x.isInf || y.isInf then
    if x.mag = 0 || y.mag = 0 then nan else inf (x.neg != y.neg)
  else rnd (x.neg != y.neg) (x.fv * y.fv) one1074

/-- `x / y` -/
def div (x y : F64) : F64 :=
  if x.isNaN || y.isNaN then nan
  else if x.isInf then
    if y.isInf then nan else inf (x.neg != y.neg)
  else if y.isInf then mk' (x.neg != y.neg) 0
  else if y.mag = 0 then
    if x.mag = 0 then nan else inf (x.neg != y.neg)
  else rnd (x.neg != y.neg)
    (if x.neg != y.neg then - ((fixMag x.mag * one1074 : Nat) : Int) else ((fixMag x.mag * one1074 : Nat) : Int))
    (fixMag y.mag)

/-- Integer square root by binary digits: the largest `r + d`, `d < 2 ^ k`, with `(r + d)^2 ≤ n`. -/
def isqrtAux (n : Nat) : Nat → Nat → Nat
  | 0, r => r
  | k + 1, r => if (r + 2 ^ k) * (r + 2 ^ k) ≤ n then isqrtAux n k (r + 2 ^ k) else isqrtAux n k r

/-- Integer square root. -/
def isqrt (n : Nat) : Nat := isqrtAux n (n.log2 / 2 + 1) 0

/-- `std::sqrt (x)`.  The exact root of `v` units is the root of `v * 2^1074` units; its
integer part has more than 500 bits, so integer part and a sticky bit determine the rounding. -/
def sqrt (x : F64) : F64 :=
  if x.isNaN then nan
  else if x.mag = 0 then x
  else if x.neg then nan
  else if x.isInf then x
  else
    let n := fixMag x.mag * one1074
    let s := isqrt n
    mk' false (roundMag (2 * s + if s * s = n then 0 else 1) 2)

/-- `x < y` -/
def lt (x y : F64) : Bool := !x.isNaN && !y.isNaN && decide (x.fv < y.fv)
/-- `x <= y` -/
def le (x y : F64) : Bool := !x.isNaN && !y.isNaN && decide (x.fv ≤ y.fv)
/-- `x > y` -/
def gt (x y : F64) : Bool := lt y x
/-- `x >= y` -/
def ge (x y : F64) : Bool := le y x
/-- `x == y` -/
def feq (x y : F64) : Bool := !x.isNaN && !y.isNaN && decide (x.fv = y.fv)
/-- `x != y` -/
def fne (x y : F64) : Bool := !feq x y

/-- `std::min (a, b)`, which is `(b < a) ? b : a`. -/
def stdMin (a b : F64) : F64 := if lt b a then b else a
/-- `std::max (a, b)`, which is `(a < b) ? b : a`. -/
def stdMax (a b : F64) : F64 := if lt a b then b else a

/-- Truncation towards zero of a finite value to an integer. -/
def trunc (x : F64) : Int := x.fv.tdiv (one1074 : Int)

/-- Conversion of an integer to `double`. -/
def ofInt (n : Int) : F64 := rnd false (n * (one1074 : Int)) 1

/-- Conversion of an unsigned integer to `double`. -/
def ofNat (n : Nat) : F64 := ofInt n

/-- `std::round (x)`: nearest integer, ties away from zero. -/
def round (x : F64) : F64 :=
  if x.isNaN then nan
  else if x.isInf then x
  else
    let n := (2 * fixMag x.mag + one1074) / (2 * one1074)
    rnd x.neg (if x.neg then - (n * one1074 : Int) else (n * one1074 : Int)) 1

end F64

end Spoc
