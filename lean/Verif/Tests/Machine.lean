import Verif.Base.Fixed
import Verif.Base.Strtod

/-!
# The model of floating-point numbers compared with those of the machine

`Verif.Base.F64` defines the operations on the numbers of type `double` from the definition of IEEE-754; the theorems
depend on these definitions.  Here they are compared with the operations of the machine on which the project is built
(Lean's type `Float`, whose operations are compiled to those of the C type `double`).  These are tests: neither properties nor
proofs.  They support the assumption that the definitions are those that the hardware implements.
-/

namespace Spoc.Tests

/-- A number as a number of the machine. -/
def toFloat (x : F64) : Float := Float.ofBits x.bits

/-- The results are the same, up to the bits of NaN. -/
def same (x : F64) (y : Float) : Bool := if x.isNaN then y.isNaN else decide (x.bits = y.toBits)

/-- The multiplier of a linear congruential generator (Knuth). -/
def lcg (g : UInt64) : UInt64 := g * 6364136223846793005 + 1442695040888963407

/-- `n` values of the generator, with the bits mixed. -/
def randomBits : Nat → UInt64 → List UInt64
  | 0, _ => []
  | n + 1, g => (g ^^^ (g >>> 29)) :: randomBits n (lcg g)

/-- Special values: zeros, the smallest and largest, subnormal, infinite, NaN, small integers, halves and neighbours. -/
def special : List F64 :=
  let pos : List UInt64 := [0, 1, 2, 3, 0x000FFFFFFFFFFFFF, 0x0010000000000000, 0x0010000000000001, 0x001FFFFFFFFFFFFF,
    0x3CA0000000000000, 0x3CB0000000000000, 0x3FDFFFFFFFFFFFFF, 0x3FE0000000000000, 0x3FE0000000000001, 0x3FEFFFFFFFFFFFFF,
    0x3FF0000000000000, 0x3FF0000000000001, 0x3FF8000000000000, 0x4000000000000000, 0x4004000000000000, 0x4008000000000000,
    0x4024000000000000, 0x432FFFFFFFFFFFFF, 0x4330000000000000, 0x4330000000000001, 0x433FFFFFFFFFFFFF, 0x4340000000000000,
    0x43DFFFFFFFFFFFFF, 0x43E0000000000000, 0x43EFFFFFFFFFFFFF, 0x7FE0000000000000, 0x7FEFFFFFFFFFFFFE, 0x7FEFFFFFFFFFFFFF,
    0x7FF0000000000000, 0x7FF8000000000000]
  pos.map (⟨·⟩) ++ pos.map (fun b => ⟨b ||| 0x8000000000000000⟩)

/-- Any bits. -/
def wide (n : Nat) : List F64 := (randomBits n 1).map (⟨·⟩)

/-- Numbers of magnitude between 1/16 and 16, with few significant bits every other time, so that ties occur. -/
def near (n : Nat) (g : UInt64) : List F64 := (randomBits n g).map (fun (b : UInt64) =>
  let e : UInt64 := (0x3FB : UInt64) + (b >>> 52) % 8
  let m : UInt64 := if b % 2 = 0 then b &&& 0x000FFFFFFFFFFFFF else b &&& 0x000FFFFFE0000000
  ⟨(b &&& (0x8000000000000000 : UInt64)) ||| (e <<< 52) ||| m⟩)

/-- Pairs of numbers. -/
def pairsOf : List (F64 × F64) :=
  special.flatMap (fun x => special.map (fun y => (x, y)))
    ++ List.zip (wide 4000) ((wide 4000).drop 2000)
    ++ List.zip (near 4000 5) (near 4000 77)
    -- exponents at which products and quotients are subnormal or overflow
    ++ (List.zip (near 2000 9) (near 2000 10)).map (fun e =>
      (⟨e.1.bits - 0x2000000000000000⟩, ⟨e.2.bits - 0x1FF0000000000000⟩))
    ++ (List.zip (near 2000 11) (near 2000 12)).map (fun e =>
      (⟨e.1.bits + 0x1FF0000000000000⟩, ⟨e.2.bits + 0x1FF0000000000000⟩))

/-- Numbers. -/
def numbers : List F64 := special ++ wide 4000 ++ near 4000 3

/-! ## Arithmetic -/

#guard pairsOf.all (fun e => same (F64.add e.1 e.2) (toFloat e.1 + toFloat e.2))
#guard pairsOf.all (fun e => same (F64.sub e.1 e.2) (toFloat e.1 - toFloat e.2))
#guard pairsOf.all (fun e => same (F64.mul e.1 e.2) (toFloat e.1 * toFloat e.2))
#guard pairsOf.all (fun e => same (F64.div e.1 e.2) (toFloat e.1 / toFloat e.2))
#guard numbers.all (fun x => same (F64.sqrt x) (toFloat x).sqrt)
#guard numbers.all (fun x => same (F64.negate x) (-toFloat x))
#guard numbers.all (fun x => same (F64.round x) (toFloat x).round)

/-! ## Comparisons -/

#guard pairsOf.all (fun e => F64.lt e.1 e.2 == decide (toFloat e.1 < toFloat e.2))
#guard pairsOf.all (fun e => F64.le e.1 e.2 == decide (toFloat e.1 ≤ toFloat e.2))
#guard pairsOf.all (fun e => F64.gt e.1 e.2 == decide (toFloat e.1 > toFloat e.2))
#guard pairsOf.all (fun e => F64.ge e.1 e.2 == decide (toFloat e.1 ≥ toFloat e.2))
#guard pairsOf.all (fun e => F64.feq e.1 e.2 == (toFloat e.1 == toFloat e.2))
#guard pairsOf.all (fun e => F64.fne e.1 e.2 == (toFloat e.1 != toFloat e.2))
#guard numbers.all (fun x => x.isNaN == (toFloat x).isNaN && x.isInf == (toFloat x).isInf && x.isFinite == (toFloat x).isFinite)

/-! ## Conversions -/

-- the conversions to integers are those of C++ only when the value is in range
#guard numbers.all (fun x => !x.isFinite || decide (x.trunc < 0) || decide (2 ^ 64 ≤ x.trunc)
    || decide (x.trunc = (toFloat x).toUInt64.toNat))
#guard numbers.all (fun x => !x.isFinite || decide (x.trunc < - 2 ^ 63) || decide (2 ^ 63 ≤ x.trunc)
    || decide (x.trunc = (toFloat x).toInt64.toInt))
#guard (randomBits 4000 21).all (fun b => same (F64.ofNat b.toNat) b.toFloat && same (F64.ofNat (b >>> 9).toNat) (b >>> 9).toFloat)

/-! ## Text -/

/-- A decimal number, with digits after the point and an exponent. -/
def decimal (b : UInt64) : Nat × Nat × Int :=
  ((b >>> 4).toNat % 10 ^ (b.toNat % 19 + 1), b.toNat / 2 ^ 8 % 12, ((b.toNat / 2 ^ 20 % 660 : Nat) : Int) - 330)

/-- The number `m`, with the point before the last `p` digits, and the exponent `e`. -/
def showDecimal (m p : Nat) (e : Int) : Str :=
  let s := Text.padLeft (p + 1) (Text.showNat m)
  s.take (s.length - p) ++ ['.'] ++ s.drop (s.length - p) ++ ['e'] ++ (if e < 0 then ['-'] else []) ++ Text.showNat e.natAbs

-- reading of text, compared with the correctly rounded conversion of literals
#guard (randomBits 2000 31).all (fun b =>
    let (m, p, e) := decimal b
    same (Text.atof (showDecimal m p e))
      (if e < p then Float.ofScientific m true (p - e).toNat else Float.ofScientific m false (e - p).toNat))
-- writing of text with six digits after the point: `std::to_string`
#guard (special ++ near 2000 41 ++ wide 300).all (fun x =>
    !x.isFinite || decide (String.ofList (Text.showFixed 6 x) = toString (toFloat x)))

end Spoc.Tests
