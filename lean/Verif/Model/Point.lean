import Verif.Base.Bytes
import Verif.Model.PointRecord

/-!
# Model of `/repo/spoc/point.h` and of the hash function of `/repo/spoc/utils.h`
-/

namespace Spoc

/-- `struct point<T>` (`/repo/spoc/point.h` lines 18-24). -/
structure Pt (α : Type) where
  x : α
  y : α
  z : α
  deriving DecidableEq, Repr

/-- The templates take any element type with members `x`, `y` and `z` of type `double`:
`point<double>` and `point_record`. -/
class HasXYZ (α : Type) where
  pt : α → Pt F64
  withPt : α → Pt F64 → α

instance : HasXYZ (Pt F64) where
  pt p := p
  withPt _ q := q

instance : HasXYZ PointRecord where
  pt p := ⟨p.x, p.y, p.z⟩
  withPt p q := { p with x := q.x, y := q.y, z := q.z }

export HasXYZ (pt withPt)

/-- `std::hash<T>` for the types of the fields (a parameter: the C++ standard library). -/
structure StdHash where
  f64 : F64 → UInt64
  u16 : UInt16 → UInt64
  u32 : UInt32 → UInt64
  u64 : UInt64 → UInt64

/-- What the C++ standard requires of `std::hash<double>`: equal values have equal hashes. -/
def StdHash.Lawful (h : StdHash) : Prop := ∀ a b, F64.feq a b = true → h.f64 a = h.f64 b

/-- `hash_value` (`/repo/spoc/utils.h` lines 11-15); `hv` is `std::hash<T>{}(v)`. -/
def hashValue (seed hv : UInt64) : UInt64 := (seed <<< 6) + (seed >>> 2) + 0x9e3779b9 + hv

/-- `hash_combine` (`/repo/spoc/utils.h` lines 17-33): the fold expression
applies the one-argument version to each argument in turn. -/
def hashCombine (seed : UInt64) (hvs : List UInt64) : UInt64 :=
  hvs.foldl (fun seed hv => seed ^^^ hashValue seed hv) seed

/-- `point_record_hash` (`/repo/spoc/point_record.h` lines 99-116). -/
def PointRecord.hash (h : StdHash) (q : PointRecord) : UInt64 :=
  let s := hashCombine 0 [h.f64 q.x, h.f64 q.y, h.f64 q.z]
  let s := hashCombine s [h.u32 q.c, h.u32 q.p]
  let s := hashCombine s [h.u16 q.i, h.u16 q.r, h.u16 q.g, h.u16 q.b]
  q.extra.foldl (fun s e => hashCombine s [h.u64 e]) s

namespace Pt

/-- `point_hash` (`/repo/spoc/point.h` lines 28-38). -/
def hash (h : StdHash) (p : Pt F64) : UInt64 := hashCombine 0 [h.f64 p.x, h.f64 p.y, h.f64 p.z]

/-- `operator==` (`/repo/spoc/point.h` lines 45-52). -/
def beq (a b : Pt F64) : Bool :=
  if F64.fne a.x b.x then false
  else if F64.fne a.y b.y then false
  else if F64.fne a.z b.z then false
  else true

/-- `operator!=` (`/repo/spoc/point.h` lines 59-63). -/
def bne (a b : Pt F64) : Bool := !beq a b

/-- `operator-=` and `operator-` (`/repo/spoc/point.h` lines 70-89). -/
def sub (a b : Pt F64) : Pt F64 := ⟨F64.sub a.x b.x, F64.sub a.y b.y, F64.sub a.z b.z⟩

/-- `operator+=` and `operator+` (`/repo/spoc/point.h` lines 96-115). -/
def add (a b : Pt F64) : Pt F64 := ⟨F64.add a.x b.x, F64.add a.y b.y, F64.add a.z b.z⟩

/-- `operator<` (`/repo/spoc/point.h` lines 136-146). -/
def lt (a b : Pt F64) : Bool :=
  if F64.lt a.x b.x then true
  else if F64.gt a.x b.x then false
  else if F64.lt a.y b.y then true
  else if F64.gt a.y b.y then false
  else if F64.lt a.z b.z then true
  else if F64.gt a.z b.z then false
  else false

/-- `append_double` (`/repo/spoc/point.h` lines 148-152). -/
def appendDouble (d : F64) (bytes : Bytes) : Bytes := bytes ++ leBytes 8 d.bits.toNat

/-- `bytes_to_double` (`/repo/spoc/point.h` lines 154-159) at offset `k` of a byte vector.  Reading
behind the end of the vector is undefined. -/
def bytesToDouble (bytes : Bytes) (k : Nat) : Res F64 :=
  if k + 8 ≤ bytes.length then .ok ⟨UInt64.ofNat (ofLe ((bytes.drop k).take 8))⟩
  else .ub "read behind the end of a byte vector"

/-- `encode_point` (`/repo/spoc/point.h` lines 161-168). -/
def encode (p : Pt F64) : Bytes := appendDouble p.z (appendDouble p.y (appendDouble p.x []))

/-- `decode_point` (`/repo/spoc/point.h` lines 170-177). -/
def decode (bytes : Bytes) : Res (Pt F64) := do
  let x ← bytesToDouble bytes 0
  let y ← bytesToDouble bytes 8
  let z ← bytesToDouble bytes 16
  .ok ⟨x, y, z⟩

/-- The memory of a `point<T>` whose members are 8 bytes wide (`double`, `uint64_t`). -/
def mem (p : Pt UInt64) : Bytes := leBytes 8 p.x.toNat ++ leBytes 8 p.y.toNat ++ leBytes 8 p.z.toNat

/-- Interpret 24 bytes of memory as a `point<T>`. -/
def ofMem (bs : Bytes) : Pt UInt64 :=
  ⟨UInt64.ofNat (ofLe (bs.take 8)), UInt64.ofNat (ofLe ((bs.drop 8).take 8)),
    UInt64.ofNat (ofLe ((bs.drop 16).take 8))⟩

/-- `encode_points` (`/repo/spoc/point.h` lines 179-188): the memory of the vector
(for `T` = `double` the members are the 64-bit patterns).  `&points[0]` of an
empty vector is taken to be harmless because no byte is accessed. -/
def encodePoints (ps : List (Pt UInt64)) : Bytes := ps.flatMap mem

/-- `n` consecutive points in memory. -/
def pointsOfMem : Nat → Bytes → List (Pt UInt64)
  | 0, _ => []
  | n + 1, bs => ofMem bs :: pointsOfMem n (bs.drop 24)

/-- `decode_points` (`/repo/spoc/point.h` lines 190-203). -/
def decodePoints (b : Build) (bytes : Bytes) : Res (List (Pt UInt64)) := do
  cassert b (decide (bytes.length % 24 = 0))
  .ok (pointsOfMem (bytes.length / 24) bytes)

/-- `distance` (`/repo/spoc/point.h` lines 259-267). -/
def distance (a b : Pt F64) : F64 :=
  let dx := F64.sub a.x b.x
  let dy := F64.sub a.y b.y
  let dz := F64.sub a.z b.z
  F64.sqrt (F64.add (F64.add (F64.mul dx dx) (F64.mul dy dy)) (F64.mul dz dz))

end Pt

end Spoc
