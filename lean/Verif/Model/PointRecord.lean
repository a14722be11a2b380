import Verif.Base.Out
import Verif.Base.F64

/-!
# Model of `/repo/spoc/point_record.h`
-/

namespace Spoc

/-- `struct point_record` (`/repo/spoc/point_record.h` lines 14-96). -/
structure PointRecord where
  x : F64 := F64.zero
  y : F64 := F64.zero
  z : F64 := F64.zero
  c : UInt32 := 0
  p : UInt32 := 0
  i : UInt16 := 0
  r : UInt16 := 0
  g : UInt16 := 0
  b : UInt16 := 0
  extra : List UInt64 := []
  deriving DecidableEq, Repr

namespace PointRecord

/-- `point_record (extra_fields)` (`/repo/spoc/point_record.h` lines 50-56): all fields zero. -/
def blank (extraFields : Nat) : PointRecord := { extra := List.replicate extraFields 0 }

/-- `operator==` (`/repo/spoc/point_record.h` lines 78-91). -/
def beq (a other : PointRecord) : Bool :=
  F64.feq other.x a.x && F64.feq other.y a.y && F64.feq other.z a.z
    && decide (other.c = a.c) && decide (other.p = a.p) && decide (other.i = a.i)
    && decide (other.r = a.r) && decide (other.g = a.g) && decide (other.b = a.b)
    && decide (other.extra = a.extra)

/-- `operator!=` (`/repo/spoc/point_record.h` lines 92-95). -/
def bne (a other : PointRecord) : Bool := !beq a other

/-- The 40 bytes of memory from `x` to `b` (`/repo/spoc/point_record.h` lines 16-24),
little endian, no padding. -/
def fixedBytes (q : PointRecord) : Bytes :=
  leBytes 8 q.x.bits.toNat ++ leBytes 8 q.y.bits.toNat ++ leBytes 8 q.z.bits.toNat
    ++ leBytes 4 q.c.toNat ++ leBytes 4 q.p.toNat
    ++ leBytes 2 q.i.toNat ++ leBytes 2 q.r.toNat ++ leBytes 2 q.g.toNat ++ leBytes 2 q.b.toNat

/-- The memory of the extra fields (`/repo/spoc/point_record.h` line 25). -/
def extraBytes (q : PointRecord) : Bytes := q.extra.flatMap (fun e => leBytes 8 e.toNat)

/-- Interpret 40 bytes of memory as the plain fields. -/
def ofFixed (bs : Bytes) (extra : List UInt64) : PointRecord :=
  { x := ⟨UInt64.ofNat (ofLe (bs.take 8))⟩
    y := ⟨UInt64.ofNat (ofLe ((bs.drop 8).take 8))⟩
    z := ⟨UInt64.ofNat (ofLe ((bs.drop 16).take 8))⟩
    c := UInt32.ofNat (ofLe ((bs.drop 24).take 4))
    p := UInt32.ofNat (ofLe ((bs.drop 28).take 4))
    i := UInt16.ofNat (ofLe ((bs.drop 32).take 2))
    r := UInt16.ofNat (ofLe ((bs.drop 34).take 2))
    g := UInt16.ofNat (ofLe ((bs.drop 36).take 2))
    b := UInt16.ofNat (ofLe ((bs.drop 38).take 2))
    extra := extra }

/-- Interpret `8 * n` bytes of memory as `n` extra fields. -/
def extraOf : Nat → Bytes → List UInt64
  | 0, _ => []
  | n + 1, bs => UInt64.ofNat (ofLe (bs.take 8)) :: extraOf n (bs.drop 8)

/-- `write_point_record` (`/repo/spoc/point_record.h` lines 130-144). -/
def write (q : PointRecord) : Out Unit := do
  Out.emit q.fixedBytes
  if q.extra.length ≠ 0 then
    Out.emit q.extraBytes

/-- `read_point_record` (`/repo/spoc/point_record.h` lines 147-162).  The stream is not
checked: memory that is not delivered stays zero. -/
def read (s : IStream) (extraFields : Nat) : PointRecord × IStream :=
  let q := blank extraFields
  let (fb, s) := s.readInto q.fixedBytes
  if q.extra.length ≠ 0 then
    let (eb, s) := s.readInto q.extraBytes
    (ofFixed fb (extraOf extraFields eb), s)
  else
    (ofFixed fb [], s)

end PointRecord

end Spoc
