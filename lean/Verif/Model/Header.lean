import Verif.Base.Out

/-!
# Model of `/repo/spoc/header.h` and `/repo/spoc/version.h`
-/

namespace Spoc

/-- `MAJOR_VERSION` (`/repo/spoc/version.h` line 10). -/
def majorVersion : UInt8 := 0
/-- `MINOR_VERSION` (`/repo/spoc/version.h` line 12). -/
def minorVersion : UInt8 := 1

/-- `struct header` (`/repo/spoc/header.h` lines 16-96).  The signature is the four characters
that are compared and written; the terminating zero (line 42) is never used. -/
structure Header where
  signature : Bytes
  major : UInt8
  minor : UInt8
  wkt : Bytes
  extraFields : UInt8
  totalPoints : UInt64
  compressed : UInt8
  deriving DecidableEq, Repr

namespace Header

/-- The signature `SPOC` (`/repo/spoc/header.h` lines 38-41). -/
def sig : Bytes := [0x53, 0x50, 0x4F, 0x43]

/-- Constructor (`/repo/spoc/header.h` lines 25-45): throws if the WKT is longer than 65535. -/
def new (major minor : UInt8) (wkt : Bytes) (extraFields : UInt8) (totalPoints : UInt64)
    (compressed : Bool) : Res Header :=
  if wkt.length > 0xFFFF then .throw "The OGC WKT length may not exceed 65535"
  else .ok { signature := sig, major, minor, wkt, extraFields, totalPoints,
             compressed := if compressed then 1 else 0 }

/-- Default constructor (`/repo/spoc/header.h` lines 59-62). -/
def default : Header :=
  { signature := sig, major := majorVersion, minor := minorVersion, wkt := [],
    extraFields := 0, totalPoints := 0, compressed := 0 }

/-- `check_signature` (`/repo/spoc/header.h` lines 64-71). -/
def checkSignature (h : Header) : Bool :=
  if h.signature[0]? ≠ some 0x53 then false
  else if h.signature[1]? ≠ some 0x50 then false
  else if h.signature[2]? ≠ some 0x4F then false
  else if h.signature[3]? ≠ some 0x43 then false
  else true

/-- `is_valid` (`/repo/spoc/header.h` lines 73-80). -/
def isValid (h : Header) : Bool :=
  if !h.checkSignature then false
  else if h.wkt.length > 0xFFFF then false
  else true

/-- `operator==` (`/repo/spoc/header.h` lines 101-113). -/
def beq (a b : Header) : Bool :=
  if a.signature[0]? ≠ b.signature[0]? then false
  else if a.signature[1]? ≠ b.signature[1]? then false
  else if a.signature[2]? ≠ b.signature[2]? then false
  else if a.signature[3]? ≠ b.signature[3]? then false
  else if a.major ≠ b.major then false
  else if a.minor ≠ b.minor then false
  else if a.wkt ≠ b.wkt then false
  else if a.extraFields ≠ b.extraFields then false
  else if a.totalPoints ≠ b.totalPoints then false
  else if a.compressed ≠ b.compressed then false
  else true

/-- `operator!=` (`/repo/spoc/header.h` lines 118-130). -/
def bne (a b : Header) : Bool :=
  if a.signature[0]? ≠ b.signature[0]? then true
  else if a.signature[1]? ≠ b.signature[1]? then true
  else if a.signature[2]? ≠ b.signature[2]? then true
  else if a.signature[3]? ≠ b.signature[3]? then true
  else if a.major ≠ b.major then true
  else if a.minor ≠ b.minor then true
  else if a.wkt ≠ b.wkt then true
  else if a.extraFields ≠ b.extraFields then true
  else if a.totalPoints ≠ b.totalPoints then true
  else if a.compressed ≠ b.compressed then true
  else false

/-- `write_header` (`/repo/spoc/header.h` lines 135-149).  The length is converted to
`uint16_t`, the whole WKT is written. -/
def write (h : Header) : Out Unit :=
  if !h.checkSignature then Out.lift (.throw "Invalid spoc file format")
  else do
    Out.emit (h.signature.take 4)
    Out.emit (leBytes 1 h.major.toNat)
    Out.emit (leBytes 1 h.minor.toNat)
    Out.emit (leBytes 2 h.wkt.length)
    Out.emit h.wkt
    Out.emit (leBytes 1 h.extraFields.toNat)
    Out.emit (leBytes 8 h.totalPoints.toNat)
    Out.emit (leBytes 1 h.compressed.toNat)

/-- `read_header` (`/repo/spoc/header.h` lines 153-176).  The state of the stream is never
checked: a field that cannot be read keeps the value of the default header. -/
def read (s : IStream) : Res (Header × IStream) :=
  let h := Header.default
  let (sigb, s) := s.readInto h.signature
  let h := { h with signature := sigb }
  if !h.checkSignature then .throw "Invalid spoc file format"
  else
    let (major, s) := s.readUInt 1 h.major.toNat
    let h := { h with major := UInt8.ofNat major }
    if h.major ≠ majorVersion then .throw "Incompatible major version number"
    else
      let (minor, s) := s.readUInt 1 h.minor.toNat
      let h := { h with minor := UInt8.ofNat minor }
      if h.minor ≠ minorVersion then .throw "Incompatible minor version number"
      else
        let (len, s) := s.readUInt 2 0
        let (wkt, s) := s.readInto (List.replicate len 0)
        let h := { h with wkt := wkt }
        let (ef, s) := s.readUInt 1 h.extraFields.toNat
        let h := { h with extraFields := UInt8.ofNat ef }
        let (tp, s) := s.readUInt 8 h.totalPoints.toNat
        let h := { h with totalPoints := UInt64.ofNat tp }
        let (c, s) := s.readUInt 1 h.compressed.toNat
        let h := { h with compressed := UInt8.ofNat c }
        .ok (h, s)

end Header

end Spoc
