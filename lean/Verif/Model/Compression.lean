import Verif.Base.Res
import Verif.Base.Bytes

/-!
# Model of `/repo/spoc/compression.h`

zlib itself is a parameter.  `deflate input` is the complete stream zlib produces for an input,
`inflate input` everything zlib can decode from the input, and whether it ends in a data error.
-/

namespace Spoc

/-- What `inflate` can produce from an input: the decoded bytes, and whether decoding
ends with `Z_DATA_ERROR`, `Z_NEED_DICT` or `Z_MEM_ERROR`. -/
structure Inflated where
  output : Bytes
  error : Bool
  deriving DecidableEq

/-- The zlib library. -/
structure Zlib where
  deflate : Bytes → Bytes
  inflate : Bytes → Inflated

/-- What is assumed about zlib: a compressed stream is not empty and inflates to the input. -/
def Zlib.Correct (z : Zlib) : Prop :=
  ∀ bs, z.deflate bs ≠ [] ∧ z.inflate (z.deflate bs) = { output := bs, error := false }

namespace Compression

/-- `BUFFER_SIZE` (`/repo/spoc/compression.h` lines 86, 151). -/
def bufferSize : Nat := 2 ^ 20

/-- The do-while loops of `/repo/spoc/compression.h` lines 96-108 and 161-181: each call of
`deflate` / `inflate` fills the output buffer with the next pending bytes, the buffer is
appended to the output, and the loop goes on as long as the buffer was filled completely.
`pending` is what zlib still has to deliver. -/
def drain (buf : Nat) : Nat → Bytes → Bytes → Res Bytes
  | 0, _, _ => .hang
  | fuel + 1, pending, output =>
    let chunk := pending.take buf
    let output := output ++ chunk
    if buf - chunk.length = 0 then drain buf fuel (pending.drop buf) output
    else .ok output

/-- The conversion of a byte count to zlib's `avail_in`, an `unsigned int` of 32 bits
(`/repo/spoc/compression.h` lines 93 and 158). -/
def availIn (n : Nat) : Nat := n % 2 ^ 32

/-- `compress` (`/repo/spoc/compression.h` lines 84-111). -/
def compress (z : Zlib) (input : Bytes) : Res Bytes :=
  let stream := z.deflate (input.take (availIn input.length))
  drain bufferSize (stream.length + 1) stream []

/-- `decompress` (`/repo/spoc/compression.h` lines 149-184).  An error code from
`inflate` leads to an exception and discards what was decoded before. -/
def decompress (z : Zlib) (input : Bytes) : Res Bytes :=
  let r := z.inflate (input.take (availIn input.length))
  if r.error then .throw "Invalid or incomplete deflate data"
  else drain bufferSize (r.output.length + 1) r.output []

/-- `decompress` into memory of `outputBytes` bytes (`/repo/spoc/compression.h` lines 186-194). -/
def decompressTo (z : Zlib) (input : Bytes) (outputBytes : Nat) : Res Bytes := do
  let d ← decompress z input
  if d.length ≠ outputBytes then
    .throw "Can't decompress: unexpected number of decompressed bytes"
  else .ok d

end Compression

end Spoc
