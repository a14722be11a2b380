import Verif.Base.Out
import Verif.Model.Compression

/-!
# Model of the stream versions of `compress` and `decompress`

`/repo/spoc/compression.h` lines 118-147 and 196-243.  zlib is a parameter: a machine that is called again and again
with a piece of input and a piece of memory for output.  Writing to the output stream is taken to succeed.
-/

namespace Spoc

/-- A `std::istream` with its two flags: the bytes not yet consumed, `eofbit`, `failbit`. -/
structure Source where
  rest : Bytes
  eof : Bool := false
  fail : Bool := false
  deriving DecidableEq, Repr

/-- `is.read (ptr, n)` and `is.gcount ()` (`/repo/spoc/compression.h` lines 128-129, 207-208): a stream with a flag set delivers nothing and
fails; too few bytes set both flags. -/
def Source.read (s : Source) (n : Nat) : Bytes × Source :=
  if s.eof || s.fail then ([], { s with fail := true })
  else if n ≤ s.rest.length then (s.rest.take n, { s with rest := s.rest.drop n })
  else (s.rest, { rest := [], eof := true, fail := true })

/-- What one call of `deflate` or `inflate` does to a `z_stream`: the number of input bytes consumed, the bytes written to the output,
the return code. -/
structure Call (σ ρ : Type) where
  state : σ
  consumed : Nat
  output : Bytes
  ret : ρ

/-- The compressing half of zlib: `deflateInit` (which fails for a bad level) and `deflate (&s, finish ? Z_FINISH : Z_NO_FLUSH)` with the
input and the size of the output memory. -/
structure Deflater where
  State : Type
  init : Int → Option State
  call : State → Bytes → Bool → Nat → Call State Unit

/-- The return codes of `inflate` that the code distinguishes (`/repo/spoc/compression.h` lines 222-231). -/
inductive InflateRet
  /-- `Z_OK`, `Z_BUF_ERROR` -/
  | more
  /-- `Z_STREAM_END` -/
  | done
  /-- `Z_NEED_DICT`, `Z_DATA_ERROR`, `Z_MEM_ERROR`; the messages of the exceptions are not distinguished -/
  | error
  deriving DecidableEq, Repr

/-- The decompressing half of zlib: `inflateInit` and `inflate (&s, Z_NO_FLUSH)`. -/
structure Inflater where
  State : Type
  init : State
  call : State → Bytes → Nat → Call State InflateRet

namespace Compression

/-- The inner loop of `compress` (`/repo/spoc/compression.h` lines 132-145): call `deflate` until it leaves room in the output buffer.
`fuel` bounds the number of rounds; the code has no bound. -/
def deflateLoop (z : Deflater) (finish : Bool) : Nat → z.State → Bytes → Out z.State
  | 0, _, _ => ⟨[], .hang⟩
  | fuel + 1, s, input => do
    let r := z.call s input finish bufferSize
    Out.emit r.output
    if bufferSize - r.output.length = 0 then deflateLoop z finish fuel r.state (input.drop r.consumed)
    else Out.ret r.state

/-- The outer loop of `compress` (`/repo/spoc/compression.h` lines 126-146). -/
def compressLoop (z : Deflater) : Nat → z.State → Source → Out Unit
  | 0, _, _ => ⟨[], .hang⟩
  | fuel + 1, s, is => do
    let r := is.read bufferSize
    let s ← deflateLoop z r.2.eof fuel s r.1
    if r.2.eof then Out.ret () else compressLoop z fuel s r.2

/-- `compress (is, os, level)` (`/repo/spoc/compression.h` lines 118-147).  The result is `hang` if the loops need more than `fuel` rounds. -/
def compressStream (z : Deflater) (fuel : Nat) (is : Source) (level : Int) : Out Unit :=
  match z.init level with
  | none => ⟨[], .throw "Invalid compression level"⟩
  | some s => compressLoop z fuel s is

/-- The inner loop of `decompress` (`/repo/spoc/compression.h` lines 217-241); returns the state of zlib and the variable `done`. -/
def inflateLoop (z : Inflater) : Nat → Bool → z.State → Bytes → Out (Bool × z.State)
  | 0, _, _, _ => ⟨[], .hang⟩
  | fuel + 1, done, s, input =>
    let r := z.call s input bufferSize
    match r.ret with
    | .error => ⟨[], .throw "Invalid or incomplete deflate data"⟩
    | ret => do
      let done := done || ret == .done
      Out.emit r.output
      if bufferSize - r.output.length = 0 then inflateLoop z fuel done r.state (input.drop r.consumed)
      else Out.ret (done, r.state)

/-- The outer loop of `decompress` (`/repo/spoc/compression.h` lines 205-242). -/
def decompressLoop (z : Inflater) : Nat → z.State → Source → Out Unit
  | 0, _, _ => ⟨[], .hang⟩
  | fuel + 1, s, is => do
    let r := is.read bufferSize
    if r.1.length = 0 then Out.ret ()
    else
      let x ← inflateLoop z fuel false s r.1
      if x.1 then Out.ret () else decompressLoop z fuel x.2 r.2

/-- `decompress (is, os)` (`/repo/spoc/compression.h` lines 196-243). -/
def decompressStream (z : Inflater) (fuel : Nat) (is : Source) : Out Unit := decompressLoop z fuel z.init is

end Compression

end Spoc
