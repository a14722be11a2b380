import Verif.Model.Stream

/-!
# What zlib promises to callers that work piece by piece

`Valid cs d` says that the bytes `cs` are a complete compressed stream with the content `d`.  The promises follow the manual of zlib
(comments of `deflate` and `inflate` in zlib.h).
-/

namespace Spoc

/-- The states that a sequence of permitted calls of `deflate` can lead to, with all input consumed and all output delivered so far.
Once `Z_FINISH` was passed, only calls with `Z_FINISH` and what is left of the input are permitted. -/
inductive Deflater.Run (z : Deflater) (level : Int) : z.State → Bytes → Bytes → Option Bytes → Prop
  | init {s} : z.init level = some s → Run z level s [] [] none
  | call {s c o left} (input : Bytes) (finish : Bool) (room : Nat) : Run z level s c o left → (∀ l, left = some l → finish = true ∧ input = l) →
      Run z level (z.call s input finish room).state (c ++ input.take (z.call s input finish room).consumed)
        (o ++ (z.call s input finish room).output) (if finish then some (input.drop (z.call s input finish room).consumed) else none)

/-- The promises of `deflateInit` and `deflate`: the levels -1 to 9 are accepted and no others; a call with room for output stops only when
the input is consumed or the output memory is full; a call with `Z_FINISH` that leaves room has completed a valid stream; the output is
finite. -/
structure Deflater.Correct (z : Deflater) (Valid : Bytes → Bytes → Prop) : Prop where
  levels : ∀ level, (z.init level).isSome ↔ -1 ≤ level ∧ level ≤ 9
  bounds : ∀ {level s c o left}, z.Run level s c o left → ∀ input finish room, (∀ l, left = some l → finish = true ∧ input = l) →
    (z.call s input finish room).consumed ≤ input.length ∧ (z.call s input finish room).output.length ≤ room ∧
      ((z.call s input finish room).output.length < room → (z.call s input finish room).consumed = input.length)
  complete : ∀ {level s c o left}, z.Run level s c o left → ∀ input room, (∀ l, left = some l → input = l) →
    (z.call s input true room).output.length < room → Valid (o ++ (z.call s input true room).output) (c ++ input)
  finite : ∀ d : Bytes, ∃ bound, ∀ {level s c o left}, z.Run level s c o left → c <+: d → o.length ≤ bound

/-- The states that a sequence of calls of `inflate` can lead to, with all input consumed and all output delivered so far. -/
inductive Inflater.Run (z : Inflater) : z.State → Bytes → Bytes → Prop
  | init : Run z z.init [] []
  | call {s c o} (input : Bytes) (room : Nat) : Run z s c o →
      Run z (z.call s input room).state (c ++ input.take (z.call s input room).consumed) (o ++ (z.call s input room).output)

/-- The promises of `inflate`, as long as it is given the pieces of a valid stream `cs`, with or without something after it: it delivers the
content `d` piece by piece; if it leaves room for output it has either reached the end of the stream or consumed all input without reaching
it; it reports the end only when all content was delivered. -/
structure Inflater.Correct (z : Inflater) (Valid : Bytes → Bytes → Prop) : Prop where
  nonempty : ∀ {cs d}, Valid cs d → cs ≠ []
  decodes : ∀ {s c o}, z.Run s c o → ∀ input room cs d, Valid cs d → (∃ u t, c ++ input ++ u = cs ++ t) →
    (z.call s input room).consumed ≤ input.length ∧ (z.call s input room).output.length ≤ room ∧ (z.call s input room).ret ≠ .error ∧
    o ++ (z.call s input room).output <+: d ∧
    ((z.call s input room).ret = .done → o ++ (z.call s input room).output = d) ∧
    ((z.call s input room).output.length < room → (z.call s input room).ret = .done ∨
      (z.call s input room).consumed = input.length ∧ (c ++ input).length < cs.length)

/-- `inflate` rejects the bytes `bs`: given their pieces it never reports the end of a stream; if it leaves room for output it has either
reported an error or consumed all input, the latter only as long as some of `bs` is still to come; its output is finite. -/
structure Inflater.Rejects (z : Inflater) (bs : Bytes) : Prop where
  step : ∀ {s c o}, z.Run s c o → ∀ input room, c ++ input <+: bs →
    (z.call s input room).ret ≠ .done ∧
    ((z.call s input room).output.length < room → (z.call s input room).ret = .error ∨
      (z.call s input room).consumed = input.length ∧ c ++ input ≠ bs)
  finite : ∃ bound, ∀ {s c o}, z.Run s c o → c <+: bs → o.length ≤ bound

end Spoc
