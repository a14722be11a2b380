import Verif.Model.PointRecord

/-!
# Specification vocabulary for fields

The fields of a record, their names and their values.  Nothing here uses the parsers or the
operations of the model.
-/

namespace Spoc.Spec

/-- A field of a record. -/
inductive Field
  | x | y | z | c | p | i | r | g | b
  | e (n : Nat)
  deriving DecidableEq, Repr

namespace Field

/-- The name: a letter, or `e` and the decimal index. -/
def name : Field → List Char
  | x => ['x']
  | y => ['y']
  | z => ['z']
  | c => ['c']
  | p => ['p']
  | i => ['i']
  | r => ['r']
  | g => ['g']
  | b => ['b']
  | e n => 'e' :: Nat.toDigits 10 n

/-- The value of the field as a number (the bit pattern for coordinates); `none` if the record has no such
field. -/
def get : Field → PointRecord → Option Nat
  | x, q => some q.x.bits.toNat
  | y, q => some q.y.bits.toNat
  | z, q => some q.z.bits.toNat
  | c, q => some q.c.toNat
  | p, q => some q.p.toNat
  | i, q => some q.i.toNat
  | r, q => some q.r.toNat
  | g, q => some q.g.toNat
  | b, q => some q.b.toNat
  | e n, q => (q.extra[n]?).map UInt64.toNat

/-- Number of bits of the field. -/
def width : Field → Nat
  | x => 64
  | y => 64
  | z => 64
  | c => 32
  | p => 32
  | i => 16
  | r => 16
  | g => 16
  | b => 16
  | e _ => 64

/-- A coordinate? -/
def isCoord : Field → Bool
  | x => true
  | y => true
  | z => true
  | _ => false

/-- An extra field? -/
def isExtra : Field → Bool
  | e _ => true
  | _ => false

end Field

/-- `q` differs from `p` at most in the given fields (and has the same number of extra fields). -/
def SameExcept (fs : List Field) (p q : PointRecord) : Prop :=
  q.extra.length = p.extra.length ∧ ∀ f : Field, f ∉ fs → f.get q = f.get p

/-- Two records with the same fields are equal. -/
theorem eq_of_get {p q : PointRecord} (h : ∀ f : Field, f.get q = f.get p) : q = p := by
  have hx := h .x
  have hy := h .y
  have hz := h .z
  have hc := h .c
  have hp := h .p
  have hi := h .i
  have hr := h .r
  have hg := h .g
  have hb := h .b
  obtain ⟨⟨x⟩, ⟨y⟩, ⟨z⟩, c, p, i, r, g, b, e⟩ := p
  obtain ⟨⟨x'⟩, ⟨y'⟩, ⟨z'⟩, c', p', i', r', g', b', e'⟩ := q
  simp only [Field.get, Option.some.injEq] at hx hy hz hc hp hi hr hg hb
  have he : e' = e := by
    apply List.ext_getElem?
    intro n
    have := h (.e n)
    simp only [Field.get] at this
    cases h1 : e'[n]? <;> cases h2 : e[n]? <;> simp [h1, h2] at this ⊢
    exact UInt64.toNat_inj.mp this
  rw [UInt64.toNat_inj.mp hx, UInt64.toNat_inj.mp hy, UInt64.toNat_inj.mp hz, UInt32.toNat_inj.mp hc,
    UInt32.toNat_inj.mp hp, UInt16.toNat_inj.mp hi, UInt16.toNat_inj.mp hr, UInt16.toNat_inj.mp hg,
    UInt16.toNat_inj.mp hb, he]

end Spoc.Spec
