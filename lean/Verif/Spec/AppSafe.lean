import Verif.Model.Main

/-!
# Words for what the applications read and how they end
-/

namespace Spoc

/-- The program returned a value or threw an exception. -/
def Res.Returns {α : Type} (r : Res α) : Prop := (∃ a, r = .ok a) ∨ ∃ e, r = .throw e

namespace AppSafe

/-- An uncompressed file with points whose records are longer than the buffer of the reader, 1024 bytes: 124 or more extra fields. -/
def Endless (s : IStream) : Prop :=
  ∃ h s', Header.read s = .ok (h, s') ∧ h.compressed = 0 ∧ 124 ≤ h.extraFields.toNat ∧ 0 < h.totalPoints.toNat

/-- What an application may read: the standard input and the files. -/
def Input (w : Main.World) (s : IStream) : Prop := s = w.stdin ∨ ∃ n f, w.fs n = some f ∧ s = { rest := f.content }

/-- One of the inputs is endless. -/
def SomeEndless (w : Main.World) : Prop := ∃ s, Input w s ∧ Endless s

/-- One more than the largest value of an integer field: classes and point ids have 32 bits, intensities and colours 16, extra fields 64;
coordinates are not integers. -/
def limitOf (c : Char) : Option Nat :=
  if c = 'c' ∨ c = 'p' then some (2 ^ 32) else if c = 'i' ∨ c = 'r' ∨ c = 'g' ∨ c = 'b' then some (2 ^ 16)
  else if c = 'e' then some (2 ^ 64) else none

end AppSafe

end Spoc
