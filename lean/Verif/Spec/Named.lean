import Verif.Model.Main

/-!
# The files that a command line names
-/

namespace Spoc.Spec.Named

open Text Main

/-- The name of a tile: the prefix that is asked for, or a part of the name of the input file without a slash, then decimal digits, and then one of the
two extensions or the end of the name of the input file. -/
def TileOf (argv : List Str) (fn : Str) : Prop :=
  ∃ pre ds ext, fn = pre ++ ds ++ ext ∧ ds ≠ [] ∧ (∀ c ∈ ds, '0' ≤ c ∧ c ≤ '9')
    ∧ (("prefix", pre) ∈ Name.tile.table.options argv ∨ ∃ i ∈ Name.tile.table.operands argv, pre <:+: i ∧ '/' ∉ pre)
    ∧ (ext = ".spoc".toList ∨ ext = ".zpoc".toList ∨ ∃ i ∈ Name.tile.table.operands argv, ext <:+ i)

/-- The files that an application may read: its operands and, for the tool, the arguments of two options. -/
def MayRead (n : Name) (argv : List Str) (fn : Str) : Prop :=
  fn ∈ n.table.operands argv
    ∨ n = .tool ∧ (("field-filename", fn) ∈ n.table.options argv ∨ ("upsample-classifications", fn) ∈ n.table.options argv)

/-- The files that an application may write: diff, info and merge none, tile the tiles, the others the second of two operands. -/
def MayWrite (n : Name) (argv : List Str) (fn : Str) : Prop :=
  match n with
  | .diff | .info | .merge => False
  | .tile => TileOf argv fn
  | n => ∃ i, n.table.operands argv = [i, fn]

/-- Files that are concerned. -/
def Concerned (n : Name) (argv : List Str) (fn : Str) : Prop := MayRead n argv fn ∨ MayWrite n argv fn

/-- Two worlds that do not differ as far as the files in `S` are concerned. -/
def Alike (S : Str → Prop) (w w' : World) : Prop :=
  w.stdin = w'.stdin ∧ ∀ fn, S fn → w.fs fn = w'.fs fn ∧ w.canCreate fn = w'.canCreate fn

/-- Two results that do not differ as far as the files in `S` are concerned. -/
def SameOn (S : Str → Prop) (r r' : Result) : Prop :=
  r.out = r'.out ∧ r.res = r'.res ∧ ∀ fn, S fn → r.fs fn = r'.fs fn

/-- A file that may be written is given a content; or it is created, where this is allowed. -/
def Replaced (canCreate : Str → Bool) (before after : Tile.FS) (fn : Str) : Prop :=
  ∃ x, after fn = some x ∧
    match before fn with
    | some y => y.writable = true ∧ x.writable = true ∧ x.readable = y.readable
    | none => canCreate fn = true ∧ x.writable = true ∧ x.readable = true

end Spoc.Spec.Named
