import Verif.Base.TextIo

/-!
# Output of floating-point numbers with `std::fixed`, and `std::map` with strings as keys
-/

namespace Spoc

namespace Text

/-- The digits of `n`, filled with zeros on the left to at least `w` characters. -/
def padLeft (w : Nat) (s : Str) : Str := List.replicate (w - s.length) '0' ++ s

/-- `operator<<` of a `double` with `std::fixed` and precision `P`, which is `printf ("%.*f", P, x)` (`num_put::_M_insert_float`):
the value is rounded to `P ≥ 1` decimals, ties to even. -/
def showFixed (P : Nat) (x : F64) : Str :=
  let sg := if x.neg then ['-'] else []
  if x.isNaN then sg ++ ['n', 'a', 'n']
  else if x.isInf then sg ++ ['i', 'n', 'f']
  else
    let n := F64.divHE (F64.fixMag x.mag * 10 ^ P) F64.one1074
    sg ++ (showNat (n / 10 ^ P) ++ '.' :: padLeft P (showNat (n % 10 ^ P)))

/-- `operator<` of `std::string`: the first characters that differ decide. -/
def strLt : Str → Str → Bool
  | _, [] => false
  | [], _ :: _ => true
  | a :: s, b :: t => if a.toNat < b.toNat then true else if b.toNat < a.toNat then false else strLt s t

/-- `m[k] = v` of a `std::map<std::string, β>`, modelled as the list of its entries in the order of the keys. -/
def mapSet {β : Type} (m : List (Str × β)) (k : Str) (v : β) : List (Str × β) :=
  match m with
  | [] => [(k, v)]
  | (k', v') :: r =>
    if strLt k k' then (k, v) :: (k', v') :: r
    else if k = k' then (k, v) :: r
    else (k', v') :: mapSet r k v

/-- The map after the assignments `m[k] = v` in the given order. -/
def mapOf {β : Type} (l : List (Str × β)) : List (Str × β) := l.foldl (fun m e => mapSet m e.1 e.2) []

end Text

end Spoc
