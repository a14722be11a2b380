import Verif.Spec.Nearest

/-!
# What the info application has to report
-/

namespace Spoc.Spec

open Text

/-- The label of a class: a decimal number with at least three digits. -/
def IsClassLabel (c : Nat) (s : Str) : Prop := (∀ ch ∈ s, isDigit ch = true) ∧ decVal s = c ∧ 3 ≤ s.length

/-- The names of the standard point classes of the LAS 1.4 specification, table 17, with the abbreviations of the enumeration
`point_class` (`/repo/spoc/asprs.h` lines 15-39). -/
def asprsName (c : Nat) : String :=
  match c with
  | 0 => "unclassified"
  | 1 => "unknown"
  | 2 => "ground"
  | 3 => "low_veg"
  | 4 => "med_veg"
  | 5 => "high_veg"
  | 6 => "building"
  | 7 => "low_noise"
  | 8 => "reserved"
  | 9 => "water"
  | 10 => "rail"
  | 11 => "road"
  | 12 => "reserved"
  | 13 => "wire_guard"
  | 14 => "wire_conductor"
  | 15 => "transmission_tower"
  | 16 => "wire_connector"
  | 17 => "bridge_deck"
  | 18 => "high_noise"
  | 19 => "overhead_structure"
  | 20 => "ignored"
  | 21 => "snow"
  | 22 => "exclusion"
  | c => if c < 64 then "reserved" else if c < 256 then "user_defined" else "undefined"

/-- `q` is the value at position `k` when the values are put in order. -/
def OrderStatistic {α : Type} (v : α → ℝ) (xs : List α) (k : Nat) (q : α) : Prop :=
  ∃ ys : List α, ys.Perm xs ∧ ys.Pairwise (fun a b => v a ≤ v b) ∧ ys[k]? = some q

/-- Minimum, quartiles and maximum. -/
structure IsSummary {α : Type} (v : α → ℝ) (xs : List α) (q0 q1 q2 q3 q4 : α) : Prop where
  /-- they are values of the field -/
  mem : q0 ∈ xs ∧ q1 ∈ xs ∧ q2 ∈ xs ∧ q3 ∈ xs ∧ q4 ∈ xs
  /-- they are in order -/
  ordered : v q0 ≤ v q1 ∧ v q1 ≤ v q2 ∧ v q2 ≤ v q3 ∧ v q3 ≤ v q4
  /-- the first one is the minimum, the last one the maximum -/
  bounds : ∀ x ∈ xs, v q0 ≤ v x ∧ v x ≤ v q4
  /-- the quartiles are the values at one quarter, the half and three quarters -/
  quartiles : OrderStatistic v xs (xs.length / 4) q1 ∧ OrderStatistic v xs (xs.length / 2) q2 ∧ OrderStatistic v xs (3 * xs.length / 4) q3

/-- Minimum and maximum. -/
structure IsRange {α : Type} (v : α → ℝ) (xs : List α) (mn mx : α) : Prop where
  mem : mn ∈ xs ∧ mx ∈ xs
  bounds : ∀ x ∈ xs, v mn ≤ v x ∧ v x ≤ v mx

/-! ## Reading JSON text

Strings are in single quotes and contain no escapes, which is what the library prints. -/

/-- A JSON value; numbers and words are kept as text. -/
inductive Tree : Type
  | atom (s : Str)
  | str (s : Str)
  | arr (l : List Tree)
  | obj (l : List (Str × Tree))

namespace Tree

/-- Drop white space. -/
def skip (s : Str) : Str := s.dropWhile isSpace

/-- Without white space at the end. -/
def trim (s : Str) : Str := (skip s.reverse).reverse

/-- Does the character end a number or word? -/
def stops (c : Char) : Bool := decide (c = ',' ∨ c = ']' ∨ c = '}')

/-- Text in front of the next quote, and the rest behind the quote. -/
def quoted (s : Str) : Option (Str × Str) :=
  match s.dropWhile (fun c => decide (c ≠ '\'')) with
  | [] => none
  | _ :: r => some (s.takeWhile (fun c => decide (c ≠ '\'')), r)

mutual

/-- Read a value; what is left is returned. -/
def value : Nat → Str → Option (Tree × Str)
  | 0, _ => none
  | n + 1, s =>
    match skip s with
    | [] => none
    | c :: r =>
      if c = '\'' then (quoted r).map (fun (k, r') => (str k, r'))
      else if c = '[' then (items n r).map (fun (l, r') => (arr l, r'))
      else if c = '{' then (members n r).map (fun (l, r') => (obj l, r'))
      else if stops c = true then none
      else some (atom (trim ((c :: r).takeWhile (fun c => !stops c))), (c :: r).dropWhile (fun c => !stops c))

/-- Read the rest of an array. -/
def items : Nat → Str → Option (List Tree × Str)
  | 0, _ => none
  | n + 1, s =>
    match skip s with
    | ']' :: r => some ([], r)
    | _ =>
      match value n s with
      | none => none
      | some (v, s') =>
        match skip s' with
        | ']' :: r => some ([v], r)
        | ',' :: r => (items n r).map (fun (l, r') => (v :: l, r'))
        | _ => none

/-- Read the rest of an object. -/
def members : Nat → Str → Option (List (Str × Tree) × Str)
  | 0, _ => none
  | n + 1, s =>
    match skip s with
    | '}' :: r => some ([], r)
    | '\'' :: r =>
      match quoted r with
      | none => none
      | some (k, r') =>
        match skip r' with
        | ':' :: r'' =>
          match value n r'' with
          | none => none
          | some (v, s') =>
            match skip s' with
            | '}' :: t => some ([(k, v)], t)
            | ',' :: t => (members n t).map (fun (l, t') => ((k, v) :: l, t'))
            | _ => none
        | _ => none
    | _ => none

end

/-- Read a JSON text. -/
def read (s : Str) : Option Tree :=
  match value (s.length + 1) s with
  | some (t, r) => if (skip r).isEmpty then some t else none
  | none => none

/-- The value at the end of a path of keys. -/
def get : Tree → List Str → Option Tree
  | t, [] => some t
  | obj l, k :: ks =>
    match l.lookup k with
    | some t => get t ks
    | none => none
  | _, _ :: _ => none

end Tree

/-- The value is a number that differs from `v` by at most `ε`. -/
def IsNum (t : Option Tree) (v ε : ℝ) : Prop :=
  ∃ n : Numeral, n.Ok ∧ t = some (.atom n.text) ∧ |n.value - v| ≤ ε

end Spoc.Spec
