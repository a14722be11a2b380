import Verif.Base.Text

/-!
# `getopt_long`

The function of the C library that all applications use to read their command line, called until it returns -1, without the environment
variable `POSIXLY_CORRECT`: arguments that are not options are moved behind the options.  Left out: optional arguments, `flag` pointers and
the special option strings (`+`, `-`, `:` in front, `W;`), none of which the applications use; the messages it prints.
-/

namespace Spoc.Getopt

/-- `struct option`: the name, whether an argument is required, and the value that is returned. -/
structure LongOpt where
  name : Str
  hasArg : Bool
  val : Nat
  deriving DecidableEq, Repr

/-- The option string: each letter, and whether a colon follows. -/
def shortsOf : Str → List (Char × Bool)
  | [] => []
  | [c] => [(c, false)]
  | c :: d :: r => if d = ':' then (c, true) :: shortsOf r else (c, false) :: shortsOf (d :: r)

/-- What one call returns: the value, and `optarg` (`none` is the null pointer). -/
structure Event where
  val : Nat
  arg : Option Str
  deriving DecidableEq, Repr

/-- The value `'?'` for an option that is unknown, ambiguous, lacks its argument or has one that it must not have. -/
def unknown : Event := ⟨'?'.toNat, none⟩

/-- The option that a name stands for: the one with that name, or else the one that begins with it. -/
def longMatch (longs : List LongOpt) (name : Str) : Option LongOpt :=
  match longs.find? (fun o => decide (o.name = name)) with
  | some o => some o
  | none =>
    match longs.filter (fun o => name.isPrefixOf o.name) with
    | [] => none
    | o :: os => if os.all (fun p => decide (p.hasArg = o.hasArg ∧ p.val = o.val)) then some o else none

/-- An argument `--s` with the arguments that follow: what is returned and the arguments that are left. -/
def long (longs : List LongOpt) (s : Str) (rest : List Str) : Event × List Str :=
  let name := s.takeWhile (fun c => decide (c ≠ '='))
  match longMatch longs name, s.dropWhile (fun c => decide (c ≠ '=')) with
  | none, _ => (unknown, rest)
  | some o, [] =>
    if o.hasArg then
      match rest with
      | [] => (unknown, [])
      | a :: r => (⟨o.val, some a⟩, r)
    else (⟨o.val, none⟩, rest)
  | some o, _ :: v => if o.hasArg then (⟨o.val, some v⟩, rest) else (unknown, rest)

/-- The letters behind a single dash with the arguments that follow: what is returned and the arguments that are left. -/
def cluster (shorts : List (Char × Bool)) : Str → List Str → List Event × List Str
  | [], rest => ([], rest)
  | c :: cs, rest =>
    match shorts.lookup c with
    | none => let (es, r) := cluster shorts cs rest; (unknown :: es, r)
    | some false => let (es, r) := cluster shorts cs rest; (⟨c.toNat, none⟩ :: es, r)
    | some true =>
      match cs, rest with
      | [], [] => ([unknown], [])
      | [], a :: r => ([⟨c.toNat, some a⟩], r)
      | _ :: _, _ => ([⟨c.toNat, some cs⟩], rest)

/-- All calls until -1 is returned, for at most `fuel` arguments: what they return, and the arguments that are no options. -/
def parseN (shorts : List (Char × Bool)) (longs : List LongOpt) : Nat → List Str → List Event × List Str
  | 0, _ => ([], [])
  | _ + 1, [] => ([], [])
  | fuel + 1, a :: rest =>
    match a with
    | '-' :: '-' :: s =>
      if s = [] then ([], rest)
      else
        let (e, r) := long longs s rest
        let (es, ops) := parseN shorts longs fuel r
        (e :: es, ops)
    | '-' :: c :: cs =>
      let (e, r) := cluster shorts (c :: cs) rest
      let (es, ops) := parseN shorts longs fuel r
      (e ++ es, ops)
    | _ =>
      let (es, ops) := parseN shorts longs fuel rest
      (es, a :: ops)

/-- All calls until -1 is returned. -/
def parse (shorts : List (Char × Bool)) (longs : List LongOpt) (argv : List Str) : List Event × List Str :=
  parseN shorts longs argv.length argv

end Spoc.Getopt
