import Verif.Model.Cmd

/-!
# Ways to write a command line

The specification uses the option tables of the model, not its parser.
-/

namespace Spoc.Spec.Cmd

open Getopt

/-- The letter of an option. -/
def letter (o : LongOpt) : Char := Char.ofNat o.val

/-- A piece of a command line: an option in one of the usual forms, or something that is not an option.  `q` is the name of the option or
an abbreviation of it; `fs` are options without argument whose letters are written in one word. -/
inductive Item
  /-- `--q` -/
  | long (q : Str) (o : LongOpt)
  /-- `--q=v` -/
  | longEq (q : Str) (o : LongOpt) (v : Str)
  /-- `--q v` -/
  | longSep (q : Str) (o : LongOpt) (v : Str)
  /-- `-abc` -/
  | letters (fs : List LongOpt)
  /-- `-abcv` with the argument `v` of the last option -/
  | joined (fs : List LongOpt) (o : LongOpt) (v : Str)
  /-- `-abc v` with the argument `v` of the last option -/
  | sep (fs : List LongOpt) (o : LongOpt) (v : Str)
  /-- anything else -/
  | operand (t : Str)

/-- The words on the command line. -/
def Item.text : Item → List Str
  | long q _ => ['-' :: '-' :: q]
  | longEq q _ v => ['-' :: '-' :: (q ++ '=' :: v)]
  | longSep q _ v => ['-' :: '-' :: q, v]
  | letters fs => ['-' :: fs.map letter]
  | joined fs o v => ['-' :: (fs.map letter ++ letter o :: v)]
  | sep fs o v => ['-' :: (fs.map letter ++ [letter o]), v]
  | operand t => [t]

/-- The options it consists of with their arguments. -/
def Item.options : Item → List (LongOpt × Option Str)
  | long _ o => [(o, none)]
  | longEq _ o v => [(o, some v)]
  | longSep _ o v => [(o, some v)]
  | letters fs => fs.map (fun o => (o, none))
  | joined fs o v => fs.map (fun o => (o, none)) ++ [(o, some v)]
  | sep fs o v => fs.map (fun o => (o, none)) ++ [(o, some v)]
  | operand _ => []

/-- The words that are no options. -/
def Item.operands : Item → List Str
  | operand t => [t]
  | _ => []

/-- `q` names the option `o`: it is its name, or a beginning of it that is not a beginning of another name. -/
def Names (longs : List LongOpt) (q : Str) (o : LongOpt) : Prop :=
  o ∈ longs ∧ (q = o.name ∨ (q ≠ [] ∧ q <+: o.name ∧ ∀ p ∈ longs, q <+: p.name → p = o))

/-- What a user may write, given the option table and the options that have a letter. -/
def Valid (longs short : List LongOpt) : Item → Prop
  | .long q o => Names longs q o ∧ o.hasArg = false
  | .longEq q o _ => Names longs q o ∧ o.hasArg = true
  | .longSep q o _ => Names longs q o ∧ o.hasArg = true
  | .letters fs => fs ≠ [] ∧ ∀ f ∈ fs, f ∈ short ∧ f.hasArg = false
  | .joined fs o v => (∀ f ∈ fs, f ∈ short ∧ f.hasArg = false) ∧ o ∈ short ∧ o.hasArg = true ∧ v ≠ []
  | .sep fs o _ => (∀ f ∈ fs, f ∈ short ∧ f.hasArg = false) ∧ o ∈ short ∧ o.hasArg = true
  | .operand t => t.head? ≠ some '-' ∨ t = ['-']

/-- The options whose letters the help text shows. -/
def withLetter (longs : List LongOpt) : List LongOpt := longs.filter (fun o => decide (o.val < 256))

/-- The name of an option and its argument; no argument is the empty one. -/
def named (x : LongOpt × Option Str) : String × Str := (String.ofList x.1.name, x.2.getD [])

/-- The pieces that are options. -/
def isOption : Item → Bool
  | .operand _ => false
  | _ => true

/-- Words that begin with a mistake; the options `fs` stand in front of the mistake in the same word. -/
inductive Wrong (longs : List LongOpt) : List LongOpt → List Str → Prop
  /-- no option has this name, and no name begins with it -/
  | noSuchName (q v : Str) (rest : List Str) (hq : q ≠ []) (he : '=' ∉ q) (hn : ∀ o ∈ longs, ¬ q <+: o.name)
      (hv : v = [] ∨ v.head? = some '=') : Wrong longs [] (('-' :: '-' :: (q ++ v)) :: rest)
  /-- the names of two options begin with it -/
  | ambiguous (q v : Str) (rest : List Str) (hq : q ≠ []) (he : '=' ∉ q) (hn : ∀ o ∈ longs, o.name ≠ q) (o p : LongOpt)
      (ho : o ∈ longs) (hp : p ∈ longs) (hop : o ≠ p) (hqo : q <+: o.name) (hqp : q <+: p.name)
      (hv : v = [] ∨ v.head? = some '=') : Wrong longs [] (('-' :: '-' :: (q ++ v)) :: rest)
  /-- an argument for an option that has none -/
  | superfluous (q : Str) (o : LongOpt) (v : Str) (rest : List Str) (hq : Names longs q o) (ha : o.hasArg = false) :
      Wrong longs [] (('-' :: '-' :: (q ++ '=' :: v)) :: rest)
  /-- no argument for an option that needs one -/
  | missing (q : Str) (o : LongOpt) (hq : Names longs q o) (ha : o.hasArg = true) : Wrong longs [] ['-' :: '-' :: q]
  /-- no argument for a letter that needs one -/
  | missingLetter (fs : List LongOpt) (o : LongOpt) (hf : ∀ f ∈ fs, f ∈ withLetter longs ∧ f.hasArg = false)
      (ho : o ∈ withLetter longs) (ha : o.hasArg = true) : Wrong longs fs ['-' :: (fs.map letter ++ [letter o])]
  /-- a letter that no option has -/
  | noSuchLetter (fs : List LongOpt) (c : Char) (cs : Str) (rest : List Str)
      (hf : ∀ f ∈ fs, f ∈ withLetter longs ∧ f.hasArg = false) (hc : ∀ o ∈ longs, letter o ≠ c) (hd : c ≠ '-') :
      Wrong longs fs (('-' :: (fs.map letter ++ c :: cs)) :: rest)

end Spoc.Spec.Cmd
