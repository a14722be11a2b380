import Verif.Spec.Transform

/-!
# What the commands of the transform application depend on
-/

namespace Spoc.Spec

/-- The command with this name and these parameters looks at these fields. -/
inductive Uses : String → List Char → List Field → Prop
  | number {name : String} {params : List Char} {fs : List Field} :
      (name, fs) ∈ geometric → Uses name params fs
  | set {params : List Char} : Uses "set" params []
  | first {name : String} {params t rest : List Char} {f : Field} :
      name ∈ ["replace", "replace-not", "copy-field"] → Token params t rest → Denotes t f →
      Uses name params [f]

/-- The first command changes no field that the second one changes or looks at. -/
def Spares (n1 : String) (p1 : List Char) (n2 : String) (p2 : List Char) : Prop :=
  ∀ fs gs, Named n1 p1 fs → (Named n2 p2 gs ∨ Uses n2 p2 gs) → ∀ f ∈ fs, f ∉ gs

/-- Each command spares the other one. -/
def Apart (n1 : String) (p1 : List Char) (n2 : String) (p2 : List Char) : Prop :=
  Spares n1 p1 n2 p2 ∧ Spares n2 p2 n1 p1

/-- The fields that replace-not names without changing them; it changes the class instead. -/
def misdirected : List Field := [.p, .i, .r, .g, .b]

/-- The command with this name and these parameters changes these fields, and no others: those that it names, except that replace-not for
some fields changes the class instead. -/
inductive Changes : String → List Char → List Field → Prop
  | named {name : String} {params : List Char} {fs : List Field} :
      Named name params fs → (name = "replace-not" → ∀ f ∈ misdirected, fs ≠ [f]) → Changes name params fs
  | replaceNot {params : List Char} {f : Field} :
      Named "replace-not" params [f] → f ∈ misdirected → Changes "replace-not" params [.c]

/-- The result of the command with this name and these parameters depends on these fields.  The class after replace-not is that of before
if the named field has one of the given values. -/
inductive DependsOn : String → List Char → List Field → Prop
  | uses {name : String} {params : List Char} {fs : List Field} :
      Uses name params fs → (name = "replace-not" → ∀ f ∈ misdirected, fs ≠ [f]) → DependsOn name params fs
  | replaceNot {params : List Char} {f : Field} :
      Named "replace-not" params [f] → f ∈ misdirected → DependsOn "replace-not" params [f, .c]

/-- The first command changes no field that the second one changes or depends on. -/
def Leaves (n1 : String) (p1 : List Char) (n2 : String) (p2 : List Char) : Prop :=
  ∀ fs gs, Changes n1 p1 fs → (Changes n2 p2 gs ∨ DependsOn n2 p2 gs) → ∀ f ∈ fs, f ∉ gs

/-- Neither command changes a field that the other one changes or depends on. -/
def Independent (n1 : String) (p1 : List Char) (n2 : String) (p2 : List Char) : Prop :=
  Leaves n1 p1 n2 p2 ∧ Leaves n2 p2 n1 p1

end Spoc.Spec
