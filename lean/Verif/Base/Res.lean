/-!
# Outcomes of C++ functions

Every model function that can do anything but return normally has a result of type `Res α`.
-/

namespace Spoc

/-- The build type.  `assert` and the `REQUIRE` / `ENSURE` macros are compiled to checks in a
debug build and to nothing in a release build (`/repo/spoc/contracts.h` lines 14-43,
`<cassert>` with `NDEBUG`). -/
inductive Build
  | debug
  | release
  deriving DecidableEq, Repr

/-- What running a piece of C++ code can lead to. -/
inductive Res (α : Type) : Type
  /-- normal return -/
  | ok (a : α)
  /-- an exception propagates to the caller -/
  | throw (what : String)
  /-- undefined behaviour -/
  | ub (why : String)
  /-- a failed `assert` terminates the program -/
  | abort
  /-- the code does not terminate -/
  | hang
  deriving DecidableEq, Repr

namespace Res

variable {α β γ : Type}

/-- Sequential composition: anything but a normal return ends the computation. -/
def bind (x : Res α) (f : α → Res β) : Res β :=
  match x with
  | ok a => f a
  | throw e => throw e
  | ub w => ub w
  | abort => abort
  | hang => hang

instance : Monad Res where
  pure := ok
  bind := bind

/-- normal return? -/
def isOk : Res α → Bool
  | ok _ => true
  | _ => false

/-- exception? -/
def isThrow : Res α → Bool
  | throw _ => true
  | _ => false

/-- undefined behaviour? -/
def isUb : Res α → Bool
  | ub _ => true
  | _ => false

@[simp] theorem pure_def (a : α) : (pure a : Res α) = ok a := rfl
@[simp] theorem ok_bind (a : α) (f : α → Res β) : (ok a >>= f) = f a := rfl
@[simp] theorem throw_bind (e : String) (f : α → Res β) : ((throw e : Res α) >>= f) = throw e := rfl
@[simp] theorem ub_bind (e : String) (f : α → Res β) : ((ub e : Res α) >>= f) = ub e := rfl
@[simp] theorem abort_bind (f : α → Res β) : ((abort : Res α) >>= f) = abort := rfl
@[simp] theorem hang_bind (f : α → Res β) : ((hang : Res α) >>= f) = hang := rfl

theorem bind_eq_ok {x : Res α} {f : α → Res β} {b : β} :
    (x >>= f) = ok b ↔ ∃ a, x = ok a ∧ f a = ok b := by
  cases x <;> simp

instance : LawfulMonad Res := LawfulMonad.mk'
  (id_map := by intro α x; cases x <;> rfl)
  (pure_bind := by intros; rfl)
  (bind_assoc := by intro α β γ x f g; cases x <;> rfl)

@[simp] theorem map_ok (f : α → β) (a : α) : (f <$> (ok a : Res α)) = ok (f a) := rfl

end Res

/-- The `REQUIRE (c)` macro: throws in a debug build, does nothing in a release build
(`/repo/spoc/contracts.h` lines 14-43). -/
def require (b : Build) (c : Bool) : Res Unit :=
  match b with
  | .debug => if c then .ok () else .throw "Contract failed"
  | .release => .ok ()

/-- The standard `assert (c)` macro. -/
def cassert (b : Build) (c : Bool) : Res Unit :=
  match b with
  | .debug => if c then .ok () else .abort
  | .release => .ok ()

@[simp] theorem require_true (b : Build) : require b true = .ok () := by cases b <;> rfl
@[simp] theorem cassert_true (b : Build) : cassert b true = .ok () := by cases b <;> rfl

end Spoc
