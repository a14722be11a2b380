import Verif.Base.Res
import Verif.Base.Bytes

/-!
# Output streams

The result of code that writes to a `std::ostream`: the bytes it has emitted, and how it ended.
Bytes emitted before an exception stay emitted.
-/

namespace Spoc

/-- Bytes written, and outcome. -/
structure Out (α : Type) where
  bytes : Bytes
  res : Res α
  deriving DecidableEq, Repr

namespace Out

variable {α β : Type}

/-- Emit nothing and return. -/
def ret (a : α) : Out α := ⟨[], .ok a⟩

/-- Sequential composition. -/
def bind (x : Out α) (f : α → Out β) : Out β :=
  match x.res with
  | .ok a => ⟨x.bytes ++ (f a).bytes, (f a).res⟩
  | .throw e => ⟨x.bytes, .throw e⟩
  | .ub w => ⟨x.bytes, .ub w⟩
  | .abort => ⟨x.bytes, .abort⟩
  | .hang => ⟨x.bytes, .hang⟩

instance : Monad Out where
  pure := ret
  bind := bind

/-- `s.write (…)` -/
def emit (bs : Bytes) : Out Unit := ⟨bs, .ok ()⟩

/-- Code that writes nothing. -/
def lift (r : Res α) : Out α := ⟨[], r⟩

@[simp] theorem pure_def (a : α) : (pure a : Out α) = ret a := rfl
@[simp] theorem ret_bind (a : α) (f : α → Out β) : (ret a >>= f) = f a := by
  simp [Bind.bind, bind, ret]
@[simp] theorem emit_bind (bs : Bytes) (f : Unit → Out β) :
    (emit bs >>= f) = ⟨bs ++ (f ()).bytes, (f ()).res⟩ := by
  simp [Bind.bind, bind, emit]
@[simp] theorem lift_ok_bind (a : α) (f : α → Out β) : (lift (.ok a) >>= f) = f a := by
  simp [Bind.bind, bind, lift]
@[simp] theorem lift_throw_bind (e : String) (f : α → Out β) :
    (lift (.throw e) >>= f) = ⟨[], .throw e⟩ := by
  simp [Bind.bind, bind, lift]
@[simp] theorem mk_ok_bind (bs : Bytes) (a : α) (f : α → Out β) :
    ((⟨bs, .ok a⟩ : Out α) >>= f) = ⟨bs ++ (f a).bytes, (f a).res⟩ := rfl

end Out

end Spoc
