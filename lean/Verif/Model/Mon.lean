/-!
# Computations with state, exceptions, failed checks and undefined behaviour
-/

namespace Opt

/-- Outcome of a C++ computation on a state: normal completion, an exception in flight (the state keeps its changes), a
false `OPTION_VERIFY` condition (option.hpp 190-233), undefined behaviour. -/
inductive Out (σ α : Type) where
  | ok (a : α) (s : σ)
  | throw (s : σ)
  | verify
  | ub

/-- a C++ computation -/
abbrev M (σ α : Type) : Type := σ → Out σ α

namespace M

variable {σ α β : Type}

/-- normal completion without effects -/
def ret (a : α) : M σ α := fun s => .ok a s

/-- sequencing -/
def seq (x : M σ α) (f : α → M σ β) : M σ β := fun s =>
  match x s with
  | .ok a s' => f a s'
  | .throw s' => .throw s'
  | .verify => .verify
  | .ub => .ub

instance : Monad (M σ) where
  pure := ret
  bind := seq

/-- `throw` -/
def raise : M σ α := fun s => .throw s

/-- undefined behaviour -/
def bad : M σ α := fun _ => .ub

/-- `OPTION_VERIFY(c)` (option.hpp 190-233) -/
def check (c : Bool) : M σ Unit := fun s => if c then .ok () s else .verify

/-- stack unwinding: if `x` throws, run the clean-up `h` and continue throwing -/
def onThrow (x : M σ α) (h : M σ Unit) : M σ α := fun s =>
  match x s with
  | .throw s' =>
    match h s' with
    | .ok _ s'' => .throw s''
    | .throw _ => .ub -- a second exception during unwinding
    | .verify => .verify
    | .ub => .ub
  | r => r

end M

end Opt
