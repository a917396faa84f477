/-!
# Outcomes of a C++ computation

`OPTION_VERIFY(e, msg)` (include/opt/option.hpp 190-233) prints and traps in checked builds and turns into an
optimiser assumption in unchecked builds.  Both are the single outcome `verify` here: "the library's own precondition
check was hit".  Undefined behaviour that the library does not check for is the separate outcome `ub`.
-/

namespace Opt

/-- Outcome of evaluating a C++ expression. -/
inductive Res (α : Type) where
  /-- normal completion -/
  | ok (a : α)
  /-- a C++ exception is in flight -/
  | throw
  /-- `OPTION_VERIFY` with a false condition -/
  | verify
  /-- undefined behaviour -/
  | ub
deriving DecidableEq, Repr

namespace Res

@[simp] def bind {α β : Type} : Res α → (α → Res β) → Res β
  | ok a, f => f a
  | throw, _ => throw
  | verify, _ => verify
  | ub, _ => ub

@[simp] def map {α β : Type} (f : α → β) : Res α → Res β
  | ok a => ok (f a)
  | throw => throw
  | verify => verify
  | ub => ub

/-- Neither a failed precondition check nor undefined behaviour. -/
@[simp] def Fine {α : Type} : Res α → Prop
  | ok _ => True
  | throw => True
  | verify => False
  | ub => False

instance {α : Type} (r : Res α) : Decidable r.Fine := by
  cases r <;> simp only [Fine] <;> infer_instance

end Res

/-- `OPTION_VERIFY(cond)` followed by `k` (option.hpp 190-233). -/
def verifyThen {α : Type} (cond : Bool) (k : Res α) : Res α :=
  if cond then k else .verify

@[simp] theorem verifyThen_true {α : Type} (k : Res α) : verifyThen true k = k := rfl
@[simp] theorem verifyThen_false {α : Type} (k : Res α) : verifyThen false k = .verify := rfl

end Opt
