import Verif.Model.Noexcept

/-!
# What honest exception specifications mean

A call of user code that fails although the element type declares it not to throw breaks the promise of the element
type.  A `noexcept` member of `option<T>` from which an exception escapes terminates the program (`std::terminate`), so
its specification is honest when that needs a broken promise.
-/

namespace Opt

/-- did this call of user code break a promise that the element type made in `n` -/
def Event.breaks (n : Nothrow) : Event → Bool
  | .ctorFail _ .copy => n.copyCtor
  | .ctorFail _ .move => n.moveCtor
  | .tmpCtor .copy false => n.copyCtor
  | .tmpCtor .move false => n.moveCtor
  | .assign _ .copy false => n.copyAssign
  | .assign _ .move false => n.moveAssign
  | .swap _ _ false => n.swapLv
  | .call0 false => n.hash
  | _ => false

/-- An exception leaves the computation only after one of the calls it made satisfied `K`. -/
def Escapes {α : Type} (K : Event → Prop) (w : World) : Out World α → Prop
  | .throw w' => ∃ evs, w'.env.log = w.env.log ++ evs ∧ ∃ e ∈ evs, K e
  | _ => True

/-- is the outcome an exception -/
def Out.isThrow {σ α : Type} : Out σ α → Bool
  | .throw _ => true
  | _ => false

mutual
/-- no user-provided `set_level` in the type throws -/
def Ty.SetNoexcept : Ty → Prop
  | .custom _ _ t _ => ∀ bs l, t.setLevel bs l ≠ .throw
  | .pair _ _ _ a _ b => a.SetNoexcept ∧ b.SetNoexcept
  | .tuple _ _ fs => fs.SetNoexcept
  | .array a _ => a.SetNoexcept
  | .complex a => a.SetNoexcept
  | .member _ _ _ a => a.SetNoexcept
  | .enforce a => a.SetNoexcept
  | .option a => a.SetNoexcept
  | _ => True

/-- no user-provided `set_level` in the members throws -/
def Fields.SetNoexcept : Fields → Prop
  | .nil => True
  | .cons _ t rest => t.SetNoexcept ∧ rest.SetNoexcept
end

end Opt
