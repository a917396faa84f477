import Verif.Model.History

/-!
# What it means that exceptions pass through unchanged
-/

namespace Opt

/-- did this call of user code throw -/
def Event.failed : Event → Bool
  | .ctorFail _ _ => true
  | .assign _ _ ok => !ok
  | .swap _ _ ok => !ok
  | .call _ ok => !ok
  | .call0 ok => !ok
  | .tmpCtor _ ok => !ok
  | _ => false

/-- Completing normally, no call of user code has thrown (nothing is swallowed); letting out an exception, exactly one has
thrown (nothing is invented, nothing is tried again). -/
def Propagates {α : Type} (w : World) : Out World α → Prop
  | .ok _ w' => ∃ evs, w'.env.log = w.env.log ++ evs ∧ evs.countP Event.failed = 0
  | .throw w' => ∃ evs, w'.env.log = w.env.log ++ evs ∧ evs.countP Event.failed = 1
  | _ => True

/-- `value_or_throw` and `value`, the only functions that throw an exception of their own -/
def Op.isValueOrThrow {Val : Type} : Op Val → Bool
  | .valueOrThrow _ => true
  | _ => false

/-- did the client catch an exception -/
def Ret.isThrew {Val : Type} : Ret Val → Bool
  | .threw => true
  | _ => false

end Opt
