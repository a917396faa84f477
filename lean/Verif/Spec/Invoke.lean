import Verif.Model.Invoke

/-!
# Specification: `INVOKE` of the standard ([func.require])
-/

namespace Opt.Invoke

open Opt.RefBind

/-- the seven bullets of [func.require], in their order -/
inductive Invokes (B : Base) : Callable → Core → Nat → Form → Prop where
  | funDirect {c first more} (h : c = first ∨ B c first = true) : Invokes B (.memFun c) first more .direct
  | funWrap {c cv d more} (h : ¬(c = .refWrap cv d ∨ B c (.refWrap cv d) = true)) : Invokes B (.memFun c) (.refWrap cv d) more .unwrap
  | funDeref {c first more} (h : ¬(c = first ∨ B c first = true)) (hw : ∀ cv d, first ≠ .refWrap cv d) :
      Invokes B (.memFun c) first more .deref
  | objDirect {c first} (h : c = first ∨ B c first = true) : Invokes B (.memObj c) first 0 .direct
  | objWrap {c cv d} (h : ¬(c = .refWrap cv d ∨ B c (.refWrap cv d) = true)) : Invokes B (.memObj c) (.refWrap cv d) 0 .unwrap
  | objDeref {c first} (h : ¬(c = first ∨ B c first = true)) (hw : ∀ cv d, first ≠ .refWrap cv d) :
      Invokes B (.memObj c) first 0 .deref
  | call {first more} : Invokes B .other first more .call

end Opt.Invoke
