import Verif.Model.RefBind

/-!
# `impl::invoke` (option.hpp 613-647)

Seven overloads, chosen by constraints and by partial ordering.

Simplification: classes derived from `std::reference_wrapper` are left out as arguments (for them the overloads of 637-647 need a
derived-to-base conversion and lose).
-/

namespace Opt.Invoke

open Opt.RefBind

/-- what is invoked: a pointer to a member function or to a data member of a class, or something else -/
inductive Callable where
  | memFun (c : Core)
  | memObj (c : Core)
  | other
deriving DecidableEq, Repr

/-- proper base classes: `B c d`: `c` is a base of `d` -/
abbrev Base : Type := Core → Core → Bool

/-- `std::is_same_v<C, remove_cvref<First>> || std::is_base_of_v<C, remove_cvref<First>>` (619, 624, 629, 634) -/
def related (B : Base) (c first : Core) : Bool := c == first || B c first

/-- the overloads in the order of the text: 614, 618, 623, 628, 633, 638, 643 -/
inductive Overload where
  | generic | funDirect | funDeref | objDirect | objDeref | funWrap | objWrap
deriving DecidableEq, Repr

/-- all overloads -/
def overloads : List Overload := [.generic, .funDirect, .funDeref, .objDirect, .objDeref, .funWrap, .objWrap]

/-- is an overload viable for the callable, the type of the first argument and the number of further arguments -/
def Overload.viable (B : Base) (f : Callable) (first : Core) (more : Nat) : Overload → Bool
  | .generic => true
  | .funDirect => match f with
    | .memFun c => related B c first
    | _ => false
  | .funDeref => match f with
    | .memFun c => !related B c first
    | _ => false
  | .objDirect => match f with
    | .memObj c => related B c first && more == 0
    | _ => false
  | .objDeref => match f with
    | .memObj c => !related B c first && more == 0
    | _ => false
  | .funWrap => match f, first with
    | .memFun _, .refWrap .. => true
    | _, _ => false
  | .objWrap => match f, first with
    | .memObj _, .refWrap .. => more == 0
    | _, _ => false

/-- how specialised the parameter lists are: `T&&, Args&&...`; `T C::*, First&&, Args&&...` (618, 623) and `T C::*, First&&`
(628, 633); `T C::*, reference_wrapper<First>, Args&&...` and `T C::*, reference_wrapper<First>`.  All conversions are
exact matches, so this decides. -/
def Overload.rank : Overload → Nat
  | .generic => 0
  | .funDirect | .funDeref | .objDirect | .objDeref => 1
  | .funWrap | .objWrap => 2

/-- overload resolution: the viable overload more specialised than all other viable ones; `none`: ambiguous -/
def chosen (B : Base) (f : Callable) (first : Core) (more : Nat) : Option Overload :=
  (overloads.filter (·.viable B f first more)).find? fun o =>
    (overloads.filter (·.viable B f first more)).all fun p => p == o || decide (p.rank < o.rank)

/-- the expression an invocation comes down to -/
inductive Form where
  /-- `f(first, args...)` -/
  | call
  /-- `(first.*f)(args...)`, `first.*f` -/
  | direct
  /-- `((*first).*f)(args...)`, `(*first).*f` -/
  | deref
  /-- `(first.get().*f)(args...)`, `first.get().*f` -/
  | unwrap
deriving DecidableEq, Repr

/-- the bodies (615, 620, 625, 630, 635, 640, 645) -/
def Overload.body : Overload → Form
  | .generic => .call
  | .funDirect | .objDirect => .direct
  | .funDeref | .objDeref => .deref
  | .funWrap | .objWrap => .unwrap

/-- `impl::invoke(f, first, more...)` -/
def invoke (B : Base) (f : Callable) (first : Core) (more : Nat) : Option Form := (chosen B f first more).map (·.body)

/-- is the expression well-formed as far as the classes go: the object the member pointer is applied to must be of the class or
derived from it.  `deref`: the class `*first` has, if it is well-formed.  A pointer to a data member takes no further arguments;
calling something else is up to the client. -/
def Form.wellFormed (B : Base) (deref : Core → Option Core) (f : Callable) (first : Core) (more : Nat) : Form → Bool
  | .call => f == .other
  | .direct => match f with
    | .memFun c => related B c first
    | .memObj c => related B c first && more == 0
    | .other => false
  | .deref => match f, deref first with
    | .memFun c, some d => related B c d
    | .memObj c, some d => related B c d && more == 0
    | _, _ => false
  | .unwrap => match f, first with
    | .memFun c, .refWrap _ d => related B c d
    | .memObj c, .refWrap _ d => related B c d && more == 0
    | _, _ => false

end Opt.Invoke
