import Verif.Model.RefBind

/-!
# `o = {}` (option.hpp 2903-2918; option_fwd.hpp 33-35)

Which assignment operator an empty pair of braces calls.  Candidates are `operator=(none_t)`, the copy and move assignment
operators and `operator=(U&&)`, where `U` is not deduced from the braces and defaults to `std::remove_cv_t<T>`.  The templates
`operator=(const option<U>&)` and `operator=(option<U>&&)` are no candidates: they have no default for `U`.
-/

namespace Opt.Braces

open Opt.RefBind (Ref)

/-- What the language says about `T`. -/
structure Facts where
  /-- is `T` a reference -/
  ref : Ref
  /-- is `T` const, or a reference to const -/
  const : Bool
  /-- is `T` volatile, or a reference to volatile -/
  volatile : Bool
  /-- is `T` (what it refers to) a scalar: arithmetic, enumeration, pointer -/
  scalar : Bool
  /-- for a class: can a temporary be initialised with `{}` -/
  fromEmpty : Bool
  /-- `is_initializable_from_v<T, std::remove_cv_t<T>> && std::is_assignable_v<T&, std::remove_cv_t<T>>` (2734-2739) -/
  accepts : Bool
  /-- is the move assignment operator of `option<T>` (or the copy assignment, if there is no move assignment) not deleted -/
  assigns : Bool

/-- conversion sequences from `{}` ([over.ics.list]) -/
inductive Rank where
  /-- for a scalar -/
  | identity
  /-- by a constructor, or for an aggregate -/
  | user
deriving DecidableEq, Repr

variable (F : Facts)

/-- from `{}` to a temporary of the type `T` or of the type it refers to -/
def temporary : Option Rank :=
  if F.scalar then some .identity else if F.fromEmpty then some .user else none

/-- from `{}` to the parameter `U&&` with `U = std::remove_cv_t<T>`: `T&&`, or for a reference `T` itself -/
def toValueParam : Option Rank :=
  match F.ref with
  | .none | .rv => temporary F
  | .lv => if F.const && !F.volatile then temporary F else none

/-- is `from_value_assign<T, std::remove_cv_t<T>>` (2734-2739, 2782-2788) satisfied.  For a reference `U` is `T`, so the pointers
are the same and the kinds of reference agree. -/
def valueEnabled : Bool := if F.ref = .none then F.accepts else true

/-- from `{}` to the parameter of the copy and move assignment operators: the default constructor of `option<T>` (2833) -/
def toOptionParam : Rank := .user

/-- from `{}` to `opt::none_t` (option_fwd.hpp 33-35): its only constructor has a parameter -/
def toNone : Option Rank := none

inductive Outcome where
  /-- an empty temporary is assigned -/
  | empties
  /-- `T{}` is assigned: the option is engaged -/
  | value
  /-- the option refers to a temporary `X{}` that is gone when the assignment is over -/
  | dangles
  | illFormed
deriving DecidableEq, Repr

/-- `o = {}`: an identity conversion is better than a user-defined one; two user-defined conversions by different functions are
as good as each other, and then the function that is no template is preferred; of the two that are left the one with the
rvalue reference. -/
def assign : Outcome :=
  match (if valueEnabled F then toValueParam F else none), toOptionParam with
  | some .identity, .user => if F.ref = .none then .value else .dangles
  | _, _ => if F.assigns then .empties else .illFormed

/-- `option<T> o = {};`, `option<T> o{};`, `return {};`: the default constructor ([dcl.init.list]) -/
def init : Outcome := .empties

end Opt.Braces
