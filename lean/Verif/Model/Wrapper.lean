import Verif.Model.IntSentinel

/-!
# `impl::type_wrapper` and the classes derived from it (option.hpp 3898-3932, 3969-3970, 4011-4012, 4031-4032)

`sentinel`, `sentinel_f`, `member` and `enforce` inherit the constructors of `type_wrapper` (3931-3932) and declare nothing
else, so they have their own copy and move assignment operators, which hide `type_wrapper::operator=(U&&)` (3919-3923).

One wrapper `W` of a type `T`, and an expression of a type `Q` that is not a wrapper.  The language facts are data.
-/

namespace Opt.Wrapper

/-- What the language says about initialising `T` from an expression of type `Q`. -/
structure Facts where
  /-- `OPTION_IS_CXX20` -/
  cxx20 : Bool
  /-- `std::is_aggregate_v<T>` -/
  aggregate : Bool
  /-- `Q` is `T`, up to const and value category -/
  same : Bool
  /-- `std::is_constructible_v<T, Q>`: `T(e)` -/
  constructible : Bool
  /-- `std::is_convertible_v<Q, T>`: `T t = e;` -/
  convertible : Bool
  /-- the implicit conversion calls no constructor and no conversion function of another class -/
  standard : Bool
  /-- `T{e}` is well-formed, where `e` is not a constant expression: no narrowing -/
  braced : Bool
  /-- `T{e}` calls a constructor with a parameter of type `std::initializer_list` -/
  listCtor : Bool
  /-- the same for `T{t}` with a `t` of type `T` -/
  listSelf : Bool
  /-- `std::is_assignable_v<T&, Q>` -/
  assignable : Bool
deriving DecidableEq, Repr

/-- facts that go together -/
structure Facts.WF (F : Facts) : Prop where
  /-- an implicit conversion is also allowed in `T(e)` -/
  conv : F.convertible = true → F.constructible = true
  std : F.standard = true → F.convertible = true
  /-- `T` can be copied and moved -/
  same : F.same = true → F.standard = true ∧ F.braced = true ∧ F.listCtor = F.listSelf

/-- what the member `m` is initialised with -/
inductive Init where
  /-- with the value of `T(e)` -/
  | value
  /-- with a list of one element, `e` -/
  | list
deriving DecidableEq, Repr

inductive Outcome where
  | ok (i : Init)
  /-- no viable function: `std::is_constructible` and the like say `false` -/
  | noMatch
  /-- a function is chosen whose definition does not compile: `std::is_constructible` says `true` -/
  | error
deriving DecidableEq, Repr

variable (F : Facts)

/-- `impl::is_initializable_from_v<T, Q>` (option.hpp 1818-1840) -/
def initializable : Bool :=
  if F.cxx20 then F.constructible
  else if F.constructible then true
  else F.aggregate && F.braced

/-- the member initialiser `m{static_cast<Args&&>(args)...}` (option.hpp 3905) -/
def memberInit : Outcome :=
  if F.braced then .ok (if F.listCtor then .list else .value) else .error

/-- the member initialiser `m{x}`, where `x` is a `T` (option.hpp 3913-3916) -/
def memberCopy : Outcome := .ok (if F.listSelf then .list else .value)

/-- `W w(e);`.  If `Q` is `T`, the constructors from `const T&` and `T&&` (3913-3916) are as good as the template (3903-3905), or
the template is chosen for a non-const lvalue, which does the same.  Otherwise the template is better: no conversion. -/
def direct : Outcome :=
  if F.same then memberCopy F
  else if initializable F then memberInit F
  else .noMatch

/-- `W w = e;`.  The template is explicit (3904).  The conversion to the parameter `const T&` or `T&&` (3913-3916) must be a standard
one, because the constructor itself is the user-defined conversion ([over.best.ics]). -/
def implicit : Outcome :=
  if F.same || F.standard then memberCopy F else .noMatch

/-- `w = e;`: the copy and move assignment operators are the only ones; `e` is converted to `W` and that is moved in. -/
def assign : Outcome := implicit F

/-- the constructor `option<W>(e)` (option.hpp 2652-2658, 2842-2849) for `W` without a flag or with one: `W(e)` is tried if
`std::is_constructible_v<W, Q>` (2010-2024, 1941-1944) -/
def optionCtor : Outcome := direct F

/-- the assignment `o = e` to an `option<W>` (option.hpp 2734-2739, 2931-2940, 2619-2629): enabled if `W` can be constructed from and
assigned `e`; the storage is constructed with `W(e)` if the option is empty, and assigned otherwise; both are compiled.  If it is not
enabled, `e` is converted to `option<W>` implicitly (2842-2849), which is enabled if `e` converts to `W`. -/
def optionAssign : Outcome :=
  if direct F != .noMatch && assign F != .noMatch then
    (if direct F = .error then .error else assign F)
  else .noMatch

/-! ## Integers -/

open IntSentinel (IntTy)

/-- does list-initialisation from a value of type `q` that is not a constant narrow ([dcl.init.list]) -/
def narrows : IntTy → IntTy → Bool
  | .bool, .bool => false
  | .bool, .int _ _ => true
  | .int _ _, .bool => false
  | .int w s, .int w' s' =>
    -- the target cannot represent all values of the source
    if s' = s then decide (w < w')
    else if s' then true        -- signed to unsigned
    else decide (w ≤ w')        -- unsigned to signed

/-- the facts for integers `T` and `Q` -/
def intFacts (cxx20 : Bool) (t q : IntTy) : Facts where
  cxx20 := cxx20
  aggregate := false
  same := decide (t = q)
  constructible := true
  convertible := true
  standard := true
  braced := !narrows t q
  listCtor := false
  listSelf := false
  assignable := true

end Opt.Wrapper
