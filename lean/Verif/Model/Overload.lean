/-!
# Which constructor or assignment takes an `option<U>` (option.hpp 1818-1840, 2647-2729, 2842-2849, 2874-2901, 2913-2977)

`option<T>` (with `T` not a reference) is initialised from or assigned an expression of type `option<U>`, `U` different
from `T`.  The forwarding value constructor `option(V&&)` would store `T(o)`; the converting constructors
`option(const option<U>&)` and `option(option<U>&&)` store `T(*o)` if `o` holds a value.  The language facts the
constraints ask for are data.
-/

namespace Opt.Overload

/-- constness and value category of the expression -/
inductive Cat where
  | lvalue | constLvalue | rvalue | constRvalue
deriving DecidableEq, Repr

/-- What the language says about a source type `Q`: `is_constructible<T, Q>`, `is_convertible<Q, T>`, whether
`T{declval<Q>()}` is well-formed, `is_assignable<T&, Q>`. -/
structure SrcFacts where
  constructible : Bool
  convertible : Bool
  braced : Bool
  assignable : Bool
deriving DecidableEq, Repr

/-- the facts about `T` and `U` -/
structure Facts where
  /-- `OPTION_IS_CXX20` -/
  cxx20 : Bool
  /-- `std::is_aggregate_v<T>` -/
  aggregate : Bool
  /-- `std::is_same_v<std::remove_cv_t<T>, bool>` -/
  isBool : Bool
  /-- `T` from an expression of type `option<U>` -/
  opt : Cat → SrcFacts
  /-- `T` from `const U&` -/
  elemConst : SrcFacts
  /-- `T` from `U&&` -/
  elemMove : SrcFacts

variable (F : Facts)

/-- `is_initializable_from` (1818-1840) -/
def initializable (s : SrcFacts) : Bool :=
  if F.cxx20 then s.constructible
  else if s.constructible then true
  else F.aggregate && s.braced

/-- `from_value_ctor<T, V>::is_explicit<explicit>` (2652-2658, 2695-2700) for `V` the expression type; it is not
`option<T>` and not `in_place_t` -/
def valueCtor (q : Cat) (explicit : Bool) : Bool :=
  !F.isBool && ((F.opt q).convertible != explicit) && initializable F (F.opt q)

/-- `is_constructible_from_option` (2663-2671) -/
def constructibleFromOption : Bool :=
  (F.opt .lvalue).constructible || (F.opt .constLvalue).constructible || (F.opt .rvalue).constructible ||
  (F.opt .constRvalue).constructible || (F.opt .lvalue).convertible || (F.opt .constLvalue).convertible ||
  (F.opt .rvalue).convertible || (F.opt .constRvalue).convertible

/-- `is_assignable_from_option` (2673-2677) -/
def assignableFromOption : Bool :=
  (F.opt .lvalue).assignable || (F.opt .constLvalue).assignable || (F.opt .rvalue).assignable ||
  (F.opt .constRvalue).assignable

/-- `from_option_like_ctor<T, U, QualU>::constructor_is_explicit<explicit>` (2679-2683, 2719-2724); `s` are the facts
about `QualU` -/
def convCtor (s : SrcFacts) (explicit : Bool) : Bool :=
  initializable F s && (s.convertible != explicit) && (F.isBool || !constructibleFromOption F)

/-- `from_value_assign<T, V>` (2734-2739) -/
def valueAssign (q : Cat) : Bool := initializable F (F.opt q) && (F.opt q).assignable

/-- `from_option_like_assign<T, U, QualU>::assignment` (2685-2686, 2725-2731) -/
def convAssign (s : SrcFacts) : Bool :=
  initializable F s && s.assignable && (!constructibleFromOption F && !assignableFromOption F)

/-- the function that is chosen: the value constructor (assignment), or the converting one taking `const option<U>&` or
`option<U>&&` -/
inductive Choice where
  | value | fromConst | fromMove
deriving DecidableEq, Repr

/-- does the result hold a value, if the source holds one or not -/
def Choice.engaged : Choice → Bool → Bool
  | .value, _ => true
  | _, src => src

/-- Overload resolution between `f(V&&)` (usable if `v`), `f(const option<U>&)` (`c`) and `f(option<U>&&)` (`m`).  An
lvalue prefers the less qualified reference, an rvalue prefers an rvalue reference; for equal parameter types the more
specialised template wins, which is the one naming `option<U>`. -/
def resolve (q : Cat) (v c m : Bool) : Option Choice :=
  match q with
  | .lvalue => if v then some .value else if c then some .fromConst else none
  | .constLvalue => if c then some .fromConst else if v then some .value else none
  | .rvalue => if m then some .fromMove else if v then some .value else if c then some .fromConst else none
  | .constRvalue => if v then some .value else if c then some .fromConst else none

/-- `option<T>(e)` (`direct`) or `option<T> x = e;`, where explicit constructors are no candidates (2842-2849,
2874-2901) -/
def construct (q : Cat) (direct : Bool) : Option Choice :=
  resolve q (valueCtor F q false || (direct && valueCtor F q true))
    (convCtor F F.elemConst false || (direct && convCtor F F.elemConst true))
    (convCtor F F.elemMove false || (direct && convCtor F F.elemMove true))

/-- `x = e` (2913-2977).  If no assignment template is usable, `e` is converted implicitly to `option<T>` and that is
moved in. -/
def assign (q : Cat) : Option Choice :=
  match resolve q (valueAssign F q) (convAssign F F.elemConst) (convAssign F F.elemMove) with
  | some c => some c
  | none => construct F q false

end Opt.Overload
