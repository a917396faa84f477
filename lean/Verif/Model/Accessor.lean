import Verif.Model.RefBind

/-!
# Types and value categories of the accessors (option.hpp 2538-2621, 2979-2994, 3026-3250)

The accessors come in overloads on the constness and the value category of the option.  Here an expression is its category,
its type and what it designates; the bodies of the members are followed expression by expression, so that a member that does
not compile for some `T` is `none`.

Simplification: conversions between reference types are those that add qualifiers; derived-to-base conversions are left out.
The types of `Model/RefBind` are used; `T.cv` of a reference type is the qualification of the type referred to.
-/

namespace Opt.Accessor

open Opt.RefBind

/-! ## Type functions of the language -/

/-- `T&` (reference collapsing) -/
def lref (T : QTy) : QTy := { T with ref := .lv }

/-- `T&&` (reference collapsing) -/
def rref (T : QTy) : QTy := { T with ref := if T.ref = .lv then .lv else .rv }

/-- `const T`: no effect on a reference -/
def addConst (T : QTy) : QTy := if T.ref = .none then { T with cv := { T.cv with const := true } } else T

/-- `std::remove_cv_t<T>`: no effect on a reference -/
def removeCv (T : QTy) : QTy := if T.ref = .none then { T with cv := ⟨false, false⟩ } else T

/-! ## Expressions -/

inductive Category where
  | lvalue | xvalue | prvalue
deriving DecidableEq, Repr

/-- what an expression designates or a pointer points to -/
inductive Origin where
  /-- the `T` in the option, or what the option of a reference refers to -/
  | contained
  /-- the argument that the caller gave -/
  | argument
  /-- an object that the called function made and that is gone when it returns -/
  | temporary
deriving DecidableEq, Repr

/-- A glvalue, or a prvalue of class or scalar type.  `converts`: the unqualified types it converts to implicitly. -/
structure Ex where
  cat : Category
  cv : Cv
  core : Core
  origin : Origin
  converts : Core → Bool

/-- does a reference to `c` have all the qualifiers of `d` -/
def qualsKept (d c : Cv) : Bool := (!d.const || c.const) && (!d.volatile || c.volatile)

/-- may a reference `R` be bound to an rvalue: `X&&` and `const X&` -/
def bindsRvalue (R : QTy) : Bool := R.ref == .rv || (R.cv.const && !R.cv.volatile)

/-- the call expression of a function returning the reference `R` bound to an object of origin `o` -/
def asRef (R : QTy) (o : Origin) (converts : Core → Bool) : Ex :=
  ⟨if R.ref = .lv then .lvalue else .xvalue, R.cv, R.core, o, converts⟩

/-- `return e;` in a function that returns the reference `R`, as seen by the caller -/
def returnRef (R : QTy) (e : Ex) : Option Ex :=
  if e.core = R.core then
    if !qualsKept e.cv R.cv then none
    else match e.cat with
      | .lvalue => if R.ref = .lv then some (asRef R e.origin e.converts) else none
      | .xvalue => if bindsRvalue R then some (asRef R e.origin e.converts) else none
      | .prvalue => if bindsRvalue R then some (asRef R .temporary e.converts) else none
  else if e.converts R.core && bindsRvalue R then some (asRef R .temporary (fun c => c == R.core))
  else none

/-- `static_cast<R>(e)` for a reference `R`: as an initialisation, and moreover from lvalues to `X&&` -/
def castRef (R : QTy) (e : Ex) : Option Ex :=
  if e.core = R.core && qualsKept e.cv R.cv && R.ref == .rv && e.cat == .lvalue then some (asRef R e.origin e.converts)
  else returnRef R e

/-- how a returned object is initialised -/
inductive How where
  /-- from an lvalue or a const rvalue -/
  | copy
  /-- from an rvalue that is not const -/
  | move
  /-- by a converting constructor or conversion function -/
  | convert
deriving DecidableEq, Repr

/-- a returned object of type `R` (not a reference) initialised with `e` -/
def returnVal (R : QTy) (e : Ex) : Option How :=
  if e.core = R.core then
    match e.cat with
    | .lvalue => some .copy
    | _ => if e.cv.const then some .copy else some .move
  else if e.converts R.core then some .convert
  else none

/-- what a caller gets from a function that returns `R` -/
inductive Result where
  | ref (e : Ex)
  | val (R : QTy) (how : How) (from_ : Origin)

/-- `return e;` in a function returning `R` -/
def returnAs (R : QTy) (e : Ex) : Option Result :=
  if R.ref = .none then (returnVal R e).map fun h => .val R h e.origin
  else (returnRef R e).map .ref

/-! ## Overloads on the object argument -/

/-- the option expression a member is called on: is it const, is it an rvalue -/
structure Self where
  const : Bool
  rvalue : Bool
deriving DecidableEq, Repr

/-- the qualifiers of a member: `const`, and no reference qualifier, `&` or `&&` -/
structure Qual where
  const : Bool
  ref : Ref
deriving DecidableEq, Repr

/-- is the member with these qualifiers viable -/
def Qual.viable (q : Qual) (s : Self) : Bool :=
  (!s.const || q.const) &&
  match q.ref with
  | .none => true
  | .lv => !s.rvalue || q.const
  | .rv => s.rvalue

/-- is the first at least as good a match as the second, for an rvalue (or lvalue): `&&` before `const&`, then fewer
qualifiers -/
def Qual.le (q r : Qual) : Bool :=
  if q.ref == .rv && r.ref == .lv then true
  else if q.ref == .lv && r.ref == .rv then false
  else !q.const || r.const

/-- overload resolution: the viable member that is at least as good as all viable ones -/
def choose (qs : List Qual) (s : Self) : Option Qual :=
  (qs.filter (·.viable s)).find? fun q => (qs.filter (·.viable s)).all (q.le ·)

/-- `&`, `const&`, `&&`, `const&&` -/
def four : List Qual := [⟨false, .lv⟩, ⟨true, .lv⟩, ⟨false, .rv⟩, ⟨true, .rv⟩]

/-- `const&`, `&&` -/
def two : List Qual := [⟨true, .lv⟩, ⟨false, .rv⟩]

/-- no qualifier, `const` -/
def plain : List Qual := [⟨true, .none⟩, ⟨false, .none⟩]

/-- `*this` in a member: an lvalue -/
def Qual.this (q : Qual) : Self := ⟨q.const, false⟩

/-- the option as the member's helper function gets it: `*this`, or `static_cast<option&&>(*this)` in the `&&` overloads -/
def Qual.forwarded (q : Qual) : Self := ⟨q.const, q.ref == .rv⟩

/-! ## Reference accessors -/

/-- the declared return types `T&`, `const T&`, `T&&`, `const T&&` of the four overloads (3060, 3069, 3078, 3087, and so on) -/
def declared (T : QTy) (q : Qual) : QTy :=
  let C := if q.const then addConst T else T
  if q.ref = .rv then rref C else lref C

/-- `base::value` for an object type, `*base::value` for a reference type (2290-2301): an lvalue; a const option makes its
member const, but not what its pointer points to -/
def stored (T : QTy) (const : Bool) : Ex :=
  ⟨.lvalue, if T.ref = .none then { T.cv with const := T.cv.const || const } else T.cv, T.core, .contained, fun c => c == T.core⟩

/-- the body of `get` (3060-3094) -/
def getBody (T : QTy) (q : Qual) : Option Ex :=
  if q.ref = .rv then (castRef (declared T q) (stored T q.const)).bind (returnRef (declared T q))
  else returnRef (declared T q) (stored T q.const)

/-- `s.get()` -/
def get (T : QTy) (s : Self) : Option Ex := (choose four s).bind (getBody T)

/-- `s.get_unchecked()` (3126-3157): the bodies are those of `get` without the check -/
def getUnchecked (T : QTy) (s : Self) : Option Ex := (choose four s).bind (getBody T)

/-- `operator*` (3105-3124): `get()` on the lvalue `*this`, cast in the `&&` overloads -/
def starBody (T : QTy) (q : Qual) : Option Ex :=
  (get T q.this).bind fun e =>
  if q.ref = .rv then (castRef (declared T q) e).bind (returnRef (declared T q)) else returnRef (declared T q) e

/-- `*s` -/
def star (T : QTy) (s : Self) : Option Ex := (choose four s).bind (starBody T)

/-- the helper `value_or_throw` (2601-2605) returns `auto&&`: the type of `*static_cast<Self&&>(self)` -/
def valueOrThrowBody (T : QTy) (q : Qual) : Option Ex := (star T q.forwarded).bind (returnRef (declared T q))

/-- `s.value_or_throw()` (3159-3162) -/
def valueOrThrow (T : QTy) (s : Self) : Option Ex := (choose four s).bind (valueOrThrowBody T)

/-- `value()` (3164-3167) -/
def valueBody (T : QTy) (q : Qual) : Option Ex :=
  (valueOrThrow T q.this).bind fun e =>
  if q.ref = .rv then (castRef (declared T q) e).bind (returnRef (declared T q)) else returnRef (declared T q) e

/-- `s.value()` -/
def value (T : QTy) (s : Self) : Option Ex := (choose four s).bind (valueBody T)

/-! ## Pointer accessors -/

/-- a pointer to `cv core` -/
structure Ptr where
  cv : Cv
  core : Core
  origin : Origin
deriving DecidableEq, Repr

/-- `OPTION_ADDRESSOF(e)` (503-510) for an lvalue, converted to a pointer to what `R` refers to -/
def addressAs (R : QTy) (e : Ex) : Option Ptr :=
  if e.cat = .lvalue ∧ e.core = R.core ∧ qualsKept e.cv R.cv then some ⟨R.cv, R.core, e.origin⟩ else none

/-- `operator->` (3095-3104), `ptr_or_null` (3213-3218): `std::remove_reference_t<T&>*` and `std::remove_reference_t<const T&>*`.
`begin` and `end` (2979-2994) make iterators with the pointer types `std::remove_reference_t<T>*` and
`std::remove_reference_t<const T>*` (2412-2419), which are the same. -/
def pointerBody (T : QTy) (q : Qual) : Option Ptr :=
  (get T q.this).bind (addressAs (lref (if q.const then addConst T else T)))

/-- `s.operator->()`, `s.ptr_or_null()`, and the pointer in `s.begin()` -/
def pointer (T : QTy) (s : Self) : Option Ptr := (choose plain s).bind (pointerBody T)

/-! ## What callables get -/

/-- `has_value_and` (2607-2613), `inspect` (2615-2621), `map_or` (2571-2576), `map_or_else` (2579-2588):
`static_cast<Self&&>(self).get()` -/
def argGet (T : QTy) (s : Self) : Option Ex := (choose four s).bind fun q => get T q.forwarded

/-- `and_then` (2550-2559), `map` (2561-2568): `*static_cast<Self&&>(self)` -/
def argStar (T : QTy) (s : Self) : Option Ex := (choose four s).bind fun q => star T q.forwarded

/-- the predicate of `filter` (2623-2629): `self.get()`, where `self` is an lvalue -/
def argFilter (T : QTy) (s : Self) : Option Ex := (choose four s).bind fun q => get T q.this

/-- the predicate of `take_if` (3043-3048), a member without qualifiers: `get()` -/
def argTakeIf (T : QTy) (s : Self) : Option Ex := (choose [⟨false, .none⟩] s).bind fun q => get T q.this

/-! ## `value_or` and `value_or_construct` -/

/-- `value_or` when the option has a value (3170-3184): `return get();` in the `const&` overload,
`return static_cast<std::remove_cv_t<T>&&>(get());` in the `&&` overload -/
def valueOrThen (T : QTy) (s : Self) : Option Result :=
  (choose two s).bind fun q =>
  (get T q.this).bind fun e =>
  if q.ref = .rv then (castRef (rref (removeCv T)) e).bind (returnAs (removeCv T)) else returnAs (removeCv T) e

/-- a `static_cast<R>(e)` that is returned: for an object type the returned object is initialised with `e` -/
def castReturn (R : QTy) (e : Ex) : Option Result :=
  if R.ref = .none then returnAs R e else (castRef R e).bind (returnAs R)

/-- `value_or` when the option is empty (3174, 3182): `static_cast<std::remove_cv_t<T>>(static_cast<U&&>(default_value))`, where
`d` is the argument as the caller wrote it -/
def valueOrElse (T : QTy) (d : Ex) : Option Result := castReturn (removeCv T) d

/-- `value_or_construct` when the option has a value (2538-2542): `static_cast<Self&&>(self).get()` -/
def constructThen (T : QTy) (s : Self) : Option Result :=
  (choose two s).bind fun q => (get T q.forwarded).bind (returnAs (removeCv T))

/-- what a cast to a reference does -/
inductive CastKind where
  /-- a `static_cast` -/
  | static
  /-- qualifiers are lost -/
  | constCast
  /-- the object is of another type -/
  | reinterpret
deriving DecidableEq, Repr

/-- `R(e)` with one argument for a reference `R` (2547): a function-style cast, which is a C-style cast, with an lvalue `e`.  The
first possible one of `const_cast`, `static_cast` and `reinterpret_cast` (followed by `const_cast`). -/
def functionalCast (R : QTy) (e : Ex) : Option (CastKind × Ex) :=
  if e.core = R.core then
    some (if qualsKept e.cv R.cv then .static else .constCast, asRef R e.origin e.converts)
  else match castRef R e with
    | some x => some (.static, x)
    | none => some (.reinterpret, asRef R e.origin e.converts)

/-- `value_or_construct(e)` when the option of a reference is empty (2543-2548, a reference is no aggregate), for an lvalue `e` -/
def constructElse (T : QTy) (e : Ex) : Option (CastKind × Result) :=
  (functionalCast (removeCv T) e).bind fun x => (returnAs (removeCv T) x.2).map (x.1, ·)

end Opt.Accessor
