import Verif.Model.Traits

/-!
# Levels stored inside tuple-like types

`option_traits` of a type with `std::tuple_size` (include/opt/option.hpp 703-706, 921-952, 1126-1128, 1596-1611): the element with the most
levels is looked for with `std::tuple_element`, and is accessed with the client's `get`: the member template if the expression is
valid, otherwise the function found by argument-dependent lookup.

A client's `get` is described by the expression it yields on a lvalue of the type, const and not.

Simplifications: the element types are not const or volatile (see `Model/ConstParts` for those) and are identified by a number, a
reference to a class derived from the element type does not occur; `get` yields the same sub-object whenever it is called and throws nothing.
-/

namespace Opt.TupleLike

/-- where the object referred to by the result of `get` lives -/
inductive Place where
  /-- a sub-object of the tuple-like object, at an offset -/
  | inside (off : Nat)
  /-- some other object, e.g. what a member of the tuple-like object points to -/
  | outside
  /-- a temporary that is destroyed at the end of the full-expression -/
  | temporary
deriving DecidableEq, Repr

/-- value category of a call: the function returns by value, `E&` or `E&&` -/
inductive Cat where
  | prvalue | lvalue | xvalue
deriving DecidableEq, Repr

/-- type and category of the expression `x.get<I>()` or `get<I>(x)`.  `const` is that of the expression's type: never set for a prvalue
of a type that is not a class. -/
structure Expr where
  cat : Cat
  const : Bool
  ty : Nat
  place : Place
deriving DecidableEq, Repr

/-- what the client provides for one index -/
structure Elem where
  /-- `std::tuple_element_t<I, T>` -/
  ty : Nat
  size : Nat
  /-- `option_traits<std::tuple_element_t<I, T>>` -/
  traits : Traits
  /-- `x.template get<I>()` on a lvalue, const or not; `none` if it is not a valid expression -/
  member : Bool → Option Expr
  /-- `get<I>(x)` by argument-dependent lookup -/
  free : Bool → Option Expr

/-- `tuple_like_get_impl::call<I>(x, 1)` (930-947): the overload with `int` is the better match if its return type exists.  Its return type is
the expression's own (`decltype`), so the category stays. -/
def Elem.call (e : Elem) (const : Bool) : Option Expr :=
  match e.member const with
  | some x => some x
  | none => e.free const

/-- `auto& tuple_like_get<I>(T& x)` (949-952): `auto&` binds to a lvalue, and to a rvalue only if it is const (then `auto` is deduced as
a const type; a temporary dies on return). -/
def Elem.get (e : Elem) (const : Bool) : Option Expr :=
  match e.call const with
  | none => none
  | some x =>
    match x.cat with
    | .lvalue => some x
    | .xvalue => if x.const then some { x with cat := .lvalue } else none
    | .prvalue => if x.const then some { x with cat := .lvalue, place := .temporary } else none

/-- `find_result::type::get_level(OPTION_ADDRESSOF(tuple_like_get<index>(*value)))` (1605): the argument becomes a `const E*`. -/
def Elem.reads (e : Elem) : Option Place :=
  match e.get true with
  | none => none
  | some x => if x.ty = e.ty then some x.place else none

/-- `find_result::type::set_level(OPTION_ADDRESSOF(tuple_like_get<index>(*value)), level)` (1608): the argument becomes an `E*`. -/
def Elem.writes (e : Elem) : Option Place :=
  match e.get false with
  | none => none
  | some x => if x.ty = e.ty && !x.const then some x.place else none

/-- what `option<T>` of a tuple-like type does -/
inductive Verdict where
  /-- `max_level` is 0: there is an external flag (1908) -/
  | flag
  /-- the level is stored in the element -/
  | stored (e : Elem) (read write : Place)
  /-- an error inside the library as soon as a member of the option is used -/
  | error

/-- `tuple_like_find_max_level` (816-831, 921-928) and the bodies of `get_level` and `set_level` (1596-1611); these are only instantiated
if `max_level` is not 0. -/
def verdict (es : List Elem) : Verdict :=
  match es[indexOfMax (es.map fun e => e.traits.maxLevel)]? with
  | none => .flag                                          -- find_max_level<>
  | some e =>
    if e.traits.maxLevel = 0 then .flag
    else
      match e.reads, e.writes with
      | some r, some w => .stored e r w
      | _, _ => .error

/-- the storage of an option of a tuple-like type whose `get` may refer to another object: its own bytes, and those of the other object
(which exists only if `other` is some: before the tuple-like object is constructed the pointer to it is garbage) -/
structure Store where
  own : Bytes
  other : Option Bytes

/-- read the element at a place; an access to a dead temporary or through garbage is undefined -/
def Store.load (s : Store) (n : Nat) : Place → Res Bytes
  | .inside off => .ok (rd s.own off n)
  | .outside => match s.other with | some b => .ok (rd b 0 n) | none => .ub
  | .temporary => .ub

/-- write the element at a place -/
def Store.save (s : Store) (bs : Bytes) : Place → Res Store
  | .inside off => .ok { s with own := wr s.own off bs }
  | .outside => match s.other with | some b => .ok { s with other := some (wr b 0 bs) } | none => .ub
  | .temporary => .ub

/-- `get_level` (1604-1606) -/
def getLevel (e : Elem) (p : Place) (s : Store) : Res U64 :=
  (s.load e.size p).map e.traits.getLevel

/-- `set_level` (1607-1609) -/
def setLevel (e : Elem) (p : Place) (s : Store) (l : U64) : Res Store :=
  (s.load e.size p).bind fun bs => (e.traits.setLevel bs l).bind fun bs' => s.save bs' p

end Opt.TupleLike
