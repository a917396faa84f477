import Verif.Model.RefOption

/-!
# Element access that returns an option: `at`, `at_front`, `at_back`, `lookup`, `get` (option.hpp 1849-1881, 3441-3513, 3576-3625)

The reference kind of the result is computed by `copy_reference` from the type of the accessor expression and from the
deduced template argument of the container.  Here a type is reduced to its reference kind.
-/

namespace Opt

/-- reference kind of a type: not a reference, `X&`, `X&&` -/
inductive RefKind where
  | val | lref | rref
deriving DecidableEq, Repr

/-- the kind of `T&` for a `T` of this kind (reference collapsing) -/
def RefKind.addL : RefKind → RefKind
  | .val => .lref
  | .lref => .lref
  | .rref => .lref

/-- the kind of `T&&` for a `T` of this kind (reference collapsing) -/
def RefKind.addR : RefKind → RefKind
  | .val => .rref
  | .lref => .lref
  | .rref => .rref

/-- value category of the container argument -/
inductive Cat where
  | lvalue | rvalue
deriving DecidableEq, Repr

/-- what the `T` of a forwarding parameter `T&&` is deduced as: `X&` for an lvalue, `X` for an rvalue -/
def Cat.deduced : Cat → RefKind
  | .lvalue => .lref
  | .rvalue => .val

/-! ## Selection among partial specialisations -/

/-- a template argument pattern of a partial specialisation: any type, `X&`, `X&&` -/
inductive Pat where
  | any | lref | rref
deriving DecidableEq, Repr

/-- does a type of this kind match -/
def Pat.fits : Pat → RefKind → Bool
  | .any, _ => true
  | .lref, .lref => true
  | .rref, .rref => true
  | _, _ => false

/-- is the first pattern at least as specialised as the second -/
def Pat.within : Pat → Pat → Bool
  | _, .any => true
  | .lref, .lref => true
  | .rref, .rref => true
  | _, _ => false

/-- The type parameter that a pattern binds, for an argument of this kind: `any` binds the whole type, the other two bind
the referenced type. -/
def Pat.bind : Pat → RefKind → RefKind
  | .any, k => k
  | _, _ => .val

/-- a partial specialisation on two types with the type member it defines, as a function of the first bound parameter -/
structure Special2 where
  first : Pat
  second : Pat
  type : RefKind → RefKind

namespace Special2

/-- does it match -/
def fits (s : Special2) (t u : RefKind) : Bool := s.first.fits t && s.second.fits u

/-- at least as specialised -/
def within (s r : Special2) : Bool := s.first.within r.first && s.second.within r.second

/-- the specialisations the compiler chooses: the matching ones that are at least as specialised as all matching ones -/
def chosen (l : List Special2) (t u : RefKind) : List Special2 :=
  (l.filter (·.fits t u)).filter fun s => (l.filter (·.fits t u)).all (s.within ·)

end Special2

/-- `copy_reference` (1849-1866): the primary template and three partial specialisations -/
def copyReferenceSpecials : List Special2 :=
  [⟨.any, .any, fun t => t⟩, ⟨.lref, .any, fun t => t.addR⟩, ⟨.rref, .any, fun t => t.addR⟩, ⟨.lref, .lref, fun t => t.addL⟩]

/-- `copy_lvalue_reference` (1870-1881) -/
def copyLvalueReferenceSpecials : List Special2 :=
  [⟨.any, .any, fun t => t⟩, ⟨.any, .lref, fun t => t.addL⟩, ⟨.rref, .lref, fun t => t.addR⟩]

/-- `typename S<T, U>::type`; `none`: no or no unique best match, an error -/
def specialType (l : List Special2) (t u : RefKind) : Option RefKind :=
  match Special2.chosen l t u with
  | [s] => some (s.type (s.first.bind t))
  | _ => none

/-- `copy_reference_t<T, U>` -/
def copyReference (t u : RefKind) : Option RefKind := specialType copyReferenceSpecials t u

/-- `copy_lvalue_reference_t<T, U>` -/
def copyLvalueReference (t u : RefKind) : Option RefKind := specialType copyLvalueReferenceSpecials t u

/-! ## Accessor expressions and results -/

/-- the value of an expression: an object in some place, designated by an lvalue (`X&`) or an xvalue (`X&&`), or a prvalue -/
inductive Expr (Val : Type) where
  | lvalue (r : Loc)
  | xvalue (r : Loc)
  | prvalue (v : Val)
deriving DecidableEq, Repr

/-- `decltype` of such an expression -/
def Expr.kind {Val : Type} : Expr Val → RefKind
  | .lvalue _ => .lref
  | .xvalue _ => .rref
  | .prvalue _ => .val

/-- an option of a reference, or of a value -/
inductive Got (Val : Type) where
  /-- `option<X&>` bound to this object -/
  | lref (r : Loc)
  /-- `option<X&&>` bound to this object -/
  | rref (r : Loc)
  /-- `option<X>` containing this value -/
  | copy (v : Val)
deriving DecidableEq, Repr

/-- `option<type>{static_cast<type>(e)}`; `none`: not well-formed, or a reference to a temporary.  A value made from a
glvalue would have to be read; the library never does this (`C42_wrap`), so this is `none` too. -/
def castTo {Val : Type} : RefKind → Expr Val → Option (Got Val)
  | .lref, .lvalue r => some (.lref r)
  | .rref, .lvalue r => some (.rref r)
  | .rref, .xvalue r => some (.rref r)
  | .val, .prvalue v => some (.copy v)
  | _, _ => none

/-- `using type = copy_reference_t<decltype(e), T>; option<type>{static_cast<type>(e)}`; anything that is not well-formed is
`ub` -/
def wrap {Val : Type} (c : Cat) (e : Expr Val) : Res (Got Val) :=
  match copyReference e.kind c.deduced with
  | none => .ub
  | some k =>
    match castTo k e with
    | some g => .ok g
    | none => .ub

/-! ## `at`, `at_front`, `at_back` -/

/-- A sequence container: how many elements (a `std::size_t`), where it keeps them, and which expression an accessor called on
a container of this category yields for an element.  Access outside the elements is undefined. -/
structure Seq (Val : Type) where
  size : U64
  /-- the expression `c[n]`, for the value category of `c` -/
  elem : Cat → Nat → Expr Val

namespace Seq

variable {Val : Type} (s : Seq Val)

/-- `container[index]` -/
def sub (c : Cat) (n : U64) : Res (Expr Val) := if n < s.size then .ok (s.elem c n.toNat) else .ub

/-- `container.front()` -/
def front (c : Cat) : Res (Expr Val) := if s.size = 0 then .ub else .ok (s.elem c 0)

/-- `container.back()` -/
def back (c : Cat) : Res (Expr Val) := if s.size = 0 then .ub else .ok (s.elem c (s.size - 1).toNat)

/-- `opt::at(container, index)` (3576-3582) -/
def at_ (c : Cat) (n : U64) : Res (Option (Got Val)) :=
  if n ≥ s.size then .ok none
  else (s.sub c n).bind fun e => (wrap c e).map some

/-- `opt::at_front(container)` (3584-3591) -/
def atFront (c : Cat) : Res (Option (Got Val)) :=
  if s.size = 0 then .ok none
  else (s.front c).bind fun e => (wrap c e).map some

/-- `opt::at_back(container)` (3593-3600) -/
def atBack (c : Cat) : Res (Option (Got Val)) :=
  if s.size = 0 then .ok none
  else (s.back c).bind fun e => (wrap c e).map some

end Seq

/-! ## `lookup` -/

/-- An associative container: its elements in iteration order, and which keys its `find` treats as equivalent.  An iterator is
a position; `end()` is one past the last. -/
structure Assoc (K Elem : Type) where
  items : List Elem
  key : Elem → K
  equiv : K → K → Bool

namespace Assoc

variable {K Elem : Type} (a : Assoc K Elem)

/-- `find(key)`: the position of an element with an equivalent key, otherwise `end()` -/
def find (k : K) : Nat := a.items.findIdx fun e => a.equiv (a.key e) k

/-- `end()` -/
def end_ : Nat := a.items.length

/-- `*it`: the element; dereferencing `end()` is undefined -/
def deref (it : Nat) : Res Nat := if it < a.items.length then .ok it else .ub

/-- `opt::lookup(container, key)` (3609-3625): the position of the element referred to.  With a `mapped_type` the result
refers to `it->second`, otherwise to `*it`; both are inside the element. -/
def lookup (k : K) : Res (Option Nat) :=
  let it := a.find k
  if it = a.end_ then .ok none
  else (a.deref it).map some

end Assoc

/-! ## `get` on options of tuples and on variants -/

/-- reference kind of `std::get<I>(t)` for a tuple element of this kind: `E&` on an lvalue tuple, `E&&` on an rvalue -/
def tupleGetKind (c : Cat) (e : RefKind) : RefKind :=
  match c with
  | .lvalue => e.addL
  | .rvalue => e.addR

/-- a tuple: the kinds of its elements, and for a reference element the object it refers to -/
structure Tup where
  kinds : List RefKind
  target : Nat → Loc

/-- the expression `std::get<I>(t)` for a tuple that lies in the option object `i`: its elements that are not references are
the objects `(i, 0)`, `(i, 1)`, ... -/
def Tup.get {Val : Type} (t : Tup) (c : Cat) (i n : Nat) : Option (Expr Val) :=
  match t.kinds[n]? with
  | none => none
  | some k =>
    let r := match k with
      | .val => (i, n)
      | _ => t.target n
    match tupleGetKind c k with
    | .lref => some (.lvalue r)
    | .rref => some (.xvalue r)
    | .val => none

namespace Prog

variable {Val : Type} (P : Prog Val)

/-- `opt::get<I>(option)`, `opt::get<T>(option)` (3441-3480) on an option `i` of tuple; `tup` gives the contained tuple.
`decltype` does not depend on the state; an index that does not exist does not compile. -/
def getAt (tup : Val → Tup) (c : Cat) (i n : Nat) : M World (Option (Got Val)) := do
  let h ← P.hasValue i
  if h then do
    let v ← P.get i
    match (tup v).get c i n with
    | none => M.bad
    | some e => do
      let g ← liftRes (wrap c e)
      pure (some g)
  else pure none

end Prog

/-- a variant: the types of its alternatives (as numbers), which alternative is active (`none`: valueless by exception), and
where it lies -/
structure Var where
  types : List Nat
  active : Option Nat
  place : Loc

namespace Var

/-- `std::get_if<I>(&v)` -/
def getIf (v : Var) (n : Nat) : Option Loc := if v.active = some n then some v.place else none

/-- `std::get_if<T>(&v)`: `T` must occur exactly once (otherwise it does not compile); it is `get_if` of its position -/
def getIfType (v : Var) (t : Nat) : Option Loc := v.getIf (v.types.findIdx (· == t))

/-- `opt::get<I>(variant)` (3482-3488, 3497-3504): `*ptr` is an lvalue -/
def get {Val : Type} (v : Var) (c : Cat) (n : Nat) : Res (Option (Got Val)) :=
  match v.getIf n with
  | none => .ok none
  | some r => (wrap c (.lvalue r)).map some

/-- `opt::get<T>(variant)` (3489-3495, 3506-3513) -/
def getType {Val : Type} (v : Var) (c : Cat) (t : Nat) : Res (Option (Got Val)) :=
  match v.getIfType t with
  | none => .ok none
  | some r => (wrap c (.lvalue r)).map some

end Var

end Opt
