import Verif.Model.Access

/-!
# `get<T>` on an option of a tuple, by type (option.hpp 3451-3460, 3473-3480)

Simplification: the types with `std::get<T>` are tuples (pairs are tuples of two), other types have none; a program may declare
its own `get<T>` for its classes, this is left out.
-/

namespace Opt

mutual
/-- types as far as `std::get<T>` cares: tuples of element types, and all others -/
inductive TTy where
  | atom (n : Nat)
  | tuple (ts : TTys)
inductive TTys where
  | nil
  | cons (t : TTy) (ts : TTys)
end

mutual
def TTy.eq : TTy → TTy → Bool
  | .atom m, .atom n => m == n
  | .tuple a, .tuple b => TTys.eq a b
  | _, _ => false
def TTys.eq : TTys → TTys → Bool
  | .nil, .nil => true
  | .cons a as, .cons b bs => TTy.eq a b && TTys.eq as bs
  | _, _ => false
end

mutual
theorem TTy.eq_iff : ∀ a b : TTy, TTy.eq a b = true ↔ a = b
  | .atom m, .atom n => by simp [TTy.eq]
  | .tuple a, .tuple b => by simp [TTy.eq, TTys.eq_iff a b]
  | .atom _, .tuple _ => by simp [TTy.eq]
  | .tuple _, .atom _ => by simp [TTy.eq]
theorem TTys.eq_iff : ∀ a b : TTys, TTys.eq a b = true ↔ a = b
  | .nil, .nil => by simp [TTys.eq]
  | .cons a as, .cons b bs => by simp [TTys.eq, TTy.eq_iff a b, TTys.eq_iff as bs]
  | .nil, .cons _ _ => by simp [TTys.eq]
  | .cons _ _, .nil => by simp [TTys.eq]
end

instance : DecidableEq TTy := fun a b => decidable_of_iff _ (TTy.eq_iff a b)

/-- the elements in order -/
def TTys.list : TTys → List TTy
  | .nil => []
  | .cons t ts => t :: ts.list

/-- the element types -/
def TTy.elems : TTy → List TTy
  | .atom _ => []
  | .tuple ts => ts.list

/-- `std::get<T>` of a tuple type `S`: the position of `T`, if it is there exactly once; otherwise it does not compile -/
def TTy.getPos (S T : TTy) : Option Nat := if S.elems.count T = 1 then some (S.elems.findIdx (· == T)) else none

/-- may `static_cast<option<T>&&>(x)` be applied to an `option<S>` `x`: it is the same type, or an `option<T>` can be made from
it (`conv`, then the result refers to a temporary) -/
def castsTo (S T : TTy) (conv : Bool) : Bool := S == T || conv

namespace Prog

variable {Val : Type} (P : Prog Val)

/-- `opt::get<T>(x)` (3473-3480) for an `option<S>` at `i`; `none`: does not compile.  The lvalue overloads call
`get_impl<T>(x)`; the rvalue overloads call `get_impl<T>(static_cast<opt::option<T>&&>(x))`, with the element type `T` where
the type `S` of the tuple should be. -/
def getByType (tup : Val → Tup) (S : TTy) (conv : Bool) (c : Cat) (i : Nat) (T : TTy) :
    Option (M World (Option (Got Val))) :=
  match c with
  | .lvalue => (S.getPos T).map (P.getAt tup .lvalue i)
  | .rvalue => if castsTo S T conv then (T.getPos T).map (P.getAt tup .rvalue i) else none

end Prog

end Opt
