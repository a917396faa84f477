import Verif.Model.TupleLike

/-!
# What docs/builtin_traits.md says about tuple-like types (60-74)

Stated on what the client provides, without the library's helper functions.
-/

namespace Opt.TupleLike

/-- "stores level value in one of the element that has higher `max_level` value": the first of those with the most levels -/
def Chosen (es : List Elem) (e : Elem) : Prop :=
  ∃ i : Nat, es[i]? = some e ∧ (∀ (j : Nat) f, es[j]? = some f → f.traits.maxLevel ≤ e.traits.maxLevel) ∧
    ∀ (j : Nat) f, j < i → es[j]? = some f → f.traits.maxLevel < e.traits.maxLevel

/-- "references to them are from `x.get<I>()`, if it is a valid expression; `get<I>(x)`, where `get` is looked up by argument-dependent
lookup": the expression used, on a const lvalue or not -/
inductive Reaches (e : Elem) (const : Bool) (x : Expr) : Prop where
  | member (h : e.member const = some x)
  | free (h0 : e.member const = none) (h : e.free const = some x)

/-- the expression can be used to write to the element: it is a lvalue of the element's type and not const -/
def Writable (e : Elem) (p : Place) : Prop := ∃ y, Reaches e false y ∧ y.cat = .lvalue ∧ y.const = false ∧ y.ty = e.ty ∧ y.place = p

/-- the expression can be used to read the element: it has the element's type, and is a lvalue or const -/
def Readable (e : Elem) (p : Place) : Prop :=
  ∃ x, Reaches e true x ∧ x.ty = e.ty ∧ ((x.cat ≠ .prvalue ∧ (x.cat = .lvalue ∨ x.const = true) ∧ p = x.place) ∨
    (x.cat = .prvalue ∧ x.const = true ∧ p = .temporary))

/-- what the language asks of a tuple-like type: structured bindings can be made of it, `get` may yield anything -/
def Bindable (es : List Elem) : Prop := ∀ e ∈ es, ∀ const, ∃ x, Reaches e const x

end Opt.TupleLike
