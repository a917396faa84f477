import Verif.Model.Accessor

/-!
# Specification: what `flatten` should give (docs/reference.md 1556-1576)

"Flattens `opt::option` up to the first level (i.e. `opt::option<Y>`, where `Y` is not an `opt::option`).  The type `Y` is
defined to be a reference type to the contained value if `Option` is lvalue reference; otherwise, a prvalue type."
-/

namespace Opt.Accessor

open Opt.RefBind

/-- `option<...option<X>...>` with `n + 1` layers -/
def layers : Nat → QTy → Core
  | 0, X => .opt X.cv X.core X.ref
  | n + 1, X => .opt ⟨false, false⟩ (layers n X) .none

/-- is the type an option, or a reference to one, with or without qualifiers -/
def AnOption (V : QTy) : Prop := ∃ cv c r, V.core = .opt cv c r

/-- the value type and the initialisation of the result of flattening options around an `X`, for an option expression `s` -/
def Flattened (X : QTy) (s : Self) (Y : QTy) (x : Result) : Prop :=
  ¬AnOption Y ∧
  if s.rvalue = true then
    Y = X ∧
    match x with
    | .val R how from_ =>
      X.ref = .none ∧ R = X ∧ from_ = .contained ∧ (how = .move ↔ s.const = false ∧ X.cv.const = false) ∧ how ≠ .convert
    | .ref e => X.ref ≠ .none ∧ e.origin = .contained ∧ e.core = X.core ∧ e.cv = X.cv ∧ (e.cat = .lvalue ↔ X.ref = .lv)
  else
    Y.ref = (if X.ref = .rv then .rv else .lv) ∧ Y.core = X.core ∧ Y.cv.volatile = X.cv.volatile ∧
    (Y.cv.const = true ↔ X.cv.const = true ∨ (s.const = true ∧ X.ref = .none)) ∧
    match x with
    | .val .. => False
    | .ref e => e.origin = .contained ∧ e.core = X.core ∧ e.cv = Y.cv ∧ (e.cat = .lvalue ↔ Y.ref = .lv)

end Opt.Accessor
