import Verif.Model.Accessor

/-!
# Specification: what an accessor should give

An option of an object type is accessed like a data member (`x.value`, [expr.ref]): the category of the whole, `const` if the
whole is const.  An option of a reference is accessed like an element of a tuple of references: what it refers to, with the
qualifiers of the reference, as an rvalue only when the option of `T&&` is an rvalue itself.
-/

namespace Opt.Accessor

open Opt.RefBind

/-- the expression accessing the contents of an option expression gives -/
structure Access (T : QTy) (s : Self) (e : Ex) : Prop where
  origin : e.origin = .contained
  core : e.core = T.core
  volatile : e.cv.volatile = T.cv.volatile
  /-- const if the contained type is, or if the option is const and contains an object -/
  const : e.cv.const = true ↔ T.cv.const = true ∨ (s.const = true ∧ T.ref = .none)
  /-- an rvalue exactly if the option is an rvalue and does not contain an lvalue reference -/
  rvalue : e.cat = .xvalue ↔ s.rvalue = true ∧ T.ref ≠ .lv
  lvalue : e.cat = .lvalue ↔ ¬(s.rvalue = true ∧ T.ref ≠ .lv)

/-- what a pointer to the contents should be -/
structure PointerTo (T : QTy) (s : Self) (p : Ptr) : Prop where
  origin : p.origin = .contained
  core : p.core = T.core
  volatile : p.cv.volatile = T.cv.volatile
  const : p.cv.const = true ↔ T.cv.const = true ∨ (s.const = true ∧ T.ref = .none)

/-- a result that is safe to use after the call: an object of its own, or a reference to something that outlives the call -/
def Result.Safe : Result → Prop
  | .ref e => e.origin ≠ .temporary
  | .val .. => True

/-- the contained value as a result: a copy, moved if the option is an rvalue and what it contains may be changed; for a
reference the reference itself -/
def FromValue (T : QTy) (s : Self) : Result → Prop
  | .val R how from_ =>
    T.ref = .none ∧ R = ⟨.none, ⟨false, false⟩, T.core⟩ ∧ from_ = .contained ∧
    (how = .move ↔ s.rvalue = true ∧ s.const = false ∧ T.cv.const = false) ∧ how ≠ .convert
  | .ref e =>
    T.ref ≠ .none ∧ e.origin = .contained ∧ e.core = T.core ∧ e.cv = T.cv ∧ (e.cat = .lvalue ↔ T.ref = .lv) ∧ e.cat ≠ .prvalue

end Opt.Accessor
