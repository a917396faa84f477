import Verif.Model.RefBind

/-!
# Specification: binding references

After [dcl.init.ref] of the C++ standard and `can_bind_reference` of docs/reference.md (2461-2469).
-/

namespace Opt.RefBind

/-- every object of type `U` is one of type `T`, as far as references go: same type or base class, no qualifier lost -/
structure Compatible (B : Bases) (T U : QTy) : Prop where
  const : U.cv.const = true → T.cv.const = true
  volatile : U.cv.volatile = true → T.cv.volatile = true
  core : U.core = T.core ∨ ∃ b d, T.core = .cls b ∧ U.core = .cls d ∧ B b d = true

/-- `std::reference_wrapper<cv c>` without qualifiers -/
def Wraps (U : QTy) (cv : Cv) (c : Core) : Prop := U.cv = ⟨false, false⟩ ∧ U.core = .refWrap cv c

/-- `can_bind_reference<T, U>` as documented: a wrapper of exactly the referred type or of its non-const version, or a
reference-compatible type of the same category -/
def CanBind (B : Bases) (T U : QTy) : Prop :=
  Wraps U { T.cv with const := false } T.core ∨ Wraps U T.cv T.core ∨
  (Compatible B T U ∧ (T.ref = .lv ↔ U.ref = .lv))

/-- the value constructor as documented (docs/reference.md 105-109) -/
def CtorEnabled (B : Bases) (T U : QTy) : Prop :=
  U.core ≠ .opt T.cv T.core T.ref ∧ U.core ≠ .inPlace ∧ (∀ cv c r, U.core ≠ .opt cv c r) ∧ CanBind B T U

/-- the value assignment as documented (docs/reference.md 326-328) -/
def AssignEnabled (B : Bases) (T U : QTy) : Prop := U.core ≠ .opt T.cv T.core T.ref ∧ CanBind B T U

/-- what it means that the option refers to what it was given: to the object, as the category demands, or to the object
the given wrapper refers to, as its qualifiers allow -/
inductive Faithful (B : Bases) (T : QTy) (e : Expr) : Bound → Prop where
  | object (h : Compatible B T e.deduced) (hc : T.ref = .lv ↔ e.lvalue = true) : Faithful B T e (.object e.place)
  | wrapped (cv : Cv) (hw : e.core = .refWrap cv T.core) (hc : cv.const = true → T.cv.const = true)
      (hv : cv.volatile = T.cv.volatile) : Faithful B T e (.wrapped e.wrapped)

end Opt.RefBind
