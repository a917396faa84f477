import Verif.Model.Overload

/-!
# Specification of initialisation from an `option<U>`

After [optional.ctor] and [optional.assign] of the C++ standard for `std::optional`: a `T` that can be made from the
optional itself takes the whole optional as its value; otherwise the element is converted.
-/

namespace Opt.Overload.Std

/-- can a `T` be made from an `optional<U>` of some category; `bool` does not count -/
def Swallows (F : Facts) : Prop :=
  F.isBool = false ∧ ∃ q, (F.opt q).constructible = true ∨ (F.opt q).convertible = true

/-- [optional.ctor]: `optional(U&&)` with `U` an optional of another element type; explicit or not -/
def valueCtor (F : Facts) (q : Cat) (explicit : Bool) : Prop :=
  F.isBool = false ∧ (F.opt q).constructible = true ∧ explicit = !(F.opt q).convertible

/-- [optional.ctor]: `optional(const optional<U>&)` and `optional(optional<U>&&)` -/
def convCtor (F : Facts) (s : SrcFacts) (explicit : Bool) : Prop :=
  s.constructible = true ∧ ¬ Swallows F ∧ explicit = !s.convertible

/-- [optional.assign]: `operator=(U&&)` with `U` an optional of another element type -/
def valueAssign (F : Facts) (q : Cat) : Prop := (F.opt q).constructible = true ∧ (F.opt q).assignable = true

/-- [optional.assign]: `operator=(const optional<U>&)` and `operator=(optional<U>&&)`: no way to make or assign a `T` from
the optional -/
def convAssign (F : Facts) (s : SrcFacts) : Prop :=
  s.constructible = true ∧ s.assignable = true ∧
  ∀ q, (F.opt q).constructible = false ∧ (F.opt q).convertible = false ∧ (F.opt q).assignable = false

/-- What `option<T>(e)` should do: store `T(e)` if that is possible; if it is possible only for other categories of `e`,
nothing; otherwise convert the element, moving it out of an rvalue if `T` can be made from `U&&`. -/
inductive Direct (F : Facts) (q : Cat) : Option Choice → Prop
  | value : F.isBool = false → (F.opt q).constructible = true → Direct F q (some .value)
  | move : ¬ Swallows F → q = .rvalue → F.elemMove.constructible = true → Direct F q (some .fromMove)
  | const : ¬ Swallows F → (q = .rvalue → F.elemMove.constructible = false) → F.elemConst.constructible = true →
      Direct F q (some .fromConst)
  | swallowed : Swallows F → (F.opt q).constructible = false → Direct F q none
  | unrelated : ¬ Swallows F → (q = .rvalue → F.elemMove.constructible = false) → F.elemConst.constructible = false →
      Direct F q none

/-- Brace initialisation makes no difference: C++20, or `T` is not an aggregate. -/
def Regular (F : Facts) : Prop := F.cxx20 = true ∨ F.aggregate = false

/-- What the language says of `T = bool`: every `option<U>` is explicitly convertible to `bool` and not otherwise. -/
def BoolFacts (F : Facts) : Prop :=
  F.isBool = true → ∀ q, (F.opt q).constructible = true ∧ (F.opt q).convertible = false ∧ (F.opt q).assignable = false

end Opt.Overload.Std
