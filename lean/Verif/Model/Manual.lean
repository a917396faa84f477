import Verif.Model.Overload
import Verif.Model.Accessor

/-!
# Constraints and types that the reference manual describes (option.hpp 2647-2789, 2842-2901, 2931-2953, 3271, 3374-3381,
3416-3439, 4053-4081)

The constraints of the constructors and assignments of `option<T>` with the kind of the first argument in full (`Model/Overload`
has the case of an `option<U>` argument), the constraints on options of references that name a missing member, the types that
`map` and `unzip` produce, and when `std::hash` of an option is enabled.
-/

namespace Opt.Manual

open Opt.Overload Opt.RefBind Opt.Accessor

/-! ## Object types -/

/-- what the first argument is, without reference and qualifiers: `option<T>` itself, another option, `std::in_place_t`, or
something else -/
inductive Head where
  | same | otherOption | inPlace | other
deriving DecidableEq, Repr

/-- `opt::is_option_v` -/
def Head.isOption : Head → Bool
  | .same | .otherOption => true
  | .inPlace | .other => false

/-- `from_value_ctor<T, U>::is_explicit<explicit>` (2652-2658, 2695-2700); `s` are the facts about `T` from `U` -/
def fromValueCtor (F : Facts) (h : Head) (s : SrcFacts) (explicit : Bool) : Bool :=
  if h != .same && h != .inPlace && (!F.isBool || !h.isOption) then (s.convertible != explicit) && initializable F s
  else false

/-- `option(First&&, Second&&, Args&&...)` (2851-2855) with `from_args_ctor` (2702-2709); `n` is the number of arguments, `s` are
the facts about `T` from all of them -/
def fromArgsCtor (F : Facts) (n : Nat) (h : Head) (s : SrcFacts) : Bool :=
  decide (2 ≤ n) && (h != .same && h != .inPlace && initializable F s)

/-- `option(InPlaceT, Args&&...)` (2857-2861) with `from_in_place_args_ctor` (2711-2717); `s` are the facts about `T` from the
arguments after the tag -/
def fromInPlaceCtor (F : Facts) (h : Head) (s : SrcFacts) : Bool := h == .inPlace && initializable F s

/-- `from_value_assign<T, U>` (2734-2739) -/
def fromValueAssign (F : Facts) (h : Head) (s : SrcFacts) : Bool := h != .same && initializable F s && s.assignable

/-- `from_option_like_ctor<T, U, QualU>::constructor_is_explicit<explicit>` (2679-2683, 2719-2724); `same` is
`std::is_same_v<U, T>` -/
def fromOptionCtor (F : Facts) (same : Bool) (s : SrcFacts) (explicit : Bool) : Bool := !same && convCtor F s explicit

/-- `from_option_like_assign<T, U, QualU>::assignment` (2685-2686, 2725-2731) -/
def fromOptionAssign (F : Facts) (same : Bool) (s : SrcFacts) : Bool := !same && convAssign F s

/-! ## References -/

/-- The class that a constraint names.  A member that it does not have makes substitution fail. -/
structure Enabler where
  isExplicit : Option (Bool → Bool)
  constructorIsExplicit : Option (Bool → Bool)
  assignment : Option Bool

/-- 2648-2651 -/
def alwaysNonExplicit : Enabler := ⟨some (fun e => !e), none, none⟩

/-- 2688-2690 -/
def alwaysAssign : Enabler := ⟨none, none, some true⟩

/-- `option_check_fail` (2692) -/
def checkFail : Enabler := ⟨none, none, none⟩

/-- `from_option_like_ctor` for references (2766-2773) -/
def refFromOptionCtor (B : Bases) (T U : QTy) : Enabler :=
  if (U != T && binds B T U) = true then alwaysNonExplicit else checkFail

/-- `from_option_like_assign` for references (2774-2781) -/
def refFromOptionAssign (B : Bases) (T U : QTy) : Enabler :=
  if (U != T && binds B T U) = true then alwaysAssign else checkFail

/-- is the constructor `option(const option<U>&)` or `option(option<U>&&)` usable for a reference `T` (2874-2901) -/
def refOptionCtor (B : Bases) (T U : QTy) (explicit : Bool) : Bool :=
  match (refFromOptionCtor B T U).constructorIsExplicit with
  | some f => f explicit
  | none => false

/-- is the assignment from `const option<U>&` or `option<U>&&` usable for a reference `T` (2931-2977) -/
def refOptionAssign (B : Bases) (T U : QTy) : Bool :=
  match (refFromOptionAssign B T U).assignment with
  | some b => b
  | none => false

/-- `operator=(const option<U>&)` for a reference `T`, from an option with a value (2933-2937): the object that `other.get()`
refers to is cast to `option<U>&&`, which makes a temporary option at `tmp` if `castOk` and is ill-formed otherwise, and the
reference is bound to that; `converts`: what an `option<U>` converts to -/
def refAssignOptionLvalue (B : Bases) (T U : QTy) (castOk : Bool) (tmp : Loc) (converts : Core → Bool) : Bound :=
  if refOptionAssign B T U then
    if castOk then refToPtr B T ⟨false, ⟨false, false⟩, .opt U.cv U.core U.ref, tmp, tmp, converts⟩
    else .illFormed
  else .illFormed

/-- What `option(InPlaceT, std::initializer_list<U> ilist)` binds an option of a reference to (2863-2867).  For an argument `e` that
is an `initializer_list` this constructor is more specialised than `option(InPlaceT, Args&&...)`; `ilist` is its own parameter, an
lvalue at `param`. -/
def ctorInPlaceList (B : Bases) (T tag : QTy) (e : Expr) (param : Loc) : Bound :=
  if RefBind.fromInPlaceCtor T tag 1 then refToPtr B T { e with lvalue := true, cv := ⟨false, false⟩, place := param }
  else .illFormed

/-! ## Types -/

/-- the type the option returned by `map` contains, for a function returning `R` (2563) -/
def mapType (R : QTy) : QTy := removeCv R

/-- the type that the option made of a tuple element of type `E` contains (3421-3427, 1797-1817) -/
def unzipType (E : QTy) : QTy := E

/-- `To(x)` in `option_cast<To>(const option<From>&)` for a reference `To` (3375-3377): `x` is a `const From&` -/
def optionCast (To From : QTy) (converts : Core → Bool) : Option (CastKind × Ex) :=
  functionalCast To ⟨.lvalue, (addConst From).cv, From.core, .contained, converts⟩

/-! ## Hash -/

/-- what the language says about `std::hash<T>` -/
structure HashFacts where
  defaultConstructible : Bool
  copyConstructible : Bool
  moveConstructible : Bool
  destructible : Bool
  /-- `std::is_invocable_r<std::size_t, Hash, const T&>` -/
  invocable : Bool
deriving DecidableEq, Repr

/-- is `std::hash<option<T>>` enabled (4053-4072) -/
def hashEnabled (h : HashFacts) : Bool :=
  h.defaultConstructible && h.copyConstructible && h.moveConstructible && h.destructible && h.invocable

end Opt.Manual
