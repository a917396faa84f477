import Verif.Model.RefOption

/-!
# What an option of a reference may be bound to (option.hpp 2285-2329, 2742-2789, 2842-2872, 2913-2918, 3002-3016)

`option<T>` for a reference type `T` has constraints of its own on constructors and assignments, and none on `emplace`,
`try_emplace` and the in-place constructor.  All of them end in `ref_to_ptr`, whose parameter is the reference `T`: what
that parameter binds to is what the option refers to.

Simplification: arrays, functions and pointers to members as referred types are left out (class-like types with single
numbers as names), and so are classes derived from `reference_wrapper`; the only conversions between pointers are
qualification and derived-to-base.  Conversion functions to references are left out, except that of `reference_wrapper`.
-/

namespace Opt.RefBind

/-- cv-qualifiers -/
structure Cv where
  const : Bool
  volatile : Bool
deriving DecidableEq, Repr

inductive Ref where
  | none | lv | rv
deriving DecidableEq, Repr

/-- unqualified types: classes, `std::reference_wrapper<cv c>`, `opt::option<cv c ref>`, `std::in_place_t` -/
inductive Core where
  | cls (n : Nat)
  | refWrap (cv : Cv) (c : Core)
  | opt (cv : Cv) (c : Core) (r : Ref)
  | inPlace
deriving DecidableEq, Repr

/-- a type: reference, qualifiers, unqualified type -/
structure QTy where
  ref : Ref
  cv : Cv
  core : Core
deriving DecidableEq, Repr

/-- `is_base(base, derived)`: proper, accessible and unambiguous -/
abbrev Bases : Type := Nat → Nat → Bool

/-- `std::is_convertible_v<std::remove_reference_t<U>*, std::remove_reference_t<T>*>` -/
def ptrConvertible (B : Bases) (U T : QTy) : Bool :=
  (!U.cv.const || T.cv.const) && (!U.cv.volatile || T.cv.volatile) &&
  (U.core == T.core ||
    match U.core, T.core with
    | .cls d, .cls b => B b d
    | _, _ => false)

/-- `is_same_reference_wrapper_v<std::remove_reference_t<T>, std::remove_reference_t<U>>` (2742-2747) -/
def sameReferenceWrapper (T U : QTy) : Bool :=
  match U.core with
  | .refWrap cv c =>
    U.cv == ⟨false, false⟩ && c == T.core && (cv == T.cv || ({ cv with const := true } : Cv) == T.cv)
  | _ => false

/-- `opt::is_option_v<remove_cvref<U>>` -/
def isOption (U : QTy) : Bool :=
  match U.core with
  | .opt .. => true
  | _ => false

/-- the common part of the constraints (2754-2756, 2769-2771, 2777-2779, 2785-2787) -/
def binds (B : Bases) (T U : QTy) : Bool :=
  sameReferenceWrapper T U || (ptrConvertible B U T && ((T.ref == .lv) == (U.ref == .lv)))

/-- `from_value_ctor<T, U>` (2751-2757) -/
def fromValueCtor (B : Bases) (T U : QTy) : Bool := U.core != .inPlace && !isOption U && binds B T U

/-- `from_value_assign<T, U>` (2783-2788) -/
def fromValueAssign (B : Bases) (T U : QTy) : Bool := U.core != .opt T.cv T.core T.ref && binds B T U

/-- `from_args_ctor` (2759-2760): `sizeof(First) == 0` -/
def fromArgsCtor : Bool := false

/-- `from_in_place_args_ctor<T, InPlaceT, Args...>` (2762-2763), `n` is `sizeof...(Args)`; `InPlaceT` is not looked at -/
def fromInPlaceCtor (_T _InPlaceT : QTy) (n : Nat) : Bool := n == 1

/-- An expression, as a function with a forwarding reference sees it: an lvalue or an xvalue.  `place` is the object; for a
`reference_wrapper` also the place it refers to. -/
structure Expr where
  lvalue : Bool
  cv : Cv
  core : Core
  place : Loc
  wrapped : Loc
  /-- the unqualified types of the temporaries it can be converted to implicitly -/
  converts : Core → Bool

/-- the type a forwarding reference `U&&` deduces -/
def Expr.deduced (e : Expr) : QTy := ⟨if e.lvalue then .lv else .none, e.cv, e.core⟩

/-- what a reference is bound to -/
inductive Bound where
  /-- the object itself, or a base of it -/
  | object (r : Loc)
  /-- the object a `reference_wrapper` refers to -/
  | wrapped (r : Loc)
  /-- a temporary made by a conversion -/
  | temporary
  | illFormed
deriving DecidableEq, Repr

/-- Initialising the parameter `T&& other` of `ref_to_ptr` (2293): bound to the object if that is reference-compatible and
of the right category, to a temporary if there is a conversion to an unrelated type and `T` is an rvalue reference or a
reference to non-volatile const. -/
def bindParam (B : Bases) (T : QTy) (e : Expr) : Bound :=
  if ptrConvertible B e.deduced T then
    if T.ref == .lv then
      if e.lvalue || (T.cv.const && !T.cv.volatile) then .object e.place else .illFormed
    else if e.lvalue then .illFormed else .object e.place
  else if e.core != T.core && e.converts T.core && (T.ref != .lv || (T.cv.const && !T.cv.volatile)) then .temporary
  else .illFormed

/-- `ref_to_ptr(static_cast<U&&>(e))` (2293-2299).  A `reference_wrapper` is an exact match for the template, so this is
chosen unless `T` refers to that wrapper type itself (then the function that is no template is as good, and preferred). -/
def refToPtr (B : Bases) (T : QTy) (e : Expr) : Bound :=
  match e.core with
  | .refWrap cv c =>
    if T.core == .refWrap cv c then bindParam B T e
    else if ptrConvertible B ⟨.none, cv, c⟩ T then .wrapped e.wrapped
    else .illFormed
  | _ => bindParam B T e

/-- `option(U&&)` (2842-2849, 2306-2308) -/
def ctorValue (B : Bases) (T : QTy) (e : Expr) : Bound :=
  if fromValueCtor B T e.deduced then refToPtr B T e else .illFormed

/-- `operator=(U&&)` (2913-2918) -/
def assignValue (B : Bases) (T : QTy) (e : Expr) : Bound :=
  if fromValueAssign B T e.deduced then refToPtr B T e else .illFormed

/-- `option(InPlaceT, arg)` (2860-2865, 2306-2308); `tag` is the type of the first argument -/
def ctorInPlace (B : Bases) (T tag : QTy) (e : Expr) : Bound :=
  if fromInPlaceCtor T tag 1 then refToPtr B T e else .illFormed

/-- `emplace(arg)`, `try_emplace(arg)` on an empty option (3002-3016, 2326-2329): not constrained -/
def emplace (B : Bases) (T : QTy) (e : Expr) : Bound := refToPtr B T e

/-- `from_option_like_assign<T, U, QualU>` (2775-2781); `U` is the type the other option contains -/
def fromOptionAssign (B : Bases) (T U : QTy) : Bool := U != T && binds B T U

/-- the type and category of `static_cast<option<U>&&>(other).get()` (3059-3094): an xvalue of a contained object, an
lvalue for an lvalue reference, an xvalue for an rvalue reference; `r` is the object, `s` where it refers to if it is a
`reference_wrapper` -/
def rvalueGet (U : QTy) (r s : Loc) (converts : Core → Bool) : Expr := ⟨U.ref == .lv, U.cv, U.core, r, s, converts⟩

/-- `operator=(option<U>&&)` from an option with a value (2955-2963) -/
def assignOption (B : Bases) (T U : QTy) (r s : Loc) (converts : Core → Bool) : Bound :=
  if fromOptionAssign B T U then refToPtr B T (rvalueGet U r s converts) else .illFormed

/-- A function is called with an expression that has to be converted: the temporary lives at `tmp` with value `v` during
the call, and is destroyed at its end (the parameter of `ref_to_ptr`). -/
def withTemporary {Val α : Type} (tmp : Loc) (v : Val) (f : Loc → M (RWorld Val) α) : M (RWorld Val) α := fun w =>
  match f tmp { w with cell := fun r => if r = tmp then some v else w.cell r } with
  | .ok a w' => .ok a { w' with cell := fun r => if r = tmp then none else w'.cell r }
  | .throw w' => .throw { w' with cell := fun r => if r = tmp then none else w'.cell r }
  | .verify => .verify
  | .ub => .ub

end Opt.RefBind
