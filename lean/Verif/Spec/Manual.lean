import Verif.Model.Manual
import Verif.Spec.RefBind
import Verif.Model.RefOption

/-!
# What docs/reference.md says

The conditions under "Enabled", the declared types and the "code equivalents", as they are written there.
-/

namespace Opt.Manual.Doc

open Opt.Overload Opt.RefBind Opt.Accessor

/-! ## Constructors and assignments of options of objects -/

/-- `is_initializable_from<X, Y...>` (2471-2473): list-initialisation is possible -/
def Initializable (s : SrcFacts) : Prop := s.braced = true

/-- `is_constructible_from_option<X, Y>` (2475-2485) -/
def ConstructibleFromOption (F : Facts) : Prop := ∃ q, (F.opt q).constructible = true ∨ (F.opt q).convertible = true

/-- `is_assignable_from_option<X, Y>` (2487-2493) -/
def AssignableFromOption (F : Facts) : Prop := ∃ q, (F.opt q).assignable = true

/-- explicit when it is not convertible (99, 175, 203) -/
def Explicit (s : SrcFacts) (explicit : Bool) : Prop := explicit = true ↔ s.convertible = false

/-- `option(U&&)` (95-104) -/
def ValueCtor (F : Facts) (h : Head) (s : SrcFacts) (explicit : Bool) : Prop :=
  s.constructible = true ∧ h ≠ .same ∧ h ≠ .inPlace ∧ (F.isBool = true → h ≠ .same ∧ h ≠ .otherOption) ∧ Explicit s explicit

/-- `option(First&&, Args&&...)` (117-128) -/
def ArgsCtor (n : Nat) (h : Head) (s : SrcFacts) : Prop :=
  1 ≤ n ∧ (s.constructible = true ∨ Initializable s) ∧ h ≠ .same

/-- `option(std::in_place_t, Args&&...)` (135-141): no condition -/
def InPlaceCtor (h : Head) : Prop := h = .inPlace

/-- `option(const option<U>&)` (159-180) -/
def CopyConv (F : Facts) (same : Bool) (explicit : Bool) : Prop :=
  F.elemConst.constructible = true ∧ same = false ∧ (F.isBool = true ∨ ¬ ConstructibleFromOption F) ∧ Explicit F.elemConst explicit

/-- `option(option<U>&&)` (187-207); `back` is `std::is_convertible_v<T, U&&>` -/
def MoveConv (F : Facts) (same back : Bool) (explicit : Bool) : Prop :=
  back = true ∧ same = false ∧ (F.isBool = true ∨ ¬ ConstructibleFromOption F) ∧ Explicit F.elemMove explicit

/-- `operator=(U&&)` (318-324) -/
def ValueAssign (h : Head) (s : SrcFacts) : Prop := h ≠ .same ∧ Initializable s ∧ s.assignable = true

/-- `operator=(const option<U>&)`, `operator=(option<U>&&)` (355-362, 395-402) -/
def OptionAssign (F : Facts) (same : Bool) (s : SrcFacts) : Prop :=
  same = false ∧ Initializable s ∧ s.assignable = true ∧ ¬ ConstructibleFromOption F ∧ ¬ AssignableFromOption F

/-! ## Options of references -/

/-- `can_bind_reference<X, Y>` (2461-2469), with the precedences of the language: `&&` before `?:` -/
def CanBindLiteral (B : Bases) (T U : QTy) : Prop :=
  Wraps U { T.cv with const := false } T.core ∨ Wraps U T.cv T.core ∨
  ((Compatible B T U ∧ T.ref = .lv) ∧ U.ref = .lv ∨ ¬ (Compatible B T U ∧ T.ref = .lv) ∧ U.ref ≠ .lv)

/-- the converting constructors and assignments (181-183, 208-210, 363-365, 403-405) with `can_bind_reference` as it is meant -/
def RefFromOption (B : Bases) (T U : QTy) : Prop := T ≠ U ∧ CanBind B T U

variable {Val : Type}

open RefOpt

/-- `*p = v` for a reference to `r` -/
def write (r : Loc) (v : Val) : M (RWorld Val) Unit := fun w =>
  .ok () { w with cell := fun s => if s = r then some v else w.cell s }

/-- the code equivalent of copy assignment (243-254) -/
def assign (i j : Nat) : M (RWorld Val) Unit := do
  let hj ← hasValue j
  if hj then do
    let hi ← hasValue i
    if hi then do
      let r ← get i
      let s ← get j
      let v ← value s
      write r v
    else do
      let s ← get j
      construct i s
  else reset i

/-- the code equivalent of `operator=(U&&)` (308-315), with an object at `s` as its argument -/
def assignRef (i : Nat) (s : Loc) : M (RWorld Val) Unit := do
  let hi ← hasValue i
  if hi then do
    let r ← get i
    let v ← value s
    write r v
  else construct i s

/-- the code equivalent of `swap` (1017-1032) -/
def swap (i j : Nat) : M (RWorld Val) Unit := do
  let hi ← hasValue i
  let hj ← hasValue j
  if !hi && !hj then pure ()
  else if hi && hj then do
    let r ← get i
    let s ← get j
    let a ← value r
    let b ← value s
    write r b
    write s a
  else if hi then do
    let r ← get i
    construct j r
    reset i
  else do
    let r ← get j
    construct i r
    reset j

/-- `end()`: "equivalent to `begin() + has_value()`" (1085) -/
def end_ (P : Prog Val) (i : Nat) : M World Ptr := do
  let b ← P.begin_ i
  let h ← P.hasValue i
  liftRes (Iter.add Prog.single (if h then 1 else 0) b)

/-! ## Types -/

/-- the declared results of `get`, `operator*`, `get_unchecked`, `value`, `value_or_throw` (625-690) -/
def getType (T : QTy) (q : Qual) : QTy :=
  if q.ref = .rv then
    let X : QTy := { T with ref := .none }
    rref (if q.const then addConst X else X)
  else lref (if q.const then addConst T else T)

/-- the type that `opt::option{e}` contains, for an expression of type `R`: an option is copied (the copy deduction candidate is
more specialised than the guide 2438-2453), otherwise the guide deduces `T` from a parameter by value -/
def deduced (R : QTy) : QTy :=
  match R.core with
  | .opt cv c r => ⟨r, cv, c⟩
  | c => ⟨.none, ⟨false, false⟩, c⟩

/-- `static_cast<To>(x)` for a reference `To`, `x` a `const From&` (1187) -/
def staticCast (To From : QTy) (converts : Core → Bool) : Option Ex :=
  castRef To ⟨.lvalue, (addConst From).cv, From.core, .contained, converts⟩

/-- the hash of an empty option (2127): `static_cast<std::size_t>(-96391)` -/
def emptyHash : U64 := BitVec.ofInt 64 (-96391)

/-- when `std::hash` is enabled (2128) -/
def HashEnabled (h : HashFacts) : Prop := h.defaultConstructible = true

end Opt.Manual.Doc
