import Verif.Model.Api
import Verif.Model.Compare
import Verif.Model.Iter

/-!
# Exception specifications of the members of `option<T>` (option.hpp 2134-2280, 2640-2645, 2832-3270, 3787-3834, 4070-4081)
-/

namespace Opt

/-- What the element type declares about exceptions: `std::is_nothrow_copy_constructible_v<T>` and so on.  `swapRv` is
`std::is_nothrow_swappable_with_v<T, T>` (which asks about `swap` of two rvalues), `swapLv` whether `swap(T&, T&)` is
declared not to throw; `hash` is `noexcept(std::hash<T>{}(value))`. -/
structure Nothrow where
  copyCtor : Bool
  copyAssign : Bool
  moveCtor : Bool
  moveAssign : Bool
  swapRv : Bool
  swapLv : Bool
  hash : Bool

/-- `nothrow_swap<T, U>` (2640-2644); `rv` is `std::is_nothrow_swappable_with_v<T, U>`, which asks about `swap` of two
rvalues -/
def nothrowSwap (t u : Nothrow) (rv : Bool) : Bool := t.moveCtor && u.moveCtor && rv

/-- members of `option<T>` that carry an exception specification, with the addresses of their operands -/
inductive Member (Val : Type) where
  | defaultCtor (i : Nat)
  | dtor (i : Nat)
  | reset (i : Nat)
  | hasValue (i : Nat)
  | get (i : Nat)
  | getUnchecked (i : Nat)
  | ptrOrNull (i : Nat)
  | begin_ (i : Nat)
  | end_ (i : Nat)
  | cmpNone (op : CmpOp) (i : Nat)
  | noneCmp (op : CmpOp) (i : Nat)
  | copyCtor (i j : Nat)
  | moveCtor (i j : Nat)
  | copyAssign (i j : Nat)
  | moveAssign (i j : Nat)
  | swap (i j : Nat)
  | hash (f : Val → U64) (i : Nat)

namespace Member

variable {Val : Type}

/-- Is the member `noexcept` for the element type `E`?  Copy and move members: 2152-2276, and a defaulted (trivial)
member is `noexcept`; `swap` of two options of one type: 3253 with 2640-2644; hash: 4076; the destructor is implicitly
`noexcept`; the others are unconditionally `noexcept` (2833, 2836, 2904, 2979-2994, 2996, 3018, 3059-3094, 3126-3157,
3213-3218, 3787-3834). -/
def isNoexcept (E : Elem Val) (n : Nothrow) : Member Val → Bool
  | copyCtor _ _ => decide (E.members.copyCtor = .default) || n.copyCtor
  | moveCtor _ _ => decide (E.members.moveCtor = .default) || n.moveCtor
  | copyAssign _ _ => decide (E.members.copyAssign = .default) || (n.copyAssign && n.copyCtor)
  | moveAssign _ _ => decide (E.members.moveAssign = .default) || (n.moveAssign && n.moveCtor)
  | swap _ _ => nothrowSwap n n n.swapRv
  | hash _ _ => n.hash
  | _ => true

/-- the options are of one class `c` -/
def OfClass (P : Prog Val) (c : Nat) : Member Val → Prop
  | copyCtor i j | moveCtor i j | copyAssign i j | moveAssign i j | swap i j => P.cls i = c ∧ P.cls j = c
  | defaultCtor i | dtor i | reset i | hasValue i | get i | getUnchecked i | ptrOrNull i | begin_ i | end_ i
  | cmpNone _ i | noneCmp _ i | hash _ i => P.cls i = c

/-- the body of the member; the returned value is dropped -/
def run (P : Prog Val) : Member Val → M World Unit
  | defaultCtor i => P.ctorDefault i
  | dtor i => P.dtor i
  | reset i => P.reset i
  | hasValue i => do
    let _ ← P.hasValue i
    pure ()
  | get i => do
    let _ ← P.get i
    pure ()
  | getUnchecked i => do
    let _ ← P.getUnchecked i
    pure ()
  | ptrOrNull i => do
    let _ ← P.ptrOrNull i
    pure ()
  | begin_ i => do
    let _ ← P.begin_ i
    pure ()
  | end_ i => do
    let _ ← P.end_ i
    pure ()
  | cmpNone op i => do
    let _ ← P.cmpNone op i
    pure ()
  | noneCmp op i => do
    let _ ← P.noneCmp op i
    pure ()
  | copyCtor i j => P.ctorFrom i j false
  | moveCtor i j => P.ctorFrom i j true
  | copyAssign i j => P.assignFrom i j false
  | moveAssign i j => P.assignFrom i j true
  | swap i j => P.swap i j
  | hash f i => do
    let _ ← P.hash f i
    pure ()

end Member

end Opt
