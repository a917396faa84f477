import Verif.Model.Machine
import Verif.Spec.Values

/-!
# What the element types and user code must respect

These are the hypotheses of the machine theorems.  `OK` collects the ordinary requirements on element types (a layout
consistent with the traits law, operations that produce live values).  `Balanced` and `ThrowSafe` are separate because
they exclude real programs on which the library misbehaves (see the `violated` theorems in `Props/History`).
-/

namespace Opt

/-- the abstract values an element type has: those of its live representations -/
def Elem.Dom {Val : Type} (pw : Nat) (E : Elem Val) (v : Val) : Prop := ∃ bs, E.T.Valid pw bs ∧ E.decode bs = v

/-- ordinary requirements -/
structure Prog.OK {Val : Type} (P : Prog Val) : Prop where
  pw : P.pw = 32 ∨ P.pw = 64
  /-- the traits law and the layout -/
  wf : ∀ c, (Ty.option (P.elemOf c).T).WF P.pw
  /-- no object has size 0 -/
  size : ∀ c, 1 ≤ (P.elemOf c).T.size P.pw
  /-- `std::is_trivially_copy_constructible` / `move` include the destructor -/
  tcc_td : ∀ c, (P.elemOf c).trivCopyCtor = true → (P.elemOf c).trivDtor = true
  tmc_td : ∀ c, (P.elemOf c).trivMoveCtor = true → (P.elemOf c).trivDtor = true
  /-- everything about a scalar is trivial -/
  scalar : ∀ c, (P.elemOf c).scalar = true → (P.elemOf c).trivDtor = true ∧ (P.elemOf c).trivCopyCtor = true ∧
    (P.elemOf c).trivCopyAssign = true ∧ (P.elemOf c).trivMoveCtor = true ∧ (P.elemOf c).trivMoveAssign = true
  /-- storage has the size of the option -/
  garbage : ∀ i n, (P.garbage i n).length = (Ty.option (P.elem i).T).size P.pw
  /-- constructors and assignments produce live objects of the intended value -/
  build : ∀ i n v (old : Bytes), (P.elem i).Dom P.pw v → old.length = (P.elem i).T.size P.pw →
    (P.elem i).T.Valid P.pw (P.build i n v old) ∧ (P.elem i).decode (P.build i n v old) = v
  /-- constructors and destructors stay inside the object -/
  partial_ : ∀ i k n (old : Bytes), old.length = (P.elem i).T.size P.pw →
    (P.partial_ i k n old).length = (P.elem i).T.size P.pw
  dead : ∀ i n (old : Bytes), old.length = (P.elem i).T.size P.pw → (P.dead i n old).length = (P.elem i).T.size P.pw
  /-- moved-from objects, and targets of failed assignments, are live objects of their type -/
  moved : ∀ f i n v, (P.elem i).Dom P.pw v → (P.elem i).Dom P.pw (P.moved f i n v)
  selfMoved : ∀ i n v, (P.elem i).Dom P.pw v → (P.elem i).Dom P.pw (P.selfMoved i n v)
  broken : ∀ i n u v, (P.elem i).Dom P.pw u → (P.elem i).Dom P.pw v → (P.elem i).Dom P.pw (P.broken i n u v)
  /-- conversions produce values of the target type -/
  conv : ∀ c d v, (P.elemOf d).Dom P.pw v → (P.elemOf c).Dom P.pw (P.conv c d v)

/-- The type of option `i` is not trivially move assignable with a non-trivial destructor, or the language mode is C++20. -/
def Prog.BalancedAt {Val : Type} (P : Prog Val) (i : Nat) : Prop :=
  P.cxx20 = true ∨ (P.elem i).trivMoveAssign = false ∨ (P.elem i).trivDtor = true

/-- no element type breaks the balance -/
def Prog.Balanced {Val : Type} (P : Prog Val) : Prop :=
  ∀ c, P.cxx20 = true ∨ (P.elemOf c).trivMoveAssign = false ∨ (P.elemOf c).trivDtor = true

/-- If call `n` of user code is a constructor that throws while working in the storage of the empty option `i`, and that
option has no flag, it leaves the sentinel bytes of the empty state there.  Holds trivially when the call does not throw,
for options with a flag, and for types built by the C++17 `construct_at` through a temporary. -/
def Prog.ThrowSafeAt {Val : Type} (P : Prog Val) (i : Nat) (k : Kind) (n : Nat) : Prop :=
  ∀ old : Bytes, (P.elem i).sent P.pw = true → (P.cxx20 || !(P.elem i).trivMoveAssign) = true →
    (P.elem i).scalar = false → P.throwsAt n = true → old.length = (P.elem i).T.size P.pw →
    (P.elem i).T.hasValue P.pw old = false → (P.elem i).T.hasValue P.pw (P.partial_ i k n old) = false

/-- all constructors that throw leave the sentinel bytes -/
def Prog.ThrowSafe {Val : Type} (P : Prog Val) : Prop := ∀ i k n, P.ThrowSafeAt i k n

/-- what an operation needs that constructs in option `i` in the given way; call `n` is the constructor, if it is not
trivial -/
structure Prog.FitAt {Val : Type} (P : Prog Val) (i : Nat) (k : Kind) (n : Nat) : Prop where
  safe : (P.elem i).ctorTriv k = false → P.ThrowSafeAt i k n

/-- the value of a source outside the options is a value of the target type -/
def Src.Legal {Val : Type} (P : Prog Val) (i : Nat) : Src Val → Prop
  | .args v => (P.elem i).Dom P.pw v
  | .copy v => (P.elem i).Dom P.pw v
  | .move v => (P.elem i).Dom P.pw v
  | .opt _ _ => True

/-- a source that is not moved from: an expression outside the options, or an lvalue in another option -/
def Src.Still {Val : Type} (i : Nat) : Src Val → Prop
  | .opt j mv => j ≠ i ∧ mv = false
  | _ => True

/-- The empty option `i` with bytes `bs` survives the constructor call `n` that throws: there is a flag, or the constructor
worked on a temporary, or the bytes it left still say "empty". -/
def Prog.Survives {Val : Type} (P : Prog Val) (i : Nat) (k : Kind) (n : Nat) (bs : Bytes) : Prop :=
  (P.elem i).sent P.pw = true → (P.cxx20 || !(P.elem i).trivMoveAssign) = true → (P.elem i).scalar = false →
    (P.elem i).T.hasValue P.pw (P.partial_ i k n bs) = false

/-- a callable leaves a live value behind -/
def Prog.Fn.Legal {Val β : Type} (P : Prog Val) (i : Nat) (f : Prog.Fn Val β) : Prop :=
  ∀ v, (P.elem i).Dom P.pw v → (P.elem i).Dom P.pw (f.after v) ∧ (P.elem i).Dom P.pw (f.afterThrow v)

/-- the callable's results are values of option `r` -/
def Prog.Fn.RetIn {Val : Type} (P : Prog Val) (r : Nat) (f : Prog.Fn Val Val) (i : Nat) : Prop :=
  ∀ v, (P.elem i).Dom P.pw v → (P.elem r).Dom P.pw (f.ret v)

/-- the values are values of the listed options -/
inductive Prog.TupleDom {Val : Type} (P : Prog Val) : List Nat → List Val → Prop where
  | nil : TupleDom P [] []
  | cons {i : Nat} {v : Val} {is : List Nat} {vs : List Val} : (P.elem i).Dom P.pw v → TupleDom P is vs →
    TupleDom P (i :: is) (v :: vs)

end Opt
