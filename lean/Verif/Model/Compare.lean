import Verif.Model.Api

/-!
# Comparison operators and hash (option.hpp 3738-3895, 4070-4093)

The operators of the element types are user code, given as a table `rel`; a call of one of them is logged as a call
without a contained object (`call0`) and may throw.  `rel op a b` is the value of `a op b` converted to `bool`
(`fake_copy<bool>` in the return types only requires that the conversion exists).
-/

namespace Opt

/-- the six relational operators -/
inductive CmpOp where
  | eq | ne | lt | le | gt | ge
deriving DecidableEq, Repr

/-- `a op b` on two `bool`s: both are promoted to `int`, `false` to 0 and `true` to 1 -/
def CmpOp.onBool : CmpOp → Bool → Bool → Bool
  | .eq, a, b => a.toNat == b.toNat
  | .ne, a, b => a.toNat != b.toNat
  | .lt, a, b => decide (a.toNat < b.toNat)
  | .le, a, b => decide (a.toNat ≤ b.toNat)
  | .gt, a, b => decide (a.toNat > b.toNat)
  | .ge, a, b => decide (a.toNat ≥ b.toNat)

namespace Prog

variable {Val : Type} (P : Prog Val)

/-- `option op option` (3738-3785): the six functions differ in the operator only -/
def cmp (op : CmpOp) (rel : CmpOp → Val → Val → Bool) (i j : Nat) : M World Bool := do
  let hi ← P.hasValue i
  let hj ← P.hasValue j
  if hi && hj then do
    let a ← P.get i
    let b ← P.get j
    P.call0 (rel op a b)
  else pure (op.onBool hi hj)

/-- `option op none` (3787-3834, the functions whose right parameter is `none_t`) -/
def cmpNone (op : CmpOp) (i : Nat) : M World Bool :=
  match op with
  | .eq => do
    let h ← P.hasValue i
    pure (!h)
  | .ne => P.hasValue i
  | .lt => pure false
  | .le => do
    let h ← P.hasValue i
    pure (!h)
  | .gt => P.hasValue i
  | .ge => pure true

/-- `none op option` (3787-3834, the functions whose left parameter is `none_t`) -/
def noneCmp (op : CmpOp) (i : Nat) : M World Bool :=
  match op with
  | .eq => do
    let h ← P.hasValue i
    pure (!h)
  | .ne => P.hasValue i
  | .lt => P.hasValue i
  | .le => pure true
  | .gt => pure false
  | .ge => do
    let h ← P.hasValue i
    pure (!h)

/-- `option op value` (3836-3895, option on the left), for a value that is not an option (those: Model/CmpNested): the constant
is the one after the `:` -/
def cmpVal (op : CmpOp) (rel : CmpOp → Val → Val → Bool) (i : Nat) (v : Val) : M World Bool := do
  let h ← P.hasValue i
  if h then do
    let a ← P.get i
    P.call0 (rel op a v)
  else pure (match op with
    | .eq => false
    | .ne => true
    | .lt => true
    | .le => true
    | .gt => false
    | .ge => false)

/-- `value op option` (3836-3895, option on the right) -/
def valCmp (op : CmpOp) (rel : CmpOp → Val → Val → Bool) (v : Val) (i : Nat) : M World Bool := do
  let h ← P.hasValue i
  if h then do
    let b ← P.get i
    P.call0 (rel op v b)
  else pure (match op with
    | .eq => false
    | .ne => true
    | .lt => false
    | .le => false
    | .gt => true
    | .ge => true)

/-- `std::hash<opt::option<T>>` (4070-4081) for a `T` that is not a reference; `hash` is `std::hash<T>` -/
def hash (hash : Val → U64) (i : Nat) : M World U64 := do
  let h ← P.hasValue i
  if h then do
    let v ← P.get i
    P.call0 (hash v)
  else pure 0

end Prog

end Opt
