import Verif.Model.Compare
import Verif.Spec.Order

/-!
# Comparing options of different nesting depths (option.hpp 3738-3785, 3836-3895)

Operand types are `m` and `n` layers of options around types `α` and `β` that are not options.  For each operator there are
three templates that can take part: `(option<T1>, option<T2>)`, `(option<T1>, T2)` and `(T1, option<T2>)`.
-/

namespace Opt

/-- the templates of one comparison operator, and the operator of the innermost types -/
inductive CmpForm where
  /-- `operator op(const option<T1>&, const option<T2>&)` (3738-3785) -/
  | both
  /-- `operator op(const option<T1>&, const T2&)` (3836-3895) -/
  | left
  /-- `operator op(const T1&, const option<T2>&)` (3836-3895) -/
  | right
  /-- not a function of the library -/
  | elem
deriving DecidableEq, Repr

/-- Can a template be used for operands of depths `m` and `n`: its parameters can be deduced, and the comparison in its
return type is valid for the depths it names.  `ok` tells for which depths an operator can be used at all. -/
def CmpForm.viable (ok : Nat → Nat → Bool) (m n : Nat) : CmpForm → Bool
  | .both => decide (1 ≤ m) && decide (1 ≤ n) && ok (m - 1) (n - 1)
  | .left => decide (1 ≤ m) && ok (m - 1) n
  | .right => decide (1 ≤ n) && ok m (n - 1)
  | .elem => decide (m = 0) && decide (n = 0)

/-- Overload resolution: all parameters are exact matches, so the more specialised template wins.  `both` is more specialised
than `left` and than `right`, which are not ordered: if both of them can be used and `both` cannot, the call is ambiguous
(`none`). -/
def CmpForm.choose (ok : Nat → Nat → Bool) (m n : Nat) : Option CmpForm :=
  if CmpForm.elem.viable ok m n then some .elem
  else if CmpForm.both.viable ok m n then some .both
  else if CmpForm.left.viable ok m n then
    if CmpForm.right.viable ok m n then none else some .left
  else if CmpForm.right.viable ok m n then some .right
  else none

/-- a comparison is usable if overload resolution succeeds; the innermost types can be compared -/
def cmpUsable : Nat → Nat → Bool
  | 0, 0 => true
  | 0, n + 1 => cmpUsable 0 n
  | m + 1, 0 => cmpUsable m 0
  | m + 1, n + 1 => cmpUsable m n || (cmpUsable m (n + 1) != cmpUsable (m + 1) n)

/-- the constants after the `:` in `option op value` (3836-3895) -/
def CmpOp.emptyLeft : CmpOp → Bool
  | .eq => false
  | .ne => true
  | .lt => true
  | .le => true
  | .gt => false
  | .ge => false

/-- the constants after the `:` in `value op option` (3836-3895) -/
def CmpOp.emptyRight : CmpOp → Bool
  | .eq => false
  | .ne => true
  | .lt => false
  | .le => false
  | .gt => true
  | .ge => true

/-- `value op option` for an option of depth `n` (3836-3895) -/
def valCmpDepth {α β : Type} (rel : CmpOp → α → β → Bool) (op : CmpOp) (a : α) : (n : Nat) → Nest β n → Bool
  | 0, b => rel op a b
  | n + 1, y =>
    match (y : Option (Nest β n)) with
    | some b => valCmpDepth rel op a n b
    | none => op.emptyRight

/-- `a op b` for operands of depths `m` and `n` (3738-3785, 3836-3895), with the template that `CmpForm.choose` selects
(`C65_overload`); `rel` are the operators of the innermost types -/
def cmpDepth {α β : Type} (rel : CmpOp → α → β → Bool) (op : CmpOp) : (m n : Nat) → Nest α m → Nest β n → Bool
  | 0, n, a, y => valCmpDepth rel op a n y
  | m + 1, 0, x, b =>
    match (x : Option (Nest α m)) with
    | some a => cmpDepth rel op m 0 a b
    | none => op.emptyLeft
  | m + 1, n + 1, x, y =>
    match (x : Option (Nest α m)), (y : Option (Nest β n)) with
    | some a, some b => cmpDepth rel op m n a b
    | some _, none => op.onBool true false
    | none, some _ => op.onBool false true
    | none, none => op.onBool false false

end Opt
