import Verif.Model.CmpSelect
import Verif.Spec.Order

/-!
# What comparing operands of any types should mean

Two operands can be compared if the types inside all their options can, or if one of them is `none` and the other one is an
option.  The result is that of one order on what the operands hold; `none` counts as an empty option.
-/

namespace Opt.CmpSel

variable {L α : Type}

/-- `option<none_t>` is rejected by a static assertion (option.hpp 2814-2817) -/
def Ty.Wf (t : Ty L) : Prop := t.depth = 0 ∨ t.base ≠ .none

/-- the comparison of an option with `none` -/
def WithNone (s t : Ty L) : Prop :=
  (1 ≤ s.depth ∧ t.depth = 0 ∧ t.base = .none) ∨ (1 ≤ t.depth ∧ s.depth = 0 ∧ s.base = .none)

/-- one of the operands is an option -/
def SomeOption (s t : Ty L) : Prop := 1 ≤ s.depth ∨ 1 ≤ t.depth

/-- which types can be compared when `==` may be turned round and `!=` may be the negation of `==` -/
def rewritable (ok : CmpOp → Base L → Base L → Bool) : CmpOp → Base L → Base L → Bool
  | .eq, b, c => ok .eq b c || ok .eq c b
  | .ne, b, c => ok .ne b c || ok .eq b c || ok .eq c b
  | op, b, c => ok op b c

/-- what the comparison then means: as written if that is possible, otherwise the negation, otherwise turned round -/
def meaning (ok : CmpOp → Base L → Base L → Bool) (rel : CmpOp → Base L → Base L → V α → V α → Bool) (b c : Base L) :
    CmpOp → α → α → Bool
  | .eq, a, a' => if ok .eq b c then rel .eq b c (.val a) (.val a') else rel .eq c b (.val a') (.val a)
  | .ne, a, a' =>
    if ok .ne b c then rel .ne b c (.val a) (.val a')
    else if ok .eq b c then !rel .eq b c (.val a) (.val a') else !rel .eq c b (.val a') (.val a)
  | op, a, a' => rel op b c (.val a) (.val a')

/-- `v` is a value of the type of `n` layers of options around `b` -/
def V.HasTy : V α → Nat → Base L → Prop
  | .none, 0, .none => True
  | .val _, 0, .leaf _ => True
  | .empty, _ + 1, _ => True
  | .full v, n + 1, b => V.HasTy v n b
  | _, _, _ => False

/-- what an operand holds: an empty option under `k` engaged ones (`none` is one under 0), or a value -/
def V.key : V α → Nat ⊕ α
  | .none => .inl 0
  | .empty => .inl 0
  | .val a => .inr a
  | .full v => match v.key with
    | .inl k => .inl (k + 1)
    | .inr a => .inr a

end Opt.CmpSel
