import Verif.Model.Access

/-!
# What element access should yield
-/

namespace Opt

variable {Val : Type}

/-- the object an expression designates, or the value it computes -/
def Expr.denotes : Expr Val → Loc ⊕ Val
  | .lvalue r => .inl r
  | .xvalue r => .inl r
  | .prvalue v => .inr v

/-- the object an engaged option refers to, or the value it contains -/
def Got.denotes : Got Val → Loc ⊕ Val
  | .lref r => .inl r
  | .rref r => .inl r
  | .copy v => .inr v

/-- the reference kind of the option's type -/
def Got.kind : Got Val → RefKind
  | .lref _ => .lref
  | .rref _ => .rref
  | .copy _ => .val

/-- the reference kind that fits: a value for a computed value, an lvalue reference for an element of an lvalue container,
an rvalue reference otherwise -/
def fitting (c : Cat) (e : Expr Val) : RefKind :=
  match e, c with
  | .prvalue _, _ => .val
  | .lvalue _, .lvalue => .lref
  | .lvalue _, .rvalue => .rref
  | .xvalue _, _ => .rref

/-- the outcome is an engaged option for the element that `e` designates, of the fitting kind -/
def Refers (c : Cat) (e : Expr Val) (x : Res (Option (Got Val))) : Prop :=
  ∃ g, x = .ok (some g) ∧ g.denotes = e.denotes ∧ g.kind = fitting c e

end Opt
