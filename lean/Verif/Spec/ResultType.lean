import Verif.Model.ResultType

/-!
# Which types are asked for

In terms of layers of `option<>` around a type, without candidates and overloads.
-/

namespace Opt.ResultType

/-- the types of expressions are no references -/
def Expr.OK (e : Expr) : Prop := e.ty.removeRef = e.ty

/-- the argument of an option made from `e` without counting layers: an object of this type is stored -/
def stored (e : Expr) : CT := e.ty.decay

/-- a tag type or `void`, with qualifiers -/
inductive Unfit : CT → Prop where
  | none_t : Unfit .none_t
  | inPlace_t : Unfit .inPlace_t
  | void : Unfit .void
  | const {t : CT} (h : Unfit t) : Unfit (.const t)

/-- what no option can be of (messages in option.hpp 2814-2824): a tag type, qualified or referred to, or `void` -/
inductive NoOption : CT → Prop where
  | object {t : CT} (h : Unfit t) : NoOption t
  | lref {t : CT} (h : Unfit t) (hv : t.removeCv ≠ .void) : NoOption (.lref t)
  | rref {t : CT} (h : Unfit t) (hv : t.removeCv ≠ .void) : NoOption (.rref t)

/-- `n` layers -/
def layered : Nat → CT → CT
  | 0, t => t
  | n + 1, t => .opt (layered n t)

/-- What `option{}` puts one layer around: "wraps a value, but does not wrap an option again" (docs/reference.md 2436-2453, as
`std::optional`) -/
def content : CT → CT
  | .opt t => t
  | t => t

/-- `option{...}` or `make_option(...)` -/
inductive Wrap where
  | braces | make
deriving DecidableEq, Repr

/-- a step, and how its result is used in the next step: as a `const` object or not, as an lvalue or an rvalue -/
structure Step where
  wrap : Wrap
  const : Bool
  cat : Cat
deriving DecidableEq, Repr

/-- the type of nested calls, the innermost first -/
def wrapAll : List Step → Expr → Option CT
  | [], _ => none
  | [s], e =>
    match s.wrap with
    | .braces => ctad e
    | .make => makeOption e
  | s :: ss, e =>
    match (match s.wrap with
      | .braces => ctad e
      | .make => makeOption e) with
    | some t => wrapAll ss ⟨if s.const then .const t else t, s.cat⟩
    | none => none

/-- how many of the steps are `make_option` -/
def makes (ss : List Step) : Nat := ss.countP fun s => s.wrap = .make

/-- the layers that nested calls add: one for each `make_option`, one for `option{}` if it is the innermost and is not given an option -/
def addedLayers : List Step → CT → Nat
  | [], _ => 0
  | s :: ss, t => makes (s :: ss) + (if s.wrap = .braces ∧ t.isOption = false then 1 else 0)

/-- the type of `l | r` (docs/reference.md 1695-1727) -/
inductive OrType (l r : Expr) : CT → Prop where
  | options {t : CT} (hl : l.ty.removeCv = .opt t) (hr : r.ty.removeCv = .opt t) : OrType l r (.opt t)
  | fallback {t : CT} (hl : l.ty.removeCv = .opt t) (hr : r.ty.removeCv.isOption = false) : OrType l r t.removeCv

/-- the type of `l & r` (docs/reference.md 1779-1790) -/
inductive AndType (l r : Expr) : CT → Prop where
  | options {t u : CT} (hl : l.ty.removeCv = .opt t) (hr : r.ty.removeCv = .opt u) : AndType l r (.opt u)

/-- the type of `l ^ r` (docs/reference.md 1815-1832) -/
inductive XorType (l r : Expr) : CT → Prop where
  | options {t : CT} (hl : l.ty.removeCv = .opt t) (hr : r.ty.removeCv = .opt t) : XorType l r (.opt t)

/-- `l | r1 | ... | rn`, from left to right -/
def chain : Expr → List Expr → Option Expr
  | l, [] => some l
  | l, r :: rs =>
    match or l r with
    | some t => chain (call t) rs
    | none => none

/-- options of `t` up to the last operand, which may also be no option -/
def Fallbacks (t : CT) : List Expr → Prop
  | [] => True
  | [r] => r.ty.removeCv = .opt t ∨ r.ty.removeCv.isOption = false
  | r :: rs => r.ty.removeCv = .opt t ∧ Fallbacks t rs

/-- the type of a chain: that of the last operand decides -/
def chainType (t : CT) (rs : List Expr) : CT :=
  match rs.getLast? with
  | none => .opt t
  | some r => if r.ty.removeCv.isOption then .opt t else t.removeCv

end Opt.ResultType
