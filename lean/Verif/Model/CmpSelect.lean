import Verif.Model.CmpNested

/-!
# Which function a comparison of options calls (option.hpp 3738-3895)

Every operator has five function templates.  Which of them takes part is decided by deduction and by the comparison in the
return type (`decltype(impl::fake_copy<bool>(left.get() == right.get()))` and so on), which is itself a comparison, maybe of
options.  Since C++20 the language adds rewritten candidates: `a == b` may call `operator==(b, a)`, and `a != b` may be
`!(a == b)` or `!(b == a)`.

Operand types are `depth` layers of options around a `base`.  Whether two types that are not options can be compared, and the
result converted to `bool`, is a table `ok`; it stands for everything the language does with them.

Simplifications: operators of the element types do not accept options; references and `const` are left out, since all templates
take `const &` or a copy of `none_t`, so no parameter is a better match than another one.
-/

namespace Opt.CmpSel

variable {L α : Type}

/-- a type that is not an option: `opt::none_t` (option_fwd.hpp 33-36) or a type of the user -/
inductive Base (L : Type) where
  | none
  | leaf (l : L)
deriving DecidableEq, Repr

/-- the type of an operand: `depth` layers of options around `base` -/
structure Ty (L : Type) where
  depth : Nat
  base : Base L
deriving DecidableEq, Repr

/-- the type in an option -/
def Ty.inner (t : Ty L) : Ty L := ⟨t.depth - 1, t.base⟩

/-- is it an option -/
def Ty.isOpt (t : Ty L) : Bool := decide (1 ≤ t.depth)

/-- is it `none_t` -/
def Ty.isNone : Ty L → Bool
  | ⟨0, .none⟩ => true
  | _ => false

/-- the templates of one operator -/
inductive Form where
  /-- `(const option<T1>&, const option<T2>&)` (3738-3785) -/
  | both
  /-- `(const option<T1>&, const T2&)` (3836-3895) -/
  | left
  /-- `(const T1&, const option<T2>&)` (3836-3895) -/
  | right
  /-- `(const option<T>&, none_t)` (3787-3834) -/
  | noneR
  /-- `(none_t, const option<T>&)` (3787-3834) -/
  | noneL
deriving DecidableEq, Repr

/-- what a parameter accepts: `option<T>`, any type, `none_t` -/
inductive Pat where
  | opt | any | none
deriving DecidableEq, Repr

/-- the parameters -/
def Form.pats : Form → Pat × Pat
  | .both => (.opt, .opt)
  | .left => (.opt, .any)
  | .right => (.any, .opt)
  | .noneR => (.opt, .none)
  | .noneL => (.none, .opt)

/-- does an argument fit -/
def Pat.fits : Pat → Ty L → Bool
  | .opt, t => t.isOpt
  | .any, _ => true
  | .none, t => t.isNone

/-- at least as specialised, for one parameter ([temp.func.order]) -/
def Pat.le : Pat → Pat → Bool
  | .opt, .opt => true
  | .opt, .any => true
  | .any, .any => true
  | .none, .none => true
  | .none, .any => true
  | _, _ => false

/-- a candidate: a template, used with exchanged arguments (`rev`), used for `!=` by negating the result of `==` (`neg`) -/
structure Cand where
  form : Form
  rev : Bool
  neg : Bool
deriving DecidableEq, Repr

/-- the operator called -/
def Cand.op (c : Cand) (op : CmpOp) : CmpOp := if c.neg then .eq else op

/-- a rewritten candidate ([over.match.oper]) -/
def Cand.rewritten (c : Cand) : Bool := c.rev || c.neg

/-- what the candidate accepts for the operands in their written order -/
def Cand.pats (c : Cand) : Pat × Pat := if c.rev then (c.form.pats.2, c.form.pats.1) else c.form.pats

/-- the version of the language: which templates of `==` may be used with exchanged arguments and which for `!=`.  In C++17
none; in C++20 all of them, later only those without a corresponding `operator!=` (P2468). -/
structure Lang where
  exchanged : Form → Bool
  negated : Form → Bool

/-- C++17 -/
def cpp17 : Lang := ⟨fun _ => false, fun _ => false⟩

/-- C++20; the templates with `none_t` differ between compilers (P2468) and are given -/
def cpp20 (noneL noneR : Bool) : Lang :=
  let f : Form → Bool := fun
    | .noneL => noneL
    | .noneR => noneR
    | _ => true
  ⟨f, f⟩

/-- all templates -/
def forms : List Form := [.both, .left, .right, .noneR, .noneL]

/-- the candidates for an operator ([over.match.oper]) -/
def candidates (lang : Lang) : CmpOp → List Cand
  | .eq => forms.map (⟨·, false, false⟩) ++ (forms.filter lang.exchanged).map (⟨·, true, false⟩)
  | .ne => forms.map (⟨·, false, false⟩) ++ (forms.filter lang.negated).map (⟨·, false, true⟩)
      ++ (forms.filter fun f => lang.negated f && lang.exchanged f).map (⟨·, true, true⟩)
  | _ => forms.map (⟨·, false, false⟩)

/-- the comparison in the return type (3738-3895); `u` tells which comparisons can be used.  The templates with `none_t` return
`bool`. -/
def Form.needs (u : CmpOp → Ty L → Ty L → Bool) (op : CmpOp) (s t : Ty L) : Form → Bool
  | .both => u op s.inner t.inner
  | .left => u op s.inner t
  | .right => u op s t.inner
  | .noneR => true
  | .noneL => true

/-- can the candidate be called -/
def Cand.viable (u : CmpOp → Ty L → Ty L → Bool) (op : CmpOp) (s t : Ty L) (c : Cand) : Bool :=
  c.pats.1.fits s && c.pats.2.fits t &&
    (if c.rev then c.form.needs u (c.op op) t s else c.form.needs u (c.op op) s t)

/-- at least as specialised ([temp.func.order], with the parameters of an exchanged candidate exchanged) -/
def Cand.le (c d : Cand) : Bool := c.pats.1.le d.pats.1 && c.pats.2.le d.pats.2

/-- a better candidate ([over.match.best]): more specialised; if neither is, not rewritten; then not exchanged -/
def Cand.better (c d : Cand) : Bool :=
  if c.le d && !d.le c then true
  else if d.le c && !c.le d then false
  else if !c.rewritten && d.rewritten then true
  else if c.rewritten && !d.rewritten then false
  else !c.rev && d.rev

/-- overload resolution: the candidate that is better than all others -/
def best (l : List Cand) : Option Cand := l.find? fun c => l.all fun d => decide (d = c) || c.better d

/-- the candidates that can be called -/
def viable (lang : Lang) (u : CmpOp → Ty L → Ty L → Bool) (op : CmpOp) (s t : Ty L) : List Cand :=
  (candidates lang op).filter (Cand.viable u op s t)

/-- Can `s op t` be used?  `ok` tells it for types that are not options.  The number is the depth of the recursion of the
compiler. -/
def usable (lang : Lang) (ok : CmpOp → Base L → Base L → Bool) : Nat → CmpOp → Ty L → Ty L → Bool
  | 0, _, _, _ => false
  | k + 1, op, s, t =>
    if s.isOpt || t.isOpt then (best (viable lang (usable lang ok k) op s t)).isSome
    else ok op s.base t.base

/-- a value: `none`, a value of the user, an empty option, an option with a value -/
inductive V (α : Type) where
  | none
  | val (a : α)
  | empty
  | full (v : V α)
deriving DecidableEq, Repr

/-- `has_value()` -/
def V.has : V α → Bool
  | .full _ => true
  | _ => false

/-- the operators for `option op none` (3787-3834), from `has_value()` -/
def vsNone : CmpOp → Bool → Bool
  | .eq, h => !h
  | .ne, h => h
  | .lt, _ => false
  | .le, h => !h
  | .gt, h => h
  | .ge, _ => true

/-- the operators for `none op option` (3787-3834), from `has_value()` -/
def noneVs : CmpOp → Bool → Bool
  | .eq, h => !h
  | .ne, h => h
  | .lt, h => h
  | .le, _ => true
  | .gt, _ => false
  | .ge, h => !h

/-- the bodies (3738-3895); `e` evaluates comparisons of the contained values -/
def Form.body (e : CmpOp → Ty L → Ty L → V α → V α → Option Bool) (op : CmpOp) (s t : Ty L) (x y : V α) :
    Form → Option Bool
  | .both => match x, y with
    | .full a, .full b => e op s.inner t.inner a b
    | _, _ => some (op.onBool x.has y.has)
  | .left => match x with
    | .full a => e op s.inner t a y
    | _ => some op.emptyLeft
  | .right => match y with
    | .full b => e op s t.inner x b
    | _ => some op.emptyRight
  | .noneR => some (vsNone op x.has)
  | .noneL => some (noneVs op y.has)

/-- the call of a candidate -/
def Cand.call (e : CmpOp → Ty L → Ty L → V α → V α → Option Bool) (op : CmpOp) (s t : Ty L) (x y : V α) (c : Cand) :
    Option Bool :=
  let r := if c.rev then c.form.body e (c.op op) t s y x else c.form.body e (c.op op) s t x y
  if c.neg then r.map (! ·) else r

/-- `x op y`; `none`: does not compile.  `rel` are the operators of the types that are not options. -/
def eval (lang : Lang) (ok : CmpOp → Base L → Base L → Bool) (rel : CmpOp → Base L → Base L → V α → V α → Bool) :
    Nat → CmpOp → Ty L → Ty L → V α → V α → Option Bool
  | 0, _, _, _, _, _ => none
  | k + 1, op, s, t, x, y =>
    if s.isOpt || t.isOpt then
      match best (viable lang (usable lang ok k) op s t) with
      | some c => c.call (eval lang ok rel k) op s t x y
      | none => none
    else if ok op s.base t.base then some (rel op s.base t.base x y) else none

end Opt.CmpSel
