/-!
# Deduced and returned types (option.hpp 2550-2569, 3271-3272, 3328-3372, 3627-3731)

Which type an expression of the library has: class template argument deduction for `option{e}`, `make_option`, the functions with a
deduced or computed return type, and the overloaded operators.

Simplification: `const` stands for any cv-qualification; classes derived from `option` and user conversions to options are left out; that
the bodies compile (constructors, conversions of the contained types) is assumed, `Model/Overload` and `Model/Accessor` look at those.
A function `f` appears as `R`, the type `decltype(invoke(f, ...))`.
-/

namespace Opt.ResultType

/-- types -/
inductive CT where
  /-- any other object type -/
  | obj (n : Nat)
  | none_t
  | inPlace_t
  | void
  | array (t : CT) (n : Nat)
  | func (n : Nat)
  | ptr (t : CT)
  /-- `opt::option<t>` -/
  | opt (t : CT)
  /-- `std::tuple<>` and `std::tuple<t, ts...>` -/
  | tupNil
  | tupCons (t ts : CT)
  | const (t : CT)
  | lref (t : CT)
  | rref (t : CT)
deriving DecidableEq, Repr

namespace CT

/-- `std::remove_cv_t` -/
def removeCv : CT → CT
  | const t => removeCv t
  | t => t

/-- `std::remove_reference_t` -/
def removeRef : CT → CT
  | lref t => t
  | rref t => t
  | t => t

/-- `impl::remove_cvref` (option.hpp 512-612) -/
def removeCvref (t : CT) : CT := t.removeRef.removeCv

/-- `std::decay_t`, which is also what a parameter `T` by value deduces -/
def decay (t : CT) : CT :=
  match t.removeRef with
  | array e _ => ptr e
  | func n => ptr (func n)
  | u => u.removeCv

/-- `opt::is_option_v` (option_fwd.hpp 19-25): an option without qualifiers or reference -/
def isOption : CT → Bool
  | opt _ => true
  | _ => false

/-- the static assertions of `option<T>` (option.hpp 2816-2826) -/
def accepted (t : CT) : Bool :=
  t.removeCvref != none_t && t.removeCvref != inPlace_t && t.removeCv != void

/-- `option<t>`, if it can be instantiated -/
def option (t : CT) : Option CT := if t.accepted then some (opt t) else none

/-- `std::tuple<ts...>` -/
def tuple : List CT → CT
  | [] => tupNil
  | t :: ts => tupCons t (tuple ts)

end CT

/-- value categories, as far as parameters distinguish them -/
inductive Cat where
  | lvalue | rvalue
deriving DecidableEq, Repr

/-- an expression: its type, which is no reference, and its category -/
structure Expr where
  ty : CT
  cat : Cat
deriving DecidableEq, Repr

/-- the expression `f()` for a function that returns `R` -/
def call : CT → Expr
  | .lref t => ⟨t, .lvalue⟩
  | .rref (.func n) => ⟨.func n, .lvalue⟩
  | .rref t => ⟨t, .rvalue⟩
  | t => ⟨t, .rvalue⟩

/-! ## Parameters -/

/-- kinds of parameters of function templates -/
inductive Param where
  /-- `T` -/
  | value
  /-- `option<T>` -/
  | optValue
  /-- `const option<T>&` -/
  | optConstRef
  /-- `option<T>&&` -/
  | optRref
  /-- `U&&` with `!is_option_v<remove_cvref<U>>` -/
  | forwardNoOption
deriving DecidableEq, Repr

/-- what `T` is deduced as, if the argument can be passed -/
def Param.deduce : Param → Expr → Option CT
  | .value, e => some e.ty.decay
  | .optValue, e | .optConstRef, e =>
    match e.ty.removeCv with
    | .opt t => some t
    | _ => none
  | .optRref, e =>
    match e.cat, e.ty with
    | .rvalue, .opt t => some t
    | _, _ => none
  | .forwardNoOption, e => if e.ty.removeCv.isOption then none else some e.ty

/-- is binding to the first parameter the better conversion: an rvalue binds rather to `&&`; all else is equal here -/
def Param.betterConv : Param → Param → Bool
  | .optRref, .optConstRef => true
  | _, _ => false

/-! ## `option{e}` -/

/-- The candidates for deduction with one argument: the guide (3272), the constructors whose parameters name `T` (2838-2840: `const option&`
and `option&&`) and the copy deduction candidate of the language.  From the other constructors (2842-2901) `T` cannot be deduced. -/
def guides : List Param := [.value, .optConstRef, .optRref, .optValue]

/-- is the first candidate better: by the conversion, then by being more specialised, then by being the copy deduction candidate -/
def betterGuide (p q : Param) : Bool :=
  p.betterConv q || (p != .value && q == .value) || (p == .optValue && (q == .optConstRef || q == .optRref))

/-- the candidate that is better than all others -/
def best {α : Type} [BEq α] (better : α → α → Bool) (cs : List α) : Option α := cs.find? fun c => cs.all fun d => c == d || better c d

/-- the type of `option{e}` -/
def ctad (e : Expr) : Option CT := do
  let p ← best betterGuide (guides.filter fun p => (p.deduce e).isSome)
  let t ← p.deduce e
  t.option

/-! ## Functions -/

/-- `make_option(e)` (3328-3332) -/
def makeOption (e : Expr) : Option CT := e.ty.decay.option

/-- `map(f)` (2562-2569) -/
def map (R : CT) : Option CT := R.removeCv.option

/-- `and_then(f)` (2550-2560): the return type is deduced from two `return` statements that have to agree -/
def andThen (R : CT) : Option CT :=
  if R.removeCvref.isOption then
    if R.decay = R.removeCvref then some R.removeCvref else none
  else none

/-- `zip(options...)` (3344-3354) of options of `Ts` -/
def zip (es : List Expr) : Option CT := do
  let ts ← es.mapM fun e =>
    match e.ty.removeCvref with
    | .opt t => some t
    | _ => none
  -- `opt::option{result_tuple{...}}` is converted to the declared type
  let _ ← ctad ⟨.tuple ts, .rvalue⟩
  (CT.tuple ts).option

/-- `zip_with(f, options...)` (3356-3372) -/
def zipWith (R : CT) : Option CT := if R.removeCv = .void then some .void else R.option

/-! ## Operators -/

/-- an overload of a binary operator; `agree`: both parameters are options of the same `T` -/
structure Overload where
  left : Param
  right : Param
  agree : Bool
  result : CT → CT → CT

/-- the result of a call, if the arguments fit -/
def Overload.apply (o : Overload) (l r : Expr) : Option CT := do
  let t ← o.left.deduce l
  let u ← o.right.deduce r
  if o.agree && t != u then none else some (o.result t u)

/-- no argument has a worse conversion, one has a better -/
def Overload.better (o p : Overload) : Bool :=
  !p.left.betterConv o.left && !p.right.betterConv o.right && (o.left.betterConv p.left || o.right.betterConv p.right)

/-- overload resolution: the type of the one overload that is better than all other viable ones -/
def resolve (os : List Overload) (l r : Expr) : Option CT :=
  let viable := os.filter fun o => (o.apply l r).isSome
  match viable.filter fun o => (viable.filter fun p => !o.better p).length == 1 with
  | [o] => o.apply l r
  | _ => none

/-- `operator|` (3627-3667) -/
def orOverloads : List Overload :=
  [⟨.optConstRef, .forwardNoOption, false, fun t _ => t.removeCv⟩, ⟨.optRref, .forwardNoOption, false, fun t _ => t.removeCv⟩,
   ⟨.optConstRef, .optConstRef, true, fun t _ => .opt t⟩, ⟨.optRref, .optConstRef, true, fun t _ => .opt t⟩,
   ⟨.optConstRef, .optRref, true, fun t _ => .opt t⟩, ⟨.optRref, .optRref, true, fun t _ => .opt t⟩]

/-- `operator&` (3677-3690) -/
def andOverloads : List Overload :=
  [⟨.optConstRef, .optConstRef, false, fun _ u => .opt u⟩, ⟨.optConstRef, .optRref, false, fun _ u => .opt u⟩]

/-- `operator^` (3692-3731) -/
def xorOverloads : List Overload :=
  [⟨.optConstRef, .optConstRef, true, fun t _ => .opt t⟩, ⟨.optRref, .optConstRef, true, fun t _ => .opt t⟩,
   ⟨.optConstRef, .optRref, true, fun t _ => .opt t⟩, ⟨.optRref, .optRref, true, fun t _ => .opt t⟩]

/-- the type of `l | r` -/
def or (l r : Expr) : Option CT := resolve orOverloads l r
/-- the type of `l & r` -/
def and (l r : Expr) : Option CT := resolve andOverloads l r
/-- the type of `l ^ r` -/
def xor (l r : Expr) : Option CT := resolve xorOverloads l r

end Opt.ResultType
