import Verif.Model.Accessor

/-!
# Types and value categories of `flatten` (option.hpp 3405-3414)

`flatten(Option&& opt)` as a function of the type of the option and of the expression it is called with: which type the result
has and what its value is initialised with.  What happens at run time is in `Model/NestedOps`.

Simplification: as in `Model/Accessor`.  For an object type `T` it is assumed that `option<T>{e}` compiles when `e` is a `T`
(`T` can be copied and moved).
-/

namespace Opt.Accessor

open Opt.RefBind

/-- `opt::is_option_v<V>` (option_fwd.hpp 19-25): specialised for `option<T>` without qualifiers or reference -/
def isOptionV (V : QTy) : Bool :=
  V.ref == .none && V.cv == ⟨false, false⟩ &&
  match V.core with
  | .opt .. => true
  | _ => false

/-- `copy_lvalue_reference_t<V, Option>` (1866-1879), where `Option` is an lvalue reference iff the argument is an lvalue -/
def copyLvalueRef (V : QTy) (lvalue : Bool) : QTy :=
  if lvalue then (if V.ref = .rv then V else lref V) else V

/-- the type that a forwarding reference deduces for an expression -/
def Ex.deduced (e : Ex) : QTy := ⟨if e.cat = .lvalue then .lv else .none, e.cv, e.core⟩

/-- `opt::option<R>{e}` (3410): the constructor from a value.  For a reference `R` its constraints (2751-2757) decide; for an
object type `e` initialises the contained object. -/
def makeOption (R : QTy) (e : Ex) : Option Result :=
  if R.ref = .none then (returnVal R e).map fun h => .val R h e.origin
  else if fromValueCtor (fun _ _ => false) R e.deduced then (castRef R e).map .ref
  else none

/-- `flatten(o)` (3405-3414) for an expression `s` of a type `option<...>`; `none`: does not compile.  The result is the value
type and the initialisation of the returned option. -/
def flattenEx : Core → Self → Option (QTy × Result)
  | .opt cv c r, s =>
    (get ⟨r, cv, c⟩ s).bind fun e =>
    if isOptionV ⟨r, cv, c⟩ then flattenEx c ⟨e.cv.const, e.cat != .lvalue⟩
    else (makeOption (copyLvalueRef ⟨r, cv, c⟩ (!s.rvalue)) e).map fun x => (copyLvalueRef ⟨r, cv, c⟩ (!s.rvalue), x)
  | _, _ => none

end Opt.Accessor
