import Verif.Model.Machine

/-!
# The observers, monadic operations and operators of `option` on the machine (option.hpp 2537-2645, 3018-3250, 3344-3378, 3627-3731)

Results of type `option` are new option objects at an address `r`.  Results of type `T` are returned as abstract
values; the constructor that makes the returned object is a call of user code.
-/

namespace Opt.Prog

variable {Val : Type} (P : Prog Val)

/-- `return e;` of a function returning `T` by value, for the element type of option `i`: one constructor call unless it
is trivial.  Simplification: the destructor of the returned object, run by the caller, is not logged. -/
def returnT (i : Nat) (src : Src Val) : M World Val := do
  let v ← P.srcVal i src
  if (P.elem i).ctorTriv (P.kind i src) then pure v
  else do
    let (n, thr) ← P.userOp (.tmpCtor (P.kind i src) true) (.tmpCtor (P.kind i src) false)
    P.srcAfter thr n src
    if thr then M.raise else pure v

/-- call of a callable without argument -/
def call0 {β : Type} (b : β) : M World β := do
  let (_, thr) ← P.userOp (.call0 true) (.call0 false)
  if thr then M.raise else pure b

/-- user code returns an `option` object at `r` -/
def makeOption (r : Nat) : Option Val → M World Unit
  | some v => P.ctorArg r (.args v)
  | none => P.ctorDefault r

/-! ## Observers -/

/-- `get()` (3059-3094), `operator*` (3105-3124), `operator->` (3095-3104): check, then the object -/
def get (i : Nat) : M World Val := do
  P.getCheck i
  P.readT i

/-- `get_unchecked()` (3126-3157, not a reference): no check -/
def getUnchecked (i : Nat) : M World Val := P.readT i

/-- `value_or_throw()` (2601-2605), `value()` (3164-3167): `opt::bad_access` when empty -/
def valueOrThrow (i : Nat) : M World Val := do
  let h ← P.hasValue i
  if !h then M.raise
  else do
    P.getCheck i
    P.readT i

/-- `ptr_or_null()` (3213-3218), `begin()` (2979-2986): does the pointer point to the contained object (`some` of the
object's value) or is it null -/
def ptrOrNull (i : Nat) : M World (Option Val) := do
  let h ← P.hasValue i
  if h then do
    P.getCheck i
    let v ← P.readT i
    pure (some v)
  else pure none

/-- `value_or(d)` (3169-3184) and `operator|` with a value (3627-3635), `mv`: the rvalue overload.  `value_or_construct`
(2538-2549) is the same with the fallback built from other arguments. -/
def valueOr (i : Nat) (mv : Bool) (d : Src Val) : M World Val := do
  P.evalArg d
  let h ← P.hasValue i
  if h then do
    P.getCheck i
    P.returnT i (.opt i mv)
  else P.returnT i d

/-- `has_value_and` (2607-2613) -/
def hasValueAnd (i : Nat) (f : Fn Val Bool) : M World Bool := do
  let h ← P.hasValue i
  if h then P.callT i f else pure false

/-- `inspect` (2615-2621); the result is the option itself -/
def inspect (i : Nat) (f : Fn Val Unit) : M World Unit := do
  let h ← P.hasValue i
  if h then P.callT i f else pure ()

/-- `map_or` (2571-2576): the returned object is built from the result of `f` or from the default.  Simplification: the
conversion of the result of `f` to the returned type is part of the call. -/
def mapOr (i : Nat) (d : Val) (f : Fn Val Val) : M World Val := do
  let h ← P.hasValue i
  if h then P.callT i f
  else do
    let (_, thr) ← P.userOp (.tmpCtor .args true) (.tmpCtor .args false)
    if thr then M.raise else pure d

/-- `map_or_else` (2579-2588) -/
def mapOrElse (i : Nat) (d : Val) (f : Fn Val Val) : M World Val := do
  let h ← P.hasValue i
  if h then P.callT i f else P.call0 d

/-! ## Operations returning options -/

/-- `map` (2561-2568): the contained value of the result is initialised by the call itself (1925-1932, 1965-1972,
2022-2031, 2073-2082).  Also `option_cast` (3374-3381), whose callable is a conversion. -/
def map (i r : Nat) (f : Fn Val Val) : M World Unit := do
  let h ← P.hasValue i
  if h then do
    P.getCheck i
    P.newObj r
    M.onThrow
      (do
        let v ← P.callT i f
        P.constructInPlace r (.args v))
      (delObj r)
    if (P.elem r).sent P.pw then do
      let h ← P.hasValue r
      M.check h
    else P.setFlag r true
  else P.ctorDefault r

/-- `and_then` (2550-2559): the result object is the one the callable returns -/
def andThen (i r : Nat) (f : Fn Val (Option Val)) : M World Unit := do
  let h ← P.hasValue i
  if h then do
    let x ← P.callT i f
    P.makeOption r x
  else P.ctorDefault r

/-- `or_else` (2590-2599), `mv`: the rvalue overload.  A const rvalue counts as an lvalue: its value is copied. -/
def orElse (i r : Nat) (mv : Bool) (x : Option Val) : M World Unit := do
  let h ← P.hasValue i
  if h then P.ctorFrom r i mv
  else do
    let y ← P.call0 x
    P.makeOption r y

/-- `filter` (2623-2629), `mv`: the rvalue overloads.  A const rvalue counts as an lvalue: its value is copied. -/
def filter (i r : Nat) (mv : Bool) (f : Fn Val Bool) : M World Unit := do
  let h ← P.hasValue i
  if h then do
    let b ← P.callT i f
    if b then do
      P.getCheck i
      P.ctorArg r (.opt i mv)
    else P.ctorDefault r
  else P.ctorDefault r

/-- `operator|` of two options (3637-3667), `mi` / `mj`: rvalue operands -/
def orOp (i j r : Nat) (mi mj : Bool) : M World Unit := do
  let h ← P.hasValue i
  if h then P.ctorFrom r i mi else P.ctorFrom r j mj

/-- `operator|=` with a value (3669-3675) -/
def orAssignValue (i : Nat) (src : Src Val) : M World Unit := do
  P.evalArg src
  let h ← P.hasValue i
  if !h then P.assignValue i src else pure ()

/-- `operator|=` with an option (3669-3675) -/
def orAssignFrom (i j : Nat) (mv : Bool) : M World Unit := do
  let h ← P.hasValue i
  if !h then P.assignFrom i j mv else pure ()

/-- `operator&` (3677-3690) -/
def andOp (i j r : Nat) (mv : Bool) : M World Unit := do
  let h ← P.hasValue i
  if h then P.ctorFrom r j mv else P.ctorDefault r

/-- `operator^` (3692-3731) -/
def xorOp (i j r : Nat) (mi mj : Bool) : M World Unit := do
  let hi ← P.hasValue i
  let hj ← P.hasValue j
  if hi && !hj then P.ctorFrom r i mi
  else if !hi && hj then P.ctorFrom r j mj
  else P.ctorDefault r

/-- `(options.has_value() && ...)`: a fold from the left that stops at the first empty one -/
def allHave : List (Nat × Bool) → M World Bool
  | [] => pure true
  | (i, _) :: is => do
    let h ← P.hasValue i
    if h then allHave is else pure false

/-- destructor of a temporary of the element type of option `i`, unless it is trivial -/
def dropTmp (i : Nat) : M World Unit := if (P.elem i).trivDtor then pure () else note .tmpDtor

/-- destructors of the elements of a temporary tuple -/
def dropTmps : List Nat → M World Unit
  | [] => pure ()
  | i :: is => do
    P.dropTmp i
    dropTmps is

/-- `static_cast<Options&&>(options).get()...` each initialising an element of `result_tuple`.  If the constructor of an element
throws, the elements made before it are destroyed. -/
def zipElems : List (Nat × Bool) → M World (List Val)
  | [] => pure []
  | (i, mv) :: is => do
    P.getCheck i
    let v ← P.returnT i (.opt i mv)
    let vs ← M.onThrow (zipElems is) (P.dropTmp i)
    pure (v :: vs)

/-- `zip` (3344-3354); `g` makes the abstract value of a tuple from those of its elements.  The result is moved from the
temporary tuple, which is destroyed then, also if the move throws.  The standard does not say in which order a `std::tuple` initialises
its elements; `is` is in this order (`has_value()` and `get()` have no effects, so their order does not matter), and `g` may
rearrange the values. -/
def zip (is : List (Nat × Bool)) (r : Nat) (g : List Val → Val) : M World Unit := do
  let h ← P.allHave is
  if h then do
    let vs ← P.zipElems is
    M.onThrow (P.ctorArg r (.move (g vs))) (P.dropTmps (is.map (·.1)).reverse)
    P.dropTmps (is.map (·.1)).reverse
  else P.ctorDefault r

/-- `static_cast<Options&&>(options).get()...` as references -/
def zipArgs : List Nat → M World (List Val)
  | [] => pure []
  | i :: is => do
    P.getCheck i
    let v ← P.readT i
    let vs ← zipArgs is
    pure (v :: vs)

/-- `zip_with` (3356-3372), result not `void`; the callable gets references and leaves the arguments alone.  The result of the call is a
temporary from which the result is moved. -/
def zipWith (is : List Nat) (r : Nat) (g : List Val → Val) : M World Unit := do
  let h ← P.allHave (is.map (·, false))
  if h then do
    let vs ← P.zipArgs is
    let b ← P.call0 (g vs)
    M.onThrow (P.ctorArg r (.move b)) (P.dropTmp r)
    P.dropTmp r
  else P.ctorDefault r

/-- `zip_with` (3361-3366) with a callable that returns nothing.  `zip_with` returns nothing either; the result here is what the callable
was called with, if it was. -/
def zipWithVoid (is : List Nat) : M World (Option (List Val)) := do
  let h ← P.allHave (is.map (·, false))
  if h then do
    let vs ← P.zipArgs is
    P.call0 (some vs)
  else pure none

/-- `operator<<` of `io(o)` and `io(o, none_case)` (3524-3529, 3541-3548): what is written -/
def ioWrite (i : Nat) (d : Option Val) : M World (Option Val) := do
  let h ← P.hasValue i
  if h then do
    P.getCheck i
    let v ← P.readT i
    P.call0 (some v)
  else
    match d with
    | some d => P.call0 (some d)
    | none => pure none

/-- `operator>>` of `io(o, none_case)` (3550-3557): the value `v` from the stream goes to the contained object or the
fallback object (`d`, returned).  A throwing extraction leaves the target with some value. -/
def ioRead (i : Nat) (d v : Val) : M World Val := do
  let h ← P.hasValue i
  if h then do
    P.callT i { ret := fun _ => (), after := fun _ => v, afterThrow := fun u => u }
    pure d
  else P.call0 v

end Opt.Prog
