import Verif.Model.Machine

/-!
# Options of options: destructor, `reset` and `flatten` (option.hpp 1908-2107, 3406-3414)

The nested option is a sequence of bytes; the functions follow the static type, layer by layer, as the templates do.
-/

namespace Opt

/-- What the innermost type brings along: whether its destructor is trivial, and the bytes its destructor leaves. -/
structure Leaf where
  trivDtor : Bool
  dead : Bytes → Bytes

/-- `x.~T()` for an object with bytes `bs`: the calls of the innermost type's destructor (each with the bytes it was called
on) and the bytes left.  For `option<A>` it is the destructor of `option_destruct_base`: trivial when `A`'s is
(1908-1940, 2003-2050), otherwise `if (has_value()) value.~A()` (1973-1977, 2083-2087). -/
def destroyTy (pw : Nat) (L : Leaf) : Ty → Bytes → List Bytes × Bytes
  | .option a, bs =>
    if L.trivDtor then ([], bs)
    else if a.hasValue pw bs then
      ((destroyTy pw L a (a.payload pw bs)).1, wr bs 0 (destroyTy pw L a (a.payload pw bs)).2)
    else ([], bs)
  | _, bs => if L.trivDtor then ([], bs) else ([bs], L.dead bs)

/-- `option<A>::reset()` (1930-1932, 1979-1984, 2034-2037, 2089-2095) -/
def resetTy (pw : Nat) (L : Leaf) (a : Ty) (bs : Bytes) : Res (List Bytes × Bytes) :=
  if L.trivDtor then
    (a.storeNone pw bs).bind fun b =>
      verifyThen ((a.traits pw).maxLevel = 0 || !a.hasValue pw b) (.ok ([], b))
  else if a.hasValue pw bs then
    (a.storeNone pw (wr bs 0 (destroyTy pw L a (a.payload pw bs)).2)).bind fun b =>
      verifyThen ((a.traits pw).maxLevel = 0 || !a.hasValue pw b) (.ok ((destroyTy pw L a (a.payload pw bs)).1, b))
  else .ok ([], bs)

/-- `x.get()....get().reset()` with `k` calls of `get()` (3059-3094, each checked); anything else is not an option. -/
def resetTyAt (pw : Nat) (L : Leaf) : Nat → Ty → Bytes → Res (List Bytes × Bytes)
  | 0, .option a, bs => resetTy pw L a bs
  | k + 1, .option a, bs =>
    verifyThen (a.hasValue pw bs)
      ((resetTyAt pw L k a (a.payload pw bs)).map fun r => (r.1, wr bs 0 r.2))
  | _, _, _ => .ub -- does not compile

/-- is the type an option (`is_option_v`, option_fwd.hpp 23-26) -/
def Ty.isOption : Ty → Bool
  | .option _ => true
  | .optionRef => true
  | _ => false

variable {Val : Type}

/-- `flatten` of an rvalue (option.hpp 3406-3414), for the nested option `option<A>` with bytes `bs`; the result is the new
option object at `r`.  Innermost layer: `option<A>{get()}` moves from the contained object, which is left with the bytes
`mvd`; other layers: the call for the contained option.  The bytes of the nested option afterwards are returned. -/
def Prog.flattenMove (P : Prog Val) (r : Nat) (mvd : Bytes → Bytes) : Ty → Bytes → M World Bytes
  | .option a, bs =>
    if a.hasValue P.pw bs then do
      M.check (a.hasValue P.pw bs)
      let b ← (if a.isOption then Prog.flattenMove P r mvd a (a.payload P.pw bs)
        else do
          P.ctorValue r (.move ((P.elem r).decode (a.payload P.pw bs)))
          pure (if (P.elem r).trivMoveCtor then a.payload P.pw bs else mvd (a.payload P.pw bs)))
      pure (wr bs 0 b)
    else do
      P.ctorDefault r
      pure bs
  | _, _ => M.bad -- does not compile

/-- `flatten` of an lvalue (option.hpp 3406-3414): the result is `option<A&>`, a pointer (`none`: null).  The contained
object of an option at address `p` is at address `p` too (first member of the union at offset 0).  When the innermost option
is an `option<X&>` (2285-2329) the result is one too, also for an rvalue: its pointer, null when it is empty. -/
def flattenRef (pw : Nat) (p : Nat) : Ty → Bytes → Res (Option Nat)
  | .option a, bs =>
    if a.hasValue pw bs then
      verifyThen (a.hasValue pw bs)
        (if a.isOption then flattenRef pw p a (a.payload pw bs) else .ok (some p))
    else .ok none
  | .optionRef, bs => .ok (if ld pw bs 0 ≠ 0 then some (ld pw bs 0).toNat else none)
  | _, _ => .ub -- does not compile

end Opt
