import Verif.Model.History
import Verif.Model.Access

/-!
# Functions with `OPTION_PURE`, and the calls of user code in `at`, `at_front`, `at_back` (option.hpp 98-102, 3018-3218, 3498-3600, 3788-3834)

`OPTION_PURE` is `__attribute__((pure))`: the compiler may drop a call whose result is not used, merge two calls with nothing
between them that changes what they read, and move a call across other code that does not change what it reads.
-/

namespace Opt

/-- The operations that are `OPTION_PURE`, with the option they are applied to: `has_value` and the conversion to `bool` (3018-3025),
`get`, `operator*`, `operator->` (3060-3124), `get_unchecked` (3126-3157), `ptr_or_null` (3213-3218), comparisons with `none`
(3788-3834).  The attribute is on the functions that the others call, too (1938, 1986, 2041, 2099). -/
def Op.markedPure {Val : Type} : Op Val → Option Nat
  | .hasValue i => some i
  | .get i => some i
  | .getUnchecked i => some i
  | .ptrOrNull i => some i
  | .cmpNone _ i => some i
  | .noneCmp _ i => some i
  | _ => none

/-- A sequence container whose functions are user code that works on a state `σ`, may throw and may have effects.  `build` is the
construction of an element that the accessor returns by value in the result. -/
structure UserSeq (σ Val : Type) where
  size : M σ U64
  sub : Cat → U64 → M σ (Expr Val)
  front : Cat → M σ (Expr Val)
  back : Cat → M σ (Expr Val)
  build : M σ Unit

namespace UserSeq

variable {σ Val : Type} (s : UserSeq σ Val)

/-- `option<type>{static_cast<type>(e)}`: an option of a reference binds, an option of a value constructs -/
def result (c : Cat) (e : Expr Val) : M σ (Option (Got Val)) := do
  let g ← liftRes (wrap c e)
  match e with
  | .prvalue _ => do
    s.build
    pure (some g)
  | _ => pure (some g)

/-- `opt::at(container, index)` (3576-3582), `noexcept` and `OPTION_PURE` -/
def at_ (c : Cat) (n : U64) : M σ (Option (Got Val)) := do
  let k ← s.size
  if n ≥ k then pure none
  else do
    let e ← s.sub c n
    s.result c e

/-- `opt::at_front(container)` (3584-3591), `noexcept` and `OPTION_PURE` -/
def atFront (c : Cat) : M σ (Option (Got Val)) := do
  let k ← s.size
  if k = 0 then pure none
  else do
    let e ← s.front c
    s.result c e

/-- `opt::at_back(container)` (3593-3600), `noexcept` and `OPTION_PURE` -/
def atBack (c : Cat) : M σ (Option (Got Val)) := do
  let k ← s.size
  if k = 0 then pure none
  else do
    let e ← s.back c
    s.result c e

end UserSeq

/-- the containers of `Model/Access`: no effects, no exceptions -/
def Seq.toUser {Val : Type} (s : Seq Val) (σ : Type) : UserSeq σ Val where
  size := pure s.size
  sub := fun c n => liftRes (s.sub c n)
  front := fun c => liftRes (s.front c)
  back := fun c => liftRes (s.back c)
  build := pure ()

namespace RefOpt

variable {Val : Type}

/-- `construct` (2326-2329, `noexcept`) and the in-place constructor (2306-2308, `noexcept`) of an option of a reference with an argument
that user code converts to the reference, before `ref_to_ptr` (2293) is entered -/
def constructBy (i : Nat) (conv : M (Cells Val) Loc) : M (RWorld Val) Unit := do
  let r ← call0 conv
  construct i r

end RefOpt

end Opt
