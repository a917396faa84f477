import Verif.Model.Iter
import Verif.Model.Compare

/-!
# Options of references (option.hpp 2285-2329 and the reference branches of `class option`)

`option<T&>` and `option<T&&>` store one pointer.  The world consists of the pointers of all such options and of the
memory they point into.  A reference is the place of an object (array and position), it is never null; a place can be dead
(no object there), then using its value is undefined, but holding a reference to it is not.

Callables get the place and may read and write the memory (not the option being used), throw, or stop.

Simplification: `T` of one option and `U` of another one (converting assignment) differ by a function on places, the
conversion from derived to base.  Not modelled because not well-formed for references: the converting constructors (the
enabler names `constructor_is_explicit`, which `always_non_explicit` lacks, 2648-2651, 2874-2901) and the converting
assignment from an lvalue (2937 casts the referenced object to `option<U>&&`).
-/

namespace Opt

/-- the place of an object: array and position -/
abbrev Loc : Type := Nat × Nat

/-- the objects; `none`: no object lives here -/
abbrev Cells (Val : Type) : Type := Loc → Option Val

/-- the options of references and the memory they point into -/
structure RWorld (Val : Type) where
  ptr : Nat → Ptr
  cell : Cells Val

namespace RefOpt

variable {Val α : Type}

/-- `ref_to_ptr` (2293-2299), for a reference and for a `reference_wrapper` -/
def refToPtr (r : Loc) : Ptr := .elem r.1 r.2

/-- `*p`, as an lvalue -/
def star {σ : Type} : Ptr → M σ Loc
  | .null => M.bad
  | .elem a i => pure (a, i)

/-- the pointer of an option -/
def load (i : Nat) : M (RWorld Val) Ptr := fun w => .ok (w.ptr i) w

/-- assign the pointer of an option -/
def store (i : Nat) (p : Ptr) : M (RWorld Val) Unit := fun w => .ok () { w with ptr := upd w.ptr i p }

/-- the value of an object -/
def value (r : Loc) : M (RWorld Val) Val := fun w =>
  match w.cell r with
  | some v => .ok v w
  | none => .ub

/-- a callable on a place -/
abbrev RFn (Val α : Type) : Type := Loc → M (Cells Val) α

/-- call it -/
def call (f : RFn Val α) (r : Loc) : M (RWorld Val) α := fun w =>
  match f r w.cell with
  | .ok a c => .ok a { w with cell := c }
  | .throw c => .throw { w with cell := c }
  | .verify => .verify
  | .ub => .ub

/-- call a callable without argument -/
def call0 (f : M (Cells Val) α) : M (RWorld Val) α := fun w =>
  match f w.cell with
  | .ok a c => .ok a { w with cell := c }
  | .throw c => .throw { w with cell := c }
  | .verify => .verify
  | .ub => .ub

/-- `option()`, `option(none)` (2303-2304, 2832-2836) -/
def ctorDefault (i : Nat) : M (RWorld Val) Unit := store i .null

/-- `option(reference)`, `option(reference_wrapper)`, `option(in_place, reference)` (2306-2308, 2842-2865) -/
def ctorRef (i : Nat) (r : Loc) : M (RWorld Val) Unit := store i (refToPtr r)

/-- copy and move constructor (2838-2840): implicitly defaulted in 2285-2329, they copy the pointer -/
def ctorFrom (i j : Nat) : M (RWorld Val) Unit := do
  let p ← load j
  store i p

/-- the constructor from a call of `f` (2310-2317), for a callable that returns a reference -/
def ctorInvoke (i : Nat) (f : RFn Val Loc) (r : Loc) : M (RWorld Val) Unit := do
  let s ← call f r
  store i (refToPtr s)

/-- `has_value()` (2319-2321, 3018-3025) -/
def hasValue (i : Nat) : M (RWorld Val) Bool := do
  let p ← load i
  pure (p != .null)

/-- `reset()`, `operator=(none)` (2322-2324, 2903-2907, 2996-3000) -/
def reset (i : Nat) : M (RWorld Val) Unit := store i .null

/-- `construct` (2326-2329) -/
def construct (i : Nat) (r : Loc) : M (RWorld Val) Unit := store i (refToPtr r)

/-- copy and move assignment (2909-2911): implicitly defaulted in 2285-2329 -/
def assignFrom (i j : Nat) : M (RWorld Val) Unit := do
  let p ← load j
  store i p

/-- `operator=(reference)`, `operator=(reference_wrapper)` (2913-2918) -/
def assignRef (i : Nat) (r : Loc) : M (RWorld Val) Unit := store i (refToPtr r)

/-- `get()`, `operator*`, `operator->` (3059-3124): the place referred to -/
def get (i : Nat) : M (RWorld Val) Loc := do
  let h ← hasValue i
  M.check h
  let p ← load i
  star p

/-- converting assignment from an rvalue (2955-2977); `up` converts `U&` to `T&` -/
def assignConv (i j : Nat) (up : Loc → Loc) : M (RWorld Val) Unit := do
  let h ← hasValue j
  if h then do
    let r ← get j
    store i (refToPtr (up r))
  else reset i

/-- `emplace(reference)` (3002-3008) -/
def emplace (i : Nat) (r : Loc) : M (RWorld Val) Loc := do
  reset i
  construct i r
  get i

/-- `try_emplace(reference)` (3010-3016) -/
def tryEmplace (i : Nat) (r : Loc) : M (RWorld Val) Loc := do
  let h ← hasValue i
  if !h then construct i r
  get i

/-- `take()` (3036-3040), the result initialising `k` -/
def take (i k : Nat) : M (RWorld Val) Unit := do
  let tmp ← load i
  reset i
  store k tmp

/-- `take_if()` (3042-3048) -/
def takeIf (i k : Nat) (f : RFn Val Bool) : M (RWorld Val) Unit := do
  let h ← hasValue i
  if h then do
    let r ← get i
    let b ← call f r
    if b then take i k else ctorDefault k
  else ctorDefault k

/-- `get_unchecked()` (3126-3157) -/
def getUnchecked (i : Nat) : M (RWorld Val) Loc := do
  let p ← load i
  M.check (p != .null)
  star p

/-- `value_or_throw()`, `value()` (2602-2606, 3159-3167) -/
def valueOrThrow (i : Nat) : M (RWorld Val) Loc := do
  let h ← hasValue i
  if !h then M.raise
  else get i

/-- `value_or(default)` (3169-3184): `remove_cv_t<T>` is the reference type -/
def valueOr (i : Nat) (d : Loc) : M (RWorld Val) Loc := do
  let h ← hasValue i
  if h then get i else pure d

/-- `ptr_or_null()` (3213-3218) -/
def ptrOrNull (i : Nat) : M (RWorld Val) Ptr := do
  let h ← hasValue i
  if h then do
    let r ← get i
    pure (refToPtr r)
  else pure .null

/-- `has_value_and()` (2608-2614) -/
def hasValueAnd (i : Nat) (f : RFn Val Bool) : M (RWorld Val) Bool := do
  let h ← hasValue i
  if h then do
    let r ← get i
    call f r
  else pure false

/-- `inspect()` (2616-2622) -/
def inspect (i : Nat) (f : RFn Val Unit) : M (RWorld Val) Unit := do
  let h ← hasValue i
  if h then do
    let r ← get i
    call f r
  else pure ()

/-- `filter()` (2624-2630) -/
def filter (i k : Nat) (f : RFn Val Bool) : M (RWorld Val) Unit := do
  let h ← hasValue i
  if h then do
    let r ← get i
    let b ← call f r
    if b then do
      let r' ← get i
      ctorRef k r'
    else ctorDefault k
  else ctorDefault k

/-- `map()` with a callable that returns a reference (2563-2570) -/
def map (i k : Nat) (f : RFn Val Loc) : M (RWorld Val) Unit := do
  let h ← hasValue i
  if h then do
    let r ← get i
    ctorInvoke k f r
  else ctorDefault k

/-- `and_then()` with a callable that returns an option of a reference (2552-2561) -/
def andThen (i k : Nat) (f : RFn Val (Option Loc)) : M (RWorld Val) Unit := do
  let h ← hasValue i
  if h then do
    let r ← get i
    let x ← call f r
    match x with
    | some s => ctorRef k s
    | none => ctorDefault k
  else ctorDefault k

/-- `or_else()` (2591-2600) -/
def orElse (i k : Nat) (f : M (Cells Val) (Option Loc)) : M (RWorld Val) Unit := do
  let h ← hasValue i
  if h then ctorFrom k i
  else do
    let x ← call0 f
    match x with
    | some s => ctorRef k s
    | none => ctorDefault k

/-- `swap()` (3252-3269): with both engaged, `swap(base::value, other.base::value)` exchanges the pointers -/
def swap (i j : Nat) : M (RWorld Val) Unit := do
  let hi ← hasValue i
  let hj ← hasValue j
  if !hi && !hj then pure ()
  else if hi && hj then do
    let p ← load i
    let q ← load j
    store i q
    store j p
  else if hi then do
    let r ← get i
    construct j r
    reset i
  else do
    let r ← get j
    construct i r
    reset j

/-- `from_nullable(p)` (3383-3390), the result initialising `i` -/
def fromNullable (i : Nat) (p : Ptr) : M (RWorld Val) Unit :=
  if p = .null then ctorDefault i
  else do
    let r ← star p
    ctorRef i r

/-- `begin()` (2979-2986) -/
def begin_ (i : Nat) : M (RWorld Val) Ptr := do
  let h ← hasValue i
  if h then do
    let r ← get i
    pure (refToPtr r)
  else pure .null

/-- `end()` (2987-2994); `len` gives the array sizes -/
def end_ (len : Nat → Nat) (i : Nat) : M (RWorld Val) Ptr := do
  let h ← hasValue i
  if h then do
    let r ← get i
    liftRes (Iter.ptrAdd len r.1 r.2 1)
  else pure .null

/-- the relational operators (3738-3785): `get()` yields the referenced objects, so they compare values -/
def cmp (op : CmpOp) (rel : CmpOp → Val → Val → Bool) (i j : Nat) : M (RWorld Val) Bool := do
  let hi ← hasValue i
  let hj ← hasValue j
  if hi && hj then do
    let r ← get i
    let s ← get j
    let a ← value r
    let b ← value s
    pure (rel op a b)
  else pure (op.onBool hi hj)

/-- `std::hash<option<T&>>`, `std::hash<option<T&&>>` (4080-4093); `hp` is `std::hash<T*>` -/
def hash (hp : Ptr → U64) (i : Nat) : M (RWorld Val) U64 := do
  let p ← ptrOrNull i
  pure (hp p)

/-- `*o = v`: what the client writes, through the reference -/
def writeThrough (i : Nat) (v : Val) : M (RWorld Val) Unit := do
  let r ← get i
  let _ ← value r
  fun w => .ok () { w with cell := fun s => if s = r then some v else w.cell s }

/-- the client creates, overwrites or destroys an object -/
def poke (r : Loc) (v : Option Val) : M (RWorld Val) Unit := fun w =>
  .ok () { w with cell := fun s => if s = r then v else w.cell s }

end RefOpt

/-- the operations on options of references -/
inductive ROp (Val : Type) where
  | ctorDefault (i : Nat)
  | ctorRef (i : Nat) (r : Loc)
  | ctorFrom (i j : Nat)
  | reset (i : Nat)
  | assignFrom (i j : Nat)
  | assignRef (i : Nat) (r : Loc)
  | assignConv (i j : Nat) (up : Loc → Loc)
  | emplace (i : Nat) (r : Loc)
  | tryEmplace (i : Nat) (r : Loc)
  | take (i k : Nat)
  | takeIf (i k : Nat) (f : RefOpt.RFn Val Bool)
  | hasValue (i : Nat)
  | get (i : Nat)
  | getUnchecked (i : Nat)
  | valueOrThrow (i : Nat)
  | valueOr (i : Nat) (d : Loc)
  | ptrOrNull (i : Nat)
  | hasValueAnd (i : Nat) (f : RefOpt.RFn Val Bool)
  | inspect (i : Nat) (f : RefOpt.RFn Val Unit)
  | filter (i k : Nat) (f : RefOpt.RFn Val Bool)
  | map (i k : Nat) (f : RefOpt.RFn Val Loc)
  | andThen (i k : Nat) (f : RefOpt.RFn Val (Option Loc))
  | orElse (i k : Nat) (f : M (Cells Val) (Option Loc))
  | swap (i j : Nat)
  | fromNullable (i : Nat) (p : Ptr)
  | cmp (op : CmpOp) (rel : CmpOp → Val → Val → Bool) (i j : Nat)
  | writeThrough (i : Nat) (v : Val)
  | poke (r : Loc) (v : Option Val)

/-- what the client gets back -/
inductive RRet where
  | unit
  | bool (b : Bool)
  /-- a reference -/
  | loc (r : Loc)
  | ptr (p : Ptr)
  /-- an exception came out and was caught -/
  | threw
deriving DecidableEq

/-- the result of a computation, an exception counting as a result -/
def caughtAs {σ α β : Type} (g : α → β) (t : β) (x : M σ α) : M σ β := fun w =>
  match x w with
  | .ok a w' => .ok (g a) w'
  | .throw w' => .ok t w'
  | .verify => .verify
  | .ub => .ub

namespace ROp

variable {Val : Type}

open RefOpt in
/-- one operation of the library; exceptions are caught by the client -/
def run : ROp Val → M (RWorld Val) RRet
  | .ctorDefault i => caughtAs (fun _ => .unit) .threw (RefOpt.ctorDefault i)
  | .ctorRef i r => caughtAs (fun _ => .unit) .threw (RefOpt.ctorRef i r)
  | .ctorFrom i j => caughtAs (fun _ => .unit) .threw (RefOpt.ctorFrom i j)
  | .reset i => caughtAs (fun _ => .unit) .threw (RefOpt.reset i)
  | .assignFrom i j => caughtAs (fun _ => .unit) .threw (RefOpt.assignFrom i j)
  | .assignRef i r => caughtAs (fun _ => .unit) .threw (RefOpt.assignRef i r)
  | .assignConv i j up => caughtAs (fun _ => .unit) .threw (RefOpt.assignConv i j up)
  | .emplace i r => caughtAs .loc .threw (RefOpt.emplace i r)
  | .tryEmplace i r => caughtAs .loc .threw (RefOpt.tryEmplace i r)
  | .take i k => caughtAs (fun _ => .unit) .threw (RefOpt.take i k)
  | .takeIf i k f => caughtAs (fun _ => .unit) .threw (RefOpt.takeIf i k f)
  | .hasValue i => caughtAs .bool .threw (RefOpt.hasValue i)
  | .get i => caughtAs .loc .threw (RefOpt.get i)
  | .getUnchecked i => caughtAs .loc .threw (RefOpt.getUnchecked i)
  | .valueOrThrow i => caughtAs .loc .threw (RefOpt.valueOrThrow i)
  | .valueOr i d => caughtAs .loc .threw (RefOpt.valueOr i d)
  | .ptrOrNull i => caughtAs .ptr .threw (RefOpt.ptrOrNull i)
  | .hasValueAnd i f => caughtAs .bool .threw (RefOpt.hasValueAnd i f)
  | .inspect i f => caughtAs (fun _ => .unit) .threw (RefOpt.inspect i f)
  | .filter i k f => caughtAs (fun _ => .unit) .threw (RefOpt.filter i k f)
  | .map i k f => caughtAs (fun _ => .unit) .threw (RefOpt.map i k f)
  | .andThen i k f => caughtAs (fun _ => .unit) .threw (RefOpt.andThen i k f)
  | .orElse i k f => caughtAs (fun _ => .unit) .threw (RefOpt.orElse i k f)
  | .swap i j => caughtAs (fun _ => .unit) .threw (RefOpt.swap i j)
  | .fromNullable i p => caughtAs (fun _ => .unit) .threw (RefOpt.fromNullable i p)
  | .cmp op rel i j => caughtAs .bool .threw (RefOpt.cmp op rel i j)
  | .writeThrough i v => caughtAs (fun _ => .unit) .threw (RefOpt.writeThrough i v)
  | .poke r v => caughtAs (fun _ => .unit) .threw (RefOpt.poke r v)

/-- a whole history -/
def runAll : List (ROp Val) → M (RWorld Val) (List RRet)
  | [] => pure []
  | o :: os => do
    let r ← o.run
    let rs ← runAll os
    pure (r :: rs)

end ROp

end Opt
