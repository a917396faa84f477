import Verif.Model.History

/-!
# Options of references to the values inside other options (option.hpp 2285-2329, 2537-2645, 2874-2977, 3018-3218, 3836-3895)

A program has options of values, `option<T>`, and options of references, `option<T&>`, that refer to the values contained in the
former: `option<T&> r{*o}`.  An option of a reference is one pointer.  The pointer is the address of the contained `T`, it does not
know of the option around it: no use of `r` looks at the flag or the level of `o`.

The functions here are the instances of the library's functions for `option<T&>`: `has_value()` compares the pointer with null, `get()`
checks that and gives the object, and then the object is used in place (`readT`, `writeT`: undefined when no object lives there).

Model/RefOption has the same functions on a memory of plain objects.  Simplification: only lvalue references without `const`; what
`map` and `and_then` return are options of values.
-/

namespace Opt

/-- the options of values; for each option of a reference the option in which its object lives, or null -/
structure XWorld where
  opts : World
  ptr : Nat → Option Nat

/-- what can be done with the referenced object through an `option<T&>` -/
inductive Use (Val : Type) where
  | get
  | getUnchecked
  | valueOrThrow
  | hasValueAnd (f : Prog.Fn Val Bool)
  | inspect (f : Prog.Fn Val Unit)
  | mapOr (d : Val) (f : Prog.Fn Val Val)
  | mapOrElse (d : Val) (f : Prog.Fn Val Val)
  | map (r : Nat) (f : Prog.Fn Val Val)
  | andThen (r : Nat) (f : Prog.Fn Val (Option Val))
  | cmpVal (o : CmpOp) (rel : CmpOp → Val → Val → Bool) (v : Val)
  | valCmp (o : CmpOp) (rel : CmpOp → Val → Val → Bool) (v : Val)
  /-- `option<T> x{r};`, `mv`: from an rvalue -/
  | copyTo (i : Nat) (mv : Bool)
  /-- `x = r;` for an `option<T> x` -/
  | assignTo (i : Nat) (mv : Bool)

/-- an operation of a program with both kinds of options -/
inductive XOp (Val : Type) where
  /-- an operation on options of values -/
  | val (op : Op Val)
  /-- `option<T&> r{*o}`, `r = *o`, `r.emplace(*o)` -/
  | bind (k i : Nat)
  /-- `r.try_emplace(*o)` -/
  | tryBind (k i : Nat)
  /-- `r = from_nullable(o.ptr_or_null())` -/
  | bindPtr (k i : Nat)
  /-- `option<T&> r`, `r.reset()`, `r = none` -/
  | drop (k : Nat)
  /-- copy and move, construction and assignment -/
  | copy (k l : Nat)
  /-- `l = k.take()` -/
  | take (k l : Nat)
  | swap (k l : Nat)
  | hasValue (k : Nat)
  /-- `l = k.filter(f)` -/
  | filter (k l : Nat) (f : Prog.Fn Val Bool)
  /-- `l = k.take_if(f)` -/
  | takeIf (k l : Nat) (f : Prog.Fn Val Bool)
  /-- `l = k.or_else(f)`, the callable returning `m` -/
  | orElse (k l m : Nat)
  /-- `k op l` -/
  | cmp (o : CmpOp) (rel : CmpOp → Val → Val → Bool) (k l : Nat)
  | via (k : Nat) (u : Use Val)

namespace Alias

variable {Val α β : Type} (P : Prog Val)

/-- a computation on the options of values -/
def lift (x : M World α) : M XWorld α := fun s =>
  match x s.opts with
  | .ok a w => .ok a ⟨w, s.ptr⟩
  | .throw w => .throw ⟨w, s.ptr⟩
  | .verify => .verify
  | .ub => .ub

/-- the pointer of an option -/
def load (k : Nat) : M XWorld (Option Nat) := fun s => .ok (s.ptr k) s

/-- assign the pointer of an option -/
def store (k : Nat) (p : Option Nat) : M XWorld Unit := fun s => .ok () ⟨s.opts, upd s.ptr k p⟩

/-- `has_value()` (2319-2321): is the pointer not null -/
def hasValue (k : Nat) : M XWorld Bool := do
  let p ← load k
  pure p.isSome

/-- dereference a pointer -/
def star : Option Nat → M XWorld Nat
  | some j => pure j
  | none => M.bad

/-- `get()`, `*r`, `->` (3059-3124): the check, then the object -/
def place (k : Nat) : M XWorld Nat := do
  let h ← hasValue k
  M.check h
  let p ← load k
  star p

/-- `get_unchecked()` (3126-3157): for a reference it checks too -/
def placeUnchecked (k : Nat) : M XWorld Nat := do
  let p ← load k
  M.check p.isSome
  star p

/-- `invoke(f, x)` for the object `x` in option `j` (613-647) -/
def callAt (j : Nat) (f : Prog.Fn Val β) : M World β := do
  let v ← P.readT j
  let (n, thr) ← P.userOp (.call j true) (.call j false)
  if thr then do
    P.writeT j n (f.afterThrow v)
    M.raise
  else do
    P.writeT j n (f.after v)
    pure (f.ret v)

/-- the part of `map` (2561-2568) after the test: the contained value of the result is initialised by the call -/
def mapAt (j r : Nat) (f : Prog.Fn Val Val) : M World Unit := do
  P.newObj r
  M.onThrow
    (do
      let v ← callAt P j f
      P.constructInPlace r (.args v))
    (Prog.delObj r)
  if (P.elem r).sent P.pw then do
    let h ← P.hasValue r
    M.check h
  else P.setFlag r true

/-- converting assignment (2932-2977) from an engaged `option<T&>`: its `get()` is an lvalue, also when it is an rvalue itself -/
def assignAt (i j : Nat) : M World Unit := do
  let h ← P.hasValue i
  if h then do
    P.assignT i (.opt j false)
    P.getCheck i
  else P.construct i (.opt j false)

/-- the functions of `option<T&>` that use the object; `option<T&>` at `k` -/
def use (k : Nat) : Use Val → M XWorld (Ret Val)
  | .get => Prog.asRet .val do
    let j ← place k
    lift (P.readT j)
  | .getUnchecked => Prog.asRet .val do
    let j ← placeUnchecked k
    lift (P.readT j)
  | .valueOrThrow => Prog.asRet .val do
    let h ← hasValue k
    if !h then M.raise
    else do
      let j ← place k
      lift (P.readT j)
  | .hasValueAnd f => Prog.asRet .bool do
    let h ← hasValue k
    if h then do
      let j ← place k
      lift (callAt P j f)
    else pure false
  | .inspect f => Prog.asRet (fun _ => .unit) do
    let h ← hasValue k
    if h then do
      let j ← place k
      lift (callAt P j f)
    else pure ()
  | .mapOr d f => Prog.asRet .val do
    let h ← hasValue k
    if h then do
      let j ← place k
      lift (callAt P j f)
    else lift do
      let (_, thr) ← P.userOp (.tmpCtor .args true) (.tmpCtor .args false)
      if thr then M.raise else pure d
  | .mapOrElse d f => Prog.asRet .val do
    let h ← hasValue k
    if h then do
      let j ← place k
      lift (callAt P j f)
    else lift (P.call0 d)
  | .map r f => Prog.asRet (fun _ => .unit) do
    let h ← hasValue k
    if h then do
      let j ← place k
      lift (mapAt P j r f)
    else lift (P.ctorDefault r)
  | .andThen r f => Prog.asRet (fun _ => .unit) do
    let h ← hasValue k
    if h then do
      let j ← place k
      let x ← lift (callAt P j f)
      lift (P.makeOption r x)
    else lift (P.ctorDefault r)
  | .cmpVal o rel v => Prog.asRet .bool do
    let h ← hasValue k
    if h then do
      let j ← place k
      let a ← lift (P.readT j)
      lift (P.call0 (rel o a v))
    else pure (match o with
      | .eq => false
      | .ne => true
      | .lt => true
      | .le => true
      | .gt => false
      | .ge => false)
  | .valCmp o rel v => Prog.asRet .bool do
    let h ← hasValue k
    if h then do
      let j ← place k
      let b ← lift (P.readT j)
      lift (P.call0 (rel o v b))
    else pure (match o with
      | .eq => false
      | .ne => true
      | .lt => false
      | .le => false
      | .gt => true
      | .ge => true)
  | .copyTo i _ => Prog.asRet (fun _ => .unit) do
    -- 2874-2901: the base is empty first; when the body throws it is destroyed
    lift (P.ctorDefault i)
    M.onThrow
      (do
        let h ← hasValue k
        if h then do
          let j ← place k
          lift (P.construct i (.opt j false))
        else pure ())
      (lift (P.dtor i))
  | .assignTo i _ => Prog.asRet (fun _ => .unit) do
    let h ← hasValue k
    if h then do
      let j ← place k
      lift (assignAt P i j)
    else lift (P.reset i)

/-- `swap()` of two options of references (3252-3269) -/
def swap (k l : Nat) : M XWorld Unit := do
  let hk ← hasValue k
  let hl ← hasValue l
  if !hk && !hl then pure ()
  else if hk && hl then do
    let p ← load k
    let q ← load l
    store k q
    store l p
  else if hk then do
    let j ← place k
    store l (some j)
    store k none
  else do
    let j ← place l
    store k (some j)
    store l none

/-- one operation -/
def runOp : XOp Val → M XWorld (Ret Val)
  | .val op => lift (P.runOp op)
  | .bind k i => Prog.asRet (fun _ => .unit) do
    lift (P.getCheck i)
    store k (some i)
  | .tryBind k i => Prog.asRet (fun _ => .unit) do
    lift (P.getCheck i)
    let h ← hasValue k
    if !h then store k (some i) else pure ()
  | .bindPtr k i => Prog.asRet (fun _ => .unit) do
    -- 3213-3218, 3383-3390
    let h ← lift (P.hasValue i)
    if h then do
      lift (P.getCheck i)
      store k (some i)
    else store k none
  | .drop k => Prog.asRet (fun _ => .unit) (store k none)
  | .copy k l => Prog.asRet (fun _ => .unit) do
    let p ← load l
    store k p
  | .take k l => Prog.asRet (fun _ => .unit) do
    -- 3036-3040
    let tmp ← load k
    store k none
    store l tmp
  | .swap k l => Prog.asRet (fun _ => .unit) (swap k l)
  | .hasValue k => Prog.asRet .bool (hasValue k)
  | .filter k l f => Prog.asRet (fun _ => .unit) do
    -- 2624-2630
    let h ← hasValue k
    if h then do
      let j ← place k
      let b ← lift (callAt P j f)
      if b then do
        let j' ← place k
        store l (some j')
      else store l none
    else store l none
  | .takeIf k l f => Prog.asRet (fun _ => .unit) do
    -- 3042-3048
    let h ← hasValue k
    if h then do
      let j ← place k
      let b ← lift (callAt P j f)
      if b then do
        let tmp ← load k
        store k none
        store l tmp
      else store l none
    else store l none
  | .orElse k l m => Prog.asRet (fun _ => .unit) do
    -- 2591-2600
    let h ← hasValue k
    if h then do
      let p ← load k
      store l p
    else do
      let _ ← lift (P.call0 ())
      let p ← load m
      store l p
  | .cmp o rel k l => Prog.asRet .bool do
    -- 3738-3785
    let hk ← hasValue k
    let hl ← hasValue l
    if hk && hl then do
      let i ← place k
      let a ← lift (P.readT i)
      let j ← place l
      let b ← lift (P.readT j)
      lift (P.call0 (rel o a b))
    else pure (o.onBool hk hl)
  | .via k u => use P k u

/-- catch an exception -/
def catch_ (x : M XWorld (Ret Val)) : M XWorld (Ret Val) := fun s =>
  match x s with
  | .throw s' => .ok .threw s'
  | r => r

/-- a history -/
def run : List (XOp Val) → M XWorld (List (Ret Val))
  | [] => pure []
  | op :: ops => do
    let r ← catch_ (runOp P op)
    let rs ← run ops
    pure (r :: rs)

end Alias

end Opt
