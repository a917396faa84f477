import Verif.Model.Machine

/-!
# The specification: variables of a mathematical optional type

A state gives each existing option variable a value of type `Option Val`.  There are no bytes, flags, levels or
lifetimes here; only the values, and the calls of user code an ideal optional would make (with the same
oracle for throws and moved-from values).  The outcome `ub` marks what a client must not do.
-/

namespace Opt

/-- values of all option variables -/
structure AState (Val : Type) where
  mem : Nat → Option (Option Val)
  env : Env

/-- Is a `T` that is put into an existing empty option `i` built as a temporary first?  (C++17, types that are trivially move
assignable but not trivially destructible: option.hpp 652-658.) -/
def Prog.viaTemp {Val : Type} (P : Prog Val) (i : Nat) : Bool :=
  !P.cxx20 && (P.elem i).trivMoveAssign && !(P.elem i).trivDtor

/-- the constructor call that gives option `i` a value, in place or (`t`) of a temporary -/
def Event.made (t : Bool) (i : Nat) (k : Kind) : Event := if t then .tmpCtor k true else .ctor i k

/-- the same when it throws -/
def Event.unmade (t : Bool) (i : Nat) (k : Kind) : Event := if t then .tmpCtor k false else .ctorFail i k

namespace Spec

variable {Val : Type} (P : Prog Val)

/-- the value of variable `i`; using a variable that does not exist is a client error -/
def get (i : Nat) : M (AState Val) (Option Val) := fun a =>
  match a.mem i with
  | some x => .ok x a
  | none => .ub

/-- change variable `i` -/
def put (i : Nat) (x : Option Val) : M (AState Val) Unit := fun a => .ok () { a with mem := upd a.mem i (some x) }

/-- a new variable, empty -/
def new (i : Nat) : M (AState Val) Unit := fun a =>
  match a.mem i with
  | some _ => .ub
  | none => .ok () { a with mem := upd a.mem i (some none) }

/-- end of the variable -/
def del (i : Nat) : M (AState Val) Unit := fun a => .ok () { a with mem := upd a.mem i none }

/-- a call of user code: its number and whether it throws -/
def user (okEv failEv : Event) : M (AState Val) (Nat × Bool) := fun a =>
  .ok (a.env.tick, P.throwsAt a.env.tick)
    { a with env := ⟨a.env.tick + 1, a.env.log ++ [if P.throwsAt a.env.tick then failEv else okEv]⟩ }

/-- a call of user code that does not throw -/
def note (e : Event) : M (AState Val) Unit := fun a => .ok () { a with env := { a.env with log := a.env.log ++ [e] } }

/-- the contained value; using it when there is none is a client error -/
def val (i : Nat) : M (AState Val) Val := do
  match ← get i with
  | some v => pure v
  | none => M.bad

/-- the contained value, guarded by the library's check -/
def checked (i : Nat) : M (AState Val) Unit := do
  let x ← get i
  M.check x.isSome

/-- the value of a source -/
def value (i : Nat) : Src Val → M (AState Val) Val
  | .args v => pure v
  | .copy v => pure v
  | .move v => pure v
  | .opt j _ => do
    let v ← val j
    pure (P.convFrom i j v)

/-- a source that was moved from keeps a moved-from value -/
def movedFrom (fail : Bool) (n : Nat) : Src Val → M (AState Val) Unit
  | .opt j true => do
    let v ← val j
    put j (some (P.moved fail j n v))
  | _ => pure ()

/-- The empty variable `i` gets a value (a scalar variable may also be overwritten).  One constructor call unless it
is trivial, in place or (`t`) of a temporary that is destroyed afterwards; if it throws the variable is unchanged. -/
def initAs (t : Bool) (i : Nat) (src : Src Val) : M (AState Val) Unit := do
  let x ← get i
  if (x.isSome || src.isSelf i) && !(P.elem i).scalar then M.bad
  else do
    let v ← value P i src
    if (P.elem i).ctorTriv (P.kind i src) then put i (some v)
    else do
      let (n, thr) ← user P (.made t i (P.kind i src)) (.unmade t i (P.kind i src))
      movedFrom P thr n src
      if thr then M.raise
      else do
        put i (some v)
        if t then note .tmpDtor else pure ()

/-- a value for an existing variable -/
def init (i : Nat) (src : Src Val) : M (AState Val) Unit := initAs P (P.viaTemp i) i src

/-- the contained value of `i` is assigned; if that throws the variable keeps some value -/
def assign (i : Nat) (src : Src Val) : M (AState Val) Unit := do
  let old ← val i
  let v ← value P i src
  if (P.elem i).assignTriv (P.kind i src) then put i (some v)
  else do
    let (n, thr) ← user P (.assign i (P.kind i src) true) (.assign i (P.kind i src) false)
    if thr then do
      movedFrom P true n src
      put i (some (P.broken i n old v))
      M.raise
    else if src.isSelf i then
      match src with
      | .opt _ true => put i (some (P.selfMoved i n old))
      | _ => put i (some old)
    else do
      movedFrom P false n src
      put i (some v)

/-- the contained value, if any, is destroyed -/
def clear (i : Nat) : M (AState Val) Unit := do
  match ← get i with
  | some _ => do
    if (P.elem i).trivDtor then pure () else note (.dtor i)
    put i none
  | none => pure ()

/-- the variable ends; its value, if any, is destroyed -/
def destroy (i : Nat) : M (AState Val) Unit := do
  clear P i
  del i

/-- a new variable with a value; if the constructor throws there is no variable -/
def create (i : Nat) (src : Src Val) : M (AState Val) Unit := do
  new i
  M.onThrow (initAs P false i src) (del i)

/-- a new empty variable that is then given a value -/
def createVia (i : Nat) (src : Src Val) : M (AState Val) Unit := do
  new i
  M.onThrow (init P i src) (del i)

/-- check an argument `*oj` -/
def evalArg : Src Val → M (AState Val) Unit
  | .opt j _ => checked j
  | _ => pure ()

/-- construction from a value -/
def ctorValue (i : Nat) (src : Src Val) : M (AState Val) Unit := do
  evalArg src
  create P i src

/-- construction from another option: the same state -/
def ctorFrom (i j : Nat) (mv : Bool) : M (AState Val) Unit := do
  match ← get j with
  | some _ => createVia P i (.opt j mv)
  | none => new i

/-- assignment from another option -/
def assignFrom (i j : Nat) (mv : Bool) : M (AState Val) Unit := do
  let _ ← get i
  match ← get j with
  | some _ => do
    match ← get i with
    | some _ => assign P i (.opt j mv)
    | none => init P i (.opt j mv)
  | none => clear P i

/-- assignment of a value -/
def assignValue (i : Nat) (src : Src Val) : M (AState Val) Unit := do
  evalArg src
  if (P.elem i).scalar then init P i src
  else do
    match ← get i with
    | some _ => assign P i src
    | none => init P i src

/-- `emplace` -/
def emplace (i : Nat) (src : Src Val) : M (AState Val) Unit := do
  evalArg src
  clear P i
  init P i src

/-- `try_emplace` -/
def tryEmplace (i : Nat) (src : Src Val) : M (AState Val) Unit := do
  evalArg src
  match ← get i with
  | some _ => pure ()
  | none => init P i src

/-- `swap` -/
def swap (i j : Nat) : M (AState Val) Unit := do
  let x ← get i
  let y ← get j
  match x, y with
  | none, none => pure ()
  | some vi, some vj => do
    let (n, thr) ← user P (.swap i j true) (.swap i j false)
    if thr then do
      put i (some (P.broken i n vi (P.convFrom i j vj)))
      put j (some (P.broken j n vj (P.convFrom j i vi)))
      M.raise
    else do
      put i (some (P.convFrom i j vj))
      put j (some (P.convFrom j i vi))
  | some _, none => do
    init P j (.opt i true)
    clear P i
  | none, some _ => do
    init P i (.opt j true)
    clear P j

/-- `take`: the result is the new variable `r` -/
def take (i r : Nat) : M (AState Val) Unit := do
  ctorFrom P r i true
  clear P i

/-- a callable applied to the contained value -/
def call {β : Type} (i : Nat) (f : Prog.Fn Val β) : M (AState Val) β := do
  checked i
  let v ← val i
  let (n, thr) ← user P (.call i true) (.call i false)
  let _ := n
  if thr then do
    put i (some (f.afterThrow v))
    M.raise
  else do
    put i (some (f.after v))
    pure (f.ret v)

/-- `take_if` -/
def takeIf (i r : Nat) (pred : Prog.Fn Val Bool) : M (AState Val) Unit := do
  match ← get i with
  | some _ => do
    if ← call P i pred then take P i r else new r
  | none => new r

end Spec

end Opt
