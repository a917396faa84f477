import Verif.Model.History

/-!
# Client programs that look at results, and callables that use the options themselves

In `Model/Machine` and `Model/Api` a callable is a function of the contained value that leaves everything but this value alone.
Here a callable is a program of its own: it may use any option, also the one it was called for, look at what it gets and go on
accordingly, call operations with callables again, and throw or not.  The whole client is such a program too.
-/

namespace Opt

/-- what a program returns -/
inductive Want where
  | unit
  | bool
  | val
  | opt
  deriving DecidableEq

/-- the type of what it returns; an option is returned as what it contains -/
abbrev Want.Res (Val : Type) : Want → Type
  | .unit => Unit
  | .bool => Bool
  | .val => Val
  | .opt => Option Val

mutual
/-- client code with a result -/
inductive Code (Val : Type) : Want → Type where
  /-- `return x;` -/
  | ret {t : Want} (x : t.Res Val) : Code Val t
  /-- `throw`; also used to pass on an exception -/
  | fail {t : Want} : Code Val t
  /-- an operation whose callables, if any, are the simple ones; `k` gets the result, or that it threw -/
  | op {t : Want} (o : Op Val) (k : Ret Val → Code Val t) : Code Val t
  /-- an operation with a callable that is code -/
  | call {t : Want} (c : COp Val) (k : Ret Val → Code Val t) : Code Val t
  /-- look at the contained object of `i` through a reference to it -/
  | look {t : Want} (i : Nat) (k : Val → Code Val t) : Code Val t
  /-- change the contained object of `i` through a reference to it -/
  | write {t : Want} (i : Nat) (v : Val) (k : Code Val t) : Code Val t
/-- operations with a callable that is code -/
inductive COp (Val : Type) : Type where
  | takeIf (i r : Nat) (f : Val → Code Val .bool) : COp Val
  | hasValueAnd (i : Nat) (f : Val → Code Val .bool) : COp Val
  | inspect (i : Nat) (f : Val → Code Val .unit) : COp Val
  | forEach (i : Nat) (f : Val → Code Val .unit) : COp Val
  | mapOr (i : Nat) (d : Val) (f : Val → Code Val .val) : COp Val
  | mapOrElse (i : Nat) (d : Code Val .val) (f : Val → Code Val .val) : COp Val
  | map (i r : Nat) (f : Val → Code Val .val) : COp Val
  | andThen (i r : Nat) (f : Val → Code Val .opt) : COp Val
  | orElse (i r : Nat) (mv : Bool) (d : Code Val .opt) : COp Val
  | filter (i r : Nat) (mv : Bool) (f : Val → Code Val .bool) : COp Val
  | zipWith (is : List Nat) (r : Nat) (f : List Val → Code Val .val) : COp Val
end

namespace Prog

variable {Val : Type} (P : Prog Val)

/-- `get()` and the call of the callable with the result; the callable sees the value -/
def enter (i : Nat) : M World Val := do
  P.getCheck i
  let v ← P.readT i
  let _ ← P.userOp (.call i true) (.call i true)
  pure v

/-- the call of a callable without argument -/
def enter0 : M World Unit := do
  let _ ← P.userOp (.call0 true) (.call0 true)
  pure ()

/-- `take_if` (3042-3048) -/
def takeIfBy (i r : Nat) (f : Val → M World Bool) : M World Unit := do
  let h ← P.hasValue i
  if h then do
    let v ← P.enter i
    let b ← f v
    if b then P.take i r else P.ctorDefault r
  else P.ctorDefault r

/-- `has_value_and` (2607-2613) -/
def hasValueAndBy (i : Nat) (f : Val → M World Bool) : M World Bool := do
  let h ← P.hasValue i
  if h then do
    let v ← P.enter i
    f v
  else pure false

/-- `inspect` (2615-2621) -/
def inspectBy (i : Nat) (f : Val → M World Unit) : M World Unit := do
  let h ← P.hasValue i
  if h then do
    let v ← P.enter i
    f v
  else pure ()

/-- `for (; it != end; ++it) f(*it);` as in `forLoop`: the iterators are pointers that were computed before the loop -/
def forLoopBy (f : Val → M World Unit) : (fuel : Nat) → (it end_ : Ptr) → M World Unit
  | 0, _, _ => M.bad
  | fuel + 1, it, e =>
    if Iter.ne it e then do
      let (a, _) ← liftRes (Iter.deref single it)
      let v ← P.readT a
      let _ ← P.userOp (.call a true) (.call a true)
      f v
      let it' ← liftRes (Iter.inc single it)
      forLoopBy f fuel it' e
    else pure ()

/-- `for (auto& x : o) f(x);` (2979-2994) -/
def forEachBy (i : Nat) (f : Val → M World Unit) : M World Unit := do
  let b ← P.begin_ i
  let e ← P.end_ i
  P.forLoopBy f 2 b e

/-- `map_or` (2571-2576) -/
def mapOrBy (i : Nat) (d : Val) (f : Val → M World Val) : M World Val := do
  let h ← P.hasValue i
  if h then do
    let v ← P.enter i
    f v
  else do
    let (_, thr) ← P.userOp (.tmpCtor .args true) (.tmpCtor .args false)
    if thr then M.raise else pure d

/-- `map_or_else` (2579-2588) -/
def mapOrElseBy (i : Nat) (d : M World Val) (f : Val → M World Val) : M World Val := do
  let h ← P.hasValue i
  if h then do
    let v ← P.enter i
    f v
  else do
    P.enter0
    d

/-- `map` (2561-2568).  Simplification: the result object at `r` comes into being when the callable has returned, in the code its
storage exists before; nobody can use it there. -/
def mapBy (i r : Nat) (f : Val → M World Val) : M World Unit := do
  let h ← P.hasValue i
  if h then do
    let v ← P.enter i
    let b ← f v
    P.newObj r
    M.onThrow (P.constructInPlace r (.args b)) (delObj r)
    if (P.elem r).sent P.pw then do
      let h ← P.hasValue r
      M.check h
    else P.setFlag r true
  else P.ctorDefault r

/-- `and_then` (2550-2559) -/
def andThenBy (i r : Nat) (f : Val → M World (Option Val)) : M World Unit := do
  let h ← P.hasValue i
  if h then do
    let v ← P.enter i
    let x ← f v
    P.makeOption r x
  else P.ctorDefault r

/-- `or_else` (2590-2599) -/
def orElseBy (i r : Nat) (mv : Bool) (d : M World (Option Val)) : M World Unit := do
  let h ← P.hasValue i
  if h then P.ctorFrom r i mv
  else do
    P.enter0
    let y ← d
    P.makeOption r y

/-- `filter` (2623-2629): `get()` is called again after the predicate -/
def filterBy (i r : Nat) (mv : Bool) (f : Val → M World Bool) : M World Unit := do
  let h ← P.hasValue i
  if h then do
    let v ← P.enter i
    let b ← f v
    if b then do
      P.getCheck i
      P.ctorArg r (.opt i mv)
    else P.ctorDefault r
  else P.ctorDefault r

/-- `zip_with` (3356-3372), result not `void` -/
def zipWithBy (is : List Nat) (r : Nat) (f : List Val → M World Val) : M World Unit := do
  let h ← P.allHave (is.map (·, false))
  if h then do
    let vs ← P.zipArgs is
    P.enter0
    let b ← f vs
    M.onThrow (P.ctorArg r (.move b)) (P.dropTmp r)
    P.dropTmp r
  else P.ctorDefault r

mutual
/-- run client code.  An exception that leaves an operation is caught by the code around it, which may throw it on (`fail`). -/
def runCode : {t : Want} → Code Val t → M World (t.Res Val)
  | _, .ret x => pure x
  | _, .fail => M.raise
  | _, .op o k => do
    let r ← catch_ (P.runOp o)
    runCode (k r)
  | _, .call c k => do
    let r ← catch_ (runCOp c)
    runCode (k r)
  | _, .look i k => do
    let v ← P.readT i
    runCode (k v)
  | _, .write i v k => do
    let n ← now
    P.writeT i n v
    runCode k
/-- run an operation with a callable that is code -/
def runCOp : COp Val → M World (Ret Val)
  | .takeIf i r f => asRet (fun _ => .unit) (P.takeIfBy i r fun v => runCode (f v))
  | .hasValueAnd i f => asRet .bool (P.hasValueAndBy i fun v => runCode (f v))
  | .inspect i f => asRet (fun _ => .unit) (P.inspectBy i fun v => runCode (f v))
  | .forEach i f => asRet (fun _ => .unit) (P.forEachBy i fun v => runCode (f v))
  | .mapOr i d f => asRet .val (P.mapOrBy i d fun v => runCode (f v))
  | .mapOrElse i d f => asRet .val (P.mapOrElseBy i (runCode d) fun v => runCode (f v))
  | .map i r f => asRet (fun _ => .unit) (P.mapBy i r fun v => runCode (f v))
  | .andThen i r f => asRet (fun _ => .unit) (P.andThenBy i r fun v => runCode (f v))
  | .orElse i r mv d => asRet (fun _ => .unit) (P.orElseBy i r mv (runCode d))
  | .filter i r mv f => asRet (fun _ => .unit) (P.filterBy i r mv fun v => runCode (f v))
  | .zipWith is r f => asRet (fun _ => .unit) (P.zipWithBy is r fun vs => runCode (f vs))
end

end Prog

end Opt
