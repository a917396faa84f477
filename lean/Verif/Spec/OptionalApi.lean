import Verif.Spec.Optional
import Verif.Spec.Order
import Verif.Model.Unzip

/-!
# The specification of observers, monadic operations and operators
-/

namespace Opt.Spec

variable {Val : Type} (P : Prog Val)

/-- a returned object: one constructor call unless it is trivial -/
def give (i : Nat) (src : Src Val) : M (AState Val) Val := do
  let v ← value P i src
  if (P.elem i).ctorTriv (P.kind i src) then pure v
  else do
    let (n, thr) ← user P (.tmpCtor (P.kind i src) true) (.tmpCtor (P.kind i src) false)
    movedFrom P thr n src
    if thr then M.raise else pure v

/-- a call without argument -/
def call0 {β : Type} (b : β) : M (AState Val) β := do
  let (_, thr) ← user P (.call0 true) (.call0 false)
  if thr then M.raise else pure b

/-- a new variable of a given value -/
def make (r : Nat) : Option Val → M (AState Val) Unit
  | some v => create P r (.args v)
  | none => new r

/-- is there a value -/
def engaged (i : Nat) : M (AState Val) Bool := do
  let x ← get i
  pure x.isSome

/-- the value, or the library's check fails -/
def getOrDie (i : Nat) : M (AState Val) Val := do
  match ← get i with
  | some v => pure v
  | none => M.check false *> M.bad

/-- the value, or an exception -/
def getOrThrow (i : Nat) : M (AState Val) Val := do
  match ← get i with
  | some v => pure v
  | none => M.raise

/-- the value or the fallback -/
def valueOr (i : Nat) (mv : Bool) (d : Src Val) : M (AState Val) Val := do
  evalArg d
  match ← get i with
  | some _ => give P i (.opt i mv)
  | none => give P i d

/-- the predicate holds of a value -/
def hasValueAnd (i : Nat) (f : Prog.Fn Val Bool) : M (AState Val) Bool := do
  match ← get i with
  | some _ => call P i f
  | none => pure false

/-- look at the value -/
def inspect (i : Nat) (f : Prog.Fn Val Unit) : M (AState Val) Unit := do
  match ← get i with
  | some _ => call P i f
  | none => pure ()

/-- the function's result or a default -/
def mapOr (i : Nat) (d : Val) (f : Prog.Fn Val Val) : M (AState Val) Val := do
  match ← get i with
  | some _ => call P i f
  | none => do
    let (_, thr) ← user P (.tmpCtor .args true) (.tmpCtor .args false)
    if thr then M.raise else pure d

/-- one of two functions -/
def mapOrElse (i : Nat) (d : Val) (f : Prog.Fn Val Val) : M (AState Val) Val := do
  match ← get i with
  | some _ => call P i f
  | none => call0 P d

/-- functor -/
def map (i r : Nat) (f : Prog.Fn Val Val) : M (AState Val) Unit := do
  match ← get i with
  | some _ => do
    new r
    M.onThrow
      (do
        let v ← call P i f
        initAs P false r (.args v))
      (del r)
  | none => new r

/-- monad -/
def andThen (i r : Nat) (f : Prog.Fn Val (Option Val)) : M (AState Val) Unit := do
  match ← get i with
  | some _ => do
    let x ← call P i f
    make P r x
  | none => new r

/-- alternative -/
def orElse (i r : Nat) (mv : Bool) (x : Option Val) : M (AState Val) Unit := do
  match ← get i with
  | some _ => ctorFrom P r i mv
  | none => do
    let y ← call0 P x
    make P r y

/-- keep the value if accepted -/
def filter (i r : Nat) (mv : Bool) (f : Prog.Fn Val Bool) : M (AState Val) Unit := do
  match ← get i with
  | some _ => do
    if ← call P i f then create P r (.opt i mv) else new r
  | none => new r

/-- first engaged -/
def orOp (i j r : Nat) (mi mj : Bool) : M (AState Val) Unit := do
  match ← get i with
  | some _ => ctorFrom P r i mi
  | none => ctorFrom P r j mj

/-- assign a value if empty -/
def orAssignValue (i : Nat) (src : Src Val) : M (AState Val) Unit := do
  evalArg src
  match ← get i with
  | some _ => pure ()
  | none => init P i src

/-- assign from an option if empty -/
def orAssignFrom (i j : Nat) (mv : Bool) : M (AState Val) Unit := do
  match ← get i with
  | some _ => pure ()
  | none => do
    match ← get j with
    | some _ => init P i (.opt j mv)
    | none => pure ()

/-- the right one if the left is engaged -/
def andOp (i j r : Nat) (mv : Bool) : M (AState Val) Unit := do
  match ← get i with
  | some _ => ctorFrom P r j mv
  | none => new r

/-- the only engaged one -/
def xorOp (i j r : Nat) (mi mj : Bool) : M (AState Val) Unit := do
  let x ← get i
  let y ← get j
  match x, y with
  | some _, none => ctorFrom P r i mi
  | none, some _ => ctorFrom P r j mj
  | _, _ => new r

/-- all engaged; the later ones need not exist after an empty one -/
def allHave : List (Nat × Bool) → M (AState Val) Bool
  | [] => pure true
  | (i, _) :: is => do
    match ← get i with
    | some _ => allHave is
    | none => pure false

/-- destructor of a temporary -/
def dropTmp (i : Nat) : M (AState Val) Unit := if (P.elem i).trivDtor then pure () else note .tmpDtor

/-- destructors of several temporaries -/
def dropTmps : List Nat → M (AState Val) Unit
  | [] => pure ()
  | i :: is => do
    dropTmp P i
    dropTmps is

/-- elements of a tuple, or none -/
def zipElems : List (Nat × Bool) → M (AState Val) (List Val)
  | [] => pure []
  | (i, mv) :: is => do
    let v ← give P i (.opt i mv)
    let vs ← M.onThrow (zipElems is) (dropTmp P i)
    pure (v :: vs)

/-- all values or nothing -/
def zip (is : List (Nat × Bool)) (r : Nat) (g : List Val → Val) : M (AState Val) Unit := do
  if ← allHave is then do
    let vs ← zipElems P is
    M.onThrow (create P r (.move (g vs))) (dropTmps P (is.map (·.1)).reverse)
    dropTmps P (is.map (·.1)).reverse
  else new r

/-- all values -/
def vals : List Nat → M (AState Val) (List Val)
  | [] => pure []
  | i :: is => do
    let v ← val i
    let vs ← vals is
    pure (v :: vs)

/-- a function of all values or nothing -/
def zipWith (is : List Nat) (r : Nat) (g : List Val → Val) : M (AState Val) Unit := do
  if ← allHave (is.map (·, false)) then do
    let vs ← vals is
    let b ← call0 P (g vs)
    M.onThrow (create P r (.move b)) (dropTmp P r)
    dropTmp P r
  else new r

/-- a call with all values or nothing -/
def zipWithVoid (is : List Nat) : M (AState Val) (Option (List Val)) := do
  if ← allHave (is.map (·, false)) then do
    let vs ← vals is
    call0 P (some vs)
  else pure none

/-- what is written -/
def ioWrite (i : Nat) (d : Option Val) : M (AState Val) (Option Val) := do
  match ← get i, d with
  | some v, _ => call0 P (some v)
  | none, some d => call0 P (some d)
  | none, none => pure none

/-- where a read value goes -/
def ioRead (i : Nat) (d v : Val) : M (AState Val) Val := do
  match ← get i with
  | some u => do
    let (_, thr) ← user P (.call i true) (.call i false)
    if thr then do
      put i (some u)
      M.raise
    else do
      put i (some v)
      pure d
  | none => call0 P v

/-- optional values compared; the operator of the values is called if there are two -/
def compare (o : CmpOp) (rel : CmpOp → Val → Val → Bool) (i j : Nat) : M (AState Val) Bool := do
  match ← get i, ← get j with
  | some a, some b => call0 P (rel o a b)
  | x, y => pure (below rel o x y)

/-- compared with no value -/
def compareNone (o : CmpOp) (i : Nat) : M (AState Val) Bool := do
  let x ← get i
  pure (below (fun _ _ _ => false) o x none)

/-- no value compared -/
def noneCompare (o : CmpOp) (i : Nat) : M (AState Val) Bool := do
  let x ← get i
  pure (below (fun _ _ _ => false) o none x)

/-- compared with a value -/
def compareVal (o : CmpOp) (rel : CmpOp → Val → Val → Bool) (i : Nat) (v : Val) : M (AState Val) Bool := do
  match ← get i with
  | some a => call0 P (rel o a v)
  | none => pure (below rel o none (some v))

/-- a value compared -/
def valCompare (o : CmpOp) (rel : CmpOp → Val → Val → Bool) (v : Val) (i : Nat) : M (AState Val) Bool := do
  match ← get i with
  | some b => call0 P (rel o v b)
  | none => pure (below rel o (some v) none)

/-- the hash of the value, or 0 -/
def hash (h : Val → U64) (i : Nat) : M (AState Val) U64 := do
  match ← get i with
  | some v => call0 P (h v)
  | none => pure 0

/-- the number of the next call -/
def clock : M (AState Val) Nat := fun a => .ok a.env.tick a

/-- element `k` of the tuple in `i` becomes the value of a new variable `r`; a move that is not trivial changes the element -/
def unzipPart (q : Parts Val) (i : Nat) (mv : Bool) (k r : Nat) : M (AState Val) Unit := do
  let v ← val i
  let n ← clock
  let left (f : Bool) : Val := if mv && !(P.elem r).ctorTriv .move then q.after f k n v else v
  M.onThrow (create P r (Prog.partSrc mv (q.part k v))) (put i (some (left true)))
  put i (some (left false))

/-- all of them, or none if one throws -/
def unzipParts (q : Parts Val) (i : Nat) (mv : Bool) : List (Nat × Nat) → M (AState Val) Unit
  | [] => pure ()
  | (k, r) :: rest => do
    unzipPart P q i mv k r
    M.onThrow (unzipParts q i mv rest) (destroy P r)

/-- new empty variables -/
def newAll : List Nat → M (AState Val) Unit
  | [] => pure ()
  | r :: rest => do
    new r
    newAll rest

/-- the elements of a tuple in new variables, or as many new empty ones -/
def unzipNew (q : Parts Val) (i : Nat) (mv : Bool) (rs : List Nat) : M (AState Val) Unit := do
  match ← get i with
  | some _ => unzipParts P q i mv (Prog.indexed rs)
  | none => newAll rs

/-- new variables moved from existing ones, all or none -/
def moveAll : List (Nat × Nat) → M (AState Val) Unit
  | [] => pure ()
  | (r, t) :: rest => do
    ctorFrom P r t true
    M.onThrow (moveAll rest) (destroy P r)

/-- all of them end -/
def destroyAll : List Nat → M (AState Val) Unit
  | [] => pure ()
  | t :: rest => do
    destroy P t
    destroyAll rest

/-- the same through temporaries -/
def unzipVia (q : Parts Val) (i : Nat) (mv : Bool) (ts : List Nat) (ms : List (Nat × Nat)) : M (AState Val) Unit := do
  unzipNew P q i mv ts
  M.onThrow (moveAll P ms) (destroyAll P ts.reverse)
  destroyAll P ts.reverse

end Opt.Spec
