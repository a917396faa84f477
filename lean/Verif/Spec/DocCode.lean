import Verif.Spec.View
import Verif.Model.Api

/-!
# The "code equivalents" of docs/reference.md

The reference manual describes operations by code that uses only `has_value()`, `get()`, `reset()`, operations of `T` and
`{construct}`, "a function that constructs contained object in place".  Here is that code, on the same machine.  `get()`
includes its check (option.hpp 3059-3094).
-/

namespace Opt.Doc

variable {Val : Type}

/-- Two runs agree: both complete with the same result, both throw, both fail a check or both are undefined, and in the
first two cases the client sees the same options and the same user code was called, in the same order. -/
def Agree {α : Type} (P : Prog Val) : Out World α → Out World α → Prop
  | .ok r w, .ok s v => r = s ∧ P.view w = P.view v ∧ w.env = v.env
  | .throw w, .throw v => P.view w = P.view v ∧ w.env = v.env
  | .verify, .verify => True
  | .ub, .ub => True
  | _, _ => False

variable (P : Prog Val)

/-- copy, move and converting constructors (docs/reference.md 53-58, 75-80, 167-172, 194-199): the object starts empty -/
def ctorFrom (i j : Nat) (mv : Bool) : M World Unit := do
  P.ctorDefault i
  M.onThrow
    (do
      let h ← P.hasValue j
      if h then do
        P.getCheck j
        P.construct i (.opt j mv)
      else pure ())
    (P.dtor i)

/-- copy, move and converting assignments (docs/reference.md 245-256, 278-289, 342-353, 380-391); the right operand is
evaluated first -/
def assignFrom (i j : Nat) (mv : Bool) : M World Unit := do
  let hj ← P.hasValue j
  if hj then do
    let hi ← P.hasValue i
    if hi then do
      P.getCheck j
      P.getCheck i
      P.assignT i (.opt j mv)
    else do
      P.getCheck j
      P.construct i (.opt j mv)
  else P.reset i

/-- `operator=(U&&)` (docs/reference.md 311-318), after the argument has been evaluated -/
def assignValue (i : Nat) (src : Src Val) : M World Unit := do
  P.evalArg src
  let h ← P.hasValue i
  if h then do
    P.getCheck i
    P.assignT i src
  else P.construct i src

/-- `swap` (docs/reference.md 1017-1032) -/
def swap (i j : Nat) : M World Unit := do
  let hi ← P.hasValue i
  let hj ← P.hasValue j
  if !hi && !hj then pure ()
  else if hi && hj then do
    P.getCheck i
    P.getCheck j
    P.swapT i j
  else if hi then do
    P.getCheck i
    P.construct j (.opt i true)
    P.reset i
  else do
    P.getCheck j
    P.construct i (.opt j true)
    P.reset j

/-- `map` (docs/reference.md 898-904), `return opt::option{fn(get())};`: the result of `fn` is a temporary that is moved
into the option and destroyed -/
def map (i r : Nat) (f : Prog.Fn Val Val) : M World Unit := do
  let h ← P.hasValue i
  if h then do
    let v ← P.callT i f
    let (_, thr) ← P.userOp (.tmpCtor .args true) (.tmpCtor .args false)
    if thr then M.raise
    else do
      M.onThrow (P.ctorArg r (.move v)) (Prog.note .tmpDtor)
      Prog.note .tmpDtor
  else P.ctorDefault r

end Opt.Doc
