import Verif.Model.Machine

/-!
# Lifetimes, judged from the calls of user code alone

An automaton reads the log of calls.  It knows which contained objects are alive and refuses a constructor call on a live
object and a destructor, assignment, swap or callback on one that is not alive.  Only objects whose destructor is not
trivial are tracked; for the others C++ neither calls destructors nor requires it.
-/

namespace Opt

/-- options whose contained objects have a destructor to call -/
def Prog.tracked {Val : Type} (P : Prog Val) (i : Nat) : Bool := !(P.elem i).trivDtor

namespace Life

/-- one event; `none` means a lifetime error -/
def step (tracked : Nat → Bool) (l : Nat → Bool) : Event → Option (Nat → Bool)
  | .ctor i _ => if tracked i then if l i then none else some (upd l i true) else some l
  | .ctorFail i _ => if tracked i && l i then none else some l
  | .dtor i => if l i then some (upd l i false) else none
  | .assign i _ _ => if tracked i && !l i then none else some l
  | .swap i j _ => if (tracked i && !l i) || (tracked j && !l j) then none else some l
  | .call i _ => if tracked i && !l i then none else some l
  | .call0 _ => some l
  | .tmpCtor _ _ => some l
  | .tmpDtor => some l

/-- a log, starting with the objects `l` alive -/
def runFrom (tracked : Nat → Bool) (l : Nat → Bool) (log : List Event) : Option (Nat → Bool) :=
  log.foldl (fun s e => s.bind (step tracked · e)) (some l)

/-- a log, starting with nothing alive -/
def run (tracked : Nat → Bool) (log : List Event) : Option (Nat → Bool) := runFrom tracked (fun _ => false) log

/-- constructor calls that completed for option `i` -/
def ctors (i : Nat) (log : List Event) : Nat := log.countP fun e => match e with | .ctor j _ => j == i | _ => false

/-- destructor calls for option `i` -/
def dtors (i : Nat) (log : List Event) : Nat := log.countP fun e => match e with | .dtor j => j == i | _ => false

end Life

end Opt
