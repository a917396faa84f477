import Verif.Model.RefOption
import Verif.Spec.IterRange

/-!
# Client programs that use the iterators of an option (option.hpp 2404-2506)

Every statement of `IterStep` is carried out by the operator of `option_iterator` it calls.
-/

namespace Opt

namespace Iter

variable (len : Nat → Nat)

/-- assignment to an iterator variable: the implicit copy and move assignment of `option_iterator` (2404) -/
def setVar (s : Nat → Ptr) (x : Nat) (p : Ptr) : Nat → Ptr := fun y => if y = x then p else s y

/-- where an object is, counted from the object `b` points to; `none` if it is in another array or before `b` -/
def offset : Ptr → Nat × Nat → Option Nat
  | .null, _ => none
  | .elem a n, (a', m) => if a = a' ∧ n ≤ m then some (m - n) else none

/-- an observation of an object: outside of the range nothing is claimed -/
def look (b : Ptr) (f : Nat → IterObs) (x : Nat × Nat) : Res (List IterObs) :=
  match offset b x with
  | some n => .ok [f n]
  | none => .ub

/-- one statement, by the operators of `option_iterator` (2426-2506); `b` and `e` are what `begin()` and `end()` return -/
def step (b e : Ptr) (s : Nat → Ptr) : IterStep → Res ((Nat → Ptr) × List IterObs)
  | .begin_ x => .ok (setVar s x b, [])
  | .end_ x => .ok (setVar s x e, [])
  | .copy x y => .ok (setVar s x (s y), [])
  | .inc x => (inc len (s x)).map fun q => (setVar s x q, [])
  | .dec x => (dec len (s x)).map fun q => (setVar s x q, [])
  | .postInc x y => (postInc len (s y)).map fun r => (setVar (setVar s y r.2) x r.1, [])
  | .postDec x y => (postDec len (s y)).map fun r => (setVar (setVar s y r.2) x r.1, [])
  | .plus x y n => (add len n (s y)).map fun q => (setVar s x q, [])
  | .minus x y n => (sub len n (s y)).map fun q => (setVar s x q, [])
  | .diff x y => (diff (s x) (s y)).map fun n => (s, [.int n])
  | .deref x => (deref len (s x)).bind fun r => (look b .elem r).map fun o => (s, o)
  | .arrow x => (arrow (s x)).bind fun q =>
    match q with
    | .null => .ub
    | .elem a n => (look b .addr (a, n)).map fun o => (s, o)
  | .index x n => (index len n (s x)).bind fun r => (look b .elem r).map fun o => (s, o)
  | .eq x y => .ok (s, [.bool (eq (s x) (s y))])
  | .ne x y => .ok (s, [.bool (ne (s x) (s y))])
  | .lt x y => (lt (s x) (s y)).map fun c => (s, [.bool c])
  | .gt x y => (gt (s x) (s y)).map fun c => (s, [.bool c])
  | .le x y => (le (s x) (s y)).map fun c => (s, [.bool c])
  | .ge x y => (ge (s x) (s y)).map fun c => (s, [.bool c])

/-- a client program on the range from `b` to `e` -/
def exec (b e : Ptr) : List IterStep → (Nat → Ptr) → Res (List IterObs)
  | [], _ => .ok []
  | t :: ts, s => (step len b e s t).bind fun r => (exec b e ts r.1).map fun os => r.2 ++ os

end Iter

/-- an option as a range: `begin()` and `end()` once, then the program on iterator variables that start out
value-initialised -/
def Prog.iterate {Val : Type} (P : Prog Val) (i : Nat) (ts : List IterStep) : M World (List IterObs) := do
  let b ← P.begin_ i
  let e ← P.end_ i
  liftRes (Iter.exec Prog.single b e ts (fun _ => .null))

/-- the same for an option of a reference, whose object may be an element of an array -/
def RefOpt.iterate {Val : Type} (len : Nat → Nat) (i : Nat) (ts : List IterStep) : M (RWorld Val) (List IterObs) := do
  let b ← RefOpt.begin_ i
  let e ← RefOpt.end_ len i
  liftRes (Iter.exec len b e ts (fun _ => .null))

end Opt
