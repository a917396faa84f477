import Verif.Spec.History

/-!
# How long a reference to the contained value stays good

`get()`, `*o`, `ptr_or_null()`, `begin()` and the lambdas of a client keep references, pointers and iterators to the contained object.  They are
good until that object is destroyed, or another one is constructed in its place.
-/

namespace Opt

namespace Op

variable {Val : Type}

/-- The options whose contained object ends with the operation, when the options have the values `m`: the option is destroyed, reset, emplaced
or taken, or it is assigned from or swapped with an empty one.  All other assignments and swaps change the value of the object in place. -/
def ends (m : Nat → Option (Option Val)) : Op Val → List Nat
  | .dtor i => [i]
  | .reset i => [i]
  | .emplace i _ => [i]
  | .take i _ => [i]
  | .takeIf i _ f => match m i with | some (some v) => if f.ret v then [i] else [] | _ => []
  | .assignFrom i j _ => match m j with | some none => [i] | _ => []
  | .swap i j => (match m j with | some none => [i] | _ => []) ++ (match m i with | some none => [j] | _ => [])
  | _ => []

/-- along a history that starts in state `a` no operation ends the contained object of `i` -/
def AllSpare (P : Prog Val) (i : Nat) : List (Op Val) → AState Val → Prop
  | [], _ => True
  | op :: ops, a => i ∉ op.ends a.mem ∧
    match Prog.catch_ (Spec.runOp P op) a with
    | .ok _ a' => AllSpare P i ops a'
    | _ => True

end Op

/-- No destructor ran for the contained object of `i`, and no constructor in its place.  (A scalar has no destructor, and is given a new value by a
conversion that writes to its place, which leaves references good.) -/
def Prog.Untouched {Val : Type} (P : Prog Val) (i : Nat) (evs : List Event) : Prop :=
  Event.dtor i ∉ evs ∧ ((P.elem i).scalar = false → ∀ k, Event.ctor i k ∉ evs ∧ Event.ctorFail i k ∉ evs)

end Opt
