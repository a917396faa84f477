import Verif.Spec.View

/-!
# Pieces of what observers and operators do to the view and to the log
-/

namespace Opt.Prog

variable {Val : Type}

/-- the constructor call of a returned `T`, unless it is trivial -/
def giveEvs (P : Prog Val) (i : Nat) (src : Src Val) : List Event :=
  if (P.elem i).ctorTriv (P.kind i src) then [] else [.tmpCtor (P.kind i src) true]

/-- the constructor call in an option that user code returns -/
def makeEvs (_ : Prog Val) (r : Nat) (x : Option Val) : List Event :=
  match x with
  | some _ => [.ctor r .args]
  | none => []

/-- the options `is` hold the values `vs`, in this order -/
def Holds (m : Nat → Option (Option Val)) : List Nat → List Val → Prop
  | [], [] => True
  | i :: is, v :: vs => m i = some (some v) ∧ Holds m is vs
  | _, _ => False

/-- the calls that make the elements of a tuple out of the options `is` (rvalues where the flag is set) -/
def zipEvs (P : Prog Val) (is : List (Nat × Bool)) : List Event := is.flatMap fun p => P.giveEvs p.1 (.opt p.1 p.2)

/-- the destructors of temporaries of the element types of the options `is`, those that are trivial left out -/
def tmpDropEvs (P : Prog Val) (is : List Nat) : List Event := is.flatMap fun i => if (P.elem i).trivDtor then [] else [.tmpDtor]

/-- what the options hold after that, the first call having number `n` -/
def zipLeaves (P : Prog Val) (n : Nat) (m : Nat → Option (Option Val)) : List (Nat × Bool) → Nat → Option (Option Val)
  | [] => m
  | (i, mv) :: is =>
    zipLeaves P (n + (P.giveEvs i (.opt i mv)).length) (P.ctorLeaves i (.opt i mv) n m) is

/-- an option given as an rvalue is not given again -/
def ZipOK (is : List (Nat × Bool)) : Prop := is.Pairwise fun p q => p.2 = true → q.1 ≠ p.1

/-- a callable that leaves its argument alone -/
def Fn.pure {β : Type} (f : Val → β) : Fn Val β := { ret := f, after := id, afterThrow := id }

/-- The operation completes; afterwards option `r` holds `y`, every other option holds what it held before, and the
invariant holds. -/
def Yields (P : Prog Val) (w : World) (x : Out World Unit) (r : Nat) (y : Option Val) : Prop :=
  ∃ w', x = .ok () w' ∧ P.Inv w' ∧ P.view w' = upd (P.view w) r (some y)

end Opt.Prog
