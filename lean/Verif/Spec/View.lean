import Verif.Model.Machine
import Verif.Spec.Lifetime
import Verif.Spec.Values

/-!
# What a client sees of the option objects

The client sees, for each option object, `has_value()` and the contained value.  `Inv` is the invariant of the object
representations: what must hold between two operations.
-/

namespace Opt

variable {Val : Type}

namespace Prog

/-- the value of option `i` as the client sees it: no object, empty, or engaged with the abstract value of the bytes -/
def view (P : Prog Val) (w : World) (i : Nat) : Option (Option Val) :=
  (w.mem i).map fun o =>
    if (P.elem i).T.hasValue P.pw o.bytes then some ((P.elem i).decode (P.payload i o)) else none

/-- Representation invariant: the storage has the size of the option; a flag byte is a `bool`; an engaged option contains
a live object; an empty option of a type with non-trivial destructor contains none. -/
def Inv (P : Prog Val) (w : World) : Prop :=
  ∀ i o, w.mem i = some o →
    o.bytes.length = (Ty.option (P.elem i).T).size P.pw ∧
    ((P.elem i).sent P.pw = false →
      ld 8 o.bytes ((P.elem i).T.size P.pw) = 0 ∨ ld 8 o.bytes ((P.elem i).T.size P.pw) = 1) ∧
    ((P.elem i).T.hasValue P.pw o.bytes = true → o.alive = true ∧ (P.elem i).T.Valid P.pw (P.payload i o)) ∧
    ((P.elem i).T.hasValue P.pw o.bytes = false → (P.elem i).trivDtor = false → o.alive = false)

/-- no option objects, no calls yet -/
def start : World := ⟨fun _ => none, ⟨0, []⟩⟩

/-- is the event a call that takes a number (everything but destructors) -/
def _root_.Opt.Event.numbered : Event → Bool
  | .dtor _ => false
  | .tmpDtor => false
  | _ => true

/-- the environment after the calls `evs` -/
def _root_.Opt.Env.after (e : Env) (evs : List Event) : Env :=
  ⟨e.tick + (evs.filter Event.numbered).length, e.log ++ evs⟩

/-- The operation completes with result `r`; afterwards the client sees `m`, the invariant holds, and exactly the calls
`evs` of user code were made, in this order. -/
def Ends {α : Type} (P : Prog Val) (w : World) (x : Out World α) (r : α) (evs : List Event)
    (m : Nat → Option (Option Val)) : Prop :=
  ∃ w', x = .ok r w' ∧ P.Inv w' ∧ P.view w' = m ∧ w'.env = w.env.after evs

/-- The operation throws; afterwards the client sees `m`, the invariant holds, and exactly the calls `evs` of user code
were made, in this order. -/
def Throws {α : Type} (P : Prog Val) (w : World) (x : Out World α) (evs : List Event)
    (m : Nat → Option (Option Val)) : Prop :=
  ∃ w', x = .throw w' ∧ P.Inv w' ∧ P.view w' = m ∧ w'.env = w.env.after evs

/-! ## Pieces of what an operation does to the view and to the log -/

/-- the value a source gives to a `T` of option `i`, when the options hold `m` -/
def _root_.Opt.Src.gives (P : Prog Val) (m : Nat → Option (Option Val)) (i : Nat) : Src Val → Option Val
  | .args v => some v
  | .copy v => some v
  | .move v => some v
  | .opt j _ => (m j).join.map (P.convFrom i j)

/-- what the options hold after call `n` of user code has used the source: an rvalue is moved from -/
def _root_.Opt.Src.leaves (P : Prog Val) (fail : Bool) (n : Nat) (m : Nat → Option (Option Val)) :
    Src Val → Nat → Option (Option Val)
  | .opt j true => upd m j ((m j).map (Option.map (P.moved fail j n)))
  | _ => m

/-- call `n`, if it is the constructor of the contained object of `i`, does not throw -/
def CtorOK (P : Prog Val) (i : Nat) (src : Src Val) (n : Nat) : Prop :=
  (P.elem i).ctorTriv (P.kind i src) = true ∨ P.throwsAt n = false

/-- call `n` is the constructor of the contained object of `i` and throws -/
def CtorThrows (P : Prog Val) (i : Nat) (src : Src Val) (n : Nat) : Prop :=
  (P.elem i).ctorTriv (P.kind i src) = false ∧ P.throwsAt n = true

/-- call `n`, if it is the assignment of the contained object of `i`, does not throw -/
def AssignOK (P : Prog Val) (i : Nat) (src : Src Val) (n : Nat) : Prop :=
  (P.elem i).assignTriv (P.kind i src) = true ∨ P.throwsAt n = false

/-- call `n` is the assignment of the contained object of `i` and throws -/
def AssignThrows (P : Prog Val) (i : Nat) (src : Src Val) (n : Nat) : Prop :=
  (P.elem i).assignTriv (P.kind i src) = false ∧ P.throwsAt n = true

/-- the constructor call that makes the contained object of `i`, unless it is trivial -/
def ctorEvs (P : Prog Val) (i : Nat) (src : Src Val) : List Event :=
  if (P.elem i).ctorTriv (P.kind i src) then [] else [.ctor i (P.kind i src)]

/-- The calls that make the contained object of an existing option `i`, unless trivial: one constructor call, or (C++17, types
that are trivially move assignable but not trivially destructible) constructor and destructor of a temporary. -/
def buildEvs (P : Prog Val) (i : Nat) (src : Src Val) : List Event :=
  if (P.elem i).ctorTriv (P.kind i src) then []
  else if !P.cxx20 && (P.elem i).trivMoveAssign && !(P.elem i).trivDtor then [.tmpCtor (P.kind i src) true, .tmpDtor]
  else [.ctor i (P.kind i src)]

/-- the constructor call of `buildEvs` when it throws -/
def buildFail (P : Prog Val) (i : Nat) (src : Src Val) : Event :=
  if !P.cxx20 && (P.elem i).trivMoveAssign && !(P.elem i).trivDtor then .tmpCtor (P.kind i src) false
  else .ctorFail i (P.kind i src)

/-- what a constructor call (number `n`) leaves of its source; a trivial one copies bytes -/
def ctorLeaves (P : Prog Val) (i : Nat) (src : Src Val) (n : Nat) (m : Nat → Option (Option Val)) :
    Nat → Option (Option Val) :=
  if (P.elem i).ctorTriv (P.kind i src) then m else src.leaves P false n m

/-- the assignment of the contained object of `i`, unless it is trivial -/
def assignEvs (P : Prog Val) (i : Nat) (src : Src Val) : List Event :=
  if (P.elem i).assignTriv (P.kind i src) then [] else [.assign i (P.kind i src) true]

/-- what an assignment leaves of its source -/
def assignLeaves (P : Prog Val) (i : Nat) (src : Src Val) (n : Nat) (m : Nat → Option (Option Val)) :
    Nat → Option (Option Val) :=
  if (P.elem i).assignTriv (P.kind i src) then m else src.leaves P false n m

/-- the destructor call for the value `x` of option `i`, if there is a value and its destructor is not trivial -/
def dtorEvs (P : Prog Val) (i : Nat) (x : Option Val) : List Event :=
  if x.isSome && P.tracked i then [.dtor i] else []

end Prog

end Opt
