import Verif.Model.RefOption
import Verif.Spec.Order

/-!
# What options of references should do

The state is which object each option refers to, and the objects.  Every operation is one line: what it does to the first,
what the callable does to the second, and what is returned.
-/

namespace Opt

/-- a pointer as an optional place -/
def Ptr.loc : Ptr → Option Loc
  | .null => none
  | .elem a p => some (a, p)

/-- for each option the object it refers to (or none), and the objects -/
structure RState (Val : Type) where
  ref : Nat → Option Loc
  mem : Cells Val

namespace RState

variable {Val : Type}

/-- option `i` now refers to `x` -/
def rebind (s : RState Val) (i : Nat) (x : Option Loc) : RState Val :=
  { s with ref := fun k => if k = i then x else s.ref k }

/-- what the client sees of a world: the pointers as optional places -/
def of (w : RWorld Val) : RState Val :=
  ⟨fun i => (w.ptr i).loc, w.cell⟩

/-- pass on what a callable did -/
def after {α : Type} (s : RState Val) (x : Out (Cells Val) α) (k : α → RState Val → Out (RState Val) RRet) :
    Out (RState Val) RRet :=
  match x with
  | .ok a c => k a { s with mem := c }
  | .throw c => .ok .threw { s with mem := c }
  | .verify => .verify
  | .ub => .ub

/-- the referenced object of a non-empty option; asking an empty one is the library's check -/
def must (s : RState Val) (i : Nat) (k : Loc → Out (RState Val) RRet) : Out (RState Val) RRet :=
  match s.ref i with
  | some r => k r
  | none => .verify

end RState

open RState in
/-- the specification of one operation -/
def ROp.spec {Val : Type} : ROp Val → RState Val → Out (RState Val) RRet
  | .ctorDefault i, s => .ok .unit (s.rebind i none)
  | .ctorRef i r, s => .ok .unit (s.rebind i (some r))
  | .ctorFrom i j, s => .ok .unit (s.rebind i (s.ref j))
  | .reset i, s => .ok .unit (s.rebind i none)
  | .assignFrom i j, s => .ok .unit (s.rebind i (s.ref j))
  | .assignRef i r, s => .ok .unit (s.rebind i (some r))
  | .assignConv i j up, s => .ok .unit (s.rebind i ((s.ref j).map up))
  | .emplace i r, s => .ok (.loc r) (s.rebind i (some r))
  | .tryEmplace i r, s => .ok (.loc ((s.ref i).getD r)) (s.rebind i (some ((s.ref i).getD r)))
  | .take i k, s => .ok .unit ((s.rebind i none).rebind k (s.ref i))
  | .takeIf i k f, s =>
    match s.ref i with
    | none => .ok .unit (s.rebind k none)
    | some r => s.after (f r s.mem) fun b t =>
      .ok .unit (if b then (t.rebind i none).rebind k (some r) else t.rebind k none)
  | .hasValue i, s => .ok (.bool (s.ref i).isSome) s
  | .get i, s => s.must i fun r => .ok (.loc r) s
  | .getUnchecked i, s => s.must i fun r => .ok (.loc r) s
  | .valueOrThrow i, s => match s.ref i with
    | some r => .ok (.loc r) s
    | none => .ok .threw s
  | .valueOr i d, s => .ok (.loc ((s.ref i).getD d)) s
  | .ptrOrNull i, s => match s.ref i with
    | some r => .ok (.ptr (.elem r.1 r.2)) s
    | none => .ok (.ptr .null) s
  | .hasValueAnd i f, s => match s.ref i with
    | some r => s.after (f r s.mem) fun b t => .ok (.bool b) t
    | none => .ok (.bool false) s
  | .inspect i f, s => match s.ref i with
    | some r => s.after (f r s.mem) fun _ t => .ok .unit t
    | none => .ok .unit s
  | .filter i k f, s => match s.ref i with
    | some r => s.after (f r s.mem) fun b t => .ok .unit (t.rebind k (if b then some r else none))
    | none => .ok .unit (s.rebind k none)
  | .map i k f, s => match s.ref i with
    | some r => s.after (f r s.mem) fun q t => .ok .unit (t.rebind k (some q))
    | none => .ok .unit (s.rebind k none)
  | .andThen i k f, s => match s.ref i with
    | some r => s.after (f r s.mem) fun x t => .ok .unit (t.rebind k x)
    | none => .ok .unit (s.rebind k none)
  | .orElse i k f, s => match s.ref i with
    | some r => .ok .unit (s.rebind k (some r))
    | none => s.after (f s.mem) fun x t => .ok .unit (t.rebind k x)
  | .swap i j, s => .ok .unit ((s.rebind i (s.ref j)).rebind j (s.ref i))
  | .fromNullable i p, s => .ok .unit (s.rebind i p.loc)
  | .cmp op rel i j, s => match s.ref i, s.ref j with
    | some r, some q => match s.mem r, s.mem q with
      | some a, some b => .ok (.bool (rel op a b)) s
      | _, _ => .ub
    | x, y => .ok (.bool (below (fun _ _ _ => false) op x y)) s
  | .writeThrough i v, s => s.must i fun r =>
    if (s.mem r).isSome then .ok .unit { s with mem := fun q => if q = r then some v else s.mem q } else .ub
  | .poke r v, s => .ok .unit { s with mem := fun q => if q = r then v else s.mem q }

/-- the specification of a history -/
def ROp.specAll {Val : Type} : List (ROp Val) → RState Val → Out (RState Val) (List RRet)
  | [], s => .ok [] s
  | o :: os, s => match o.spec s with
    | .ok r t => match specAll os t with
      | .ok rs u => .ok (r :: rs) u
      | .throw u => .throw u
      | .verify => .verify
      | .ub => .ub
    | .throw t => .throw t
    | .verify => .verify
    | .ub => .ub

/-- the same outcome, seen through `RState.of` -/
def Out.abs {Val α : Type} : Out (RWorld Val) α → Out (RState Val) α
  | .ok a w => .ok a (RState.of w)
  | .throw w => .throw (RState.of w)
  | .verify => .verify
  | .ub => .ub

/-- does the callable leave the memory alone, whatever it does -/
def Still {Val α : Type} (f : M (Cells Val) α) : Prop :=
  ∀ c, match f c with
    | .ok _ c' => c' = c
    | .throw c' => c' = c
    | _ => True

/-- the client itself does not write to the objects: no write through a reference, no creation or destruction, and the
callables passed in do not write either -/
def ROp.ReadOnly {Val : Type} : ROp Val → Prop
  | .takeIf _ _ f => ∀ r, Still (f r)
  | .hasValueAnd _ f => ∀ r, Still (f r)
  | .inspect _ f => ∀ r, Still (f r)
  | .filter _ _ f => ∀ r, Still (f r)
  | .map _ _ f => ∀ r, Still (f r)
  | .andThen _ _ f => ∀ r, Still (f r)
  | .orElse _ _ f => Still f
  | .writeThrough _ _ => False
  | .poke _ _ => False
  | _ => True

end Opt
