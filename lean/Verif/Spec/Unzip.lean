import Verif.Model.Unzip
import Verif.Spec.View
import Verif.Spec.ProgOK

/-!
# What `unzip` is to do
-/

namespace Opt

variable {Val : Type}

/-- Moving from one element of a tuple leaves the other elements alone. -/
def Parts.Apart (q : Parts Val) : Prop := ∀ f k j n v, k ≠ j → q.part k (q.after f j n v) = q.part k v

/-- elements of live tuples are live, and a tuple is live after one of its elements was moved from; element `k` is given to
option `r` for `(k, r)` in `ps` -/
def Parts.Legal (q : Parts Val) (P : Prog Val) (i : Nat) (ps : List (Nat × Nat)) : Prop :=
  ∀ v, (P.elem i).Dom P.pw v → ∀ p ∈ ps, (P.elem p.2).Dom P.pw (q.part p.1 v) ∧
    ∀ f n, (P.elem i).Dom P.pw (q.after f p.1 n v)

namespace Prog

/-- the constructor used for an element of an lvalue or rvalue tuple -/
def partKind (mv : Bool) : Kind := if mv then .move else .copy

/-- the constructor calls that make the element options -/
def partEvs (P : Prog Val) (mv : Bool) (rs : List Nat) : List Event :=
  rs.flatMap fun r => if (P.elem r).ctorTriv (partKind mv) then [] else [.ctor r (partKind mv)]

/-- what is left of the tuple, the first call having number `n` -/
def tupleLeft (P : Prog Val) (q : Parts Val) (mv : Bool) : Nat → Val → List (Nat × Nat) → Val
  | _, v, [] => v
  | n, v, (k, r) :: ps =>
    if (P.elem r).ctorTriv (partKind mv) then tupleLeft P q mv n v ps
    else tupleLeft P q mv (n + 1) (if mv then q.after false k n v else v) ps

/-- the destructor calls for engaged options `rs` -/
def dropEvs (P : Prog Val) (rs : List Nat) : List Event := rs.flatMap fun r => if P.tracked r then [.dtor r] else []

/-- the constructor calls for moving engaged options -/
def moveEvs (P : Prog Val) (ms : List (Nat × Nat)) : List Event := ms.flatMap fun p => P.buildEvs p.1 (.opt p.2 true)

/-- none of the next `k` calls throws -/
def Quiet (P : Prog Val) (n k : Nat) : Prop := ∀ m, n ≤ m → m < n + k → P.throwsAt m = false

end Prog

end Opt
