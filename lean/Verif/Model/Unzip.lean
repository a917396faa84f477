import Verif.Model.Machine

/-!
# `opt::unzip` (option.hpp 1797-1817, 3416-3439)

`option<tuple-like>` becomes a tuple-like of options.  The abstract value of the contained tuple has elements (`Parts`); the
element options are option objects of the machine.
-/

namespace Opt

/-- Elements of a tuple as an abstract value: `part k v` is the value of element `k`; `after fail k n v` is the value of the tuple
after call `n`, which moved from element `k` and completed or (`fail`) threw. -/
structure Parts (Val : Type) where
  part : Nat → Val → Val
  after : Bool → Nat → Nat → Val → Val

namespace Prog

variable {Val : Type} (P : Prog Val)

/-- the constructor argument `std::get<Idx>(self.get())`: an lvalue, or an xvalue when `self` is an rvalue -/
def partSrc (mv : Bool) (v : Val) : Src Val := if mv then .move v else .copy v

/-- `option<E>{std::get<k>(static_cast<Self&&>(self).get())}` (3422) initialising the object `r`.  A move that is not trivial
changes the element of the tuple in `i`. -/
def unzipElem (q : Parts Val) (i : Nat) (mv : Bool) (k r : Nat) : M World Unit := do
  P.getCheck i
  let v ← P.readT i
  let n ← now
  if mv && !(P.elem r).ctorTriv .move then do
    M.onThrow (P.ctorArg r (partSrc mv (q.part k v))) (P.writeT i n (q.after true k n v))
    P.writeT i n (q.after false k n v)
  else P.ctorArg r (partSrc mv (q.part k v))

/-- the braced list of 3421-3423, from left to right; if one throws, the earlier ones are destroyed in reverse order -/
def unzipElems (q : Parts Val) (i : Nat) (mv : Bool) : List (Nat × Nat) → M World Unit
  | [] => pure ()
  | (k, r) :: rest => do
    P.unzipElem q i mv k r
    M.onThrow (unzipElems q i mv rest) (P.dtor r)

/-- the braced list of 3425-3427 -/
def unzipNone : List Nat → M World Unit
  | [] => pure ()
  | r :: rest => do
    P.ctorDefault r
    unzipNone rest

/-- `(0, r0), (1, r1), ...` -/
def indexed (rs : List Nat) : List (Nat × Nat) := (List.range rs.length).zip rs

/-- the elements of the braced list, in the objects `rs` -/
def unzipList (q : Parts Val) (i : Nat) (mv : Bool) (rs : List Nat) : M World Unit := do
  let h ← P.hasValue i
  if h then P.unzipElems q i mv (indexed rs)
  else P.unzipNone rs

/-- `unzip` for `std::array`: an aggregate, so the list initialises the elements `rs` of the result in place -/
def unzipArray (q : Parts Val) (i : Nat) (mv : Bool) (rs : List Nat) : M World Unit := P.unzipList q i mv rs

/-- the constructor of `std::tuple`, `std::pair` from rvalues: each element is move constructed.  `ms` lists result and
temporary in the order of construction, which the standard leaves open. -/
def moveAll : List (Nat × Nat) → M World Unit
  | [] => pure ()
  | (r, t) :: rest => do
    P.ctorFrom r t true
    M.onThrow (moveAll rest) (P.dtor r)

/-- destructors, in this order -/
def dtorAll : List Nat → M World Unit
  | [] => pure ()
  | t :: rest => do
    P.dtor t
    dtorAll rest

/-- `unzip` for `std::tuple` and `std::pair`: the list consists of temporaries `ts`, from which the constructor moves into the
results; the temporaries are destroyed in reverse order at the end. -/
def unzipTuple (q : Parts Val) (i : Nat) (mv : Bool) (ts : List Nat) (ms : List (Nat × Nat)) : M World Unit := do
  P.unzipList q i mv ts
  M.onThrow (P.moveAll ms) (P.dtorAll ts.reverse)
  P.dtorAll ts.reverse

end Prog

end Opt
