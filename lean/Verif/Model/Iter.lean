import Verif.Model.Api

/-!
# `option_iterator` and iteration (option.hpp 2404-2506, 2979-2994)

A pointer is null or points to position `idx` of the array `arr`; a single object is an array of one element, and the
position one past the last element is allowed.  Arithmetic that leaves this range, dereferencing the past-the-end position
and subtracting pointers into different arrays are undefined behaviour.  Comparing pointers into different arrays (or null
with non-null) by `<` is unspecified in C++; it is the outcome `ub` here as well, so nothing is claimed about it.
-/

namespace Opt

/-- a pointer, and an `option_iterator` (which is one pointer, option.hpp 2417) -/
inductive Ptr where
  | null
  | elem (arr idx : Nat)
deriving DecidableEq, Repr

namespace Iter

/-! `len` gives the array sizes. -/
variable (len : Nat → Nat)

/-- `ptr + n` -/
def ptrAdd (arr idx : Nat) (n : Int) : Res Ptr :=
  if 0 ≤ idx + n ∧ idx + n ≤ len arr then .ok (.elem arr (idx + n).toNat) else .ub

/-- `*ptr`: which object it is -/
def ptrDeref (arr idx : Nat) : Res (Nat × Nat) := if idx < len arr then .ok (arr, idx) else .ub

/-- `operator*` (2426-2429) -/
def deref : Ptr → Res (Nat × Nat)
  | .null => .verify
  | .elem a i => ptrDeref len a i

/-- `operator->` (2430-2433): the pointer itself, also past the end; `std::to_address`, and with it `std::ranges::data`,
calls this -/
def arrow : Ptr → Res Ptr
  | .null => .verify
  | .elem a i => .ok (.elem a i)

/-- `operator++` prefix (2434-2438): the new value -/
def inc : Ptr → Res Ptr
  | .null => .verify
  | .elem a i => ptrAdd len a i 1

/-- `operator++(int)` (2439-2444): the returned and the new value -/
def postInc : Ptr → Res (Ptr × Ptr)
  | .null => .verify
  | .elem a i => (ptrAdd len a i 1).map (fun q => (.elem a i, q))

/-- `operator--` prefix (2445-2449) -/
def dec : Ptr → Res Ptr
  | .null => .verify
  | .elem a i => ptrAdd len a i (-1)

/-- `operator--(int)` (2450-2455) -/
def postDec : Ptr → Res (Ptr × Ptr)
  | .null => .verify
  | .elem a i => (ptrAdd len a i (-1)).map (fun q => (.elem a i, q))

/-- `operator+=`, `operator+` in both operand orders (2456-2468) -/
def add (n : Int) : Ptr → Res Ptr
  | .null => .verify
  | .elem a i => ptrAdd len a i n

/-- `operator-=`, `operator-` with an offset (2469-2477) -/
def sub (n : Int) : Ptr → Res Ptr
  | .null => .verify
  | .elem a i => ptrAdd len a i (-n)

/-- `operator-` of two iterators (2478-2480), no check: null minus null is 0 -/
def diff : Ptr → Ptr → Res Int
  | .null, .null => .ok 0
  | .elem a i, .elem b j => if a = b then .ok ((i : Int) - j) else .ub
  | _, _ => .ub

/-- `operator[]` (2481-2484) -/
def index (n : Int) : Ptr → Res (Nat × Nat)
  | .null => .verify
  | .elem a i => (ptrAdd len a i n).bind fun q =>
    match q with
    | .null => .ub
    | .elem b j => ptrDeref len b j

/-- `operator==` (2485-2487) -/
def eq (p q : Ptr) : Bool := decide (p = q)

/-- `operator!=` (2488-2490) -/
def ne (p q : Ptr) : Bool := !decide (p = q)

/-- `p < q` on pointers -/
def ptrLt : Ptr → Ptr → Res Bool
  | .null, .null => .ok false
  | .elem a i, .elem b j => if a = b then .ok (decide (i < j)) else .ub
  | _, _ => .ub

/-- `p <= q` on pointers -/
def ptrLe : Ptr → Ptr → Res Bool
  | .null, .null => .ok true
  | .elem a i, .elem b j => if a = b then .ok (decide (i ≤ j)) else .ub
  | _, _ => .ub

/-- `operator<` (2491-2495) -/
def lt (p q : Ptr) : Res Bool := verifyThen (p != .null) (verifyThen (q != .null) (ptrLt p q))

/-- `operator>` (2496-2500) -/
def gt (p q : Ptr) : Res Bool := verifyThen (p != .null) (verifyThen (q != .null) (ptrLt q p))

/-- `operator<=` (2501-2503): no check -/
def le (p q : Ptr) : Res Bool := ptrLe p q

/-- `operator>=` (2504-2506): no check -/
def ge (p q : Ptr) : Res Bool := ptrLe q p

end Iter

/-- a computation without effects inside one with -/
def liftRes {σ α : Type} : Res α → M σ α
  | .ok a => pure a
  | .throw => M.raise
  | .verify => M.check false >>= fun _ => M.bad
  | .ub => M.bad

namespace Prog

variable {Val : Type} (P : Prog Val)

/-- the contained object is not an element of a larger array -/
def single : Nat → Nat := fun _ => 1

/-- `begin()` (2979-2986) -/
def begin_ (i : Nat) : M World Ptr := do
  let h ← P.hasValue i
  if h then do
    P.getCheck i
    pure (.elem i 0)
  else pure .null

/-- `end()` (2987-2994) -/
def end_ (i : Nat) : M World Ptr := do
  let h ← P.hasValue i
  if h then do
    P.getCheck i
    liftRes (Iter.ptrAdd single i 0 1)
  else pure .null

/-- `ptr_or_null()` (3213-3218), as an address -/
def addressOrNull (i : Nat) : M World Ptr := do
  let h ← P.hasValue i
  if h then do
    P.getCheck i
    pure (.elem i 0)
  else pure .null

/-- a callable applied to the `T` an iterator was dereferenced to -/
def applyRef (i : Nat) (f : Fn Val Unit) : M World Unit := do
  let v ← P.readT i
  let (n, thr) ← P.userOp (.call i true) (.call i false)
  if thr then do
    P.writeT i n (f.afterThrow v)
    M.raise
  else P.writeT i n (f.after v)

/-- `for (; it != end; ++it) f(*it);` with at most `fuel` tests; running out of `fuel` is `ub` -/
def forLoop (f : Fn Val Unit) : (fuel : Nat) → (it end_ : Ptr) → M World Unit
  | 0, _, _ => M.bad
  | fuel + 1, it, e =>
    if Iter.ne it e then do
      let (a, _) ← liftRes (Iter.deref single it)
      P.applyRef a f
      let it' ← liftRes (Iter.inc single it)
      forLoop f fuel it' e
    else pure ()

/-- `for (auto& x : o) f(x);` -/
def forEach (fuel i : Nat) (f : Fn Val Unit) : M World Unit := do
  let b ← P.begin_ i
  let e ← P.end_ i
  P.forLoop f fuel b e

end Prog

end Opt
