/-!
# Client programs over a random access range

What the standard requires of a random access (and contiguous) range of `k` elements: an iterator is a position between
0 and `k`, both included, and every step that stays between them is allowed.  Nothing here refers to the library.
-/

namespace Opt

/-- one statement of a client that works with iterator variables (numbered) of one range -/
inductive IterStep where
  /-- `x = r.begin();` -/
  | begin_ (x : Nat)
  /-- `x = r.end();` -/
  | end_ (x : Nat)
  /-- `x = y;` -/
  | copy (x y : Nat)
  /-- `++x;` -/
  | inc (x : Nat)
  /-- `--x;` -/
  | dec (x : Nat)
  /-- `x = y++;` -/
  | postInc (x y : Nat)
  /-- `x = y--;` -/
  | postDec (x y : Nat)
  /-- `x = y + n;`, `x = n + y;`, and `x += n;` for `x = y` -/
  | plus (x y : Nat) (n : Int)
  /-- `x = y - n;`, and `x -= n;` for `x = y` -/
  | minus (x y : Nat) (n : Int)
  /-- look at `x - y` -/
  | diff (x y : Nat)
  /-- look at `*x` -/
  | deref (x : Nat)
  /-- look at the address `std::to_address(x)` -/
  | arrow (x : Nat)
  /-- look at `x[n]` -/
  | index (x : Nat) (n : Int)
  /-- look at a comparison -/
  | eq (x y : Nat)
  | ne (x y : Nat)
  | lt (x y : Nat)
  | gt (x y : Nat)
  | le (x y : Nat)
  | ge (x y : Nat)
deriving DecidableEq, Repr

/-- what a client sees: numbers, truth values, elements and addresses (by position counted from `begin()`) -/
inductive IterObs where
  | int (n : Int)
  | bool (b : Bool)
  | elem (n : Nat)
  | addr (n : Nat)
deriving DecidableEq, Repr

namespace IterSpec

/-- the variables: assigned or not, and at which position -/
abbrev Vars := Nat → Option Nat

def set (s : Vars) (x : Nat) (p : Nat) : Vars := fun y => if y = x then some p else s y

/-- the position `n` further, if it is in the range of `k` elements -/
def seek (k p : Nat) (n : Int) : Option Nat := if 0 ≤ p + n ∧ p + n ≤ k then some (p + n).toNat else none

/-- one step on a range of `k` elements; `none` if the standard does not allow it -/
def step (k : Nat) (s : Vars) : IterStep → Option (Vars × List IterObs)
  | .begin_ x => some (set s x 0, [])
  | .end_ x => some (set s x k, [])
  | .copy x y => (s y).map fun p => (set s x p, [])
  | .inc x => (s x).bind fun p => (seek k p 1).map fun q => (set s x q, [])
  | .dec x => (s x).bind fun p => (seek k p (-1)).map fun q => (set s x q, [])
  | .postInc x y => (s y).bind fun p => (seek k p 1).map fun q => (set (set s y q) x p, [])
  | .postDec x y => (s y).bind fun p => (seek k p (-1)).map fun q => (set (set s y q) x p, [])
  | .plus x y n => (s y).bind fun p => (seek k p n).map fun q => (set s x q, [])
  | .minus x y n => (s y).bind fun p => (seek k p (-n)).map fun q => (set s x q, [])
  | .diff x y => (s x).bind fun p => (s y).map fun (q : Nat) => (s, [.int ((p : Int) - (q : Int))])
  | .deref x => (s x).bind fun p => if p < k then some (s, [.elem p]) else none
  | .arrow x => (s x).map fun p => (s, [.addr p])
  | .index x n => (s x).bind fun p => (seek k p n).bind fun q => if q < k then some (s, [.elem q]) else none
  | .eq x y => (s x).bind fun p => (s y).map fun q => (s, [.bool (decide (p = q))])
  | .ne x y => (s x).bind fun p => (s y).map fun q => (s, [.bool (decide (p ≠ q))])
  | .lt x y => (s x).bind fun p => (s y).map fun q => (s, [.bool (decide (p < q))])
  | .gt x y => (s x).bind fun p => (s y).map fun q => (s, [.bool (decide (q < p))])
  | .le x y => (s x).bind fun p => (s y).map fun q => (s, [.bool (decide (p ≤ q))])
  | .ge x y => (s x).bind fun p => (s y).map fun q => (s, [.bool (decide (q ≤ p))])

/-- a whole client program: what it sees, in order; `none` if some step is not allowed -/
def run (k : Nat) : List IterStep → Vars → Option (List IterObs)
  | [], _ => some []
  | t :: ts, s => (step k s t).bind fun r => (run k ts r.1).map fun os => r.2 ++ os

end IterSpec

/-- steps of a client that seeks by an offset, orders strictly or takes the address of an iterator -/
def IterStep.demanding : IterStep → Bool
  | .plus .. => true
  | .minus .. => true
  | .lt .. => true
  | .gt .. => true
  | .arrow .. => true
  | _ => false

end Opt
