import Verif.Spec.Values

/-!
# Options nested to any depth, seen as bytes
-/

namespace Opt

/-- `option<option<...<T>>>`, `n` times -/
def nest : Nat → Ty → Ty
  | 0, T => T
  | n + 1, T => .option (nest n T)

/-- How many of the `n` layers are engaged, counted from the outermost: each layer is asked `has_value()` and, when it
answers yes, the contained object is looked at. -/
def engagedDepth (pw : Nat) : Nat → Ty → Bytes → Nat
  | 0, _, _ => 0
  | n + 1, T, bs =>
    if (nest n T).hasValue pw bs then 1 + engagedDepth pw n T ((nest n T).payload pw bs) else 0

/-- The innermost object's bytes. -/
def innermost (pw : Nat) : Nat → Ty → Bytes → Bytes
  | 0, _, bs => bs
  | n + 1, T, bs => innermost pw n T ((nest n T).payload pw bs)

/-- Engage all `n` layers around the value `v`, writing into storage with arbitrary contents `g`. -/
def storeAll (pw : Nat) : Nat → Ty → (g : Bytes) → (v : Bytes) → Bytes
  | 0, _, _, v => v
  | n + 1, T, g, v => (nest n T).storeValue pw g (storeAll pw n T ((nest n T).payload pw g) v)

/-- Build the state in which `k` outer layers are engaged and the next one is empty, in storage with contents `g`. -/
def storeNoneAt (pw : Nat) : (n : Nat) → (k : Nat) → Ty → (g : Bytes) → Res Bytes
  | 0, _, _, _ => .ub
  | n + 1, 0, T, g => (nest n T).storeNone pw g
  | n + 1, k + 1, T, g =>
    (storeNoneAt pw n k T ((nest n T).payload pw g)).map (fun b => (nest n T).storeValue pw g b)

/-- `o.get()...get().reset()`: reset the layer at depth `k` in place, leaving the outer layers' own bytes alone. -/
def resetAt (pw : Nat) : (n : Nat) → (k : Nat) → Ty → Bytes → Res Bytes
  | 0, _, _, _ => .ub
  | n + 1, 0, T, bs => (nest n T).storeNone pw bs
  | n + 1, k + 1, T, bs =>
    (resetAt pw n k T ((nest n T).payload pw bs)).map (fun b => wr bs 0 b)

end Opt
