/-!
# Least power of two
-/

namespace Opt

/-- `p` is the least power of two that is at least `n`. -/
def IsPow2Ceil (n p : Nat) : Prop := ∃ k, p = 2 ^ k ∧ n ≤ 2 ^ k ∧ ∀ j, n ≤ 2 ^ j → k ≤ j

end Opt
