import Verif.Spec.History

/-!
# Which operations make an option empty or give it a value
-/

namespace Opt

namespace Op

variable {Val : Type}

/-- The operations after which an existing engaged option may be empty (or gone).  Moving from an option is not among them. -/
def empties : Op Val → List Nat
  | .dtor i => [i]
  | .reset i => [i]
  | .assignFrom i _ _ => [i]
  | .emplace i _ => [i]
  | .swap i j => [i, j]
  | .take i _ => [i]
  | .takeIf i _ _ => [i]
  | _ => []

/-- The operations after which an existing empty option may have a value (or be gone). -/
def fills : Op Val → List Nat
  | .dtor i => [i]
  | .assignFrom i _ _ => [i]
  | .assignValue i _ => [i]
  | .emplace i _ => [i]
  | .tryEmplace i _ => [i]
  | .swap i j => [i, j]
  | .orAssignValue i _ => [i]
  | .orAssignFrom i _ _ => [i]
  | _ => []

end Op

/-- engaged options outside `E` stay engaged, empty ones outside `F` stay empty -/
def Stay {Val : Type} (E F : List Nat) (m m' : Nat → Option (Option Val)) : Prop :=
  (∀ k v, k ∉ E → m k = some (some v) → ∃ v', m' k = some (some v')) ∧ (∀ k, k ∉ F → m k = some none → m' k = some none)

end Opt
