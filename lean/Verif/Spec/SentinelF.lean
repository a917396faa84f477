import Verif.Spec.Values
import Verif.Model.SentinelF

/-!
# What `Compare`, `Set` and the values have to be
-/

namespace Opt.SentinelF

/-- `Compare` finds none of the values in an object that is in use; after `Set` it finds the value that was set, and none of those before it -/
structure Works {V : Type} (n : Nat) (Valid : Bytes → Prop) (cmp : Bytes → V → Bool) (put : Bytes → V → Bytes) (vs : List V) : Prop where
  live : ∀ x : Bytes, x.length = n → Valid x → ∀ v ∈ vs, cmp x v = false
  size : ∀ x : Bytes, x.length = n → ∀ v ∈ vs, (put x v).length = n
  found : ∀ x : Bytes, x.length = n → ∀ v ∈ vs, cmp (put x v) v = true
  first : ∀ x : Bytes, x.length = n → ∀ (i j : Nat) (v u : V), vs[i]? = some v → vs[j]? = some u → j < i → cmp (put x v) u = false

end Opt.SentinelF
