import Verif.Model.Typestate

/-!
# What typestates mean
-/

namespace Opt

/-- is the state right for an option with this value (`none`: there is no such option) -/
def Typestate.Holds {Val : Type} : Typestate → Option (Option Val) → Prop
  | .consumed, x => ∃ v, x = some (some v)
  | .unconsumed, x => x = some none
  | .unknown, _ => True

/-- All variables assumed to have a value do have one, so that no accessor annotated with `OPTION_CALLABLE_WHEN(consumed)` is
accepted although its check will fail. -/
def Sound {Val : Type} (σ : Nat → Typestate) (m : Nat → Option (Option Val)) : Prop :=
  ∀ k, σ k = .consumed → ∃ v, m k = some (some v)

/-- the calls without annotation that may empty an option (for `swap` only the one it is called on: about its argument nothing is
assumed afterwards) -/
def Call.silentlyEmpties {Val : Type} : Call Val → List Nat
  | .op (.reset i) => [i]
  | .op (.assignFrom i _ _) => [i]
  | .op (.swap i _) => [i]
  | .op (.takeIf i _ _) => [i]
  | _ => []

/-- no call of the sequence silently empties an option that is assumed to have a value at that point -/
def Prog.Careful {Val : Type} (P : Prog Val) : List (Call Val) → (Nat → Typestate) → Prop
  | [], _ => True
  | c :: cs, σ => (∀ k ∈ c.silentlyEmpties, σ k ≠ .consumed) ∧ P.Careful cs (P.track false c σ)

end Opt
