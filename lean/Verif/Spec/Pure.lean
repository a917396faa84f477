import Verif.Model.Pure

/-!
# What it means to be pure
-/

namespace Opt

variable {σ ρ α β γ : Type}

/-- The computation is a function of what `see` shows of the state: it reads nothing else, changes nothing and throws nothing. -/
def OnlyReads (see : σ → ρ) (m : M σ α) : Prop :=
  ∃ f : ρ → Res α, (∀ x, f x ≠ .throw) ∧ ∀ s, m s = liftRes (f (see s)) s

/-- two calls in a row can be merged -/
def Mergeable (m : M σ α) : Prop :=
  ∀ (γ : Type) (k : α → α → M σ γ), (do let a ← m; let b ← m; k a b) = (do let a ← m; k a a)

/-- a call whose result is not used can be dropped, in this state -/
def Droppable (m : M σ α) (s : σ) : Prop := ∀ (γ : Type) (k : M σ γ), (do let _ ← m; k) s = k s

/-- the call can be moved across `n`, in this state, if `n` completes -/
def Movable (m : M σ α) (n : M σ β) (s : σ) : Prop :=
  ∀ (b : β) (s' : σ), n s = .ok b s' → ∀ (γ : Type) (k : α → β → M σ γ),
    (do let b ← n; let a ← m; k a b) s = (do let a ← m; let b ← n; k a b) s

end Opt
