import Verif.Spec.History
import Verif.Spec.View

/-!
# Whether a concrete history is allowed can be computed
-/

namespace Opt

variable {Val : Type}

instance Op.decAllowed [DecidableEq Val] (m : Nat → Option (Option Val)) (op : Op Val) : Decidable (op.Allowed m) := by
  unfold Op.Allowed
  refine @instDecidableAnd _ _ inferInstance (@instDecidableAnd _ _ inferInstance (@instDecidableAnd _ _ inferInstance ?_))
  cases op <;> (simp only; infer_instance)

instance Op.decAllAllowed [DecidableEq Val] (P : Prog Val) : ∀ (ops : List (Op Val)) (a : AState Val), Decidable (Op.AllAllowed P ops a)
  | [], _ => .isTrue trivial
  | op :: ops, a => by
    unfold Op.AllAllowed
    refine @instDecidableAnd _ _ inferInstance ?_
    cases Prog.catch_ (Spec.runOp P op) a with
    | ok _ a' => exact Op.decAllAllowed P ops a'
    | throw _ => exact .isTrue trivial
    | verify => exact .isTrue trivial
    | ub => exact .isTrue trivial

/-- the results and the calls of a completed computation -/
def Out.seen {α : Type} : Out World α → Option (α × List Event)
  | .ok r w => some (r, w.env.log)
  | _ => none

theorem Out.of_seen {α : Type} {x : Out World α} {r : α} {l : List Event} (h : x.seen = some (r, l)) :
    ∃ w, x = .ok r w ∧ w.env.log = l := by
  cases x with
  | ok r' w => cases h; exact ⟨w, rfl, rfl⟩
  | throw _ => cases h
  | verify => cases h
  | ub => cases h

/-- is the outcome undefined behaviour -/
def Out.isUb {σ α : Type} : Out σ α → Bool
  | .ub => true
  | _ => false

theorem Out.of_isUb {σ α : Type} {x : Out σ α} (h : x.isUb = true) : x = .ub := by
  cases x <;> first | rfl | cases h

/-- has a check of the library failed -/
def Out.isVerify {σ α : Type} : Out σ α → Bool
  | .verify => true
  | _ => false

theorem Out.of_isVerify {σ α : Type} {x : Out σ α} (h : x.isVerify = true) : x = .verify := by
  cases x <;> first | rfl | cases h

end Opt
