import Verif.Lemmas.Frame
import Verif.Lemmas.Demo
import Verif.Lemmas.Decide
import Verif.Props.Machine
import Verif.Spec.Noexcept

/-!
# C56: operations change only the options they may change
-/

namespace Opt

variable {Val : Type} (P : Prog Val)

/-- **C56.** Every operation in every state, legal or not, whatever the program, and also when an exception comes out: no byte of
an option that is not the object, an rvalue operand, the argument of a callable or a result changes, and the lifetime of its
contents neither begins nor ends.  In particular copying from an option does not touch it. -/
theorem C56_frame (op : Op Val) (w : World) : LeavesAlone op.changes w (P.runOp op w) := P.only_runOp op w

/- copying option 0 over option 4, where the copy assignment throws: option 0 is untouched -/
example : (Op.assignFrom 4 0 false : Op Byte).changes = [4] ∧ (Demo.angry.runOp (.assignFrom 4 0 false) Demo.world).isThrow = true := by
  decide +kernel

/-- **C56.** Observers, comparisons, hash and output change nothing at all. -/
theorem C56_observers (op : Op Val) (h : op.changes = []) (w : World) :
    match P.runOp op w with
    | .ok _ w' => w'.mem = w.mem
    | .throw w' => w'.mem = w.mem
    | _ => True := by
  have := P.only_runOp op w
  rw [h] at this
  revert this
  cases P.runOp op w with
  | ok r w' => exact fun h => funext fun k => h k (List.not_mem_nil)
  | throw w' => exact fun h => funext fun k => h k (List.not_mem_nil)
  | verify => exact fun _ => trivial
  | ub => exact fun _ => trivial

example : (Op.cmp .lt (fun _ a b => decide (a.toNat < b.toNat)) 0 4 : Op Byte).changes = [] ∧
    (Demo.calm.runOp (.cmp .lt (fun _ a b => decide (a.toNat < b.toNat)) 0 4) Demo.world).seen.isSome = true := by
  decide +kernel

/-- **C56.** Over a history of any length the options that no operation may change keep their bytes. -/
theorem C56_history (ops : List (Op Val)) (w w' : World) (rs : List (Ret Val)) (h : P.run ops w = .ok rs w') :
    Untouched (ops.flatMap Op.changes) w w' := by
  induction ops generalizing w rs with
  | nil => cases h; exact fun _ _ => rfl
  | cons op ops ih =>
    have h1 := P.only_runOp op w
    have go : ∀ (r : Ret Val) (w1 : World), Prog.catch_ (P.runOp op) w = .ok r w1 → Untouched op.changes w w1 →
        Untouched ((op :: ops).flatMap Op.changes) w w' := by
      intro r w1 hc hu
      simp only [Prog.run, bind_run, hc, obind_ok] at h
      cases hr : P.run ops w1 with
      | ok rs1 w2 =>
        rw [hr] at h
        cases h
        intro k hk
        rw [List.flatMap_cons, List.mem_append, not_or] at hk
        exact (ih w1 rs1 hr k hk.2).trans (hu k hk.1)
      | throw _ => rw [hr] at h; cases h
      | verify => rw [hr] at h; cases h
      | ub => rw [hr] at h; cases h
    cases hx : P.runOp op w with
    | ok r w1 => rw [hx] at h1; exact go r w1 (by simp only [Prog.catch_, hx]) h1
    | throw w1 => rw [hx] at h1; exact go .threw w1 (by simp only [Prog.catch_, hx]) h1
    | verify => simp only [Prog.run, bind_run, Prog.catch_, hx] at h; cases h
    | ub => simp only [Prog.run, bind_run, Prog.catch_, hx] at h; cases h

/- a history that copies from option 0, asks it and compares it -/
example : 0 ∉ ([.assignFrom 4 0 false, .hasValue 0, .cmp .eq (fun _ a b => a == b) 0 4, .reset 4] : List (Op Byte)).flatMap Op.changes ∧
    (Demo.calm.run [.assignFrom 4 0 false, .hasValue 0, .cmp .eq (fun _ a b => a == b) 0 4, .reset 4] Demo.world).seen.isSome = true := by
  decide +kernel

end Opt
