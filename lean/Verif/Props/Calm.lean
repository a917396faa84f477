import Verif.Lemmas.CalmClear
import Verif.Props.History
import Verif.Lemmas.Harmless
import Verif.Lemmas.View
import Verif.Lemmas.Demo

/-!
# C81: without exceptions options are plain optional values
-/

namespace Opt.Calm

variable {Val : Type} {P : Prog Val}

/-- **C81**, programs: if no call of user code throws, then whatever `Calm.run` answers for a program is what the machine does
and gives back, from every state that keeps the invariant. -/
theorem C81_run (hP : P.OK) (hT : ∀ n, P.throwsAt n = false) {w : World} (hw : P.Inv w) {M : Mem Val}
    (hM : Sees M (P.view w)) {ops : List (Op Val)} (hl : ∀ op ∈ ops, op.Legal P) {M' : Mem Val} {rs : List (Ret Val)}
    (h : run P.convFrom M ops = some (M', rs)) :
    ∃ w', P.run ops w = .ok rs w' ∧ P.Inv w' ∧ Sees M' (P.view w') := by
  obtain ⟨ha, a', hr, h'⟩ := run_does hT (a := P.abs w) hM h
  have hs := Prog.run_sim_harmless hP (Prog.abs_R hw) hl ha
    (Op.allHarmless_of_throwSafe (fun _ _ n _ _ _ _ ht => by rw [hT n] at ht; cases ht) _ _)
  rw [hr] at hs
  cases hc : P.run ops w with
  | ok rs' w' =>
    rw [hc] at hs
    obtain ⟨rfl, hR⟩ := hs
    obtain ⟨hi, he⟩ := Prog.R_abs hR
    exact ⟨w', rfl, hi, by have := congrArg AState.mem he; rw [this] at h'; exact h'⟩
  | throw _ => rw [hc] at hs; exact hs.elim
  | verify => rw [hc] at hs; exact hs.elim
  | ub => rw [hc] at hs; exact hs.elim

/-- **C81**, single operations: an operation that is allowed and whose outcome is known has the outcome of `Calm.step`. -/
theorem C81_step (hP : P.OK) (hT : ∀ n, P.throwsAt n = false) {w : World} (hw : P.Inv w) {M : Mem Val}
    (hM : Sees M (P.view w)) {op : Op Val} (hl : op.Legal P) (hc : Clear M op) :
    ∃ M' r w', step P.convFrom M op = some (M', r) ∧ Prog.catch_ (P.runOp op) w = .ok r w' ∧ P.Inv w' ∧ Sees M' (P.view w') := by
  obtain ⟨M', r, h⟩ := clear_answers (conv := P.convFrom) hc
  obtain ⟨w', hr, hi, hs⟩ := C81_run hP hT hw hM (ops := [op]) (by simpa using hl) (M' := M') (rs := [r]) (by simp [run, h])
  refine ⟨M', r, w', h, ?_, hi, hs⟩
  cases hx : Prog.catch_ (P.runOp op) w with
  | ok a b =>
    simp [Prog.run, bind, Opt.M.seq, hx, pure, Opt.M.ret] at hr
    obtain ⟨rfl, rfl⟩ := hr
    rfl
  | throw _ => simp [Prog.run, bind, Opt.M.seq, hx] at hr
  | verify => simp [Prog.run, bind, Opt.M.seq, hx] at hr
  | ub => simp [Prog.run, bind, Opt.M.seq, hx] at hr

/-- a program over several element types, with moves, functions, `zip` and an exception of the library -/
def tale : List (Op Byte) :=
  [.ctorValue 0 (.copy 7), .ctorDefault 4, .assignFrom 4 0 true, .hasValue 0, .get 4, .map 4 1 ⟨(· + 1), id, id⟩, .get 1,
    .swap 0 4, .get 0, .take 0 8, .valueOrThrow 0, .get 8, .zipWith [8, 1] 5 (fun vs => vs.getD 0 0 + vs.getD 1 0), .get 5, .reset 1,
    .zipWith [8, 1] 9 (fun _ => 0), .hasValue 9, .valueOr 9 true (.copy 3), .dtor 9]

example : ∃ M, run (Demo.prog false (fun _ => false) Demo.tidy).convFrom nothing tale = some (M, [.unit, .unit, .unit, .bool true, .val 7, .unit, .val 8,
    .unit, .val 7, .unit, .threw, .val 7, .unit, .val 15, .unit, .unit, .bool false, .val 3, .unit]) := ⟨_, rfl⟩

example : (Demo.prog false (fun _ => false) Demo.tidy).OK ∧ Sees (nothing : Mem Byte) ((Demo.prog false (fun _ => false) Demo.tidy).view Prog.start) ∧
    Clear (set nothing 0 (.full (7 : Byte))) (.take 0 8) :=
  ⟨Demo.ok_tidy, fun _ => trivial, ⟨by simp [Op.uses, set], by simp [Op.makes, set, nothing], by simp [Op.makes], by simp [reads],
    by simp [needs], trivial⟩⟩

#print axioms C81_run
#print axioms C81_step

end Opt.Calm
