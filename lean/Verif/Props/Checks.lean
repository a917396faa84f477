import Verif.Lemmas.Checks
import Verif.Props.HistoryExact

/-!
# C63: the library's checks fail only when the client dereferences an empty option

A failing `OPTION_VERIFY` (option.hpp 190-233) is the outcome `verify`: a trap in checked builds, undefined behaviour in the others.  The
operations of the library contain many (most call `get()` on an option they have just tested).
-/

namespace Opt

variable {Val : Type} {P : Prog Val}

/-- **C63** (partial: `Harmless`, see `C63_violated_no_ub`).  An operation that a client may perform ends in a failing check exactly when
it is an accessor of an empty option, or one of its arguments is; otherwise it completes or throws and leaves a valid state.  In
particular no check inside the library fails by itself, and there is no undefined behaviour. -/
theorem C63_checks_partial (hP : P.OK) (op : Op Val) (hl : op.Legal P) (w : World) (hw : P.Inv w) (ha : op.Allowed (P.view w))
    (hh : op.Harmless P ⟨P.view w, w.env⟩) :
    (P.runOp op w = .verify ↔ ∃ i ∈ op.derefs, P.view w i = some none) ∧
    ((∀ i ∈ op.derefs, P.view w i ≠ some none) →
      (∃ r w', P.runOp op w = .ok r w' ∧ P.Inv w') ∨ ∃ w', P.runOp op w = .throw w' ∧ P.Inv w') := by
  have hs := Prog.runOp_sim_harmless hP (Prog.abs_R hw) hl ha hh
  have hv := Spec.runOp_verify P op (m := P.view w) (e := w.env) ha.1
  have hg := Spec.runOp_good hP (Spec.here_st (P := P) (P.abs w)) ha
  rw [← hv]
  have hn : (∀ i ∈ op.derefs, P.view w i ≠ some none) → Spec.runOp P op ⟨P.view w, w.env⟩ ≠ .verify := by
    intro h he
    obtain ⟨i, h1, h2⟩ := hv.1 he
    exact h i h1 h2
  refine ⟨?_, fun h => ?_⟩
  · clear hn hv
    simp only [Prog.abs] at hs hg
    revert hs hg
    cases P.runOp op w <;> cases Spec.runOp P op ⟨P.view w, w.env⟩ <;> intro hs hg <;>
      first | exact hs.elim | exact hg.elim | exact ⟨fun _ => rfl, fun _ => rfl⟩ | exact ⟨nofun, nofun⟩
  · have hn := hn h
    clear hv h
    simp only [Prog.abs] at hs hg
    revert hs hg hn
    cases P.runOp op w <;> cases Spec.runOp P op ⟨P.view w, w.env⟩ <;> intro hs hg hn <;>
      first
        | exact hs.elim
        | exact hg.elim
        | exact absurd rfl hn
        | exact .inl ⟨_, _, rfl, (Prog.R_abs hs.2).1⟩
        | exact .inr ⟨_, rfl, (Prog.R_abs hs).1⟩

/-- both alternatives: option 0 holds a value, option 5 does not -/
example : Demo.angry.runOp (.emplace 1 (.opt 5 true)) Demo.world = .verify ∧
    ((∃ r w', Demo.angry.runOp (.emplace 1 (.opt 9 true)) Demo.world = .ok r w' ∧ Demo.angry.Inv w') ∨
      ∃ w', Demo.angry.runOp (.emplace 1 (.opt 9 true)) Demo.world = .throw w' ∧ Demo.angry.Inv w') := by
  have key := fun j (hj : Demo.angry.view Demo.world j ≠ none) (hs : ((Src.opt j true : Src Byte)).isSelf 1 = false) =>
    C63_checks_partial (P := Demo.angry) Demo.ok_tidy (.emplace 1 (.opt j true)) trivial Demo.world Demo.inv
      ⟨by
        intro i hi
        rcases List.mem_cons.1 hi with rfl | hi
        · rw [Demo.view1]; nofun
        · cases List.mem_singleton.1 hi; exact hj, nofun, List.nodup_nil, hs⟩
      (Op.harmless_of_throwSafe Demo.throwSafe_tidy _ _)
  refine ⟨((key 5 (by rw [Demo.view5]; nofun) rfl).1).2 ⟨5, List.mem_singleton.2 rfl, Demo.view5⟩,
    (key 9 (by rw [Demo.view9]; nofun) rfl).2 ?_⟩
  intro i hi
  cases List.mem_singleton.1 hi
  rw [Demo.view9]
  nofun

/-- **C63** (partial: `Tidy`, see `C63_violated_no_ub`).  A client that uses options that exist and dereferences only options that hold
a value can perform any sequence of operations, of any length and from any valid state, whatever calls of user code throw: no check
fails, there is no undefined behaviour, and every state on the way is valid. -/
theorem C63_history_partial (hP : P.OK) : ∀ (ops : List (Op Val)) (w : World), (∀ op ∈ ops, op.Legal P) → P.Inv w → P.Obeys ops w →
    P.Tidy ops w → ∃ rs w', P.run ops w = .ok rs w' ∧ P.Inv w' ∧ rs.length = ops.length
  | [], w, _, hw, _, _ => ⟨[], w, rfl, hw, rfl⟩
  | op :: ops, w, hl, hw, ho, ht => by
    have rest : ∀ r w1, Prog.catch_ (P.runOp op) w = .ok r w1 → P.Inv w1 →
        ∃ rs w', P.run (op :: ops) w = .ok rs w' ∧ P.Inv w' ∧ rs.length = (op :: ops).length := by
      intro r w1 h1 hi
      have ho2 := ho.2.2
      have ht2 := ht.2
      rw [h1] at ho2 ht2
      obtain ⟨rs, w', h2, h3, h4⟩ := C63_history_partial hP ops w1 (fun o h => hl o (List.mem_cons_of_mem _ h)) hi ho2 ht2
      refine ⟨r :: rs, w', ?_, h3, by rw [List.length_cons, h4, List.length_cons]⟩
      simp only [Prog.run, bind_run, h1, obind_ok, h2, pure_run]
    rcases (C63_checks_partial hP op (hl op List.mem_cons_self) w hw ho.1 ht.1).2 ho.2.1 with ⟨r, w1, h, hi⟩ | ⟨w1, h, hi⟩
    · exact rest r w1 (by simp only [Prog.catch_, h]) hi
    · exact rest .threw w1 (by simp only [Prog.catch_, h]) hi

/-- Types whose constructors do not touch the sentinel when they throw: nothing more is asked of the client. -/
theorem C63_tidy (hT : P.ThrowSafe) : ∀ (ops : List (Op Val)) (w : World), P.Tidy ops w
  | [], _ => trivial
  | op :: ops, w => by
    refine ⟨Op.harmless_of_throwSafe hT _ _, ?_⟩
    split
    · exact C63_tidy hT ops _
    · trivial

instance Prog.decObeys [DecidableEq Val] (P : Prog Val) : ∀ (ops : List (Op Val)) (w : World), Decidable (P.Obeys ops w)
  | [], _ => .isTrue trivial
  | op :: ops, w => by
    unfold Prog.Obeys
    refine @instDecidableAnd _ _ inferInstance (@instDecidableAnd _ _ inferInstance ?_)
    cases Prog.catch_ (P.runOp op) w with
    | ok _ w' => exact Prog.decObeys P ops w'
    | throw _ => exact .isTrue trivial
    | verify => exact .isTrue trivial
    | ub => exact .isTrue trivial

/-- a history with exceptions, in which `*o1` and `*o9` are used as arguments: it completes, by the theorem -/
example : ∃ rs w', (Demo.prog true (fun n => n == 1 || n == 3) Demo.tidy).run
      [.ctorValue 1 (.args 5), .ctorValue 9 (.opt 1 false), .ctorValue 9 (.opt 1 true), .swap 1 9, .get 9, .emplace 1 (.opt 9 false),
        .take 1 13, .get 13, .dtor 1, .dtor 9] Prog.start = .ok rs w' ∧
      (Demo.prog true (fun n => n == 1 || n == 3) Demo.tidy).Inv w' ∧ rs.length = 10 := by
  have hd : ((Demo.prog true (fun n => n == 1 || n == 3) Demo.tidy).elem 1).Dom 64 5 := Demo.dom_mk 1 (.inr (.inl rfl))
  refine C63_history_partial Demo.ok_tidy _ _ ?_ (fun _ _ h => by cases h) (by decide +kernel) (C63_tidy Demo.throwSafe_tidy _ _)
  simp only [List.forall_mem_cons]
  exact ⟨hd, trivial, trivial, trivial, trivial, trivial, trivial, trivial, trivial, trivial, fun _ h => by cases h⟩

/-- Violation: a client that obeys can run into undefined behaviour.  The constructor of the polymorphic class throws after it has
written the vtable pointer; the option then looks engaged, and its destructor destroys an object that does not exist. -/
theorem C63_violated_no_ub :
    (Demo.prog true (· == 0) Demo.vptrFirst).OK ∧
    (∀ op ∈ [Op.ctorDefault 1, .emplace 1 (.args 5), .dtor 1], op.Legal (Demo.prog true (· == 0) Demo.vptrFirst)) ∧
    (Demo.prog true (· == 0) Demo.vptrFirst).Obeys [.ctorDefault 1, .emplace 1 (.args 5), .dtor 1] Prog.start ∧
    (Demo.prog true (· == 0) Demo.vptrFirst).run [.ctorDefault 1, .emplace 1 (.args 5), .dtor 1] Prog.start = .ub := by
  refine ⟨Demo.ok_vptr, ?_, by decide +kernel, Out.of_isUb (by decide +kernel)⟩
  have hd : ((Demo.prog true (· == 0) Demo.vptrFirst).elem 1).Dom 64 5 := Demo.dom_mk 1 (.inr (.inl rfl))
  simp only [List.forall_mem_cons]
  exact ⟨trivial, hd, trivial, fun _ h => by cases h⟩

end Opt
