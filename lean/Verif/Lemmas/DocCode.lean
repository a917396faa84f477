import Verif.Spec.DocCode
import Verif.Lemmas.View
import Verif.Lemmas.Stored
import Verif.Lemmas.SpecRun
import Verif.Lemmas.History

/-!
# The code of the manual: lemmas
-/

namespace Opt.Doc

variable {Val : Type} {P : Prog Val}

theorem Agree.refl {α : Type} (x : Out World α) : Agree P x x := by
  cases x with
  | ok r w => exact ⟨rfl, rfl, rfl⟩
  | throw w => exact ⟨rfl, rfl⟩
  | verify => exact trivial
  | ub => exact trivial

/-- two machines that implement the same specification agree -/
theorem agree_of {β : Type} {x y : Out World Unit} {s : Out (AState Val) β} (hs : s ≠ .ub)
    (hx : Out.Rel (fun _ w _ a => R P w a) (fun w a => R P w a) x s)
    (hy : Out.Rel (fun _ w _ a => R P w a) (fun w a => R P w a) y s) : Agree P x y := by
  have eqs : ∀ {w v : World} {a : AState Val}, R P w a → R P v a → P.view w = P.view v ∧ w.env = v.env := by
    intro w v a h1 h2
    have e := (Prog.R_abs h1).2.symm.trans (Prog.R_abs h2).2
    simp only [Prog.abs, AState.mk.injEq] at e
    exact e
  cases s with
  | ub => exact absurd rfl hs
  | ok b t =>
    cases x <;> first | exact hx.elim | (cases y <;> first | exact hy.elim | exact ⟨rfl, eqs hx hy⟩)
  | throw t =>
    cases x <;> first | exact hx.elim | (cases y <;> first | exact hy.elim | exact eqs hx hy)
  | verify =>
    cases x <;> first | exact hx.elim | (cases y <;> first | exact hy.elim | exact trivial)

/-- checking what is known -/
theorem hasValue_check {α : Type} {i : Nat} {x y : M World α} :
    (P.hasValue i >>= fun h => if h then (P.getCheck i >>= fun _ => x) else y) = (P.hasValue i >>= fun h => if h then x else y) := by
  funext w
  simp only [bind_run]
  cases h : P.hasValue i w with
  | ok b w' =>
    have := Stored.hasValue_same h
    subst this
    cases b
    · rfl
    · simp only [obind_ok, if_true, bind_run, Prog.getCheck, h, check_true]
  | throw _ => rfl
  | verify => rfl
  | ub => rfl

theorem ctorManual_eq {i j : Nat} {mv : Bool} : P.ctorManual i j mv = ctorFrom P i j mv := by
  simp only [Prog.ctorManual, ctorFrom, hasValue_check]
  by_cases hc : P.cls i = P.cls j
  · simp only [hc, if_true]
  · simp only [hc, if_false, hasValue_check]

/-- the checks of the sources, and of the target before the assignment -/
theorem assignFrom_eq {i j : Nat} {mv : Bool} : assignFrom P i j mv =
    (do
      let hj ← P.hasValue j
      if hj then do
        let hi ← P.hasValue i
        if hi then P.assignT i (.opt j mv) else P.construct i (.opt j mv)
      else P.reset i) := by
  funext w
  simp only [assignFrom, bind_run]
  cases hj : P.hasValue j w with
  | ok c w' =>
    have := Stored.hasValue_same hj
    subst this
    cases c
    · rfl
    · simp only [obind_ok, if_true, bind_run]
      cases hi : P.hasValue i w' with
      | ok b w'' =>
        have := Stored.hasValue_same hi
        subst this
        cases b <;> simp [bind_run, Prog.getCheck, hi, hj, check_true, obind_ok]
      | throw _ => rfl
      | verify => rfl
      | ub => rfl
  | throw _ => rfl
  | verify => rfl
  | ub => rfl

theorem assignManual_eq {i j : Nat} {mv : Bool} (hc : P.cls i = P.cls j) : P.assignManual i j mv = assignFrom P i j mv := by
  simp only [assignFrom_eq, Prog.assignManual, hc, if_true]

/-- the abstract value of an existing option -/
theorem mem_abs {w : World} {i : Nat} (h : w.mem i ≠ none) : ∃ x, (P.abs w).mem i = some x := by
  cases ho : w.mem i with
  | none => exact absurd ho h
  | some o => exact ⟨_, by simp only [Prog.abs, Prog.view, ho, Option.map_some]; rfl⟩

/-- after an assignment to an engaged option the check passes -/
theorem assignT_check (hP : P.OK) {w : World} {i : Nat} {src : Src Val} (hw : P.Inv w) (hleg : src.Legal P i)
    (hs : Spec.assign P i src (P.abs w) ≠ .ub) : (P.assignT i src >>= fun _ => P.getCheck i) w = P.assignT i src w := by
  have key := Prog.assignT_sim hP (Prog.abs_R hw) hleg (i := i)
  rw [bind_run]
  revert key hs
  generalize Spec.assign P i src (P.abs w) = s
  intro hs key
  cases e : P.assignT i src w with
  | ok r w' =>
    rw [e] at key
    cases s with
    | ok b t =>
      obtain ⟨h1, v, h2⟩ := key
      obtain ⟨o', ho', hr'⟩ := h1.some' h2
      rw [obind_ok, Prog.getCheck_run ho' hr']
      rfl
    | throw _ => exact key.elim
    | verify => exact key.elim
    | ub => exact absurd rfl hs
  | throw _ => rfl
  | verify => rfl
  | ub => rfl

/-- an operation the client may call is not a client error -/
theorem runOp_ne (hP : P.OK) {a : AState Val} {op : Op Val} (h : op.Allowed a.mem) : Spec.runOp P op a ≠ .ub := by
  intro e
  have := Spec.runOp_good hP (Spec.here_st (P := P) a) h
  rw [e] at this
  exact this

theorem asRet_ne {x : M (AState Val) Unit} {a : AState Val} (h : Prog.asRet (Val := Val) (fun _ => .unit) x a ≠ .ub) : x a ≠ .ub := by
  intro e
  apply h
  simp only [Prog.asRet, bind_run, e, obind_ub]

theorem ctorFrom_ne (hP : P.OK) {a : AState Val} {i j : Nat} {mv : Bool} (hi : a.mem i = none) (hj : a.mem j ≠ none) :
    Spec.ctorFrom P i j mv a ≠ .ub := by
  refine asRet_ne (runOp_ne hP (op := .ctorFrom i j mv) ⟨fun k hk => ?_, fun k hk => ?_, ?_, trivial⟩)
  · simp only [Op.uses, List.mem_singleton] at hk; rw [hk]; exact hj
  · simp only [Op.makes, List.mem_singleton] at hk; rw [hk]; exact hi
  · exact List.nodup_cons.2 ⟨List.not_mem_nil, List.nodup_nil⟩

theorem assignFrom_ne (hP : P.OK) {a : AState Val} {i j : Nat} {mv : Bool} (hi : a.mem i ≠ none) (hj : a.mem j ≠ none) :
    Spec.assignFrom P i j mv a ≠ .ub := by
  refine asRet_ne (runOp_ne hP (op := .assignFrom i j mv) ⟨fun k hk => ?_, fun k hk => by simp [Op.makes] at hk, List.nodup_nil, trivial⟩)
  simp only [Op.uses, List.mem_cons, List.not_mem_nil, or_false] at hk
  rcases hk with rfl | rfl
  · exact hi
  · exact hj

/-- an assignment from something to something -/
theorem assign_ne {a : AState Val} {i : Nat} {src : Src Val} {u v : Val} (hi : a.mem i = some (some u))
    (hv : src.gives P a.mem i = some v) : Spec.assign P i src a ≠ .ub := by
  cases a with
  | mk m e =>
    by_cases ht : (P.elem i).assignTriv (P.kind i src) = true ∨ P.throwsAt e.tick = false
    · cases hs : src.isSelf i
      · rw [Spec.assign_ok hi hs hv ht]; exact fun h => by cases h
      · cases src with
        | opt k mv =>
          have : k = i := by simpa [Src.isSelf] using hs
          subst this
          rw [Spec.assign_self hi ht]; exact fun h => by cases h
        | args v => cases hs
        | copy v => cases hs
        | move v => cases hs
    · rw [not_or] at ht
      rw [Spec.assign_throw hi hv (by simpa using ht.1) (by simpa using ht.2)]; exact fun h => by cases h

/-- for a scalar, giving a value and assigning one are the same when no user code runs -/
theorem init_assign {a : AState Val} {i : Nat} {src : Src Val} {u v : Val} (hi : a.mem i = some (some u))
    (hv : src.gives P a.mem i = some v) (hs : (P.elem i).scalar = true) (h1 : (P.elem i).ctorTriv (P.kind i src) = true)
    (h2 : (P.elem i).assignTriv (P.kind i src) = true) : Spec.init P i src a = Spec.assign P i src a := by
  cases a with
  | mk m e =>
    simp only [Spec.init, Spec.initAs, Spec.assign, bind_run, Spec.get_run (a := ⟨m, e⟩) hi, Spec.val_run (a := ⟨m, e⟩) hi, obind_ok, hs,
      Bool.not_true, Bool.and_false, Bool.false_eq_true, if_false, Spec.value_eq hv, h1, h2, if_true]

end Opt.Doc
