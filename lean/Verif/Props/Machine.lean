import Verif.Lemmas.SpecRun
import Verif.Lemmas.DemoWorld

/-!
# C17, C20-C23, C40, C45: what each modifier does, exactly

`P.Ends w x r evs m` / `P.Throws w x evs m` say: operation `x`, started in state `w`, completes with result `r` / throws;
afterwards the invariant holds, the client sees the options as `m`, and exactly the calls `evs` of user code were made.
All theorems hold for any state that satisfies the invariant, any element types, any values and any behaviour of user
code.  `buildEvs` is one constructor call; for types that are trivially move assignable with a non-trivial destructor in
C++17 it is the construction and destruction of a temporary (see `C16_violated_cxx17_temporary` and
`C20_violated_cxx17_temporary`).  Theorems named `_partial` exclude constructors that destroy the sentinel and then throw
(`FitAt`, see `C17_violated_*`).
-/

namespace Opt

variable {Val : Type} {P : Prog Val} {w : World} {i j r : Nat} {mv : Bool} {src : Src Val}

/-- the demonstration program without exceptions -/
abbrev Demo.calm : Prog Byte := Demo.prog true (fun _ => false) Demo.tidy

/-- the demonstration program whose first call of user code throws -/
abbrev Demo.angry : Prog Byte := Demo.prog true (· == 0) Demo.tidy

/-! ## C20: costs -/

/-- **C20**: `emplace` destroys the old value, if any, and constructs once. -/
theorem C20_emplace (hP : P.OK) (hw : P.Inv w) (hl : src.Legal P i) {x : Option Val} {v : Val}
    (hx : P.view w i = some x) (hs : src.isSelf i = false) (hv : src.gives P (P.view w) i = some v)
    (ht : P.CtorOK i src w.env.tick) :
    P.Ends w (P.emplace i src w) () (P.dtorEvs i x ++ P.buildEvs i src)
      (upd (P.ctorLeaves i src w.env.tick (P.view w)) i (some (some v))) :=
  Prog.ends_unit (Prog.emplace_sim hP (.nothrow ht) (Prog.abs_R hw) hl) (fun _ _ _ _ h => h)
    (Spec.emplace_ok hx hs hv ht)

/-- one constructor call, except in the C++17 case of `viaTemp` -/
theorem Prog.buildEvs_balanced (hb : P.BalancedAt i) : P.buildEvs i src = P.ctorEvs i src := by
  simp only [Prog.buildEvs, Prog.ctorEvs]
  rcases hb with h | h | h <;> simp [h]

/-- The full claim C20 is false in C++17: putting a value into an empty option of a trivially move assignable type with a
non-trivial destructor costs, beside the construction, a destruction (option.hpp 652-658). -/
theorem C20_violated_cxx17_temporary : ∃ w, Demo.lent.OK ∧ Demo.lent.Inv w ∧ Demo.lent.view w 0 = some none ∧
    Demo.lent.Ends w (Demo.lent.emplace 0 (.args 5) w) () [.tmpCtor .args true, .tmpDtor]
      (upd (Demo.lent.view w) 0 (some (some 5))) := by
  obtain ⟨o, h1, h2⟩ := Prog.ctorDefault_run (P := Demo.lent) (w := Prog.start) (i := 0) Demo.ok_lent rfl
  have h0 : R Demo.lent Prog.start (⟨fun _ => none, Prog.start.env⟩ : AState Byte) := ⟨rfl, fun _ => trivial⟩
  have h3 : R Demo.lent (Prog.start.put 0 o) (AState.put ⟨fun _ => none, Prog.start.env⟩ 0 none) := h0.put (fun _ _ _ _ h => h) h2
  obtain ⟨hi, ha⟩ := Prog.R_abs h3
  have hv : Demo.lent.view (Prog.start.put 0 o) = upd (fun _ => none) 0 (some none) := congrArg AState.mem ha.symm
  refine ⟨_, Demo.ok_lent, hi, by rw [hv, upd_same], ?_⟩
  exact C20_emplace (P := Demo.lent) (i := 0) (src := .args 5) Demo.ok_lent hi ⟨[5], rfl, rfl⟩ (x := none)
    (by rw [hv, upd_same]) rfl rfl (.inr rfl)

example : Demo.calm.Ends Demo.world (Demo.calm.emplace 1 (.args 8) Demo.world) () [.dtor 1, .ctor 1 .args]
    (upd (Demo.calm.view Demo.world) 1 (some (some 8))) :=
  C20_emplace (P := Demo.calm) (i := 1) (src := .args 8) Demo.ok_tidy Demo.inv
    (Demo.dom_mk 1 (.inr (.inl rfl))) Demo.view1 rfl rfl
    (.inr rfl)

/-- move the value of option 9 into the engaged option 1 -/
example : Demo.calm.Ends Demo.world (Demo.calm.emplace 1 (.opt 9 true) Demo.world) () [.dtor 1, .ctor 1 .move]
    (upd (Demo.calm.ctorLeaves 1 (.opt 9 true) 0 (Demo.calm.view Demo.world)) 1 (some (some 6))) :=
  C20_emplace (P := Demo.calm) (i := 1) (src := .opt 9 true) Demo.ok_tidy Demo.inv trivial Demo.view1 rfl (Spec.gives_opt Demo.view9)
    (.inr rfl)

/-- **C20**: `try_emplace` on an engaged option does nothing. -/
theorem C20_try_emplace_engaged (hP : P.OK) (hw : P.Inv w) (hl : src.Legal P i) {u v : Val}
    (hx : P.view w i = some (some u)) (hv : src.gives P (P.view w) i = some v) :
    P.Ends w (P.tryEmplace i src w) () [] (P.view w) :=
  Prog.ends_unit (Prog.tryEmplace_sim hP (fun h => by cases hx.symm.trans h) (Prog.abs_R hw) hl) (fun _ _ _ _ h => h)
    (by rw [Env.after_nil]; exact Spec.tryEmplace_eq hx hv)

example : Demo.angry.Ends Demo.world (Demo.angry.tryEmplace 1 (.args 8) Demo.world) () [] (Demo.angry.view Demo.world) :=
  C20_try_emplace_engaged (P := Demo.angry) (i := 1) (src := .args 8) Demo.ok_tidy Demo.inv (Demo.dom_mk 1 (.inr (.inl rfl))) Demo.view1 rfl

/-- **C20**: `try_emplace` on an empty option constructs once. -/
theorem C20_try_emplace_empty (hP : P.OK) (hw : P.Inv w) (hl : src.Legal P i) {v : Val}
    (hx : P.view w i = some none) (hv : src.gives P (P.view w) i = some v) (ht : P.CtorOK i src w.env.tick) :
    P.Ends w (P.tryEmplace i src w) () (P.buildEvs i src)
      (upd (P.ctorLeaves i src w.env.tick (P.view w)) i (some (some v))) :=
  Prog.ends_unit (Prog.tryEmplace_sim hP (fun _ => .nothrow ht) (Prog.abs_R hw) hl) (fun _ _ _ _ h => h)
    ((Spec.tryEmplace_eq hx hv).trans
      (Spec.init_ok hx (by rw [Src.notSelf_of_empty hx hv]; rfl) hv ht))

example : Demo.calm.Ends Demo.world (Demo.calm.tryEmplace 5 (.opt 1 false) Demo.world) () [.ctor 5 .copy]
    (upd (Demo.calm.ctorLeaves 5 (.opt 1 false) 0 (Demo.calm.view Demo.world)) 5 (some (some 5))) :=
  C20_try_emplace_empty (P := Demo.calm) (i := 5) (src := .opt 1 false) Demo.ok_tidy Demo.inv trivial Demo.view5
    (Spec.gives_opt Demo.view1) (.inr rfl)

/-- **C20**: assigning an engaged option to another engaged one is exactly one assignment of the contained objects (or a
bitwise copy when that is trivial). -/
theorem C20_assign_engaged (hP : P.OK) (hw : P.Inv w) {u v : Val} (hij : j ≠ i) (hx : P.view w i = some (some u))
    (hy : P.view w j = some (some v)) (ht : P.AssignOK i (.opt j mv) w.env.tick) :
    P.Ends w (P.assignFrom i j mv w) () (P.assignEvs i (.opt j mv))
      (upd (P.assignLeaves i (.opt j mv) w.env.tick (P.view w)) i (some (some (P.convFrom i j v)))) :=
  Prog.ends_unit (Prog.assignFrom_sim hP (fun h => by cases hx.symm.trans h) (Prog.abs_R hw)) (fun _ _ _ _ h => h)
    ((Spec.assignFrom_eq hx hy).trans (Spec.assign_ok hx (Spec.isSelf_opt hij) (Spec.gives_opt hy) ht))

example : Demo.calm.Ends Demo.world (Demo.calm.assignFrom 1 9 true Demo.world) () [.assign 1 .move true]
    (upd (Demo.calm.assignLeaves 1 (.opt 9 true) 0 (Demo.calm.view Demo.world)) 1 (some (some 6))) :=
  C20_assign_engaged Demo.ok_tidy Demo.inv (by decide) Demo.view1 Demo.view9 (.inr rfl)

/-- **C20**: assigning an engaged option to an empty one is exactly one construction. -/
theorem C20_assign_into_empty (hP : P.OK) (hw : P.Inv w) {v : Val}
    (hx : P.view w i = some none) (hy : P.view w j = some (some v)) (ht : P.CtorOK i (.opt j mv) w.env.tick) :
    P.Ends w (P.assignFrom i j mv w) () (P.buildEvs i (.opt j mv))
      (upd (P.ctorLeaves i (.opt j mv) w.env.tick (P.view w)) i (some (some (P.convFrom i j v)))) :=
  Prog.ends_unit (Prog.assignFrom_sim hP (fun _ _ => .nothrow ht) (Prog.abs_R hw)) (fun _ _ _ _ h => h)
    ((Spec.assignFrom_eq hx hy).trans
      (Spec.init_ok hx (by rw [Src.notSelf_of_empty hx (Spec.gives_opt (P := P) (i := i) (mv := mv) hy)]; rfl)
        (Spec.gives_opt hy) ht))

example : Demo.calm.Ends Demo.world (Demo.calm.assignFrom 5 9 true Demo.world) () [.ctor 5 .move]
    (upd (Demo.calm.ctorLeaves 5 (.opt 9 true) 0 (Demo.calm.view Demo.world)) 5 (some (some 6))) :=
  C20_assign_into_empty Demo.ok_tidy Demo.inv Demo.view5 Demo.view9 (.inr rfl)

/-- **C20**: assigning an empty option is exactly one destruction if the target is engaged, and nothing otherwise; nothing
can throw. -/
theorem C20_assign_from_empty (hP : P.OK) (hw : P.Inv w) {x : Option Val} (hx : P.view w i = some x)
    (hy : P.view w j = some none) :
    P.Ends w (P.assignFrom i j mv w) () (P.dtorEvs i x) (upd (P.view w) i (some none)) :=
  Prog.ends_unit (Prog.assignFrom_sim hP (fun _ ⟨_, h⟩ => by cases hy.symm.trans h) (Prog.abs_R hw)) (fun _ _ _ _ h => h)
    ((Spec.assignFrom_eq hx hy).trans (Spec.clear_eq hx))

example : Demo.angry.Ends Demo.world (Demo.angry.assignFrom 1 5 false Demo.world) () [.dtor 1]
    (upd (Demo.angry.view Demo.world) 1 (some none)) :=
  C20_assign_from_empty Demo.ok_tidy Demo.inv Demo.view1 Demo.view5

/-- **C20**: assigning a value to an engaged option of class type is exactly one assignment. -/
theorem C20_assign_value_engaged (hP : P.OK) (hw : P.Inv w) (hl : src.Legal P i) {u v : Val}
    (hsc : (P.elem i).scalar = false) (hs : src.isSelf i = false) (hx : P.view w i = some (some u))
    (hv : src.gives P (P.view w) i = some v) (ht : P.AssignOK i src w.env.tick) :
    P.Ends w (P.assignValue i src w) () (P.assignEvs i src)
      (upd (P.assignLeaves i src w.env.tick (P.view w)) i (some (some v))) :=
  Prog.ends_unit (Prog.assignValue_sim hP (fun h => by cases hx.symm.trans h) (Prog.abs_R hw) hl) (fun _ _ _ _ h => h)
    ((Spec.assignValue_eq hx hv).trans (by
      simp only [hsc, Bool.false_eq_true, if_false]
      exact Spec.assign_ok hx hs hv ht))

example : Demo.calm.Ends Demo.world (Demo.calm.assignValue 1 (.copy 8) Demo.world) () [.assign 1 .copy true]
    (upd (Demo.calm.view Demo.world) 1 (some (some 8))) :=
  C20_assign_value_engaged (P := Demo.calm) (i := 1) (src := .copy 8) Demo.ok_tidy Demo.inv (Demo.dom_mk 1 (.inr (.inl rfl))) rfl rfl Demo.view1 rfl (.inr rfl)

/-- **C20**: assigning a value to an option of a scalar stores it, whatever the option held; the only user code that may
run is a conversion. -/
theorem C20_assign_value_scalar (hP : P.OK) (hw : P.Inv w) (hl : src.Legal P i) {x : Option Val} {v : Val}
    (hsc : (P.elem i).scalar = true) (hx : P.view w i = some x) (hv : src.gives P (P.view w) i = some v)
    (ht : P.CtorOK i src w.env.tick) :
    P.Ends w (P.assignValue i src w) () (P.buildEvs i src)
      (upd (P.ctorLeaves i src w.env.tick (P.view w)) i (some (some v))) :=
  Prog.ends_unit (Prog.assignValue_sim hP (fun _ => .scalar hsc) (Prog.abs_R hw) hl) (fun _ _ _ _ h => h)
    ((Spec.assignValue_eq hx hv).trans (by
      simp only [hsc, if_true]
      exact Spec.init_ok hx (by rw [hsc, Bool.not_true, Bool.and_false]) hv ht))

example : Demo.angry.Ends Demo.world (Demo.angry.assignValue 2 (.copy 8) Demo.world) () []
    (upd (Demo.angry.view Demo.world) 2 (some (some 8))) :=
  C20_assign_value_scalar (P := Demo.angry) (i := 2) (src := .copy 8) Demo.ok_tidy Demo.inv (Demo.dom_mk 2 (.inr (.inr (.inl rfl)))) rfl Demo.view2 rfl (.inl rfl)

/-- **C20**: assigning a value to an empty option is exactly one construction. -/
theorem C20_assign_value_empty (hP : P.OK) (hw : P.Inv w) (hl : src.Legal P i) {v : Val}
    (hx : P.view w i = some none) (hv : src.gives P (P.view w) i = some v) (ht : P.CtorOK i src w.env.tick) :
    P.Ends w (P.assignValue i src w) () (P.buildEvs i src)
      (upd (P.ctorLeaves i src w.env.tick (P.view w)) i (some (some v))) :=
  Prog.ends_unit (Prog.assignValue_sim hP (fun _ => .nothrow ht) (Prog.abs_R hw) hl) (fun _ _ _ _ h => h)
    ((Spec.assignValue_eq hx hv).trans (by
      have := Spec.init_ok (P := P) hx (by rw [Src.notSelf_of_empty hx hv]; rfl) hv ht
      split <;> exact this))

example : Demo.calm.Ends Demo.world (Demo.calm.assignValue 5 (.opt 9 true) Demo.world) () [.ctor 5 .move]
    (upd (Demo.calm.ctorLeaves 5 (.opt 9 true) 0 (Demo.calm.view Demo.world)) 5 (some (some 6))) :=
  C20_assign_value_empty (P := Demo.calm) (i := 5) (src := .opt 9 true) Demo.ok_tidy Demo.inv trivial Demo.view5
    (Spec.gives_opt Demo.view9) (.inr rfl)

/-- **C20**: constructing an option from a value is exactly one construction. -/
theorem C20_construct_value (hP : P.OK) (hw : P.Inv w) (hl : src.Legal P i) {v : Val} (hx : P.view w i = none)
    (hv : src.gives P (P.view w) i = some v) (ht : P.CtorOK i src w.env.tick) :
    P.Ends w (P.ctorValue i src w) () (P.ctorEvs i src)
      (upd (P.ctorLeaves i src w.env.tick (P.view w)) i (some (some v))) :=
  Prog.ends_unit (Prog.ctorValue_sim hP (Prog.abs_R hw) hl) (fun _ _ _ _ h => h) (by
    simp only [Spec.ctorValue, bind_run, Prog.abs, Spec.evalArg_eq hv, obind_ok]
    exact Spec.create_ok hx hv ht)

example : Demo.calm.Ends Demo.world (Demo.calm.ctorValue 13 (.args 8) Demo.world) () [.ctor 13 .args]
    (upd (Demo.calm.view Demo.world) 13 (some (some 8))) :=
  C20_construct_value (P := Demo.calm) (i := 13) (src := .args 8) Demo.ok_tidy Demo.inv (Demo.dom_mk 1 (.inr (.inl rfl))) Demo.view13 rfl (.inr rfl)

/-- **C20**: copy and move construction of an engaged option is exactly one construction. -/
theorem C20_construct_from_engaged (hP : P.OK) (hw : P.Inv w) {v : Val}
    (hx : P.view w i = none) (hy : P.view w j = some (some v)) (ht : P.CtorOK i (.opt j mv) w.env.tick) :
    P.Ends w (P.ctorFrom i j mv w) () (P.buildEvs i (.opt j mv))
      (upd (P.ctorLeaves i (.opt j mv) w.env.tick (P.view w)) i (some (some (P.convFrom i j v)))) :=
  Prog.ends_unit (Prog.ctorFrom_sim hP (fun _ => .nothrow ht) (Prog.abs_R hw)) (fun _ _ _ _ h => h)
    ((Spec.ctorFrom_some hy).trans (Spec.createVia_ok hx (Spec.gives_opt hy) ht))

example : Demo.calm.Ends Demo.world (Demo.calm.ctorFrom 13 9 false Demo.world) () [.ctor 13 .copy]
    (upd (Demo.calm.ctorLeaves 13 (.opt 9 false) 0 (Demo.calm.view Demo.world)) 13 (some (some 6))) :=
  C20_construct_from_engaged Demo.ok_tidy Demo.inv Demo.view13 Demo.view9 (.inr rfl)

/-- **C20**: copy and move construction of an empty option calls nothing; nothing can throw. -/
theorem C20_construct_from_empty (hP : P.OK) (hw : P.Inv w) (hx : P.view w i = none) (hy : P.view w j = some none) :
    P.Ends w (P.ctorFrom i j mv w) () [] (upd (P.view w) i (some none)) :=
  Prog.ends_unit (Prog.ctorFrom_sim hP (fun ⟨_, h⟩ => by cases hy.symm.trans h) (Prog.abs_R hw)) (fun _ _ _ _ h => h)
    ((Spec.ctorFrom_none hy).trans (by rw [Env.after_nil]; exact Spec.new_eq hx))

example : Demo.angry.Ends Demo.world (Demo.angry.ctorFrom 13 5 true Demo.world) () []
    (upd (Demo.angry.view Demo.world) 13 (some none)) :=
  C20_construct_from_empty Demo.ok_tidy Demo.inv Demo.view13 Demo.view5

/-- **C20**: `reset` destroys the value, if any, and leaves the option empty; nothing can throw. -/
theorem C20_reset (hP : P.OK) (hw : P.Inv w) {x : Option Val} (hx : P.view w i = some x) :
    P.Ends w (P.reset i w) () (P.dtorEvs i x) (upd (P.view w) i (some none)) :=
  Prog.ends_unit (Prog.reset_sim hP (Prog.abs_R hw)) (fun _ _ _ _ h => h) (Spec.clear_eq hx)

example : Demo.angry.Ends Demo.world (Demo.angry.reset 0 Demo.world) () [.dtor 0]
    (upd (Demo.angry.view Demo.world) 0 (some none)) :=
  C20_reset Demo.ok_tidy Demo.inv Demo.view0

/-! ## C21: self-assignment and self-swap -/

/-- **C21**: copy-assigning an option to itself changes nothing; it calls at most the copy assignment of `T`. -/
theorem C21_self_copy (hP : P.OK) (hw : P.Inv w) {x : Option Val} (hx : P.view w i = some x)
    (ht : P.AssignOK i (.opt i false) w.env.tick) :
    P.Ends w (P.assignFrom i i false w) () (if x.isSome then P.assignEvs i (.opt i false) else []) (P.view w) := by
  refine Prog.ends_unit (Prog.assignFrom_sim hP (fun h ⟨_, h'⟩ => by cases h.symm.trans h') (Prog.abs_R hw))
    (fun _ _ _ _ h => h) ((Spec.assignFrom_eq hx hx).trans ?_)
  cases x with
  | none =>
    have h := Spec.clear_eq (P := P) (e := w.env) hx
    rw [upd_self hx] at h
    exact h
  | some u =>
    have h := Spec.assign_self (P := P) (e := w.env) (mv := false) hx ht
    rw [show (((P.elem i).assignTriv (P.kind i (.opt i false)) || !false)) = true from by simp] at h
    simp only [if_true, upd_self hx] at h
    exact h

example : Demo.calm.Ends Demo.world (Demo.calm.assignFrom 1 1 false Demo.world) () [.assign 1 .copy true]
    (Demo.calm.view Demo.world) :=
  C21_self_copy Demo.ok_tidy Demo.inv Demo.view1 (.inr rfl)

/-- **C21**: move-assigning an option to itself keeps it engaged iff it was; it calls at most the move assignment of `T`
on itself, which determines the value. -/
theorem C21_self_move (hP : P.OK) (hw : P.Inv w) {x : Option Val} (hx : P.view w i = some x)
    (ht : P.AssignOK i (.opt i true) w.env.tick) :
    P.Ends w (P.assignFrom i i true w) () (if x.isSome then P.assignEvs i (.opt i true) else [])
      (upd (P.view w) i (some (x.map fun u => if (P.elem i).trivMoveAssign then u else P.selfMoved i w.env.tick u))) := by
  refine Prog.ends_unit (Prog.assignFrom_sim hP (fun h ⟨_, h'⟩ => by cases h.symm.trans h') (Prog.abs_R hw))
    (fun _ _ _ _ h => h) ((Spec.assignFrom_eq hx hx).trans ?_)
  cases x with
  | none =>
    have h := Spec.clear_eq (P := P) (e := w.env) hx
    exact h
  | some u =>
    have h := Spec.assign_self (P := P) (e := w.env) (mv := true) hx ht
    have hk : P.kind i (.opt i true : Src Val) = .move := by simp [Prog.kind]
    rw [hk] at h
    simp only [Bool.not_true, Bool.or_false] at h
    exact h

example : Demo.calm.Ends Demo.world (Demo.calm.assignFrom 1 1 true Demo.world) () [.assign 1 .move true]
    (upd (Demo.calm.view Demo.world) 1 (some (some 5))) :=
  C21_self_move Demo.ok_tidy Demo.inv Demo.view1 (.inr rfl)

/-- **C21**: swapping an option with itself changes nothing; it calls at most `swap` of `T`. -/
theorem C21_self_swap (hP : P.OK) (hw : P.Inv w) {x : Option Val} (hx : P.view w i = some x)
    (ht : P.throwsAt w.env.tick = false) :
    P.Ends w (P.swap i i w) () (if x.isSome then [.swap i i true] else []) (P.view w) := by
  refine Prog.ends_unit (Prog.swap_sim hP (fun h ⟨_, h'⟩ => by cases h.symm.trans h')
    (fun h ⟨_, h'⟩ => by cases h.symm.trans h') (Prog.abs_R hw)) (fun _ _ _ _ h => h) ((Spec.swap_eq hx hx).trans ?_)
  cases x with
  | none => simp only [Option.isSome_none, Bool.false_eq_true, if_false, Env.after_nil]
  | some u =>
    simp only [ht, Bool.false_eq_true, if_false, Prog.convFrom, if_true, upd_upd, upd_self hx, Option.isSome_some]

example : Demo.calm.Ends Demo.world (Demo.calm.swap 9 9 Demo.world) () [.swap 9 9 true] (Demo.calm.view Demo.world) :=
  C21_self_swap Demo.ok_tidy Demo.inv Demo.view9 rfl

/-! ## C22: swap -/

/-- **C22**: swapping two engaged options swaps their values with one call of `swap`. -/
theorem C22_swap_engaged (hP : P.OK) (hw : P.Inv w) {u v : Val} (hx : P.view w i = some (some u))
    (hy : P.view w j = some (some v)) (ht : P.throwsAt w.env.tick = false) :
    P.Ends w (P.swap i j w) () [.swap i j true]
      (upd (upd (P.view w) i (some (some (P.convFrom i j v)))) j (some (some (P.convFrom j i u)))) := by
  refine Prog.ends_unit (Prog.swap_sim hP (fun h => by cases hx.symm.trans h) (fun h => by cases hy.symm.trans h)
    (Prog.abs_R hw)) (fun _ _ _ _ h => h) ((Spec.swap_eq hx hy).trans ?_)
  simp only [ht, Bool.false_eq_true, if_false]

example : Demo.calm.Ends Demo.world (Demo.calm.swap 1 9 Demo.world) () [.swap 1 9 true]
    (upd (upd (Demo.calm.view Demo.world) 1 (some (some 6))) 9 (some (some 5))) :=
  C22_swap_engaged Demo.ok_tidy Demo.inv Demo.view1 Demo.view9 rfl

/-- **C22**: swapping two empty options does nothing. -/
theorem C22_swap_empty (hP : P.OK) (hw : P.Inv w) (hx : P.view w i = some none) (hy : P.view w j = some none) :
    P.Ends w (P.swap i j w) () [] (P.view w) :=
  Prog.ends_unit (Prog.swap_sim hP (fun _ ⟨_, h⟩ => by cases hy.symm.trans h) (fun _ ⟨_, h⟩ => by cases hx.symm.trans h)
    (Prog.abs_R hw)) (fun _ _ _ _ h => h) ((Spec.swap_eq hx hy).trans (by rw [Env.after_nil]))

example : Demo.angry.Ends Demo.world (Demo.angry.swap 4 5 Demo.world) () [] (Demo.angry.view Demo.world) :=
  C22_swap_empty Demo.ok_tidy Demo.inv Demo.view4 Demo.view5

/-- **C22**: swapping an engaged option with an empty one is one move construction and one destruction. -/
theorem C22_swap_left (hP : P.OK) (hw : P.Inv w) {u : Val} (hx : P.view w i = some (some u))
    (hy : P.view w j = some none) (ht : P.CtorOK j (.opt i true) w.env.tick) :
    P.Ends w (P.swap i j w) () (P.buildEvs j (.opt i true) ++ P.dtorEvs i (some u))
      (upd (upd (P.view w) j (some (some (P.convFrom j i u)))) i (some none)) :=
  Prog.ends_unit (Prog.swap_sim hP (fun h => by cases hx.symm.trans h) (fun _ _ => .nothrow ht) (Prog.abs_R hw))
    (fun _ _ _ _ h => h) ((Spec.swap_eq hx hy).trans (Spec.shift_ok hy hx ht))

example : Demo.calm.Ends Demo.world (Demo.calm.swap 1 5 Demo.world) () [.ctor 5 .move, .dtor 1]
    (upd (upd (Demo.calm.view Demo.world) 5 (some (some 5))) 1 (some none)) :=
  C22_swap_left Demo.ok_tidy Demo.inv Demo.view1 Demo.view5 (.inr rfl)

/-- **C22**: the same with the empty option on the left. -/
theorem C22_swap_right (hP : P.OK) (hw : P.Inv w) {v : Val} (hx : P.view w i = some none)
    (hy : P.view w j = some (some v)) (ht : P.CtorOK i (.opt j true) w.env.tick) :
    P.Ends w (P.swap i j w) () (P.buildEvs i (.opt j true) ++ P.dtorEvs j (some v))
      (upd (upd (P.view w) i (some (some (P.convFrom i j v)))) j (some none)) :=
  Prog.ends_unit (Prog.swap_sim hP (fun _ _ => .nothrow ht) (fun h => by cases hy.symm.trans h) (Prog.abs_R hw))
    (fun _ _ _ _ h => h) ((Spec.swap_eq hx hy).trans (Spec.shift_ok hx hy ht))

example : Demo.calm.Ends Demo.world (Demo.calm.swap 4 9 Demo.world) () [.ctor 4 .conv, .dtor 9]
    (upd (upd (Demo.calm.view Demo.world) 4 (some (some 6))) 9 (some none)) :=
  C22_swap_right Demo.ok_tidy Demo.inv Demo.view4 Demo.view9 (.inr rfl)

/-! ## C23: take and take_if -/

/-- **C23**: `take` of an engaged option moves the value out and leaves the option empty: one move construction
and one destruction. -/
theorem C23_take_engaged (hP : P.OK) (hw : P.Inv w) {v : Val} (hr : P.view w r = none)
    (hx : P.view w i = some (some v)) (ht : P.CtorOK r (.opt i true) w.env.tick) :
    P.Ends w (P.take i r w) () (P.buildEvs r (.opt i true) ++ P.dtorEvs i (some v))
      (upd (upd (P.view w) r (some (some (P.convFrom r i v)))) i (some none)) :=
  Prog.ends_unit (Prog.take_sim hP (fun _ => .nothrow ht) (Prog.abs_R hw)) (fun _ _ _ _ h => h)
    (Spec.take_some hr hx ht)

example : Demo.calm.Ends Demo.world (Demo.calm.take 1 13 Demo.world) () [.ctor 13 .move, .dtor 1]
    (upd (upd (Demo.calm.view Demo.world) 13 (some (some 5))) 1 (some none)) :=
  C23_take_engaged Demo.ok_tidy Demo.inv Demo.view13 Demo.view1 (.inr rfl)

/-- **C23**: `take` of an empty option returns an empty option and calls nothing. -/
theorem C23_take_empty (hP : P.OK) (hw : P.Inv w) (hr : P.view w r = none) (hx : P.view w i = some none) :
    P.Ends w (P.take i r w) () [] (upd (P.view w) r (some none)) :=
  Prog.ends_unit (Prog.take_sim hP (fun ⟨_, h⟩ => by cases hx.symm.trans h) (Prog.abs_R hw)) (fun _ _ _ _ h => h)
    (by rw [Env.after_nil]; exact Spec.take_none hr hx)

example : Demo.angry.Ends Demo.world (Demo.angry.take 5 13 Demo.world) () []
    (upd (Demo.angry.view Demo.world) 13 (some none)) :=
  C23_take_empty Demo.ok_tidy Demo.inv Demo.view13 Demo.view5

/-- **C23**: `take_if` with a predicate that accepts calls it once and then takes what it left. -/
theorem C23_take_if_accept (hP : P.OK) (hw : P.Inv w) {f : Prog.Fn Val Bool}
    (hf : f.Legal P i) {v : Val} (hr : P.view w r = none) (hx : P.view w i = some (some v)) (hv : f.ret v = true)
    (hp : P.throwsAt w.env.tick = false) (ht : P.CtorOK r (.opt i true) (w.env.tick + 1)) :
    P.Ends w (P.takeIf i r f w) () ([.call i true] ++ (P.buildEvs r (.opt i true) ++ P.dtorEvs i (some v)))
      (upd (upd (P.view w) r (some (some (P.convFrom r i (f.after v))))) i (some none)) := by
  refine Prog.ends_unit (Prog.takeIf_sim hP (fun _ _ _ _ => .nothrow ht) (Prog.abs_R hw) hf) (fun _ _ _ _ h => h) ?_
  have hne : i ≠ r := fun h => by subst h; rw [hx] at hr; cases hr
  simp only [Spec.takeIf, Prog.abs, bind_run, Spec.get_run (a := ⟨P.view w, w.env⟩) hx, obind_ok, Spec.call_eq hx, hp,
    Bool.false_eq_true, if_false, hv, if_true]
  have h := Spec.take_some (P := P) (e := w.env.after [.call i true])
    (m := upd (P.view w) i (some (some (f.after v)))) (i := i) (r := r) (by rw [upd_other _ _ hne.symm]; exact hr)
    (upd_same _ _ _) (by rw [Env.after_tick1 rfl]; exact ht)
  rw [h, Env.after_after]
  congr 2
  funext k
  simp only [upd]
  split
  · rfl
  · rfl

example : Demo.calm.Ends Demo.world (Demo.calm.takeIf 1 13 ⟨fun v => v == 5, fun v => v + 1, id⟩ Demo.world) ()
    [.call 1 true, .ctor 13 .move, .dtor 1] (upd (upd (Demo.calm.view Demo.world) 13 (some (some 6))) 1 (some none)) :=
  C23_take_if_accept (P := Demo.calm) (i := 1) (f := ⟨fun v => v == 5, fun v => v + 1, id⟩) Demo.ok_tidy Demo.inv
    (Demo.fn_legal _) Demo.view13 Demo.view1 rfl rfl (.inr rfl)

/-- **C23**: `take_if` with a predicate that refuses calls it once, returns an empty option and leaves the value as the
predicate left it. -/
theorem C23_take_if_reject (hP : P.OK) (hw : P.Inv w) {f : Prog.Fn Val Bool} (hf : f.Legal P i) {v : Val}
    (hr : P.view w r = none) (hx : P.view w i = some (some v)) (hv : f.ret v = false)
    (hp : P.throwsAt w.env.tick = false) :
    P.Ends w (P.takeIf i r f w) () [.call i true]
      (upd (upd (P.view w) i (some (some (f.after v)))) r (some none)) := by
  refine Prog.ends_unit (Prog.takeIf_sim hP (fun u hu _ hn => ?_) (Prog.abs_R hw) hf) (fun _ _ _ _ h => h) ?_
  · cases hx.symm.trans hu; rw [hv] at hn; cases hn
  have hne : i ≠ r := fun h => by subst h; rw [hx] at hr; cases hr
  simp only [Spec.takeIf, Prog.abs, bind_run, Spec.get_run (a := ⟨P.view w, w.env⟩) hx, obind_ok, Spec.call_eq hx, hp,
    Bool.false_eq_true, if_false, hv]
  exact Spec.new_eq (by rw [upd_other _ _ hne.symm]; exact hr)

example : Demo.calm.Ends Demo.world (Demo.calm.takeIf 1 13 ⟨fun v => v == 4, fun v => v + 1, id⟩ Demo.world) ()
    [.call 1 true] (upd (upd (Demo.calm.view Demo.world) 1 (some (some 6))) 13 (some none)) :=
  C23_take_if_reject (P := Demo.calm) (i := 1) (f := ⟨fun v => v == 4, fun v => v + 1, id⟩) Demo.ok_tidy Demo.inv
    (Demo.fn_legal _) Demo.view13 Demo.view1 rfl rfl

/-- **C23**: `take_if` on an empty option returns an empty option and does not call the predicate. -/
theorem C23_take_if_empty (hP : P.OK) (hw : P.Inv w) {f : Prog.Fn Val Bool} (hf : f.Legal P i)
    (hr : P.view w r = none) (hx : P.view w i = some none) :
    P.Ends w (P.takeIf i r f w) () [] (upd (P.view w) r (some none)) := by
  refine Prog.ends_unit (Prog.takeIf_sim hP (fun u hu => by cases hx.symm.trans hu) (Prog.abs_R hw) hf)
    (fun _ _ _ _ h => h) ?_
  simp only [Spec.takeIf, Prog.abs, bind_run, Spec.get_run (a := ⟨P.view w, w.env⟩) hx, obind_ok, Env.after_nil]
  exact Spec.new_eq hr

example : Demo.angry.Ends Demo.world (Demo.angry.takeIf 5 13 ⟨fun v => v == 4, fun v => v + 1, id⟩ Demo.world) ()
    [] (upd (Demo.angry.view Demo.world) 13 (some none)) :=
  C23_take_if_empty (P := Demo.angry) (i := 5) (f := ⟨fun v => v == 4, fun v => v + 1, id⟩) Demo.ok_tidy Demo.inv
    (Demo.fn_legal5 _) Demo.view13 Demo.view5

/-! ## C17: constructors that throw -/

/-- **C17** (partial): when the constructor throws in `emplace` the old value is destroyed and the option is empty. -/
theorem C17_emplace_partial (hP : P.OK) (hw : P.Inv w) (hF : P.FitAt i (P.kind i src) w.env.tick) (hl : src.Legal P i)
    {x : Option Val} {v : Val} (hx : P.view w i = some x) (hs : src.isSelf i = false)
    (hv : src.gives P (P.view w) i = some v) (ht : P.CtorThrows i src w.env.tick) :
    P.Throws w (P.emplace i src w) (P.dtorEvs i x ++ [P.buildFail i src])
      (upd (src.leaves P true w.env.tick (P.view w)) i (some none)) :=
  Prog.throws_of (Prog.emplace_sim hP hF (Prog.abs_R hw) hl) (fun _ _ h => h) (Spec.emplace_throw hx hs hv ht.1 ht.2)

example : Demo.angry.Throws Demo.world (Demo.angry.emplace 1 (.args 8) Demo.world) [.dtor 1, .ctorFail 1 .args]
    (upd (Demo.angry.view Demo.world) 1 (some none)) :=
  C17_emplace_partial (P := Demo.angry) (i := 1) (src := .args 8) Demo.ok_tidy Demo.inv
    (.of Demo.throwSafe_tidy _ _ _) (Demo.dom_mk 1 (.inr (.inl rfl))) Demo.view1 rfl rfl ⟨rfl, rfl⟩

/-- with a flag nothing is required of the constructor -/
example : (Demo.prog false (· == 0) Demo.vptrFirst).FitAt 0 .args 0 := .flag rfl

/-- **C17** (partial): when the constructor throws in a value assignment the option is still empty. -/
theorem C17_assign_value_partial (hP : P.OK) (hw : P.Inv w) (hF : P.FitAt i (P.kind i src) w.env.tick) (hl : src.Legal P i)
    {v : Val} (hx : P.view w i = some none) (hv : src.gives P (P.view w) i = some v)
    (ht : P.CtorThrows i src w.env.tick) :
    P.Throws w (P.assignValue i src w) [P.buildFail i src]
      (upd (src.leaves P true w.env.tick (P.view w)) i (some none)) := by
  have hs := Src.notSelf_of_empty hx hv
  refine Prog.throws_of (Prog.assignValue_sim hP (fun _ => hF) (Prog.abs_R hw) hl) (fun _ _ h => h)
    ((Spec.assignValue_eq hx hv).trans ?_)
  have := Spec.init_throw (P := P) (e := w.env) hx (by rw [hs]; rfl) hv ht.1 ht.2
  rw [upd_self ((Src.leaves_at hs).trans hx)]
  split <;> exact this

example : Demo.angry.Throws Demo.world (Demo.angry.assignValue 5 (.opt 9 true) Demo.world) [.ctorFail 5 .move]
    (upd ((Src.opt 9 true).leaves Demo.angry true 0 (Demo.angry.view Demo.world)) 5 (some none)) :=
  C17_assign_value_partial (P := Demo.angry) (i := 5) (src := .opt 9 true) Demo.ok_tidy Demo.inv
    (.of Demo.throwSafe_tidy _ _ _) trivial Demo.view5 (Spec.gives_opt Demo.view9) ⟨rfl, rfl⟩

/-- **C17** (partial): when the constructor throws in an assignment from another option, the target is still empty. -/
theorem C17_assign_partial (hP : P.OK) (hw : P.Inv w) (hF : P.FitAt i (P.kind i (.opt j mv)) w.env.tick)
    {v : Val} (hx : P.view w i = some none) (hy : P.view w j = some (some v))
    (ht : P.CtorThrows i (.opt j mv) w.env.tick) :
    P.Throws w (P.assignFrom i j mv w) [P.buildFail i (.opt j mv)]
      (upd ((Src.opt j mv).leaves P true w.env.tick (P.view w)) i (some none)) := by
  have hv := Spec.gives_opt (P := P) (i := i) (mv := mv) hy
  have hs := Src.notSelf_of_empty hx hv
  refine Prog.throws_of (Prog.assignFrom_sim hP (fun _ _ => hF) (Prog.abs_R hw)) (fun _ _ h => h)
    ((Spec.assignFrom_eq hx hy).trans ?_)
  have := Spec.init_throw (P := P) (e := w.env) hx (by rw [hs]; rfl) hv ht.1 ht.2
  rw [upd_self ((Src.leaves_at hs).trans hx)]
  exact this

example : Demo.angry.Throws Demo.world (Demo.angry.assignFrom 5 1 false Demo.world) [.ctorFail 5 .copy]
    (upd (Demo.angry.view Demo.world) 5 (some none)) :=
  C17_assign_partial Demo.ok_tidy Demo.inv (.of Demo.throwSafe_tidy _ _ _) Demo.view5 Demo.view1 ⟨rfl, rfl⟩

/-- **C17**: when an assignment of the contained objects throws, the option stays engaged, with a value of `T`. -/
theorem C17_assign_engaged (hP : P.OK) (hw : P.Inv w) {u v : Val} (hx : P.view w i = some (some u))
    (hy : P.view w j = some (some v)) (ht : P.AssignThrows i (.opt j mv) w.env.tick) :
    P.Throws w (P.assignFrom i j mv w) [.assign i (P.kind i (.opt j mv)) false]
      (upd ((Src.opt j mv).leaves P true w.env.tick (P.view w)) i
        (some (some (P.broken i w.env.tick u (P.convFrom i j v))))) :=
  Prog.throws_of (Prog.assignFrom_sim hP (fun h => by cases hx.symm.trans h) (Prog.abs_R hw)) (fun _ _ h => h)
    ((Spec.assignFrom_eq hx hy).trans (Spec.assign_throw hx (Spec.gives_opt hy) ht.1 ht.2))

example : Demo.angry.Throws Demo.world (Demo.angry.assignFrom 9 1 false Demo.world) [.assign 9 .copy false]
    (upd (Demo.angry.view Demo.world) 9 (some (some 5))) :=
  C17_assign_engaged Demo.ok_tidy Demo.inv Demo.view9 Demo.view1 ⟨rfl, rfl⟩

/-- **C17**: when the constructor throws while an option is constructed from a value, there is no option. -/
theorem C17_construct_value (hP : P.OK) (hw : P.Inv w) (hl : src.Legal P i) {v : Val} (hx : P.view w i = none)
    (hv : src.gives P (P.view w) i = some v) (ht : P.CtorThrows i src w.env.tick) :
    P.Throws w (P.ctorValue i src w) [.ctorFail i (P.kind i src)]
      (upd (src.leaves P true w.env.tick (P.view w)) i none) :=
  Prog.throws_of (Prog.ctorValue_sim hP (Prog.abs_R hw) hl) (fun _ _ h => h) (by
    simp only [Spec.ctorValue, bind_run, Prog.abs, Spec.evalArg_eq hv, obind_ok]
    rw [upd_self ((Src.leaves_at (Src.notSelf_of_none hx hv)).trans hx)]
    exact Spec.create_throw hx hv ht.1 ht.2)

/-- even if the constructor writes the vtable pointer before it throws -/
example : (Demo.prog true (· == 0) Demo.vptrFirst).Throws Demo.world
    ((Demo.prog true (· == 0) Demo.vptrFirst).ctorValue 13 (.args 8) Demo.world) [.ctorFail 13 .args]
    (upd ((Demo.prog true (· == 0) Demo.vptrFirst).view Demo.world) 13 none) :=
  C17_construct_value (P := Demo.prog true (· == 0) Demo.vptrFirst) (i := 13) (src := .args 8) Demo.ok_vptr Demo.inv
    (Demo.dom_mk 1 (.inr (.inl rfl))) Demo.view13 rfl ⟨rfl, rfl⟩

/-- **C17** (partial): when the constructor throws in a copy or move construction, there is no new option. -/
theorem C17_construct_from_partial (hP : P.OK) (hw : P.Inv w) (hF : P.FitAt i (P.kind i (.opt j mv)) w.env.tick)
    {v : Val} (hx : P.view w i = none) (hy : P.view w j = some (some v))
    (ht : P.CtorThrows i (.opt j mv) w.env.tick) :
    P.Throws w (P.ctorFrom i j mv w) [P.buildFail i (.opt j mv)]
      (upd ((Src.opt j mv).leaves P true w.env.tick (P.view w)) i none) := by
  have hv := Spec.gives_opt (P := P) (i := i) (mv := mv) hy
  refine Prog.throws_of (Prog.ctorFrom_sim hP (fun _ => hF) (Prog.abs_R hw)) (fun _ _ h => h)
    ((Spec.ctorFrom_some hy).trans ?_)
  rw [upd_self ((Src.leaves_at (Src.notSelf_of_none hx hv)).trans hx)]
  exact Spec.createVia_throw hx hv ht.1 ht.2

example : Demo.angry.Throws Demo.world (Demo.angry.ctorFrom 13 1 false Demo.world) [.ctorFail 13 .copy]
    (upd (Demo.angry.view Demo.world) 13 none) :=
  C17_construct_from_partial Demo.ok_tidy Demo.inv (.of Demo.throwSafe_tidy _ _ _) Demo.view13 Demo.view1
    ⟨rfl, rfl⟩

/-- **C17** (partial): when the move constructor throws in a swap with an empty option, that option is still empty and the
other one keeps its (moved-from) value. -/
theorem C17_swap_partial (hP : P.OK) (hw : P.Inv w) (hF : P.FitAt j (P.kind j (.opt i true)) w.env.tick)
    {u : Val} (hx : P.view w i = some (some u)) (hy : P.view w j = some none)
    (ht : P.CtorThrows j (.opt i true) w.env.tick) :
    P.Throws w (P.swap i j w) [P.buildFail j (.opt i true)]
      (upd (P.view w) i (some (some (P.moved true i w.env.tick u)))) ∧
    P.Throws w (P.swap j i w) [P.buildFail j (.opt i true)]
      (upd (P.view w) i (some (some (P.moved true i w.env.tick u)))) :=
  ⟨Prog.throws_of (Prog.swap_sim hP (fun h => by cases hx.symm.trans h) (fun _ _ => hF) (Prog.abs_R hw))
    (fun _ _ h => h) ((Spec.swap_eq hx hy).trans (Spec.shift_throw hy hx ht.1 ht.2)),
  Prog.throws_of (Prog.swap_sim hP (fun _ _ => hF) (fun h => by cases hx.symm.trans h) (Prog.abs_R hw))
    (fun _ _ h => h) ((Spec.swap_eq hy hx).trans (Spec.shift_throw hy hx ht.1 ht.2))⟩

example : Demo.angry.Throws Demo.world (Demo.angry.swap 1 5 Demo.world) [.ctorFail 5 .move]
    (upd (Demo.angry.view Demo.world) 1 (some (some 0))) :=
  (C17_swap_partial Demo.ok_tidy Demo.inv (.of Demo.throwSafe_tidy _ _ _) Demo.view1 Demo.view5 ⟨rfl, rfl⟩).1

/-- **C17** (partial): when the move constructor throws in `take`, there is no result and the option stays engaged. -/
theorem C17_take_partial (hP : P.OK) (hw : P.Inv w) (hF : P.FitAt r (P.kind r (.opt i true)) w.env.tick)
    {u : Val} (hx : P.view w i = some (some u)) (hr : P.view w r = none)
    (ht : P.CtorThrows r (.opt i true) w.env.tick) :
    P.Throws w (P.take i r w) [P.buildFail r (.opt i true)]
      (upd (P.view w) i (some (some (P.moved true i w.env.tick u)))) :=
  Prog.throws_of (Prog.take_sim hP (fun _ => hF) (Prog.abs_R hw)) (fun _ _ h => h) (Spec.take_throw hr hx ht.1 ht.2)

example : Demo.angry.Throws Demo.world (Demo.angry.take 1 13 Demo.world) [.ctorFail 13 .move]
    (upd (Demo.angry.view Demo.world) 1 (some (some 0))) :=
  C17_take_partial Demo.ok_tidy Demo.inv (.of Demo.throwSafe_tidy _ _ _) Demo.view1 Demo.view13 ⟨rfl, rfl⟩

/-! ## C40: converting construction and assignment -/

/-- **C40**: constructing an option from an engaged option of another type is one converting construction. -/
theorem C40_construct_engaged (hP : P.OK) (hw : P.Inv w) (hc : P.cls i ≠ P.cls j) {v : Val}
    (hx : P.view w i = none) (hy : P.view w j = some (some v)) (ht : P.throwsAt w.env.tick = false) :
    P.Ends w (P.ctorFrom i j mv w) () (if P.viaTemp i then [.tmpCtor .conv true, .tmpDtor] else [.ctor i .conv])
      (upd (if mv then upd (P.view w) j (some (some (P.moved false j w.env.tick v))) else P.view w) i
        (some (some (P.conv (P.cls i) (P.cls j) v)))) := by
  have h := C20_construct_from_engaged (mv := mv) hP hw hx hy (.inr ht)
  have hk : P.kind i (.opt j mv : Src Val) = .conv := by simp [Prog.kind, hc]
  simp only [Prog.buildEvs, Prog.ctorLeaves, hk, Elem.ctorTriv, Bool.false_eq_true, if_false, Prog.convFrom, hc] at h
  cases mv
  · exact h
  · simp only [Src.leaves, hy, Option.map_some] at h
    exact h

example : Demo.calm.Ends Demo.world (Demo.calm.ctorFrom 7 1 true Demo.world) () [.ctor 7 .conv]
    (upd (upd (Demo.calm.view Demo.world) 1 (some (some 0))) 7 (some (some 1))) :=
  C40_construct_engaged Demo.ok_tidy Demo.inv (by decide) rfl Demo.view1 rfl

/-- **C40**: assigning an engaged option of another type to an empty option is one converting construction. -/
theorem C40_assign_into_empty (hP : P.OK) (hw : P.Inv w) (hc : P.cls i ≠ P.cls j) {v : Val}
    (hx : P.view w i = some none) (hy : P.view w j = some (some v)) (ht : P.throwsAt w.env.tick = false) :
    P.Ends w (P.assignFrom i j mv w) () (if P.viaTemp i then [.tmpCtor .conv true, .tmpDtor] else [.ctor i .conv])
      (upd (if mv then upd (P.view w) j (some (some (P.moved false j w.env.tick v))) else P.view w) i
        (some (some (P.conv (P.cls i) (P.cls j) v)))) := by
  have h := C20_assign_into_empty (mv := mv) hP hw hx hy (.inr ht)
  have hk : P.kind i (.opt j mv : Src Val) = .conv := by simp [Prog.kind, hc]
  simp only [Prog.buildEvs, Prog.ctorLeaves, hk, Elem.ctorTriv, Bool.false_eq_true, if_false, Prog.convFrom, hc] at h
  cases mv
  · exact h
  · simp only [Src.leaves, hy, Option.map_some] at h
    exact h

example : Demo.calm.Ends Demo.world (Demo.calm.assignFrom 4 1 false Demo.world) () [.ctor 4 .conv]
    (upd (Demo.calm.view Demo.world) 4 (some (some 5))) :=
  C40_assign_into_empty Demo.ok_tidy Demo.inv (by decide) Demo.view4 Demo.view1 rfl

/-- **C40**: assigning an engaged option of another type to an engaged option is one converting assignment. -/
theorem C40_assign_engaged (hP : P.OK) (hw : P.Inv w) (hc : P.cls i ≠ P.cls j) {u v : Val}
    (hx : P.view w i = some (some u)) (hy : P.view w j = some (some v)) (ht : P.throwsAt w.env.tick = false) :
    P.Ends w (P.assignFrom i j mv w) () [.assign i .conv true]
      (upd (if mv then upd (P.view w) j (some (some (P.moved false j w.env.tick v))) else P.view w) i
        (some (some (P.conv (P.cls i) (P.cls j) v)))) := by
  have h := C20_assign_engaged (mv := mv) hP hw (fun h => hc (by rw [h])) hx hy (.inr ht)
  have hk : P.kind i (.opt j mv : Src Val) = .conv := by simp [Prog.kind, hc]
  simp only [Prog.assignEvs, Prog.assignLeaves, hk, Elem.assignTriv, Bool.false_eq_true, if_false, Prog.convFrom, hc] at h
  cases mv
  · exact h
  · simp only [Src.leaves, hy, Option.map_some] at h
    exact h

example : Demo.calm.Ends Demo.world (Demo.calm.assignFrom 0 9 true Demo.world) () [.assign 0 .conv true]
    (upd (upd (Demo.calm.view Demo.world) 9 (some (some 0))) 0 (some (some 6))) :=
  C40_assign_engaged Demo.ok_tidy Demo.inv (by decide) Demo.view0 Demo.view9 rfl

/-- **C40**: from an empty option of any type an empty option results, and the conversion is not called. -/
theorem C40_empty (hP : P.OK) (hw : P.Inv w) (hy : P.view w j = some none) :
    (P.view w i = none → P.Ends w (P.ctorFrom i j mv w) () [] (upd (P.view w) i (some none))) ∧
    (∀ x, P.view w i = some x →
      P.Ends w (P.assignFrom i j mv w) () (P.dtorEvs i x) (upd (P.view w) i (some none))) :=
  ⟨fun hx => C20_construct_from_empty hP hw hx hy, fun _ hx => C20_assign_from_empty hP hw hx hy⟩

example : Demo.angry.Ends Demo.world (Demo.angry.assignFrom 1 4 false Demo.world) () [.dtor 1]
    (upd (Demo.angry.view Demo.world) 1 (some none)) :=
  (C40_empty Demo.ok_tidy Demo.inv Demo.view4).2 _ Demo.view1

/-! ## C45: destructor -/

/-- **C45**: the destructor of an option calls the destructor of `T` exactly once iff the option is engaged and that
destructor is not trivial. -/
theorem C45_destructor (hP : P.OK) (hw : P.Inv w) {x : Option Val} (hx : P.view w i = some x) :
    P.Ends w (P.dtor i w) () (if x.isSome && !(P.elem i).trivDtor then [.dtor i] else []) (upd (P.view w) i none) :=
  Prog.ends_unit (Prog.dtor_sim hP (Prog.abs_R hw)) (fun _ _ _ _ h => h) (Spec.destroy_eq hx)

example : Demo.angry.Ends Demo.world (Demo.angry.dtor 1 Demo.world) () [.dtor 1]
    (upd (Demo.angry.view Demo.world) 1 none) :=
  C45_destructor Demo.ok_tidy Demo.inv Demo.view1

end Opt
