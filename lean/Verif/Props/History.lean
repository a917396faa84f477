import Verif.Lemmas.History
import Verif.Lemmas.Demo
import Verif.Lemmas.Decide
import Verif.Lemmas.Lifetime

/-!
# C15, C16: histories

`Prog.run` executes any list of operations on any number of options, with any aliasing of the operands, over raw bytes;
`Spec.run` executes the same list over mathematical optionals.  User code may throw at any call.
-/

namespace Opt

variable {Val : Type} {P : Prog Val}

/-- a history with a copy, a throwing construction, a take, a swap with an empty option and destructors -/
def Demo.story : List (Op Byte) :=
  [.ctorDefault 1, .emplace 1 (.args 5), .emplace 1 (.args 5), .ctorFrom 5 1 false, .take 1 9, .swap 1 5, .valueOrThrow 1,
    .assignFrom 5 1 true, .ptrOrNull 1, .dtor 5, .dtor 1, .dtor 9]

theorem Demo.story_legal {thr : Nat → Bool} {clobber : Nat → Bytes → Bytes} :
    ∀ op ∈ Demo.story, op.Legal (Demo.prog true thr clobber) := by
  have hd : ((Demo.prog true thr clobber).elem 1).Dom 64 5 := Demo.dom_mk 1 (.inr (.inl rfl))
  simp only [Demo.story, List.forall_mem_cons]
  exact ⟨trivial, hd, hd, trivial, trivial, trivial, trivial, trivial, trivial, trivial, trivial, trivial,
    fun _ h => by cases h⟩

/-- **C15** (partial: needs `ThrowSafe`, see `C17_violated_*`).  Any history a client is
allowed to perform never runs into undefined behaviour; it fails a check of the library exactly when the specification
says so; otherwise all results, all `has_value()`, all contained values and the calls of user code are those of the
specification, and the representation invariant holds. -/
theorem C15_history_partial (hP : P.OK) (hT : P.ThrowSafe) (ops : List (Op Val))
    (hl : ∀ op ∈ ops, op.Legal P) (ha : Op.AllAllowed P ops Spec.start) :
    match Spec.run P ops Spec.start with
    | .ok rs a => ∃ w, P.run ops Prog.start = .ok rs w ∧ P.Inv w ∧ P.view w = a.mem ∧ w.env = a.env
    | .verify => P.run ops Prog.start = .verify
    | .throw _ => False
    | .ub => False := by
  have h0 : R P Prog.start (Spec.start : AState Val) := ⟨rfl, fun _ => trivial⟩
  have hs := Prog.run_sim hP hT h0 hl
  have hg := Spec.run_good hP Spec.start_fine ha
  revert hs hg
  cases Spec.run P ops Spec.start with
  | ub => exact fun _ h => h
  | throw _ => exact fun _ h => h
  | verify => cases P.run ops Prog.start <;> intro h <;> first | exact fun _ => rfl | exact h.elim
  | ok rs a =>
    cases P.run ops Prog.start with
    | throw _ => exact fun h => h.elim
    | verify => exact fun h => h.elim
    | ub => exact fun h => h.elim
    | ok rs' w =>
      rintro ⟨rfl, h⟩ _
      obtain ⟨h1, rfl⟩ := Prog.R_abs h
      exact ⟨w, rfl, h1, rfl, rfl⟩

/-- the second `emplace` throws; the third call finds an empty option -/
example : (Demo.prog true (· == 1) Demo.tidy).OK ∧ (Demo.prog true (· == 1) Demo.tidy).ThrowSafe ∧ (∀ op ∈ Demo.story, op.Legal (Demo.prog true (· == 1) Demo.tidy)) ∧
    Op.AllAllowed (Demo.prog true (· == 1) Demo.tidy) Demo.story Spec.start :=
  ⟨Demo.ok_tidy, Demo.throwSafe_tidy, Demo.story_legal, by decide +kernel⟩

example : ((Demo.prog true (· == 1) Demo.tidy).run Demo.story Prog.start).seen = some
    ([.unit, .unit, .threw, .unit, .unit, .unit, .threw, .unit, .opt none, .unit, .unit, .unit],
      [.ctor 1 .args, .dtor 1, .ctorFail 1 .args]) := by decide +kernel

/-- Without exceptions `ThrowSafe` holds for all element types. -/
theorem C15_nothrow_partial (hP : P.OK) (hT : ∀ n, P.throwsAt n = false) (ops : List (Op Val))
    (hl : ∀ op ∈ ops, op.Legal P) (ha : Op.AllAllowed P ops Spec.start) :
    match Spec.run P ops Spec.start with
    | .ok rs a => ∃ w, P.run ops Prog.start = .ok rs w ∧ P.Inv w ∧ P.view w = a.mem ∧ w.env = a.env
    | .verify => P.run ops Prog.start = .verify
    | .throw _ => False
    | .ub => False :=
  C15_history_partial hP (fun _ _ n _ _ _ _ h => by rw [hT n] at h; cases h) ops hl ha

example : (Demo.prog true (fun _ => false) Demo.vptrFirst).OK ∧
    (∀ n, (Demo.prog true (fun _ => false) Demo.vptrFirst).throwsAt n = false) ∧
    (∀ op ∈ Demo.story, op.Legal (Demo.prog true (fun _ => false) Demo.vptrFirst)) ∧
    Op.AllAllowed (Demo.prog true (fun _ => false) Demo.vptrFirst) Demo.story Spec.start :=
  ⟨Demo.ok_vptr, fun _ => rfl, Demo.story_legal, by decide +kernel⟩

/-- With external flags `ThrowSafe` holds for all constructors that throw. -/
theorem C15_flag_partial (hP : P.OK) (hF : ∀ i, (P.elem i).sent P.pw = false) (ops : List (Op Val))
    (hl : ∀ op ∈ ops, op.Legal P) (ha : Op.AllAllowed P ops Spec.start) :
    match Spec.run P ops Spec.start with
    | .ok rs a => ∃ w, P.run ops Prog.start = .ok rs w ∧ P.Inv w ∧ P.view w = a.mem ∧ w.env = a.env
    | .verify => P.run ops Prog.start = .verify
    | .throw _ => False
    | .ub => False :=
  C15_history_partial hP (fun i _ _ _ h => by rw [hF i] at h; cases h) ops hl ha

example : (Demo.lent17 (· == 1)).OK ∧
    (∀ i, ((Demo.lent17 (· == 1)).elem i).sent 64 = false) ∧
    (∀ op ∈ Demo.story, op.Legal (Demo.lent17 (· == 1))) ∧
    Op.AllAllowed (Demo.lent17 (· == 1)) Demo.story Spec.start := by
  refine ⟨Demo.ok_lent17, fun _ => rfl, ?_, by decide +kernel⟩
  have hd : ((Demo.lent17 (· == 1)).elem 1).Dom 64 5 := ⟨[5], rfl, rfl⟩
  simp only [Demo.story, List.forall_mem_cons]
  exact ⟨trivial, hd, hd, trivial, trivial, trivial, trivial, trivial, trivial, trivial, trivial, trivial,
    fun _ h => by cases h⟩

/-- One operation in any state that satisfies the invariant: the invariant is kept, the outcome is that of the
specification on what the client sees. -/
theorem C15_step_partial (hP : P.OK) (hT : P.ThrowSafe) (op : Op Val) (hl : op.Legal P) (w : World)
    (hw : P.Inv w) :
    match Spec.runOp P op ⟨P.view w, w.env⟩ with
    | .ok r a => ∃ w', P.runOp op w = .ok r w' ∧ P.Inv w' ∧ P.view w' = a.mem ∧ w'.env = a.env
    | .throw a => ∃ w', P.runOp op w = .throw w' ∧ P.Inv w' ∧ P.view w' = a.mem ∧ w'.env = a.env
    | .verify => P.runOp op w = .verify
    | .ub => ¬ op.Allowed (P.view w) := by
  have hs := Prog.runOp_sim hP hT (Prog.abs_R hw) hl
  have hg := fun (h : op.Allowed (P.view w)) => Spec.runOp_good hP (Spec.here_st (P := P) (P.abs w)) h
  simp only [Prog.abs] at hs hg
  revert hs hg
  cases Spec.runOp P op ⟨P.view w, w.env⟩ with
  | ub =>
    exact fun _ hg h => hg h
  | verify => cases P.runOp op w <;> intro h <;> first | exact fun _ => rfl | exact h.elim
  | throw a =>
    cases P.runOp op w with
    | ok _ _ => exact fun h => h.elim
    | verify => exact fun h => h.elim
    | ub => exact fun h => h.elim
    | throw w' =>
      rintro h _
      obtain ⟨h1, rfl⟩ := Prog.R_abs h
      exact ⟨w', rfl, h1, rfl, rfl⟩
  | ok r a =>
    cases P.runOp op w with
    | throw _ => exact fun h => h.elim
    | verify => exact fun h => h.elim
    | ub => exact fun h => h.elim
    | ok r' w' =>
      rintro ⟨rfl, h⟩ _
      obtain ⟨h1, rfl⟩ := Prog.R_abs h
      exact ⟨w', rfl, h1, rfl, rfl⟩

/-- in the empty world, and after a construction -/
example : (Demo.prog true (· == 0) Demo.tidy).Inv Prog.start ∧
    (Op.ctorValue 1 (.args 5)).Legal (Demo.prog true (· == 0) Demo.tidy) :=
  ⟨Prog.inv_start, Demo.dom_mk 1 (.inr (.inl rfl))⟩

/-! ## C16 -/

/-- **C16** (partial: needs `Balanced` and `ThrowSafe`).  After any allowed history, whatever throws: the log of calls of
user code is in order (no constructor on a live object, no destructor, assignment, swap or callback on a dead one), the
live objects are exactly the values of the engaged options, and each option has seen as many completed constructor
calls as destructor calls, plus one if it is engaged. -/
theorem C16_lifetimes_partial (hP : P.OK) (hB : P.Balanced) (hT : P.ThrowSafe) (ops : List (Op Val))
    (hl : ∀ op ∈ ops, op.Legal P) (ha : Op.AllAllowed P ops Spec.start) (rs : List (Ret Val)) (w : World)
    (hr : P.run ops Prog.start = .ok rs w) :
    Life.run P.tracked w.env.log = some (fun i => P.tracked i && (P.view w i).join.isSome) ∧
    ∀ i, P.tracked i = true →
      Life.ctors i w.env.log = Life.dtors i w.env.log + if (P.view w i).join.isSome then 1 else 0 := by
  have h15 := C15_history_partial hP hT ops hl ha
  have hg := Spec.run_good hP Spec.start_fine ha
  rw [hr] at h15
  revert h15 hg
  cases hs : Spec.run P ops Spec.start with
  | ub => exact fun h => h.elim
  | throw _ => exact fun h => h.elim
  | verify => exact fun h => by cases h
  | ok rs' a =>
    rintro ⟨w', h1, _, h2, h3⟩ ⟨s, hst, hll⟩
    obtain ⟨evs, he, hrun⟩ := hll hB
    cases h1
    have hlive : liveSet P s = fun i => P.tracked i && (P.view w i).join.isSome := by
      funext i
      simp only [liveSet, ← hst, shape, h2]
      cases a.mem i with
      | none => simp
      | some x => cases x <;> simp
    have hlog : Life.run P.tracked w.env.log = some (fun i => P.tracked i && (P.view w i).join.isSome) := by
      rw [h3, he, ← hlive]; exact hrun
    refine ⟨hlog, fun i hi => ?_⟩
    have := Life.run_count hi hlog
    rw [this, hi]
    cases (P.view w i).join.isSome <;> rfl

/-- **C16**: when every option has been destroyed, every contained object that was constructed has been destroyed. -/
theorem C16_all_destroyed_partial (hP : P.OK) (hB : P.Balanced) (hT : P.ThrowSafe) (ops : List (Op Val))
    (hl : ∀ op ∈ ops, op.Legal P) (ha : Op.AllAllowed P ops Spec.start) (rs : List (Ret Val)) (w : World)
    (hr : P.run ops Prog.start = .ok rs w) (hd : ∀ i, P.view w i = none) :
    Life.run P.tracked w.env.log = some (fun _ => false) ∧
    ∀ i, P.tracked i = true → Life.ctors i w.env.log = Life.dtors i w.env.log := by
  obtain ⟨h1, h2⟩ := C16_lifetimes_partial hP hB hT ops hl ha rs w hr
  simp only [hd, Option.join_none, Option.isSome_none, Bool.and_false] at h1 h2
  exact ⟨h1, fun i hi => h2 i hi⟩

/-- four objects, each constructed and destroyed once -/
example : ((Demo.prog true (fun _ => false) Demo.tidy).run Demo.story Prog.start).seen = some
    ([.unit, .unit, .unit, .unit, .unit, .unit, .val 5, .unit, .opt (some 0), .unit, .unit, .unit],
      [.ctor 1 .args, .dtor 1, .ctor 1 .args, .ctor 5 .copy, .ctor 9 .move, .dtor 1, .ctor 1 .move, .dtor 5,
        .ctor 5 .move, .dtor 5, .dtor 1, .dtor 9]) := by decide +kernel

/-- The full claim C16 is false in C++17: a type with a trivial move assignment and a non-trivial destructor is built
through a temporary whose destruction nothing balances (option.hpp 652-658), so the destructor runs twice for one
constructor call. -/
theorem C16_violated_cxx17_temporary :
    Demo.lent.OK ∧ Demo.lent.ThrowSafe ∧
    Op.AllAllowed Demo.lent [.ctorDefault 0, .emplace 0 (.args 5), .dtor 0] Spec.start ∧
    ∃ w, Demo.lent.run [.ctorDefault 0, .emplace 0 (.args 5), .dtor 0] Prog.start = .ok [.unit, .unit, .unit] w ∧
      w.env.log = [.tmpCtor .args true, .tmpDtor, .dtor 0] ∧ Life.run Demo.lent.tracked w.env.log = none ∧
      Life.dtors 0 w.env.log = 1 ∧ Life.ctors 0 w.env.log = 0 := by
  refine ⟨Demo.ok_lent, fun _ _ _ _ _ _ _ h => (by cases h), (by decide +kernel), ?_⟩
  obtain ⟨w, h1, h2⟩ := Out.of_seen (x := Demo.lent.run [.ctorDefault 0, .emplace 0 (.args 5), .dtor 0] Prog.start)
    (r := [.unit, .unit, .unit]) (l := [.tmpCtor .args true, .tmpDtor, .dtor 0]) (by decide +kernel)
  refine ⟨w, h1, h2, ?_⟩
  rw [h2]
  exact ⟨rfl, rfl, rfl⟩

/-! ## C17 -/

/-- The full claim C17 is false for options without a flag: the constructor of a polymorphic class writes the vtable
pointer, which holds the empty state, before its body throws.  Afterwards `has_value()` is true although there is no
object, and the destructor of the option destroys an object that was never constructed. -/
theorem C17_violated_throwing_constructor :
    (Demo.prog true (· == 0) Demo.vptrFirst).OK ∧ (Demo.prog true (· == 0) Demo.vptrFirst).Balanced ∧
    (∃ w, (Demo.prog true (· == 0) Demo.vptrFirst).run [.ctorDefault 1, .emplace 1 (.args 5), .hasValue 1] Prog.start =
      .ok [.unit, .threw, .bool true] w ∧ w.env.log = [.ctorFail 1 .args]) ∧
    (Demo.prog true (· == 0) Demo.vptrFirst).run [.ctorDefault 1, .emplace 1 (.args 5), .dtor 1] Prog.start = .ub :=
  ⟨Demo.ok_vptr, Demo.balanced, Out.of_seen (by decide +kernel), Out.of_isUb (by decide +kernel)⟩

/-- The same happens in a copy constructor: the base class part is already constructed, so it is destroyed when the body
throws (option.hpp 2124-2129, 2083-2087). -/
theorem C17_violated_copy_constructor :
    (Demo.prog true (· == 1) Demo.vptrFirst).OK ∧ (Demo.prog true (· == 1) Demo.vptrFirst).Balanced ∧
    (Demo.prog true (· == 1) Demo.vptrFirst).run [.ctorDefault 1, .emplace 1 (.args 5), .ctorFrom 5 1 false] Prog.start =
      .ub := ⟨Demo.ok_vptr, Demo.balanced, Out.of_isUb (by decide +kernel)⟩

end Opt
