import Verif.Lemmas.ReentrantHarmless
import Verif.Props.History
import Verif.Props.Machine

/-!
# C75: client programs that decide what to do from what they get, with callables that use the options themselves

`Prog.runCode` runs any client program over raw bytes: it uses any number of options, looks at the results, and the callables it
passes to `map`, `filter`, `take_if` and the others are such programs again, nested to any depth, which may empty, refill or destroy
the very option they were called for.  `Spec.runCode` runs the same program over mathematical optionals.
-/

namespace Opt

variable {Val : Type} {P : Prog Val}

/-- An option is refilled from inside `inspect` and changed through a reference; `take_if` is called with a predicate that empties the
option; `or_else` with a callable that fills it; `map` with a callable that destroys it; what happens next depends on the result. -/
def Demo.nest : Code Byte .unit :=
  .op (.ctorValue 1 (.args 5)) fun _ =>
  .call (.inspect 1 fun v => .op (.reset 1) fun _ => .op (.emplace 1 (.args (v + 1))) fun _ => .write 1 7 (.ret ())) fun _ =>
  .call (.takeIf 1 5 fun v => .op (.reset 1) fun _ => .ret (v == 7)) fun _ =>
  .call (.orElse 1 9 false (.op (.emplace 1 (.args 3)) fun r => if r = .threw then .fail else .ret (some 4))) fun _ =>
  .call (.map 1 13 fun v => .op (.dtor 1) fun _ => .ret (v + 1)) fun _ =>
  .op (.get 13) fun r => if r = .val 4 then .op (.dtor 13) fun _ => .ret () else .fail

theorem Demo.nest_fits {thr : Nat → Bool} {clobber : Nat → Bytes → Bytes} :
    Demo.nest.Fits (Demo.prog true thr clobber) fun _ => True := by
  have hd : ∀ v, ((Demo.prog true thr clobber).elem 1).Dom 64 v := fun v => Demo.dom_mk 1 (.inr (.inl rfl))
  unfold Demo.nest
  simp only [Code.Fits, COp.Fits]
  refine ⟨hd _, fun _ => ⟨fun v => ⟨trivial, fun _ => ⟨hd _, fun _ => ⟨hd _, trivial⟩⟩⟩, fun _ =>
    ⟨fun v => ⟨trivial, fun _ => trivial⟩, fun _ => ⟨⟨hd _, fun r => ?_⟩, fun _ =>
      ⟨fun v => ⟨trivial, fun _ => hd _⟩, fun _ => ⟨trivial, fun r => ?_⟩⟩⟩⟩⟩⟩
  · split
    · trivial
    · exact fun _ _ => hd _
  · split
    · exact ⟨trivial, fun _ => trivial⟩
    · trivial

/-- the invariant holds, the client sees what the specification says, and user code was called as it says -/
def Prog.Shows (P : Prog Val) (w : World) (a : AState Val) : Prop := P.Inv w ∧ P.view w = a.mem ∧ w.env = a.env

/-- **C75** (partial: needs `ThrowSafe`, see `C17_violated_*`).  Any client program, whatever its callables do to the options, does
from any state exactly what it does on mathematical optionals, if that is defined: it returns the same, throws in the same cases, fails
a check of the library in the same cases, never has undefined behaviour, and afterwards the invariant holds, all values are those of the
specification, and user code was called in the same order. -/
theorem C75_refine_partial (hP : P.OK) (hT : P.ThrowSafe) {t : Want} (c : Code Val t) (w : World) (hw : P.Inv w)
    (ht : c.Typed P ⟨P.view w, w.env⟩) :
    match Spec.runCode P c ⟨P.view w, w.env⟩ with
    | .ok x a => ∃ w', P.runCode c w = .ok x w' ∧ P.Shows w' a
    | .throw a => ∃ w', P.runCode c w = .throw w' ∧ P.Shows w' a
    | .verify => P.runCode c w = .verify
    | .ub => True := by
  have hs := Prog.code_sim hP hT c (Prog.abs_R hw) ht
  simp only [Prog.abs] at hs
  revert hs
  cases Spec.runCode P c ⟨P.view w, w.env⟩ with
  | ub => exact fun _ => trivial
  | verify => cases P.runCode c w <;> intro h <;> first | rfl | exact h.elim
  | throw a =>
    cases P.runCode c w with
    | ok _ _ => exact fun h => h.elim
    | verify => exact fun h => h.elim
    | ub => exact fun h => h.elim
    | throw w' =>
      intro h
      obtain ⟨h1, rfl⟩ := Prog.R_abs h
      exact ⟨w', rfl, h1, rfl, rfl⟩
  | ok r a =>
    cases P.runCode c w with
    | throw _ => exact fun h => h.elim
    | verify => exact fun h => h.elim
    | ub => exact fun h => h.elim
    | ok r' w' =>
      rintro ⟨rfl, h⟩
      obtain ⟨h1, rfl⟩ := Prog.R_abs h
      exact ⟨w', rfl, h1, rfl, rfl⟩

/-- **C75** (partial: needs `Harmless`, see `C17_violated_*`).  The condition is only on the constructor calls that fail along this
run in the storage of an option. -/
theorem C75_harmless_partial (hP : P.OK) {t : Want} (c : Code Val t) (w : World) (hw : P.Inv w)
    (ht : c.Typed P ⟨P.view w, w.env⟩) (ha : c.Allowed P ⟨P.view w, w.env⟩) (hh : c.Harmless P ⟨P.view w, w.env⟩) :
    P.runCode c w ≠ .ub ∧
    match Spec.runCode P c ⟨P.view w, w.env⟩ with
    | .ok x a => ∃ w', P.runCode c w = .ok x w' ∧ P.Shows w' a
    | .throw a => ∃ w', P.runCode c w = .throw w' ∧ P.Shows w' a
    | .verify => P.runCode c w = .verify
    | .ub => False := by
  have hs := Prog.code_simH hP c (Prog.abs_R hw) ht ha hh
  have hg := Spec.code_good hP c ⟨_, Spec.here_st (P := P) (P.abs w)⟩ ha
  simp only [Prog.abs] at hs hg
  revert hs hg
  cases Spec.runCode P c ⟨P.view w, w.env⟩ with
  | ub => exact fun _ h => h.elim
  | verify => cases P.runCode c w <;> intro h _ <;> first | exact ⟨nofun, rfl⟩ | exact h.elim
  | throw a =>
    cases P.runCode c w with
    | throw w' =>
      intro h _
      obtain ⟨h1, rfl⟩ := Prog.R_abs h
      exact ⟨nofun, w', rfl, h1, rfl, rfl⟩
    | _ => exact fun h => h.elim
  | ok r a =>
    cases P.runCode c w with
    | ok r' w' =>
      rintro ⟨rfl, h⟩ _
      obtain ⟨h1, rfl⟩ := Prog.R_abs h
      exact ⟨nofun, w', rfl, h1, rfl, rfl⟩
    | _ => exact fun h => h.elim

/-- the constructors of the polymorphic class may destroy the sentinel, and the constructor of the result of the inner
`map` fails; the callable around it goes on -/
def Demo.nestFail : Code Byte .unit :=
  .op (.ctorValue 1 (.args 5)) fun _ =>
  .call (.inspect 1 fun _ => .call (.map 1 5 fun v => .op (.reset 1) fun _ => .ret (v + 1)) fun r =>
    if r = .threw then .op (.emplace 1 (.args 3)) fun _ => .ret () else .fail) fun _ => .ret ()

theorem Demo.nestFail_fits {thr : Nat → Bool} {clobber : Nat → Bytes → Bytes} :
    Demo.nestFail.Fits (Demo.prog true thr clobber) fun _ => True := by
  have hd : ∀ v, ((Demo.prog true thr clobber).elem 1).Dom 64 v := fun v => Demo.dom_mk 1 (.inr (.inl rfl))
  unfold Demo.nestFail
  simp only [Code.Fits, COp.Fits]
  refine ⟨hd _, fun _ => ⟨fun _ => ⟨fun v => ⟨trivial, fun _ => hd _⟩, fun r => ?_⟩, fun _ => trivial⟩⟩
  split
  · exact ⟨hd _, fun _ => trivial⟩
  · trivial

example : (Demo.prog true (· == 3) Demo.vptrFirst).OK ∧
    Demo.nestFail.Typed (Demo.prog true (· == 3) Demo.vptrFirst) Spec.start ∧
    Demo.nestFail.Allowed (Demo.prog true (· == 3) Demo.vptrFirst) Spec.start ∧
    Demo.nestFail.Harmless (Demo.prog true (· == 3) Demo.vptrFirst) Spec.start ∧
    ((Demo.prog true (· == 3) Demo.vptrFirst).runCode Demo.nestFail Prog.start).seen = some ((),
      [.ctor 1 .args, .call 1 true, .call 1 true, .dtor 1, .ctorFail 5 .args, .ctor 1 .args]) :=
  ⟨Demo.ok_vptr, Spec.fits_typed _ Demo.nestFail_fits _, by decide +kernel, Code.harmless_of_noneFails (by decide +kernel),
    by decide +kernel⟩

example : Demo.calm.OK ∧ Demo.calm.ThrowSafe ∧ Demo.calm.Inv Prog.start ∧ Demo.nest.Typed Demo.calm Spec.start :=
  ⟨Demo.ok_tidy, Demo.throwSafe_tidy, Prog.inv_start, Spec.fits_typed _ Demo.nest_fits _⟩

example : (Demo.calm.runCode Demo.nest Prog.start).seen = some ((),
    [.ctor 1 .args, .call 1 true, .dtor 1, .ctor 1 .args, .call 1 true, .dtor 1, .call0 true, .ctor 1 .args, .ctor 9 .args,
      .call 1 true, .dtor 1, .ctor 13 .args, .dtor 13]) := by decide +kernel

/-- **C75** (partial: needs `ThrowSafe`).  A client program that respects what it must respect along its run on mathematical optionals
(`Code.Allowed`: it uses options that exist and puts results where there is room; it may do anything to the option a callable of its own
is running for, only `take_if` and `filter` need the option to exist when their predicate has returned `true`) never has undefined
behaviour. -/
theorem C75_defined_partial (hP : P.OK) (hT : P.ThrowSafe) {t : Want} (c : Code Val t) (w : World) (hw : P.Inv w)
    (ht : c.Typed P ⟨P.view w, w.env⟩) (ha : c.Allowed P ⟨P.view w, w.env⟩) :
    P.runCode c w ≠ .ub ∧
    match Spec.runCode P c ⟨P.view w, w.env⟩ with
    | .ok x a => ∃ w', P.runCode c w = .ok x w' ∧ P.Shows w' a
    | .throw a => ∃ w', P.runCode c w = .throw w' ∧ P.Shows w' a
    | .verify => P.runCode c w = .verify
    | .ub => False := by
  have h1 := C75_refine_partial hP hT c w hw ht
  have h2 := Spec.code_good hP c ⟨_, Spec.here_st (P := P) (P.abs w)⟩ ha
  simp only [Prog.abs] at h2
  revert h1 h2
  cases Spec.runCode P c ⟨P.view w, w.env⟩ with
  | ub => exact fun _ h => h.elim
  | verify => exact fun h1 _ => ⟨by rw [h1]; nofun, h1⟩
  | throw a =>
    rintro ⟨w', h1, h⟩ _
    exact ⟨by rw [h1]; nofun, w', h1, h⟩
  | ok r a =>
    rintro ⟨w', h1, h⟩ _
    exact ⟨by rw [h1]; nofun, w', h1, h⟩

example : Demo.nest.Allowed Demo.calm Spec.start := by decide +kernel

/-- the emplacement inside the callable of `or_else` throws; the callable passes the exception on, `or_else` makes no option; the later
`map` finds nothing, and the check in `get` fails -/
example : (Demo.prog true (· == 5) Demo.tidy).ThrowSafe ∧ Demo.nest.Allowed (Demo.prog true (· == 5) Demo.tidy) Spec.start ∧
    (Demo.prog true (· == 5) Demo.tidy).runCode Demo.nest Prog.start = .verify := by
  exact ⟨Demo.throwSafe_tidy, by decide +kernel, Out.of_isVerify (by decide +kernel)⟩

/-- **C75**: without exceptions thrown by constructors (callables may throw) `ThrowSafe` holds for all element types. -/
theorem C75_nothrow (hP : P.OK) (hn : ∀ n, P.throwsAt n = false) {t : Want} (c : Code Val t) (w : World) (hw : P.Inv w)
    (ht : c.Typed P ⟨P.view w, w.env⟩) :
    match Spec.runCode P c ⟨P.view w, w.env⟩ with
    | .ok x a => ∃ w', P.runCode c w = .ok x w' ∧ P.Shows w' a
    | .throw a => ∃ w', P.runCode c w = .throw w' ∧ P.Shows w' a
    | .verify => P.runCode c w = .verify
    | .ub => True :=
  C75_refine_partial hP (fun _ _ n _ _ _ _ h => by rw [hn n] at h; cases h) c w hw ht

example : (Demo.prog true (fun _ => false) Demo.vptrFirst).OK ∧
    (∀ n, (Demo.prog true (fun _ => false) Demo.vptrFirst).throwsAt n = false) ∧
    Demo.nest.Typed (Demo.prog true (fun _ => false) Demo.vptrFirst) Spec.start :=
  ⟨Demo.ok_vptr, fun _ => rfl, Spec.fits_typed _ Demo.nest_fits _⟩

/-- **C75**: with external flags `ThrowSafe` holds for all constructors that throw. -/
theorem C75_flag (hP : P.OK) (hF : ∀ i, (P.elem i).sent P.pw = false) {t : Want} (c : Code Val t) (w : World) (hw : P.Inv w)
    (ht : c.Typed P ⟨P.view w, w.env⟩) :
    match Spec.runCode P c ⟨P.view w, w.env⟩ with
    | .ok x a => ∃ w', P.runCode c w = .ok x w' ∧ P.Shows w' a
    | .throw a => ∃ w', P.runCode c w = .throw w' ∧ P.Shows w' a
    | .verify => P.runCode c w = .verify
    | .ub => True :=
  C75_refine_partial hP (fun i _ _ _ h => by rw [hF i] at h; cases h) c w hw ht

example : (Demo.lent17 (· == 1)).OK ∧ (∀ i, ((Demo.lent17 (· == 1)).elem i).sent (Demo.lent17 (· == 1)).pw = false) ∧
    ((Demo.lent17 (· == 1)).runCode (t := .unit) (.op (.ctorValue 1 (.args 5)) fun _ => .call (.inspect 1 fun v =>
      .op (.reset 1) fun _ => .op (.emplace 1 (.args (v + 1))) fun r => if r = .threw then .ret () else .fail) fun _ => .ret ())
      Prog.start).seen.isSome = true :=
  ⟨Demo.ok_lent17, fun _ => rfl, by decide +kernel⟩

/-- **C75** (partial, as `C16_lifetimes_partial`): also when callables use the options they run for, every contained object is
constructed and destroyed properly: the log is in order, and an object is alive at the end exactly if its option is engaged. -/
theorem C75_lifetimes_partial (hP : P.OK) (hB : P.Balanced) (hT : P.ThrowSafe) {t : Want} (c : Code Val t)
    (ht : c.Typed P Spec.start) (ha : c.Allowed P Spec.start) (w : World)
    (hr : P.runCode c Prog.start = .throw w ∨ ∃ x, P.runCode c Prog.start = .ok x w) :
    Life.run P.tracked w.env.log = some (fun i => P.tracked i && (P.view w i).join.isSome) ∧
    ∀ i, P.tracked i = true →
      Life.ctors i w.env.log = Life.dtors i w.env.log + if (P.view w i).join.isSome then 1 else 0 := by
  have h15 := C75_refine_partial hP hT c Prog.start Prog.inv_start ht
  have hg := Spec.code_good hP c Spec.start_fine ha
  have key : ∃ a, Spec.Fine Spec.base0 P a ∧ P.Shows w a := by
    revert h15 hg
    have e : (⟨P.view Prog.start, Prog.start.env⟩ : AState Val) = Spec.start := rfl
    rw [e]
    cases Spec.runCode P c Spec.start with
    | ub => exact fun _ h => h.elim
    | verify =>
      intro h
      rcases hr with hr | ⟨x, hr⟩ <;> (rw [hr] at h; cases h)
    | throw a =>
      rintro ⟨w', h1, h⟩ hg
      rcases hr with hr | ⟨x, hr⟩
      · rw [hr] at h1; cases h1
        exact ⟨a, hg, h⟩
      · rw [hr] at h1; cases h1
    | ok x a =>
      rintro ⟨w', h1, h⟩ hg
      rcases hr with hr | ⟨x, hr⟩
      · rw [hr] at h1; cases h1
      · rw [hr] at h1; cases h1
        exact ⟨a, hg, h⟩
  obtain ⟨a, ⟨s, hst, hll⟩, _, h2, h3⟩ := key
  obtain ⟨evs, he, hrun⟩ := hll hB
  have hlive : liveSet P s = fun i => P.tracked i && (P.view w i).join.isSome := by
    funext i
    simp only [liveSet, ← hst, shape, h2]
    cases a.mem i with
    | none => simp
    | some x => cases x <;> simp
  have hlog : Life.run P.tracked w.env.log = some (fun i => P.tracked i && (P.view w i).join.isSome) := by
    rw [h3, he, ← hlive]; exact hrun
  refine ⟨hlog, fun i hi => ?_⟩
  have := Life.run_count hi hlog
  rw [this, hi]
  cases (P.view w i).join.isSome <;> rfl

/-- five objects at 1, 9 and 13; the one at 9 is still alive -/
example : ∃ w, Demo.calm.runCode Demo.nest Prog.start = .ok () w ∧
    Life.ctors 1 w.env.log = 3 ∧ Life.dtors 1 w.env.log = 3 ∧ Life.ctors 9 w.env.log = 1 ∧ Life.dtors 9 w.env.log = 0 := by
  obtain ⟨w, h1, h2⟩ := Out.of_seen (x := Demo.calm.runCode Demo.nest Prog.start) (r := ())
    (l := [.ctor 1 .args, .call 1 true, .dtor 1, .ctor 1 .args, .call 1 true, .dtor 1, .call0 true, .ctor 1 .args, .ctor 9 .args,
      .call 1 true, .dtor 1, .ctor 13 .args, .dtor 13]) (by decide +kernel)
  exact ⟨w, h1, by rw [h2]; decide⟩

/-- **C75** (partial, as `C16_harmless_partial`): with the condition only on the constructor calls that fail along this run, also when callables use the options they run for, every contained object is
constructed and destroyed properly: the log is in order, and an object is alive at the end exactly if its option is engaged. -/
theorem C75_lifetimes_harmless_partial (hP : P.OK) (hB : P.Balanced) {t : Want} (c : Code Val t)
    (ht : c.Typed P Spec.start) (ha : c.Allowed P Spec.start)
    (hh : c.Harmless P Spec.start) (w : World)
    (hr : P.runCode c Prog.start = .throw w ∨ ∃ x, P.runCode c Prog.start = .ok x w) :
    Life.run P.tracked w.env.log = some (fun i => P.tracked i && (P.view w i).join.isSome) ∧
    ∀ i, P.tracked i = true →
      Life.ctors i w.env.log = Life.dtors i w.env.log + if (P.view w i).join.isSome then 1 else 0 := by
  have h15 := (C75_harmless_partial hP c Prog.start Prog.inv_start ht ha hh).2
  have hg := Spec.code_good hP c Spec.start_fine ha
  have key : ∃ a, Spec.Fine Spec.base0 P a ∧ P.Shows w a := by
    revert h15 hg
    have e : (⟨P.view Prog.start, Prog.start.env⟩ : AState Val) = Spec.start := rfl
    rw [e]
    cases Spec.runCode P c Spec.start with
    | ub => exact fun h => h.elim
    | verify =>
      intro h
      rcases hr with hr | ⟨x, hr⟩ <;> (rw [hr] at h; cases h)
    | throw a =>
      rintro ⟨w', h1, h⟩ hg
      rcases hr with hr | ⟨x, hr⟩
      · rw [hr] at h1; cases h1
        exact ⟨a, hg, h⟩
      · rw [hr] at h1; cases h1
    | ok x a =>
      rintro ⟨w', h1, h⟩ hg
      rcases hr with hr | ⟨x, hr⟩
      · rw [hr] at h1; cases h1
      · rw [hr] at h1; cases h1
        exact ⟨a, hg, h⟩
  obtain ⟨a, ⟨s, hst, hll⟩, _, h2, h3⟩ := key
  obtain ⟨evs, he, hrun⟩ := hll hB
  have hlive : liveSet P s = fun i => P.tracked i && (P.view w i).join.isSome := by
    funext i
    simp only [liveSet, ← hst, shape, h2]
    cases a.mem i with
    | none => simp
    | some x => cases x <;> simp
  have hlog : Life.run P.tracked w.env.log = some (fun i => P.tracked i && (P.view w i).join.isSome) := by
    rw [h3, he, ← hlive]; exact hrun
  refine ⟨hlog, fun i hi => ?_⟩
  have := Life.run_count hi hlog
  rw [this, hi]
  cases (P.view w i).join.isSome <;> rfl

/-- after the failure of the inner `map` one object at 1 is alive, none at 5 -/
example : (Demo.prog true (· == 3) Demo.vptrFirst).Balanced ∧ ∃ w,
    (Demo.prog true (· == 3) Demo.vptrFirst).runCode Demo.nestFail Prog.start = .ok () w ∧
    Life.ctors 1 w.env.log = 2 ∧ Life.dtors 1 w.env.log = 1 ∧ Life.ctors 5 w.env.log = 0 := by
  obtain ⟨w, h1, h2⟩ := Out.of_seen (x := (Demo.prog true (· == 3) Demo.vptrFirst).runCode Demo.nestFail Prog.start) (r := ())
    (l := [.ctor 1 .args, .call 1 true, .call 1 true, .dtor 1, .ctorFail 5 .args, .ctor 1 .args]) (by decide +kernel)
  exact ⟨fun _ => .inl rfl, w, h1, by rw [h2]; decide⟩

/-- **C75**: lists of operations are special programs: they do the same to the world. -/
theorem C75_history (ops : List (Op Val)) (w : World) :
    P.runCode (Code.ofList ops) w =
      match P.run ops w with
      | .ok _ w' => .ok () w'
      | .throw w' => .throw w'
      | .verify => .verify
      | .ub => .ub := by
  induction ops generalizing w with
  | nil => rfl
  | cons o os ih =>
    simp only [Code.ofList, Prog.runCode, Prog.run, bind_run]
    cases Prog.catch_ (P.runOp o) w with
    | ok r w' =>
      simp only [obind_ok, ih, bind_run]
      cases P.run os w' <;> rfl
    | throw _ => rfl
    | verify => rfl
    | ub => rfl

/-! ## What the operations do when the callable has changed the option

Here the callable is any change of the world that keeps the invariant. -/

/-- the world in which a callable called for `i` starts -/
def World.calling (w : World) (i : Nat) : World := { w with env := w.env.after [.call i true] }

variable {w w2 : World} {i r : Nat} {v : Val}

theorem Prog.enter_calling (hw : P.Inv w) (hi : P.view w i = some (some v)) : P.enter i w = .ok v (w.calling i) := by
  have h := Prog.abs_R hw
  obtain ⟨oi, hoi, hri⟩ := h.some' hi
  simp only [Prog.enter, bind_run, Prog.getCheck_run hoi hri, Option.isSome_some, check_true, obind_ok, Prog.readT_run hoi hri,
    Prog.userOp_run, pure_run, Env.use, ite_self, World.calling, Env.after]
  rfl

theorem Prog.hasValue_some (hw : P.Inv w) {x : Option Val} (hi : P.view w i = some x) : P.hasValue i w = .ok x.isSome w := by
  obtain ⟨oi, hoi, hri⟩ := (Prog.abs_R hw).some' hi
  exact Prog.hasValue_run hoi hri

/-- a predicate that empties the option it runs for and accepts -/
def Demo.emptier (_ : Byte) : M World Bool := do
  Demo.calm.reset 1
  pure true

/-- one that destroys the option -/
def Demo.destroyer {α : Type} (x : Byte → α) (v : Byte) : M World α := do
  Demo.calm.dtor 1
  pure (x v)

theorem Demo.emptier_run : ∃ w2, Demo.emptier 5 (Demo.world.calling 1) = .ok true w2 ∧ Demo.calm.Inv w2 ∧
    Demo.calm.view w2 = upd (Demo.calm.view Demo.world) 1 (some none) := by
  obtain ⟨w2, h1, h2, h3, _⟩ := C20_reset (P := Demo.calm) (w := Demo.world.calling 1) (i := 1) Demo.ok_tidy Demo.inv Demo.view1
  exact ⟨w2, by simp only [Demo.emptier, bind_run, h1, obind_ok, pure_run], h2, h3⟩

theorem Demo.destroyer_run {α : Type} (x : Byte → α) : ∃ w2, Demo.destroyer x 5 (Demo.world.calling 1) = .ok (x 5) w2 ∧
    Demo.calm.Inv w2 ∧ Demo.calm.view w2 = upd (Demo.calm.view Demo.world) 1 none := by
  obtain ⟨w2, h1, h2, h3, _⟩ := C45_destructor (P := Demo.calm) (w := Demo.world.calling 1) (i := 1) Demo.ok_tidy Demo.inv Demo.view1
  exact ⟨w2, by simp only [Demo.destroyer, bind_run, h1, obind_ok, pure_run], h2, h3⟩

/-- **C75**: the predicate of `filter` empties the option and accepts: `filter` calls `get()` again (2626), and the check fails. -/
theorem C75_filter_emptied (hw : P.Inv w) (hi : P.view w i = some (some v)) {mv : Bool} {f : Val → M World Bool}
    (hf : f v (w.calling i) = .ok true w2) (hw2 : P.Inv w2) (he : P.view w2 i = some none) :
    P.filterBy i r mv f w = .verify := by
  obtain ⟨oi, hoi, hri⟩ := (Prog.abs_R hw2).some' he
  simp only [Prog.filterBy, bind_run, Prog.hasValue_some hw hi, obind_ok, Option.isSome_some, if_true, Prog.enter_calling hw hi, hf,
    Prog.getCheck_run hoi hri]
  rfl

example : Demo.calm.filterBy 1 13 false Demo.emptier Demo.world = .verify := by
  obtain ⟨w2, h1, h2, h3⟩ := Demo.emptier_run
  exact C75_filter_emptied Demo.inv Demo.view1 h1 h2 (by rw [h3, upd_same])

/-- **C75**: the predicate of `take_if` empties the option and accepts: the result is empty (`take` does not check, 3036-3040). -/
theorem C75_take_if_emptied (hP : P.OK) (hw : P.Inv w) (hi : P.view w i = some (some v)) {f : Val → M World Bool}
    (hf : f v (w.calling i) = .ok true w2) (hw2 : P.Inv w2) (he : P.view w2 i = some none) (hr : P.view w2 r = none) :
    P.Ends w2 (P.takeIfBy i r f w) () [] (upd (P.view w2) r (some none)) := by
  have h := C23_take_empty hP hw2 hr he
  simpa only [Prog.takeIfBy, bind_run, Prog.hasValue_some hw hi, obind_ok, Option.isSome_some, if_true, Prog.enter_calling hw hi, hf]
    using h

example : ∃ w2, Demo.calm.Ends w2 (Demo.calm.takeIfBy 1 13 Demo.emptier Demo.world) () []
    (upd (upd (Demo.calm.view Demo.world) 1 (some none)) 13 (some none)) := by
  obtain ⟨w2, h1, h2, h3⟩ := Demo.emptier_run
  have h := C75_take_if_emptied (r := 13) Demo.ok_tidy Demo.inv Demo.view1 h1 h2 (by rw [h3, upd_same])
    (by rw [h3, upd_other _ _ (by decide)]; exact Demo.view13)
  rw [h3] at h
  exact ⟨w2, h⟩

/-- **C75**: the predicate of `take_if` changes the option and accepts: what it left is taken. -/
theorem C75_take_if_changed (hP : P.OK) (hw : P.Inv w) (hi : P.view w i = some (some v)) {f : Val → M World Bool} {u : Val}
    (hf : f v (w.calling i) = .ok true w2) (hw2 : P.Inv w2) (he : P.view w2 i = some (some u)) (hr : P.view w2 r = none)
    (ht : P.CtorOK r (.opt i true) w2.env.tick) :
    P.Ends w2 (P.takeIfBy i r f w) () (P.buildEvs r (.opt i true) ++ P.dtorEvs i (some u))
      (upd (upd (P.view w2) r (some (some (P.convFrom r i u)))) i (some none)) := by
  have h := C23_take_engaged hP hw2 hr he ht
  simpa only [Prog.takeIfBy, bind_run, Prog.hasValue_some hw hi, obind_ok, Option.isSome_some, if_true, Prog.enter_calling hw hi, hf]
    using h

/-- the predicate assigns 8 to the option -/
example : ∃ w2, Demo.calm.Ends w2 (Demo.calm.takeIfBy 1 13 (fun _ => do Demo.calm.assignValue 1 (.copy 8); pure true) Demo.world) ()
    [.ctor 13 .move, .dtor 1] (upd (upd (upd (Demo.calm.view Demo.world) 1 (some (some 8))) 13 (some (some 8))) 1 (some none)) := by
  obtain ⟨w2, h1, h2, h3, _⟩ := C20_assign_value_engaged (P := Demo.calm) (w := Demo.world.calling 1) (i := 1) (src := .copy 8)
    Demo.ok_tidy Demo.inv (Demo.dom_mk 1 (.inr (.inl rfl))) rfl rfl Demo.view1 rfl (.inr rfl)
  have h3 : Demo.calm.view w2 = upd (Demo.calm.view Demo.world) 1 (some (some 8)) := h3
  have e : (do Demo.calm.assignValue 1 (.copy 8); pure true : M World Bool) (Demo.world.calling 1) = .ok true w2 := by
    simp only [bind_run, h1, obind_ok, pure_run]
  have h := C75_take_if_changed (r := 13) (f := fun _ => (do Demo.calm.assignValue 1 (.copy 8); pure true)) Demo.ok_tidy Demo.inv
    Demo.view1 e h2 (by rw [h3]; exact upd_same _ _ _) (by rw [h3, upd_other _ _ (by decide)]; exact Demo.view13)
    (.inr rfl)
  rw [h3] at h
  exact ⟨w2, h⟩

/-- **C75**: the callable of `map` may do anything to the option, even destroy it: the result contains what the callable returned. -/
theorem C75_map_any (hP : P.OK) (hw : P.Inv w) (hi : P.view w i = some (some v)) {f : Val → M World Val} {b : Val}
    (hf : f v (w.calling i) = .ok b w2) (hw2 : P.Inv w2) (hr : P.view w2 r = none) (hb : (P.elem r).Dom P.pw b)
    (ht : (P.elem r).ctorTriv .args = true ∨ P.throwsAt w2.env.tick = false) :
    P.Ends w2 (P.mapBy i r f w) () (P.ctorEvs r (.args b)) (upd (P.view w2) r (some (some b))) := by
  have h : P.Ends w2 (P.ctorArg r (.args b) w2) () (P.ctorEvs r (.args b)) (upd (P.view w2) r (some (some b))) :=
    Prog.ends_unit (Prog.ctorArg_sim hP (Prog.abs_R hw2) (src := .args b) hb)
      (fun _ _ _ _ h => h) (Spec.create_ok (src := .args b) hr rfl ht)
  have e : P.mapBy i r f w = P.ctorArg r (.args b) w2 := by
    simp only [Prog.mapBy, bind_run, Prog.hasValue_some hw hi, obind_ok, Option.isSome_some, if_true, Prog.enter_calling hw hi, hf,
      Prog.ctorArg]
  rw [e]
  exact h

example : ∃ w2, Demo.calm.Ends w2 (Demo.calm.mapBy 1 13 (Demo.destroyer (· + 1)) Demo.world) () [.ctor 13 .args]
    (upd (upd (Demo.calm.view Demo.world) 1 none) 13 (some (some 6))) := by
  obtain ⟨w2, h1, h2, h3⟩ := Demo.destroyer_run (· + 1)
  have h := C75_map_any (r := 13) Demo.ok_tidy Demo.inv Demo.view1 h1 h2
    (by rw [h3, upd_other _ _ (by decide)]; exact Demo.view13) (Demo.dom_mk (v := 5 + 1) 1 (.inr (.inl rfl))) (.inr rfl)
  rw [h3] at h
  exact ⟨w2, h⟩

/-- **C75**: `take_if` and `filter` use the option again after a predicate that accepts; if the predicate has destroyed it, this is
undefined. -/
theorem C75_destroyed (hP : P.OK) (hw : P.Inv w) (hi : P.view w i = some (some v)) {mv : Bool} {f : Val → M World Bool}
    (hf : f v (w.calling i) = .ok true w2) (he : P.view w2 i = none) (hr : r ≠ i) :
    P.takeIfBy i r f w = .ub ∧ P.filterBy i r mv f w = .ub := by
  have he : w2.mem i = none := by
    revert he
    simp only [Prog.view]
    cases w2.mem i <;> simp
  have hh : ∀ w3 : World, w3.mem i = none → P.hasValue i w3 = .ub := fun w3 h => by
    simp only [Prog.hasValue, bind_run, Prog.obj, h, obind_ub]
  have hm : P.ctorManual r i true w2 = .ub := by
    cases hx : w2.mem r with
    | some o => simp only [Prog.ctorManual, Prog.ctorDefault, bind_run, Prog.newObj, hx, obind_ub]
    | none =>
      obtain ⟨o, h1, _⟩ := Prog.ctorDefault_run hP hx
      simp only [Prog.ctorManual, bind_run, h1, obind_ok, M.onThrow]
      rw [hh _ (by simp only [World.put]; rw [upd_other _ _ (Ne.symm hr)]; exact he)]
      rfl
  have hc : P.copyBytesNew r i w2 = .ub := by simp only [Prog.copyBytesNew, bind_run, Prog.obj, he, obind_ub]
  have ht : P.take i r w2 = .ub := by
    have hcf : P.ctorFrom r i true w2 = .ub := by
      unfold Prog.ctorFrom
      by_cases h1 : P.cls r = P.cls i
      · rw [if_pos h1]
        by_cases h2 : (if true then (P.elem r).members.moveCtor else (P.elem r).members.copyCtor) = .default
        · rw [if_pos h2]; exact hc
        · rw [if_neg h2]; exact hm
      · rw [if_neg h1]; exact hm
    simp only [Prog.take, bind_run, hcf, obind_ub]
  constructor
  · simp only [Prog.takeIfBy, bind_run, Prog.hasValue_some hw hi, obind_ok, Option.isSome_some, if_true, Prog.enter_calling hw hi, hf, ht]
  · simp only [Prog.filterBy, bind_run, Prog.hasValue_some hw hi, obind_ok, Option.isSome_some, if_true, Prog.enter_calling hw hi, hf,
      Prog.getCheck, hh _ he, obind_ub]

example : Demo.calm.filterBy 1 13 false (Demo.destroyer fun _ => true) Demo.world = .ub := by
  obtain ⟨w2, h1, _, h3⟩ := Demo.destroyer_run fun _ => true
  exact (C75_destroyed Demo.ok_tidy Demo.inv Demo.view1 h1 (by rw [h3, upd_same]) (by decide)).2

/-- **C75**: `has_value_and`, `inspect`, `map_or`, `map_or_else` and the loop over an option do nothing after the callable, whatever it
did, and what the callable ends with is what they end with. -/
theorem C75_last (hw : P.Inv w) (hi : P.view w i = some (some v)) (f : Val → M World Bool) (g : Val → M World Unit)
    (h : Val → M World Val) (d : Val) (k : M World Val) :
    P.hasValueAndBy i f w = f v (w.calling i) ∧ P.inspectBy i g w = g v (w.calling i) ∧
    P.forEachBy i g w = g v (w.calling i) ∧ P.mapOrBy i d h w = h v (w.calling i) ∧
    P.mapOrElseBy i k h w = h v (w.calling i) := by
  have e := Prog.enter_calling hw hi
  have e1 := Prog.hasValue_some hw hi
  have e2 : P.inspectBy i g w = g v (w.calling i) := by
    simp only [Prog.inspectBy, bind_run, e1, obind_ok, Option.isSome_some, if_true, e]
  refine ⟨?_, e2, ?_, ?_, ?_⟩
  · simp only [Prog.hasValueAndBy, bind_run, e1, obind_ok, Option.isSome_some, if_true, e]
  · exact (Prog.forEachBy_eq (Prog.abs_R hw) hi).trans e2
  · simp only [Prog.mapOrBy, bind_run, e1, obind_ok, Option.isSome_some, if_true, e]
  · simp only [Prog.mapOrElseBy, bind_run, e1, obind_ok, Option.isSome_some, if_true, e]

/-- the body of the loop empties the option it runs over: one iteration -/
example : ∃ w2, Demo.calm.forEachBy 1 (fun v => do let _ ← Demo.emptier v; pure ()) Demo.world = .ok () w2 ∧
    Demo.calm.view w2 = upd (Demo.calm.view Demo.world) 1 (some none) := by
  obtain ⟨w2, h1, _, h3⟩ := Demo.emptier_run
  refine ⟨w2, ?_, h3⟩
  rw [(C75_last Demo.inv Demo.view1 Demo.emptier _ (fun v => pure v) 0 (pure 0)).2.2.1]
  simp only [bind_run, h1, obind_ok, pure_run]

/-- the list of operations of `Demo.story` -/
example : ∃ w, Demo.calm.runCode (Code.ofList Demo.story) Prog.start = .ok () w := by
  obtain ⟨w, h, _⟩ := Out.of_seen (x := Demo.calm.run Demo.story Prog.start)
    (r := [.unit, .unit, .unit, .unit, .unit, .unit, .val 5, .unit, .opt (some 0), .unit, .unit, .unit])
    (l := [.ctor 1 .args, .dtor 1, .ctor 1 .args, .ctor 5 .copy, .ctor 9 .move, .dtor 1, .ctor 1 .move, .dtor 5,
        .ctor 5 .move, .dtor 5, .dtor 1, .dtor 9]) (by decide +kernel)
  exact ⟨w, by rw [C75_history, h]⟩

end Opt
