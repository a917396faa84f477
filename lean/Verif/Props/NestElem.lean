import Verif.Lemmas.NestElem
import Verif.Lemmas.DemoWorld
import Verif.Props.History
import Verif.Props.HistoryExact
import Verif.Lemmas.History

/-!
# C51 Options of options as a program; C17 when exactly an exception leaves a valid option behind
-/

namespace Opt

variable {Val : Type} {P : Prog Val} {w : World} {i j : Nat} {src : Src Val}

/-! ## C17 When exactly an exception leaves a valid option behind -/

theorem still_srcVal (hw : P.Inv w) (hs : src.Still i) {v : Val} (hv : src.gives P (P.view w) i = some v) :
    P.srcVal i src w = .ok v w := by
  cases src with
  | opt j mv =>
    simp only [Src.gives, Option.map_eq_some_iff] at hv
    obtain ⟨u, hu, rfl⟩ := hv
    have hj : P.view w j = some (some u) := by
      cases h : P.view w j with
      | none => rw [h] at hu; cases hu
      | some x => rw [h] at hu; simp only [Option.join] at hu; cases hu; rfl
    obtain ⟨o, ho, hr⟩ := (Prog.abs_R hw).some' hj
    simp only [Prog.srcVal, bind_run, Prog.readT_run ho hr, obind_ok, pure_run]
  | args u => simp only [Src.gives] at hv; cases hv; rfl
  | copy u => simp only [Src.gives] at hv; cases hv; rfl
  | move u => simp only [Src.gives] at hv; cases hv; rfl

theorem still_evalArg (hw : P.Inv w) (hs : src.Still i) {v : Val} (hv : src.gives P (P.view w) i = some v) :
    P.evalArg src w = .ok () w := by
  cases src with
  | opt j mv =>
    simp only [Src.gives, Option.map_eq_some_iff] at hv
    obtain ⟨u, hu, rfl⟩ := hv
    have hj : P.view w j = some (some u) := by
      cases h : P.view w j with
      | none => rw [h] at hu; cases hu
      | some x => rw [h] at hu; simp only [Option.join] at hu; cases hu; rfl
    obtain ⟨o, ho, hr⟩ := (Prog.abs_R hw).some' hj
    simp only [Prog.evalArg, Prog.getCheck, bind_run, Prog.hasValue_run ho hr, obind_ok]
    rfl
  | args u => rfl
  | copy u => rfl
  | move u => rfl

/-- `construct` in an empty option, when the constructor throws -/
theorem construct_exact (hP : P.OK) (hw : P.Inv w) (hs : src.Still i) {v : Val} (hv : src.gives P (P.view w) i = some v)
    {o : Obj} (ho : w.mem i = some o) (hx : P.view w i = some none) (ht : P.CtorThrows i src w.env.tick) :
    ∃ w', P.construct i src w = .throw w' ∧ (P.Inv w' ↔ P.Survives i (P.kind i src) w.env.tick o.bytes) ∧
      (¬ P.Survives i (P.kind i src) w.env.tick o.bytes → P.hasValue i w' = .ok true w' ∧
        ((P.elem i).trivDtor = false → P.dtor i w' = .ub)) := by
  obtain ⟨o', ho', hr⟩ := (Prog.abs_R hw).some' hx
  rw [ho] at ho'
  cases ho'
  have ha : (o.alive && !(P.elem i).trivDtor) = false := by
    cases h : (P.elem i).trivDtor
    · rw [hr.dead rfl h]; rfl
    · simp
  obtain ⟨e, h⟩ := Prog.construct_throws ho ha hs (still_srcVal hw hs hv) ht
  exact ⟨_, h, Prog.after_throw_spec hP hw ho hr⟩

/-- **C17**, exactly: when the constructor throws in `try_emplace` on an empty option, the option is valid afterwards if
and only if it survives, that is, the constructor left the empty state's bytes (or there is a flag, or it worked on a
temporary).  Otherwise the option claims to hold a value and destroying it is undefined. -/
theorem C17_exact_try_emplace (hP : P.OK) (hw : P.Inv w) (hs : src.Still i) {v : Val}
    (hv : src.gives P (P.view w) i = some v) {o : Obj} (ho : w.mem i = some o) (hx : P.view w i = some none)
    (ht : P.CtorThrows i src w.env.tick) :
    ∃ w', P.tryEmplace i src w = .throw w' ∧ (P.Inv w' ↔ P.Survives i (P.kind i src) w.env.tick o.bytes) ∧
      (¬ P.Survives i (P.kind i src) w.env.tick o.bytes → P.hasValue i w' = .ok true w' ∧
        ((P.elem i).trivDtor = false → P.dtor i w' = .ub)) := by
  obtain ⟨w', h1, h2⟩ := construct_exact hP hw hs hv ho hx ht
  refine ⟨w', ?_, h2⟩
  obtain ⟨o', ho', hr⟩ := (Prog.abs_R hw).some' hx
  simp only [Prog.tryEmplace, bind_run, still_evalArg hw hs hv, obind_ok, Prog.hasValue_run ho' hr, Option.isSome_none,
    Bool.false_eq_true, if_false, h1, obind_throw]

/-- the constructor of the polymorphic class writes its vtable pointer, then throws: the option does not survive -/
example : ∃ w', (Demo.prog true (· == 0) Demo.vptrFirst).tryEmplace 5 (.args 5) Demo.world = .throw w' ∧ (Demo.prog true (· == 0) Demo.vptrFirst).hasValue 5 w' = .ok true w' ∧ (Demo.prog true (· == 0) Demo.vptrFirst).dtor 5 w' = .ub := by
  obtain ⟨w', h1, _, h3⟩ := C17_exact_try_emplace (P := (Demo.prog true (· == 0) Demo.vptrFirst)) (i := 5) (src := .args 5) Demo.ok_vptr
    Demo.inv trivial rfl rfl Demo.view5 ⟨rfl, rfl⟩
  obtain ⟨h4, h5⟩ := h3 fun h => absurd (h rfl rfl rfl) (by decide +kernel)
  exact ⟨w', h1, h4, h5 rfl⟩

/-- **C17**, exactly, for an assignment of a value. -/
theorem C17_exact_assign_value (hP : P.OK) (hw : P.Inv w) (hs : src.Still i) {v : Val}
    (hv : src.gives P (P.view w) i = some v) {o : Obj} (ho : w.mem i = some o) (hx : P.view w i = some none)
    (ht : P.CtorThrows i src w.env.tick) :
    ∃ w', P.assignValue i src w = .throw w' ∧ (P.Inv w' ↔ P.Survives i (P.kind i src) w.env.tick o.bytes) ∧
      (¬ P.Survives i (P.kind i src) w.env.tick o.bytes → P.hasValue i w' = .ok true w' ∧
        ((P.elem i).trivDtor = false → P.dtor i w' = .ub)) := by
  obtain ⟨w', h1, h2⟩ := construct_exact hP hw hs hv ho hx ht
  refine ⟨w', ?_, h2⟩
  obtain ⟨o', ho', hr⟩ := (Prog.abs_R hw).some' hx
  simp only [Prog.assignValue, bind_run, still_evalArg hw hs hv, obind_ok]
  cases (P.elem i).scalar
  · simp only [Bool.false_eq_true, if_false, bind_run, Prog.hasValue_run ho' hr, obind_ok, Option.isSome_none, h1]
  · simp only [if_true, h1]

/-- the constructor of the polymorphic class writes its vtable pointer, then throws: the option does not survive -/
example : ∃ w', (Demo.prog true (· == 0) Demo.vptrFirst).assignValue 5 (.opt 9 false) Demo.world = .throw w' ∧ (Demo.prog true (· == 0) Demo.vptrFirst).hasValue 5 w' = .ok true w' ∧ (Demo.prog true (· == 0) Demo.vptrFirst).dtor 5 w' = .ub := by
  obtain ⟨w', h1, _, h3⟩ := C17_exact_assign_value (P := (Demo.prog true (· == 0) Demo.vptrFirst)) (i := 5) (src := .opt 9 false) Demo.ok_vptr
    Demo.inv ⟨by decide, rfl⟩ (Spec.gives_opt Demo.view9) rfl Demo.view5 ⟨rfl, rfl⟩
  obtain ⟨h4, h5⟩ := h3 fun h => absurd (h rfl rfl rfl) (by decide +kernel)
  exact ⟨w', h1, h4, h5 rfl⟩

/-- **C17**, exactly, for the copy assignment from another option of the same type or a converting one. -/
theorem C17_exact_assign (hP : P.OK) (hw : P.Inv w) (hij : j ≠ i) {v : Val} (hy : P.view w j = some (some v))
    {o : Obj} (ho : w.mem i = some o) (hx : P.view w i = some none) (ht : P.CtorThrows i (.opt j false) w.env.tick) :
    ∃ w', P.assignFrom i j false w = .throw w' ∧ (P.Inv w' ↔ P.Survives i (P.kind i (.opt j false)) w.env.tick o.bytes) ∧
      (¬ P.Survives i (P.kind i (.opt j false)) w.env.tick o.bytes → P.hasValue i w' = .ok true w' ∧
        ((P.elem i).trivDtor = false → P.dtor i w' = .ub)) := by
  obtain ⟨w', h1, h2⟩ := construct_exact (src := .opt j false) hP hw ⟨hij, rfl⟩ (Spec.gives_opt hy) ho hx ht
  refine ⟨w', ?_, h2⟩
  obtain ⟨oi, hoi, hri⟩ := (Prog.abs_R hw).some' hx
  obtain ⟨oj, hoj, hrj⟩ := (Prog.abs_R hw).some' hy
  have hm : P.assignManual i j false w = .throw w' := by
    simp only [Prog.assignManual, bind_run, Prog.hasValue_run hoi hri, Prog.hasValue_run hoj hrj, obind_ok,
      Option.isSome_none, Option.isSome_some, Bool.false_eq_true, if_false, if_true]
    by_cases hc : P.cls i = P.cls j
    · simp only [hc, if_true, pure_run, bind_run, obind_ok, h1]
    · simp only [hc, if_false, Prog.getCheck, bind_run, Prog.hasValue_run hoj hrj, obind_ok, Option.isSome_some,
        check_true, h1]
  simp only [Prog.assignFrom, Bool.false_eq_true, if_false]
  split
  · rename_i hc
    rw [if_neg, hm]
    intro hd
    have h3 := ht.1
    simp only [Prog.kind, hc, if_true, Bool.false_eq_true, if_false, Elem.ctorTriv] at h3
    have := (Elem.nest_triv P.pw (P.elem i)).2.2.1
    simp only [Elem.nest, hd, decide_true, h3, Bool.false_and] at this
    cases this
  · exact hm

/-- the constructor of the polymorphic class writes its vtable pointer, then throws: the option does not survive -/
example : ∃ w', (Demo.prog true (· == 0) Demo.vptrFirst).assignFrom 5 1 false Demo.world = .throw w' ∧ (Demo.prog true (· == 0) Demo.vptrFirst).hasValue 5 w' = .ok true w' ∧ (Demo.prog true (· == 0) Demo.vptrFirst).dtor 5 w' = .ub := by
  obtain ⟨w', h1, _, h3⟩ := C17_exact_assign (P := (Demo.prog true (· == 0) Demo.vptrFirst)) (i := 5) (j := 1) Demo.ok_vptr Demo.inv (by decide)
    Demo.view1 rfl Demo.view5 ⟨rfl, rfl⟩
  obtain ⟨h4, h5⟩ := h3 fun h => absurd (h rfl rfl rfl) (by decide +kernel)
  exact ⟨w', h1, h4, h5 rfl⟩

/-! ## C51 Options of options -/

/-- **C51**: `option<T>` is itself a lawful element type.  If the types and the user code of a program respect the
ordinary requirements, so does the program with one more layer of `option`, in which the element type's operations are
the library's own.  (The storage `g` only has the right size; the outer option needs a working level of the inner one.) -/
theorem C51_nested_ok (hP : P.OK) (g : Nat → Nat → Bytes)
    (hwf : ∀ c, (Ty.option (Ty.option (P.elemOf c).T)).WF P.pw)
    (hg : ∀ i n, (g i n).length = (Ty.option (Ty.option (P.elem i).T)).size P.pw) :
    (P.nest g).OK ∧ (P.nest g).Balanced := ⟨nest_ok hP g hwf hg, nest_balanced g⟩

/-- **C51**: to any depth `n`. -/
theorem C51_any_depth (hP : P.OK) (g : Nat → Nat → Nat → Bytes) (n : Nat)
    (hwf : ∀ c, (nest (n + 1) (P.elemOf c).T).WF P.pw)
    (hg : ∀ k < n, ∀ i m, (g k i m).length = (nest (k + 2) (P.elem i).T).size P.pw) : (P.nestN g n).OK :=
  nestN_ok hP g n hwf hg

namespace Demo

theorem elemOf_exact (c : Nat) : (elemOf c).T.WF 64 ∧ 0 < (elemOf c).T.align 64 ∧ (elemOf c).T.Exact := by
  match c with
  | 0 => exact ⟨by simp [elemOf, handle, Ty.WF], by decide, by simp [elemOf, handle, Ty.Exact]⟩
  | 1 => exact ⟨by simp [elemOf, poly, Ty.WF], by decide, by simp [elemOf, poly, Ty.Exact]⟩
  | 2 => exact ⟨by simp [elemOf, uchar, Ty.WF], by decide, by simp [elemOf, uchar, Ty.Exact]⟩
  | c + 3 => exact ⟨by simp [elemOf, boolean, Ty.WF], by show 0 < Ty.align 64 .bool; decide, by simp [elemOf, boolean, Ty.Exact]⟩

/-- fresh storage of an option of an option -/
def fill (i _n : Nat) : Bytes := List.replicate (storage (i % 4)) 0xAA

theorem fill_length (k : Nat) (hk : k < 3) (i n : Nat) :
    (fill i n).length = (nest (k + 2) (elemOf (i % 4)).T).size 64 := by
  simp only [fill, List.length_replicate]
  have h : i % 4 < 4 := Nat.mod_lt _ (by decide)
  generalize i % 4 = c at *
  have : ∀ k < 3, ∀ c < 4, storage c = (nest (k + 2) (elemOf c).T).size 64 := by decide +kernel
  exact this k hk c h

end Demo

/-- one more layer around each of the four classes -/
example : (Demo.angry.nest Demo.fill).OK :=
  (C51_nested_ok Demo.ok_tidy Demo.fill
    (fun c => nest_wf (Demo.elemOf_exact c).1 (Demo.elemOf_exact c).2.1 (Demo.elemOf_exact c).2.2 2)
    (Demo.fill_length 0 (by decide))).1

/-- three more layers around each of the four classes -/
example : (Demo.calm.nestN (fun _ => Demo.fill) 3).OK :=
  C51_any_depth Demo.ok_tidy _ 3 (fun c => nest_wf (Demo.elemOf_exact c).1 (Demo.elemOf_exact c).2.1 (Demo.elemOf_exact c).2.2 4)
    fun k hk i m => Demo.fill_length k hk i m

/-- **C51** (partial: needs `ThrowSafe` of the outermost layer, for instance no exceptions; `C17_violated_nested` shows
what happens otherwise): so the histories of nested options are those of the specification.  Any history a client
may perform on `option<option<...<T>>>` with `n` inner layers never runs into undefined behaviour, and its results, the values seen at all layers, and the calls of the inner options'
operations are those of a variable that holds nested optional values. -/
theorem C51_history_partial (hP : P.OK) (g : Nat → Nat → Nat → Bytes) (n : Nat)
    (hwf : ∀ c, (nest (n + 1) (P.elemOf c).T).WF P.pw)
    (hg : ∀ k < n, ∀ i m, (g k i m).length = (nest (k + 2) (P.elem i).T).size P.pw)
    (hT : (P.nestN g n).ThrowSafe) (ops : List (Op (OptN n Val)))
    (hl : ∀ op ∈ ops, op.Legal (P.nestN g n)) (ha : Op.AllAllowed (P.nestN g n) ops Spec.start) :
    match Spec.run (P.nestN g n) ops Spec.start with
    | .ok rs a => ∃ w, (P.nestN g n).run ops Prog.start = .ok rs w ∧ (P.nestN g n).Inv w ∧
        (P.nestN g n).view w = a.mem ∧ w.env = a.env
    | .verify => (P.nestN g n).run ops Prog.start = .verify
    | .throw _ => False
    | .ub => False := by
  have h := C15_history_partial (nestN_ok hP g n hwf hg) hT ops hl ha
  revert h
  cases Spec.run (P.nestN g n) ops Spec.start <;> exact id

/-- nested optional values can be compared -/
def OptN.dec {V : Type} [DecidableEq V] : (n : Nat) → DecidableEq (OptN n V)
  | 0 => inferInstanceAs (DecidableEq V)
  | n + 1 => have := OptN.dec (V := V) n; inferInstanceAs (DecidableEq (Option (OptN n V)))

instance {V : Type} [DecidableEq V] (n : Nat) : DecidableEq (OptN n V) := OptN.dec n

/-- a history of an `option<option<option<T>>>` -/
def Demo.deepStory : List (Op (OptN 2 Byte)) :=
  [.ctorValue 1 (.args (some none : Option (Option Byte))), .emplace 1 (.args (some (some (7 : Byte)))), .ctorFrom 5 1 false,
    .hasValue 5, .reset 1, .dtor 1, .dtor 5]

/-- it meets the hypotheses of `C51_history_partial` -/
example : (∀ c, (nest 3 (Demo.calm.elemOf c).T).WF Demo.calm.pw) ∧
    (Demo.calm.nestN (fun _ => Demo.fill) 2).ThrowSafe ∧
    (∀ op ∈ Demo.deepStory, op.Legal (Demo.calm.nestN (fun _ => Demo.fill) 2)) ∧
    Op.AllAllowed (Demo.calm.nestN (fun _ => Demo.fill) 2) Demo.deepStory Spec.start := by
  refine ⟨fun c => nest_wf (Demo.elemOf_exact c).1 (Demo.elemOf_exact c).2.1 (Demo.elemOf_exact c).2.2 3,
    (fun _ _ _ _ _ _ _ h => by cases h), ?_,
    by decide +kernel⟩
  have hx := Demo.elemOf_exact 1
  have h1 := Elem.nest_dom 64 (.inr rfl) Demo.poly (nest_wf hx.1 hx.2.1 hx.2.2 1)
  have h2 := Elem.nest_dom 64 (.inr rfl) (Demo.poly.nest 64) (nest_wf hx.1 hx.2.1 hx.2.2 2)
  simp only [Demo.deepStory, List.forall_mem_cons]
  refine ⟨?_, ?_, trivial, trivial, trivial, trivial, trivial, fun _ h => by cases h⟩
  · show ((Demo.poly.nest 64).nest 64).Dom 64 (some none)
    exact (h2 _).2 fun _ h => by cases h; exact (h1 _).2 fun _ h => by cases h
  · show ((Demo.poly.nest 64).nest 64).Dom 64 (some (some 7))
    exact (h2 _).2 fun _ h => by
      cases h
      exact (h1 _).2 fun _ h => by cases h; exact Demo.dom_mk 1 (.inr (.inl rfl))

/-- **C51** (partial: needs `AllHarmless`).  As `C51_history_partial`, with the condition only on the constructor calls that fail in
this history. -/
theorem C51_harmless_partial (hP : P.OK) (g : Nat → Nat → Nat → Bytes) (n : Nat)
    (hwf : ∀ c, (nest (n + 1) (P.elemOf c).T).WF P.pw)
    (hg : ∀ k < n, ∀ i m, (g k i m).length = (nest (k + 2) (P.elem i).T).size P.pw)
    (ops : List (Op (OptN n Val)))
    (hl : ∀ op ∈ ops, op.Legal (P.nestN g n)) (ha : Op.AllAllowed (P.nestN g n) ops Spec.start)
    (hh : Op.AllHarmless (P.nestN g n) ops Spec.start) :
    match Spec.run (P.nestN g n) ops Spec.start with
    | .ok rs a => ∃ w, (P.nestN g n).run ops Prog.start = .ok rs w ∧ (P.nestN g n).Inv w ∧
        (P.nestN g n).view w = a.mem ∧ w.env = a.env
    | .verify => (P.nestN g n).run ops Prog.start = .verify
    | .throw _ => False
    | .ub => False := by
  have h := C15_harmless_partial (nestN_ok hP g n hwf hg) ops hl ha hh
  revert h
  cases Spec.run (P.nestN g n) ops Spec.start <;> exact id

/-- a history of an `option<option<option<T>>>` in which the first constructor throws -/
def Demo.deepBumpy : List (Op (OptN 2 Byte)) :=
  [.ctorValue 1 (.args (some (some (7 : Byte)))), .ctorValue 1 (.args (some (some (7 : Byte)))),
    .emplace 1 (.args (some none : Option (Option Byte))), .ctorFrom 5 1 false, .dtor 1, .dtor 5]

/-- it meets the hypotheses of `C51_harmless_partial`, and the exception is real -/
example : (∀ op ∈ Demo.deepBumpy, op.Legal ((Demo.prog true (· == 0) Demo.vptrFirst).nestN (fun _ => Demo.fill) 2)) ∧
    Op.AllAllowed ((Demo.prog true (· == 0) Demo.vptrFirst).nestN (fun _ => Demo.fill) 2) Demo.deepBumpy Spec.start ∧
    Op.AllHarmless ((Demo.prog true (· == 0) Demo.vptrFirst).nestN (fun _ => Demo.fill) 2) Demo.deepBumpy Spec.start ∧
    (((Demo.prog true (· == 0) Demo.vptrFirst).nestN (fun _ => Demo.fill) 2).run Demo.deepBumpy Prog.start).seen = some
      ([.threw, .unit, .unit, .unit, .unit, .unit],
        [.ctorFail 1 .args, .ctor 1 .args, .dtor 1, .ctor 1 .args, .ctor 5 .copy, .dtor 1, .dtor 5]) := by
  refine ⟨?_, by decide +kernel, Op.allHarmless_of_noneFails (by decide +kernel), by decide +kernel⟩
  have hx := Demo.elemOf_exact 1
  have h1 := Elem.nest_dom 64 (.inr rfl) Demo.poly (nest_wf hx.1 hx.2.1 hx.2.2 1)
  have h2 := Elem.nest_dom 64 (.inr rfl) (Demo.poly.nest 64) (nest_wf hx.1 hx.2.1 hx.2.2 2)
  have h7 : ((Demo.poly.nest 64).nest 64).Dom 64 (some (some 7)) := (h2 _).2 fun _ h => by
    cases h
    exact (h1 _).2 fun _ h => by cases h; exact Demo.dom_mk 1 (.inr (.inl rfl))
  simp only [Demo.deepBumpy, List.forall_mem_cons]
  refine ⟨h7, h7, ?_, trivial, trivial, trivial, fun _ h => by cases h⟩
  show ((Demo.poly.nest 64).nest 64).Dom 64 (some none)
  exact (h2 _).2 fun _ h => by cases h; exact (h1 _).2 fun _ h => by cases h

/-- an `option<option<option<T>>>`: engaged with an empty option inside, then two layers engaged, then copied -/
example : ((Demo.calm.nestN (fun _ => Demo.fill) 2).run
    [.ctorValue 1 (.args (some none : Option (Option Byte))), .emplace 1 (.args (some (some (7 : Byte)))), .ctorFrom 5 1 false,
      .hasValue 5] Prog.start).seen = some ([.unit, .unit, .unit, .bool true], [.ctor 1 .args, .dtor 1, .ctor 1 .args,
      .ctor 5 .copy]) := by decide +kernel

/-- **C51**: another layer does not change which special members are trivial. -/
theorem C51_triviality (pw : Nat) (E : Elem Val) : (E.nest pw).members = E.members ∧
    (E.nest pw).trivDtor = E.trivDtor := by
  refine ⟨?_, rfl⟩
  obtain ⟨h1, h2, h3, h4⟩ := Elem.nest_triv pw E
  simp only [Elem.members, h1, h2, h3, h4]
  have h5 : (E.nest pw).trivDtor = E.trivDtor := rfl
  rw [h5]
  have : ∀ a b c d e : Bool, (optionBase a (a && (b && e)) c (c && (d && e)) e false).getD implicitMembers =
      (optionBase a b c d e false).getD implicitMembers := by decide
  exact this _ _ _ _ _

/-- `option<option<bool>>` is as trivial as `option<bool>` -/
example : (Demo.boolean.nest 64).members = ⟨.default, .default, .default, .default⟩ :=
  (C51_triviality 64 Demo.boolean).1.trans (by decide)

/-- **C51**: what the copy constructor of `option<T>` leaves in its storage `old` when the `T` inside throws, which is what
the outer layer's program uses, is what the machine of `option<T>` does: the default constructor, then `construct`. -/
theorem C51_left_by_copy (hP : P.OK) {old : Bytes} (hold : old.length = (Ty.option (P.elem i).T).size P.pw)
    (hw : (P.storage true i old).Inv w) (hx : w.mem i = none) {v : Val}
    (hy : (P.storage true i old).view w j = some (some v)) (hij : j ≠ i)
    (ht : (P.elem i).ctorTriv (P.kind i (.opt j false)) = false) :
    ∃ w1 w2, (P.storage true i old).ctorDefault i w = .ok () w1 ∧
      (P.storage true i old).construct i (.opt j false) w1 = .throw w2 ∧
      ∃ o, w2.mem i = some o ∧ o.bytes = P.leftOver i (P.kind i (.opt j false)) w.env.tick old := by
  have hS := hP.storage true hold
  have hk : P.kind i (.opt j false) ≠ .args := by
    simp only [Prog.kind]
    split <;> simp
  obtain ⟨o, h1, h2, h3⟩ := leftOver_base (n := w.env.tick) hP hk hold
  have h4 := ctorDefault_same hS (old := old) (i := i) (fun n => by simp only [Prog.storage, if_true]) (w' := w) rfl hx h1
  obtain ⟨oj, hoj, hrj⟩ := (Prog.abs_R hw).some' hy
  have hv : (P.storage true i old).srcVal i (.opt j false) (w.put i o) =
      .ok ((P.storage true i old).convFrom i j v) (w.put i o) := by
    simp only [Prog.srcVal, bind_run]
    rw [Prog.readT_run (w := w.put i o) (by simp only [World.put, upd_other _ _ hij]; exact hoj) hrj]
    rfl
  have ha : (o.alive && !(P.elem i).trivDtor) = false := by
    cases h : (P.elem i).trivDtor
    · rw [h2.dead rfl h]; rfl
    · simp
  obtain ⟨e, h5⟩ := Prog.construct_throws (P := P.storage true i old) (w := w.put i o) (src := .opt j false) (upd_same _ _ _)
    ha ⟨hij, rfl⟩ hv ⟨ht, rfl⟩
  refine ⟨_, _, h4, h5, _, upd_same _ _ _, ?_⟩
  rw [h3]
  simp only [Prog.after_throw]
  by_cases hcc : ((P.cxx20 || !(P.elem i).trivMoveAssign) && !(P.elem i).scalar) = true
  · rw [if_pos hcc]
    exact congrArg Obj.bytes (if_pos hcc)
  · rw [if_neg hcc]
    exact congrArg Obj.bytes (if_neg hcc)

/-- option 4 constructed as a copy of option 0, in storage that contains `[2, 2]` (an empty `option<option<Handle>>`) -/
example : ∃ w1 w2, (Demo.calm.storage true 8 [2, 2]).ctorDefault 8 Demo.world = .ok () w1 ∧
    (Demo.calm.storage true 8 [2, 2]).construct 8 (.opt 0 false) w1 = .throw w2 ∧
    ∃ o, w2.mem 8 = some o ∧ o.bytes = Demo.calm.leftOver 8 .copy 0 [2, 2] :=
  C51_left_by_copy (P := Demo.calm) (i := 8) (j := 0) (v := 7) Demo.ok_tidy rfl
    (Demo.inv (cxx20 := true) (thr := fun _ => false) (clobber := Demo.tidy)) rfl
    (Demo.view0 (cxx20 := true) (thr := fun _ => false) (clobber := Demo.tidy)) (by decide) rfl

/-- and these bytes are an engaged `option<option<Handle>>` -/
example : Demo.calm.leftOver 8 .copy 0 [2, 2] = [2, 0] ∧ (Ty.option (.plain 1 1)).hasValue 64 [2, 0] = true := by decide +kernel

/-- **C51**: what a constructor of `option<T>` from a value leaves in its storage `old` when the `T` throws is what the
member initialiser of the machine of `option<T>` does. -/
theorem C51_left_by_value {old : Bytes} (hx : w.mem i = none) (v : Val) :
    ∃ w1 w2, (P.storage true i old).newObj i w = .ok () w1 ∧
      (P.storage true i old).constructInPlace i (.args v) w1 = .throw w2 ∧
      ∃ o, w2.mem i = some o ∧ o.bytes = P.leftOver i .args w.env.tick old := by
  have h1 := Prog.newObj_run (P := P.storage true i old) hx
  have hg : (P.storage true i old).garbage i w.env.tick = old := by simp only [Prog.storage, if_true]
  rw [hg] at h1
  have key : ∃ e, (P.storage true i old).constructInPlace i (.args v) (w.put i ⟨old, false⟩) =
      .throw ⟨upd w.mem i (some ⟨P.leftOver i .args w.env.tick old, false⟩), e⟩ := by
    have ho : (w.put i ⟨old, false⟩).mem i = some ⟨old, false⟩ := upd_same _ _ _
    have hsc : ((P.storage true i old).elem i).scalar = (P.elem i).scalar := rfl
    have ht : (P.storage true i old).throwsAt (w.put i ⟨old, false⟩).env.tick = true := rfl
    simp only [Prog.constructInPlace, bind_run, Prog.obj_run ho, obind_ok, Bool.false_and, Bool.false_eq_true, if_false,
      Src.isSelf, Prog.srcVal, pure_run, Prog.kind, Elem.ctorTriv, Prog.userOp_run, ht, if_true, Prog.srcAfter, hsc]
    rw [Prog.leftOver, if_pos rfl]
    cases (P.elem i).scalar
    · simp only [Bool.false_eq_true, if_false, bind_run]
      rw [Prog.setPayload_run (o := ⟨old, false⟩) (upd_same _ _ _)]
      simp only [obind_ok, raise_run, World.put, upd_upd]
      exact ⟨_, rfl⟩
    · exact ⟨_, rfl⟩
  obtain ⟨e, key⟩ := key
  exact ⟨_, _, h1, key, _, upd_same _ _ _, rfl⟩

/-- `option<Handle>(7)` in any storage -/
example (old : Bytes) : ∃ w1 w2, (Demo.calm.storage true 8 old).newObj 8 Demo.world = .ok () w1 ∧
    (Demo.calm.storage true 8 old).constructInPlace 8 (.args 7) w1 = .throw w2 ∧
    ∃ o, w2.mem 8 = some o ∧ o.bytes = Demo.calm.leftOver 8 .args 0 old :=
  C51_left_by_value (P := Demo.calm) (w := Demo.world) (i := 8) rfl 7

/-- `option<Handle>(7)` in storage that contains `[2, 2]`, an empty `option<option<Handle>>`: it stays one -/
example : Demo.calm.leftOver 8 .args 0 [2, 2] = [2, 2] ∧ (Ty.option (.plain 1 1)).hasValue 64 [2, 2] = false := by
  decide +kernel

/-! ## C17 is violated by every option of an option -/

namespace Demo

/-- `option<option<Handle>>` objects: 0 holds an engaged option that holds 7, 4 is empty -/
def nestWorld : World :=
  ⟨fun i =>
    match i with
    | 0 => some ⟨[7, 1], true⟩
    | 4 => some ⟨[0xAA, 2], false⟩
    | _ => none, ⟨0, []⟩⟩

theorem nest_inv : (angry.nest fill).Inv nestWorld := by
  intro i o ho
  match i, ho with
  | 0, ho =>
    cases ho
    refine ⟨by decide +kernel, fun h => absurd h (by decide +kernel), fun _ => ⟨rfl, ?_⟩,
      fun h => absurd h (by decide +kernel)⟩
    show (Ty.option (.plain 1 1)).Valid 64 [7, 1]
    rw [Ty.Valid]
    exact ⟨by decide, fun _ => .inr (by decide), fun _ => by rw [Ty.Valid]; decide⟩
  | 4, ho =>
    cases ho
    exact ⟨by decide +kernel, fun h => absurd h (by decide +kernel), fun h => absurd h (by decide +kernel), fun _ _ => rfl⟩

end Demo

/-- **C17** holds for constructing in place: if `T` has no levels, then `emplace` of an `option<option<T>>` from a value leaves
it empty when `T`'s constructor throws, whatever that wrote (in contrast to a copy, see below). -/
theorem C17_nested_in_place (hP : P.OK) (g : Nat → Nat → Bytes)
    (hwf : ∀ c, (Ty.option (Ty.option (P.elemOf c).T)).WF P.pw)
    (hg : ∀ i n, (g i n).length = (Ty.option (Ty.option (P.elem i).T)).size P.pw)
    (hlev : (P.elem i).sent P.pw = false) (hw : (P.nest g).Inv w) {x : Option (Option Val)}
    (hx : (P.nest g).view w i = some x) {v : Val} (hv : (P.elem i).Dom P.pw v) (hthr : P.throwsAt w.env.tick = true) :
    (P.nest g).Throws w ((P.nest g).emplace i (.args (some v)) w) ((P.nest g).dtorEvs i x ++ [(P.nest g).buildFail i (.args (some v))])
      (upd ((P.nest g).view w) i (some none)) := by
  refine C17_emplace_partial (P := P.nest g) (src := .args (some v)) (nest_ok hP g hwf hg) hw ⟨fun _ old hs _ _ _ hl he => ?_⟩
    ((Elem.nest_dom _ hP.pw _ (hP.wfi i) _).2 fun _ h => by cases h; exact hv) hx rfl rfl ⟨rfl, hthr⟩
  have hl' : old.length = (Ty.option (P.elem i).T).size P.pw := hl
  have hs' := sent_false_iff.1 hlev
  show (Ty.option (P.elem i).T).hasValue P.pw (P.leftOver i .args w.env.tick old) = false
  have he' : (Ty.option (P.elem i).T).hasValue P.pw old = false := he
  have hf := flag_wr (hP.wfi i) hs' hl' (hP.partial_ i .args w.env.tick _ (payload_length (hP.wfi i) hl'))
  rw [Prog.leftOver, if_pos rfl]
  split
  · exact he'
  · rw [Ty.hasValue] at he' ⊢
    rw [option_traits_eq, optionTraits, if_neg hs'] at he' ⊢
    simp only [unavailableOptionTraits, boolTraits, atField] at he' ⊢
    have hb : ld 8 (rd (wr old 0 (P.partial_ i .args w.env.tick ((P.elem i).T.payload P.pw old))) ((P.elem i).T.size P.pw) 1) 0 =
        ld 8 (rd old ((P.elem i).T.size P.pw) 1) 0 := by
      have e : ∀ bs : Bytes, ld 8 (rd bs ((P.elem i).T.size P.pw) 1) 0 = ld 8 bs ((P.elem i).T.size P.pw) := by
        intro bs; simp [ld, rd, List.take_take]
      rw [e, e, hf]
    simp only [hb]
    exact he'

/-- the constructor of `Handle` throws in `o.emplace(8)` -/
example : (Demo.angry.nest Demo.fill).Throws Demo.nestWorld
    ((Demo.angry.nest Demo.fill).emplace 0 (.args (some 8)) Demo.nestWorld) [.dtor 0, .ctorFail 0 .args]
    (upd ((Demo.angry.nest Demo.fill).view Demo.nestWorld) 0 (some none)) :=
  C17_nested_in_place (P := Demo.angry) (i := 0) (w := Demo.nestWorld) (v := 8) (x := some (some 7)) Demo.ok_tidy Demo.fill
    (fun c => nest_wf (Demo.elemOf_exact c).1 (Demo.elemOf_exact c).2.1 (Demo.elemOf_exact c).2.2 2)
    (Demo.fill_length 0 (by decide)) rfl Demo.nest_inv (by decide +kernel) (Demo.dom_mk 0 (.inl rfl)) rfl

/-- **C17** is violated by options of options, for every element type `T` whose copy constructor can throw and however
carefully it behaves (`ThrowSafeAt`: it leaves its own storage alone): copying an engaged inner option into an empty
`option<option<T>>` first default constructs the inner option, whose empty state is the outer option's engaged state.
When `T`'s constructor then throws, the outer option claims to hold a value, but there is none; destroying it is
undefined.  (The only exception are types with exactly one level, for which the outer option has its own flag.) -/
theorem C17_violated_nested (hP : P.OK) (g : Nat → Nat → Bytes)
    (hwf : ∀ c, (Ty.option (Ty.option (P.elemOf c).T)).WF P.pw)
    (hg : ∀ i n, (g i n).length = (Ty.option (Ty.option (P.elem i).T)).size P.pw)
    (hlev : ((P.elem i).T.traits P.pw).maxLevel ≠ 1) (hT : P.ThrowSafeAt i .copy w.env.tick)
    (hw : (P.nest g).Inv w) (hij : j ≠ i) (hc : P.cls i = P.cls j) {v : Val}
    (hx : (P.nest g).view w i = some none) (hy : (P.nest g).view w j = some (some (some v)))
    (htc : (P.elem i).trivCopyCtor = false) (htm : P.cxx20 = true ∨ (P.elem i).trivDtor = false)
    (hthr : P.throwsAt w.env.tick = true) :
    ∃ w', (P.nest g).assignFrom i j false w = .throw w' ∧ (P.nest g).hasValue i w' = .ok true w' ∧
      ¬ (P.nest g).Inv w' ∧ ((P.elem i).trivDtor = false → (P.nest g).dtor i w' = .ub) := by
  have hN := nest_ok hP g hwf hg
  obtain ⟨o, ho, hr⟩ := (Prog.abs_R hw).some' hx
  have hsent : ((P.nest g).elem i).sent P.pw = true := by
    rw [sent_iff]
    show ((Ty.option (P.elem i).T).traits P.pw).maxLevel ≥ 1
    rw [option_traits_eq, optionTraits]
    split
    · rename_i h; simp only [availableOptionTraits]; omega
    · simp only [unavailableOptionTraits, boolTraits]; decide
  have hkind : (P.nest g).kind i (.opt j false) = .copy := by
    simp only [Prog.kind, Prog.nest, hc, if_true, Bool.false_eq_true, if_false]
  have hct : ((P.nest g).elem i).ctorTriv ((P.nest g).kind i (.opt j false)) = false := by
    rw [hkind]
    exact (Elem.nest_triv P.pw (P.elem i)).1.trans htc
  obtain ⟨w', h1, h2, h3⟩ := C17_exact_assign hN hw hij hy ho hx ⟨hct, hthr⟩
  rw [hkind] at h2 h3
  have hol : o.bytes.length = (Ty.option (P.elem i).T).size P.pw :=
    hr.len.trans (option_size_avail (a := .option (P.elem i).T) (sent_iff.1 hsent))
  have hno : ¬ (P.nest g).Survives i .copy w.env.tick o.bytes := by
    intro h
    have h4 := h hsent (by
      have e : ((P.nest g).elem i).trivMoveAssign =
        ((P.elem i).trivMoveCtor && ((P.elem i).trivMoveAssign && (P.elem i).trivDtor)) :=
        (Elem.nest_triv P.pw (P.elem i)).2.2.2
      rw [e]
      rcases htm with h | h
      · show (P.cxx20 || _) = true
        rw [h]; rfl
      · rw [h]; simp) rfl
    have h5 := empty_inside_engaged (pw := P.pw) (leftOver_empty (n := w.env.tick) hP (by decide) hol hT hthr)
      (sent_iff.1 hsent)
    have h4' : (Ty.option (P.elem i).T).hasValue P.pw (P.leftOver i .copy w.env.tick o.bytes) = false := h4
    rw [h5] at h4'
    cases h4'
  obtain ⟨h6, h7⟩ := h3 hno
  exact ⟨w', h1, h6, fun h => hno (h2.1 h), h7⟩

example : ∃ w', (Demo.angry.nest Demo.fill).assignFrom 4 0 false Demo.nestWorld = .throw w' ∧
    (Demo.angry.nest Demo.fill).hasValue 4 w' = .ok true w' ∧ ¬ (Demo.angry.nest Demo.fill).Inv w' ∧
    ((Demo.angry.elem 4).trivDtor = false → (Demo.angry.nest Demo.fill).dtor 4 w' = .ub) :=
  C17_violated_nested (P := Demo.angry) (i := 4) (j := 0) (w := Demo.nestWorld) (v := 7) Demo.ok_tidy Demo.fill
    (fun c => nest_wf (Demo.elemOf_exact c).1 (Demo.elemOf_exact c).2.1 (Demo.elemOf_exact c).2.2 2)
    (Demo.fill_length 0 (by decide)) (by decide) (Demo.throwSafe_tidy _ _ _) Demo.nest_inv (by decide) rfl
    (by decide +kernel) (by decide +kernel) rfl (.inl rfl) rfl

/-- `option<option<Handle>> a, b = Handle{7}; a = b;`: the copy constructor of `Handle` throws and leaves its storage alone.
Afterwards `a.has_value()`, and destroying `a` is undefined. -/
theorem C17_violated_nested_example :
    (Demo.prog true (· == 1) Demo.tidy).ThrowSafe ∧
    (∃ w, ((Demo.prog true (· == 1) Demo.tidy).nest Demo.fill).run [.ctorDefault 4, .ctorValue 0 (.args (some 7)),
      .assignFrom 4 0 false, .hasValue 4] Prog.start = .ok [.unit, .unit, .threw, .bool true] w ∧
      w.env.log = [.ctor 0 .args, .ctorFail 4 .copy]) ∧
    ((Demo.prog true (· == 1) Demo.tidy).nest Demo.fill).run [.ctorDefault 4, .ctorValue 0 (.args (some 7)),
      .assignFrom 4 0 false, .dtor 4] Prog.start = .ub :=
  ⟨Demo.throwSafe_tidy, Out.of_seen (by decide +kernel), Out.of_isUb (by decide +kernel)⟩

end Opt
