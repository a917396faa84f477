import Verif.Lemmas.Harmless
import Verif.Props.History
import Verif.Props.Unzip

/-!
# C15, C16: histories in which some constructors throw

`C15_history_partial` asks every constructor of every element type to leave the sentinel bytes alone when it throws.
Here only the constructor calls that really fail in the history are asked, and without any such hypothesis the history
is followed up to the first call that breaks an option.
-/

namespace Opt

variable {Val : Type} {P : Prog Val}

/-- **C15** (partial: needs `AllHarmless`, see `C17_violated_*`).  As `C15_history_partial`, but the only condition is on
the constructor calls that fail in this history in the storage of an option. -/
theorem C15_harmless_partial (hP : P.OK) (ops : List (Op Val)) (hl : ∀ op ∈ ops, op.Legal P)
    (ha : Op.AllAllowed P ops Spec.start) (hh : Op.AllHarmless P ops Spec.start) :
    match Spec.run P ops Spec.start with
    | .ok rs a => ∃ w, P.run ops Prog.start = .ok rs w ∧ P.Inv w ∧ P.view w = a.mem ∧ w.env = a.env
    | .verify => P.run ops Prog.start = .verify
    | .throw _ => False
    | .ub => False := by
  have h0 : R P Prog.start (Spec.start : AState Val) := ⟨rfl, fun _ => trivial⟩
  have hs := Prog.run_sim_harmless hP h0 hl ha hh
  have hg := Spec.run_good hP Spec.start_fine ha
  revert hs hg
  cases Spec.run P ops Spec.start with
  | ub => exact fun _ h => h
  | throw _ => exact fun _ h => h
  | verify => cases P.run ops Prog.start <;> intro h <;> first | exact fun _ => rfl | exact h.elim
  | ok rs a =>
    cases P.run ops Prog.start with
    | throw _ => exact fun h => h.elim
    | verify => exact fun h => h.elim
    | ub => exact fun h => h.elim
    | ok rs' w =>
      rintro ⟨rfl, h⟩ _
      obtain ⟨h1, rfl⟩ := Prog.R_abs h
      exact ⟨w, rfl, h1, rfl, rfl⟩

/-- a predicate that accepts everything and changes nothing -/
def Demo.accept : Prog.Fn Byte Bool := ⟨fun _ => true, id, id⟩

/-- a history in which a value constructor and then a predicate throw -/
def Demo.bumpy : List (Op Byte) :=
  [.ctorValue 1 (.args 5), .ctorValue 1 (.args 5), .takeIf 1 9 Demo.accept, .take 1 9, .emplace 1 (.args 5), .dtor 9,
    .dtor 1]

theorem Demo.bumpy_legal {thr : Nat → Bool} {clobber : Nat → Bytes → Bytes} :
    ∀ op ∈ Demo.bumpy, op.Legal (Demo.prog true thr clobber) := by
  have hd : ((Demo.prog true thr clobber).elem 1).Dom 64 5 := Demo.dom_mk 1 (.inr (.inl rfl))
  simp only [Demo.bumpy, List.forall_mem_cons]
  exact ⟨hd, hd, fun _ h => ⟨h, h⟩, trivial, hd, trivial, trivial, fun _ h => by cases h⟩

/-- constructors of this program that throw do overwrite the sentinel, but in this history none fails in the storage of an
option -/
example : (Demo.prog true (fun n => n == 0 || n == 2) Demo.vptrFirst).OK ∧
    ¬ (Demo.prog true (fun n => n == 0 || n == 2) Demo.vptrFirst).ThrowSafe ∧
    (∀ op ∈ Demo.bumpy, op.Legal (Demo.prog true (fun n => n == 0 || n == 2) Demo.vptrFirst)) ∧
    Op.AllAllowed (Demo.prog true (fun n => n == 0 || n == 2) Demo.vptrFirst) Demo.bumpy Spec.start ∧
    Op.AllHarmless (Demo.prog true (fun n => n == 0 || n == 2) Demo.vptrFirst) Demo.bumpy Spec.start := by
  refine ⟨Demo.ok_vptr, fun h => ?_, Demo.bumpy_legal, by decide +kernel,
    Op.allHarmless_of_noneFails (by decide +kernel)⟩
  have := h 1 .args 0 (leBytes 8 0xFFFFFFFFFFFEA3C0 ++ List.replicate 8 0) (by decide +kernel) rfl rfl rfl rfl (by decide +kernel)
  revert this
  decide +kernel

example : ((Demo.prog true (fun n => n == 0 || n == 2) Demo.vptrFirst).run Demo.bumpy Prog.start).seen = some
    ([.threw, .unit, .threw, .unit, .unit, .unit, .unit],
      [.ctorFail 1 .args, .ctor 1 .args, .call 1 false, .ctor 9 .move, .dtor 1, .ctor 1 .args, .dtor 9, .dtor 1]) := by
  decide +kernel

/-- **C15** without a condition on exceptions.  Any history a client is allowed to perform either refines the
specification to its end, or it does so up to an operation that ends with an exception because a constructor fails in the
storage of an empty option that is stored without a flag, and that constructor can turn a representation of the empty
state into bytes that read as a value. -/
theorem C15_first_failure (hP : P.OK) (ops : List (Op Val)) (hl : ∀ op ∈ ops, op.Legal P)
    (ha : Op.AllAllowed P ops Spec.start) :
    (match Spec.run P ops Spec.start with
      | .ok rs a => ∃ w, P.run ops Prog.start = .ok rs w ∧ P.Inv w ∧ P.view w = a.mem ∧ w.env = a.env
      | .verify => P.run ops Prog.start = .verify
      | .throw _ => False
      | .ub => False) ∨
    ∃ pre op post rs a w, ops = pre ++ op :: post ∧
      Spec.run P pre Spec.start = .ok rs a ∧ P.run pre Prog.start = .ok rs w ∧ P.Inv w ∧ P.view w = a.mem ∧
      w.env = a.env ∧
      ∃ a' evs i k old, op.inStorage i = true ∧ Spec.runOp P op a = .throw a' ∧ a'.env.log = a.env.log ++ evs ∧ .ctorFail i k ∈ evs ∧
        (P.elem i).sent P.pw = true ∧ (P.elem i).scalar = false ∧ old.length = (P.elem i).T.size P.pw ∧
        (P.elem i).T.hasValue P.pw old = false ∧
        (P.elem i).T.hasValue P.pw (P.partial_ i k (a'.env.tick - 1) old) = true := by
  by_cases hh : Op.AllHarmless P ops Spec.start
  · exact .inl (C15_harmless_partial hP ops hl ha hh)
  · obtain ⟨pre, op, post, rs, a, rfl, hp, hr, hn⟩ := Op.first_harmful hh
    have h := C15_harmless_partial hP pre (fun o ho => hl o (List.mem_append_left _ ho)) (Op.allAllowed_append ha) hp
    rw [hr] at h
    obtain ⟨w, h1, h2, h3, h4⟩ := h
    refine .inr ⟨pre, op, post, rs, a, w, rfl, hr, h1, h2, h3, h4, ?_⟩
    simp only [Op.Harmless, Prog.ThrowSafeAt, Classical.not_forall, Bool.not_eq_false] at hn
    obtain ⟨a', evs, i, k, e0, e1, e2, e3, old, e4, _, e5, _, e6, e7, e8⟩ := hn
    exact ⟨a', evs, i, k, old, e0, e1, e2, e3, e4, e5, e6, e7, e8⟩

/-- both alternatives occur: the third operation of `Demo.story` fails in this program -/
example : (Demo.prog true (· == 1) Demo.vptrFirst).OK ∧
    (∀ op ∈ Demo.story, op.Legal (Demo.prog true (· == 1) Demo.vptrFirst)) ∧
    Op.AllAllowed (Demo.prog true (· == 1) Demo.vptrFirst) Demo.story Spec.start :=
  ⟨Demo.ok_vptr, Demo.story_legal, by decide +kernel⟩

/-- **C16** (partial: needs `Balanced` and `AllHarmless`).  As `C16_lifetimes_partial`, with the condition only on the
constructor calls that fail in this history. -/
theorem C16_harmless_partial (hP : P.OK) (hB : P.Balanced) (ops : List (Op Val)) (hl : ∀ op ∈ ops, op.Legal P)
    (ha : Op.AllAllowed P ops Spec.start) (hh : Op.AllHarmless P ops Spec.start) (rs : List (Ret Val)) (w : World)
    (hr : P.run ops Prog.start = .ok rs w) :
    Life.run P.tracked w.env.log = some (fun i => P.tracked i && (P.view w i).join.isSome) ∧
    ∀ i, P.tracked i = true →
      Life.ctors i w.env.log = Life.dtors i w.env.log + if (P.view w i).join.isSome then 1 else 0 := by
  have h15 := C15_harmless_partial hP ops hl ha hh
  have hg := Spec.run_good hP Spec.start_fine ha
  rw [hr] at h15
  revert h15 hg
  cases hs : Spec.run P ops Spec.start with
  | ub => exact fun h => h.elim
  | throw _ => exact fun h => h.elim
  | verify => exact fun h => by cases h
  | ok rs' a =>
    rintro ⟨w', h1, _, h2, h3⟩ ⟨s, hst, hll⟩
    obtain ⟨evs, he, hrun⟩ := hll hB
    cases h1
    have hlive : liveSet P s = fun i => P.tracked i && (P.view w i).join.isSome := by
      funext i
      simp only [liveSet, ← hst, shape, h2]
      cases a.mem i with
      | none => simp
      | some x => cases x <;> simp
    have hlog : Life.run P.tracked w.env.log = some (fun i => P.tracked i && (P.view w i).join.isSome) := by
      rw [h3, he, ← hlive]; exact hrun
    refine ⟨hlog, fun i hi => ?_⟩
    have := Life.run_count hi hlog
    rw [this, hi]
    cases (P.view w i).join.isSome <;> rfl

/-- the history above; every constructor that completed is matched by a destructor -/
example : (Demo.prog true (fun n => n == 0 || n == 2) Demo.vptrFirst).Balanced ∧
    Op.AllHarmless (Demo.prog true (fun n => n == 0 || n == 2) Demo.vptrFirst) Demo.bumpy Spec.start :=
  ⟨Demo.balanced, Op.allHarmless_of_noneFails (by decide +kernel)⟩

/-- a history with comparisons, `std::hash`, a range-based `for` and `unzip` -/
def Demo.wide : List (Op Byte) :=
  [.ctorDefault 5, .ctorValue 1 (.args 0x65), .cmp .lt (fun _ a b => decide (a.toNat < b.toNat)) 5 1, .cmpNone .gt 1,
    .noneCmp .eq 5, .cmpVal .ne (fun _ a b => a != b) 5 3, .valCmp .lt (fun _ a b => decide (a.toNat < b.toNat)) 3 1,
    .hash 1 (fun v => v.setWidth 64), .hash 5 (fun v => v.setWidth 64), .forEach 1 ⟨fun _ => (), fun v => v + 1, id⟩,
    .unzipTuple nibbles 1 false [16, 20] [(12, 20), (8, 16)], .unzipTuple nibbles 1 true [16, 20] [(12, 20), (8, 16)],
    .unzipArray nibbles 5 true [24, 28], .getUnchecked 8, .getUnchecked 12, .getUnchecked 1, .ptrOrNull 24]

theorem Demo.wide_legal {thr : Nat → Bool} : ∀ op ∈ Demo.wide, op.Legal (Demo.prog true thr Demo.tidy) := by
  have hd : ∀ v, ((Demo.prog true thr Demo.tidy).elem 1).Dom 64 v := fun v => Demo.dom_mk 1 (.inr (.inl rfl))
  simp only [Demo.wide, List.forall_mem_cons]
  exact ⟨trivial, hd _, trivial, trivial, trivial, trivial, trivial, trivial, trivial, fun v _ => ⟨hd _, hd _⟩,
    nibbles_legal (by decide), nibbles_legal (by decide), nibbles_legal (by decide), trivial, trivial, trivial, trivial,
    fun _ h => by cases h⟩

/-- the second move into the result of the first `unzip` throws -/
example : (Demo.prog true (· == 7) Demo.tidy).OK ∧
    (∀ op ∈ Demo.wide, op.Legal (Demo.prog true (· == 7) Demo.tidy)) ∧
    Op.AllAllowed (Demo.prog true (· == 7) Demo.tidy) Demo.wide Spec.start ∧
    Op.AllHarmless (Demo.prog true (· == 7) Demo.tidy) Demo.wide Spec.start ∧
    (Demo.prog true (· == 7) Demo.tidy).Balanced :=
  ⟨Demo.ok_tidy, Demo.wide_legal, by decide +kernel, Op.allHarmless_of_throwSafe Demo.throwSafe_tidy _ _, Demo.balanced⟩

example : ((Demo.prog true (· == 7) Demo.tidy).run Demo.wide Prog.start).seen = some
    ([.unit, .unit, .bool true, .bool true, .bool true, .bool true, .bool true, .word 0x65, .word 0, .unit, .threw, .unit,
        .unit, .val 6, .val 6, .val 0, .opt none],
      [.ctor 1 .args, .call0 true, .call0 true, .call 1 true, .ctor 16 .copy, .ctor 20 .copy, .ctor 12 .move,
        .ctorFail 8 .move, .dtor 12, .dtor 20, .dtor 16, .ctor 16 .move, .ctor 20 .move, .ctor 12 .move, .ctor 8 .move,
        .dtor 20, .dtor 16]) := by
  decide +kernel

end Opt
