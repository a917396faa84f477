import Verif.Lemmas.StdHarmless
import Verif.Props.History
import Verif.Lemmas.DemoWorld

/-!
# C74: `opt::option` as a replacement for `std::optional`
-/

namespace Opt

variable {Val : Type} {P : Prog Val}

/-- The world of options is what the standard machine has: the same objects, containing a value exactly if the flag of the
standard says so, and then the same value; the same calls of user code (without counting where a `T` is built first);
the same log of calls if no `T` is built as a temporary (C++17, trivially move assignable, not trivially destructible)
and none is a scalar. -/
structure Std.Same (P : Prog Val) (w : World) (s : Std.State Val) : Prop where
  inv : P.Inv w
  objects : ∀ i, s.obj i = (P.view w i).map fun x => ⟨x.isSome, x⟩
  calls : w.env.tick = s.env.tick ∧ w.env.log.filterMap (Std.plain P) = s.env.log.filterMap (Std.plain P)
  exact : (∀ i, P.viaTemp i = false ∧ (P.elem i).scalar = false) → w.env.log = s.env.log

theorem Std.same_of {w : World} {a : AState Val} {s : Std.State Val} (h : R P w a) (hs : Std.SR P a s) : Std.Same P w s := by
  obtain ⟨hi, rfl⟩ := Prog.R_abs h
  exact ⟨hi, hs.obj, ⟨hs.env.tick, hs.env.plain⟩, hs.env.exact⟩

/-- **C74** (partial: needs `ThrowSafe`, see `C74_violated_constructor`).  A history that is valid for `std::optional`
(operations it has, no precondition of the standard broken) does the same with `opt::option`: the same results, the same
exceptions, the same values, the same calls of user code. -/
theorem C74_history_partial (hP : P.OK) (hT : P.ThrowSafe) (hB : P.ScalarsKeep) (ops : List (Op Val))
    (hl : ∀ op ∈ ops, op.Legal P) (rs : List (Ret Val)) (s : Std.State Val)
    (hs : Std.run P 0 ops Std.start = .ok rs s) :
    ∃ w, P.run ops Prog.start = .ok rs w ∧ Std.Same P w s := by
  have h0 : R P Prog.start (Spec.start : AState Val) := ⟨rfl, fun _ => trivial⟩
  have h1 := Prog.run_sim hP hT h0 hl
  have h2 := Std.run_rel hP hB ops (a := Spec.start) (s := Std.start) ⟨fun _ => rfl, rfl, rfl, fun _ => rfl⟩
  rw [hs] at h2
  cases ha : Spec.run P ops Spec.start with
  | ok rs' a =>
    rw [ha] at h1 h2
    obtain ⟨rfl, h2⟩ := h2
    cases hw : P.run ops Prog.start with
    | ok rs'' w =>
      rw [hw] at h1
      obtain ⟨rfl, h1⟩ := h1
      exact ⟨w, rfl, Std.same_of h1 h2⟩
    | throw _ => rw [hw] at h1; exact h1.elim
    | verify => rw [hw] at h1; exact h1.elim
    | ub => rw [hw] at h1; exact h1.elim
  | throw _ => rw [ha] at h2; exact h2.elim
  | verify => rw [ha] at h2; exact h2.elim
  | ub => rw [ha] at h2; exact h2.elim

/-- the demo program, with scalars that keep their value when the conversion of an operand throws -/
def Demo.kept (cxx20 : Bool) (thr : Nat → Bool) (clobber : Nat → Bytes → Bytes) : Prog Byte :=
  { Demo.prog cxx20 thr clobber with broken := fun _ _ u _ => u }

theorem Demo.kept_ok {cxx20 : Bool} {thr : Nat → Bool} {clobber : Nat → Bytes → Bytes}
    (h : (Demo.prog cxx20 thr clobber).OK) : (Demo.kept cxx20 thr clobber).OK :=
  ⟨h.pw, h.wf, h.size, h.tcc_td, h.tmc_td, h.scalar, h.garbage, h.build, h.partial_, h.dead, h.moved, h.selfMoved,
    fun _ _ _ _ hu _ => hu, h.conv⟩

/-- copies, moves, assignments, swaps, `value_or`, `transform`, comparisons; constructor 1 throws -/
def Demo.stdStory : List (Op Byte) :=
  [.ctorDefault 1, .emplace 1 (.args 5), .emplace 1 (.args 5), .hasValue 1, .ctorFrom 5 1 false, .swap 1 5, .valueOrThrow 1,
    .assignValue 1 (.args 5), .assignFrom 5 1 true, .cmp .lt (fun _ a b => decide (a < b)) 1 5, .get 5, .ctorDefault 2,
    .assignValue 2 (.args 9), .assignValue 2 (.args 3), .hash 2 (fun v => v.setWidth 64), .valueOr 5 false (.copy 5),
    .reset 5, .cmpNone .eq 5, .dtor 5, .dtor 1]

theorem Demo.dom_kept {cxx20 : Bool} {thr : Nat → Bool} {clobber : Nat → Bytes → Bytes} {i : Nat} {v : Byte}
    (h : ((Demo.prog cxx20 thr clobber).elem i).Dom 64 v) : ((Demo.kept cxx20 thr clobber).elem i).Dom 64 v := h

theorem Demo.stdStory_legal {thr : Nat → Bool} {clobber : Nat → Bytes → Bytes} :
    ∀ op ∈ Demo.stdStory, op.Legal (Demo.kept true thr clobber) := by
  have h1 : ((Demo.prog true thr clobber).elem 1).Dom 64 5 := Demo.dom_mk 1 (.inr (.inl rfl))
  have h5 : ((Demo.prog true thr clobber).elem 5).Dom 64 5 := Demo.dom_mk 1 (.inr (.inl rfl))
  have h2 : ∀ v, ((Demo.prog true thr clobber).elem 2).Dom 64 v := fun v => Demo.dom_mk 2 (.inr (.inr (.inl rfl)))
  simp only [Demo.stdStory, List.forall_mem_cons]
  exact ⟨trivial, h1, h1, trivial, trivial, trivial, trivial, h1, trivial, trivial, trivial, trivial, h2 9, h2 3, trivial, h5,
    trivial, trivial, trivial, trivial, fun _ h => by cases h⟩

/-- what the standard machine shows: results and calls -/
def Std.seen {α : Type} : Out (Std.State Val) α → Option (α × List Event)
  | .ok r s => some (r, s.env.log)
  | _ => none

theorem Std.of_seen {α : Type} {x : Out (Std.State Val) α} {r : α} {l : List Event} (h : Std.seen x = some (r, l)) :
    ∃ s, x = .ok r s ∧ s.env.log = l := by
  cases x with
  | ok r' s => cases h; exact ⟨s, rfl, rfl⟩
  | throw _ => cases h
  | verify => cases h
  | ub => cases h

example : (Demo.kept true (· == 1) Demo.tidy).OK ∧ (Demo.kept true (· == 1) Demo.tidy).ThrowSafe ∧
    (Demo.kept true (· == 1) Demo.tidy).ScalarsKeep ∧ (∀ op ∈ Demo.stdStory, op.Legal (Demo.kept true (· == 1) Demo.tidy)) ∧
    ∃ s, Std.run (Demo.kept true (· == 1) Demo.tidy) 0 Demo.stdStory Std.start =
      .ok [.unit, .unit, .threw, .bool false, .unit, .unit, .threw, .unit, .unit, .bool true, .val 5, .unit, .unit, .unit,
        .word 3, .val 5, .unit, .bool true, .unit, .unit] s ∧
      s.env.log = [.ctor 1 .args, .dtor 1, .ctorFail 1 .args, .ctor 1 .args, .ctor 5 .move, .call0 true, .ctor 2 .args,
        .assign 2 .args true, .call0 true, .tmpCtor .copy true, .dtor 5, .dtor 1] :=
  ⟨Demo.kept_ok Demo.ok_tidy, fun _ _ _ _ _ _ _ _ _ h => h, fun _ _ _ _ _ => rfl, Demo.stdStory_legal,
    Std.of_seen (by decide +kernel)⟩

/-- the same without exceptions: no condition on constructors -/
theorem C74_nothrow (hP : P.OK) (hT : ∀ n, P.throwsAt n = false) (ops : List (Op Val))
    (hl : ∀ op ∈ ops, op.Legal P) (hB : P.ScalarsKeep) (rs : List (Ret Val)) (s : Std.State Val)
    (hs : Std.run P 0 ops Std.start = .ok rs s) :
    ∃ w, P.run ops Prog.start = .ok rs w ∧ Std.Same P w s :=
  C74_history_partial hP (fun _ _ n _ _ _ _ h => by rw [hT n] at h; cases h) hB ops hl rs s hs

example : (Demo.kept true (fun _ => false) Demo.vptrFirst).OK ∧
    (∀ n, (Demo.kept true (fun _ => false) Demo.vptrFirst).throwsAt n = false) ∧
    (Demo.kept true (fun _ => false) Demo.vptrFirst).ScalarsKeep ∧
    (∀ op ∈ Demo.stdStory, op.Legal (Demo.kept true (fun _ => false) Demo.vptrFirst)) ∧
    ∃ rs s, Std.run (Demo.kept true (fun _ => false) Demo.vptrFirst) 0 Demo.stdStory Std.start = .ok rs s :=
  ⟨Demo.kept_ok Demo.ok_vptr, fun _ => rfl, fun _ _ _ _ _ => rfl, Demo.stdStory_legal,
    by
      obtain ⟨s, h, _⟩ := Std.of_seen (x := Std.run (Demo.kept true (fun _ => false) Demo.vptrFirst) 0 Demo.stdStory Std.start)
        (r := [.unit, .unit, .unit, .bool true, .unit, .unit, .val 5, .unit, .unit, .bool true, .val 5, .unit, .unit, .unit,
          .word 3, .val 5, .unit, .bool true, .unit, .unit])
        (l := [.ctor 1 .args, .dtor 1, .ctor 1 .args, .ctor 5 .copy, .swap 1 5 true, .assign 1 .args true, .assign 5 .move true,
          .call0 true, .ctor 2 .args, .assign 2 .args true, .call0 true, .tmpCtor .copy true, .dtor 5, .dtor 1])
        (by decide +kernel)
      exact ⟨_, s, h⟩⟩

/-- the same for options with a flag -/
theorem C74_flag (hP : P.OK) (hF : ∀ i, (P.elem i).sent P.pw = false) (ops : List (Op Val))
    (hl : ∀ op ∈ ops, op.Legal P) (hB : P.ScalarsKeep) (rs : List (Ret Val)) (s : Std.State Val)
    (hs : Std.run P 0 ops Std.start = .ok rs s) :
    ∃ w, P.run ops Prog.start = .ok rs w ∧ Std.Same P w s :=
  C74_history_partial hP (fun i _ _ _ h => by rw [hF i] at h; cases h) hB ops hl rs s hs

example : (Demo.lent17 (· == 1)).OK ∧ (∀ i, ((Demo.lent17 (· == 1)).elem i).sent 64 = false) ∧
    (Demo.lent17 (· == 1)).ScalarsKeep ∧
    ∃ s, Std.run (Demo.lent17 (· == 1)) 0 [.ctorDefault 1, .emplace 1 (.args 5), .emplace 1 (.args 5), .hasValue 1] Std.start =
      .ok [.unit, .unit, .threw, .bool false] s ∧ s.env.log = [.ctor 1 .args, .dtor 1, .ctorFail 1 .args] :=
  ⟨Demo.ok_lent17, fun _ => rfl, fun _ _ _ _ h => (by cases h), Std.of_seen (by decide +kernel)⟩

/-- **C74** (partial: needs `AllHarmless`).  The condition is only on the constructor calls that fail in this history in the
storage of an option, not on all constructors. -/
theorem C74_harmless_partial (hP : P.OK) (hB : P.ScalarsKeep) (ops : List (Op Val)) (hl : ∀ op ∈ ops, op.Legal P)
    (hh : Op.AllHarmless P ops Spec.start) (rs : List (Ret Val)) (s : Std.State Val)
    (hs : Std.run P 0 ops Std.start = .ok rs s) :
    ∃ w, P.run ops Prog.start = .ok rs w ∧ Std.Same P w s := by
  have h0 : R P Prog.start (Spec.start : AState Val) := ⟨rfl, fun _ => trivial⟩
  have hS : Std.SR P (Spec.start : AState Val) Std.start := ⟨fun _ => rfl, rfl, rfl, fun _ => rfl⟩
  have h1 := Prog.run_sim_harmless hP h0 hl (Std.run_allowed hP hB ops hS hs) hh
  have h2 := Std.run_rel hP hB ops hS
  rw [hs] at h2
  cases ha : Spec.run P ops Spec.start with
  | ok rs' a =>
    rw [ha] at h1 h2
    obtain ⟨rfl, h2⟩ := h2
    cases hw : P.run ops Prog.start with
    | ok rs'' w =>
      rw [hw] at h1
      obtain ⟨rfl, h1⟩ := h1
      exact ⟨w, rfl, Std.same_of h1 h2⟩
    | throw _ => rw [hw] at h1; exact h1.elim
    | verify => rw [hw] at h1; exact h1.elim
    | ub => rw [hw] at h1; exact h1.elim
  | throw _ => rw [ha] at h2; exact h2.elim
  | verify => rw [ha] at h2; exact h2.elim
  | ub => rw [ha] at h2; exact h2.elim

/-- constructors of this program may destroy the sentinel, but the one that fails here is the member initialiser of a new option -/
example : (Demo.kept true (· == 1) Demo.vptrFirst).OK ∧ (Demo.kept true (· == 1) Demo.vptrFirst).ScalarsKeep ∧
    ¬ (Demo.kept true (· == 1) Demo.vptrFirst).ThrowSafe ∧
    Op.AllHarmless (Demo.kept true (· == 1) Demo.vptrFirst)
      [.ctorDefault 1, .emplace 1 (.args 5), .ctorValue 5 (.args 5), .hasValue 1, .get 1] Spec.start ∧
    ∃ s, Std.run (Demo.kept true (· == 1) Demo.vptrFirst) 0
      [.ctorDefault 1, .emplace 1 (.args 5), .ctorValue 5 (.args 5), .hasValue 1, .get 1] Std.start =
        .ok [.unit, .unit, .threw, .bool true, .val 5] s ∧ s.env.log = [.ctor 1 .args, .ctorFail 5 .args] := by
  refine ⟨Demo.kept_ok Demo.ok_vptr, fun _ _ _ _ _ => rfl, fun h => ?_, Op.allHarmless_of_noneFails (by decide +kernel),
    Std.of_seen (by decide +kernel)⟩
  have := h 1 .args 1 (leBytes 8 0xFFFFFFFFFFFEA3C0 ++ List.replicate 8 0) (by decide +kernel) rfl rfl rfl rfl (by decide +kernel)
  exact absurd this (by decide +kernel)

/-- **C74**, without any condition on constructors.  A history that is valid for `std::optional` either does the same with
`opt::option` to its end, or it does the same up to an operation in which `std::optional` passes on an exception, thrown by the
constructor of the value of an empty option that is stored without a flag, after this constructor has turned a representation
of the empty state into bytes that read as a value. -/
theorem C74_first_failure (hP : P.OK) (hB : P.ScalarsKeep) (ops : List (Op Val)) (hl : ∀ op ∈ ops, op.Legal P)
    (rs : List (Ret Val)) (s : Std.State Val) (hs : Std.run P 0 ops Std.start = .ok rs s) :
    (∃ w, P.run ops Prog.start = .ok rs w ∧ Std.Same P w s) ∨
    ∃ pre op post rs1 w s1 s2, ops = pre ++ op :: post ∧
      Std.run P 0 pre Std.start = .ok rs1 s1 ∧ P.run pre Prog.start = .ok rs1 w ∧ Std.Same P w s1 ∧
      Std.runOp P 0 op s1 = .throw s2 ∧
      ∃ a evs i k old, op.inStorage i = true ∧ Spec.runOp P op ⟨P.view w, w.env⟩ = .throw a ∧
        a.env.log = w.env.log ++ evs ∧ .ctorFail i k ∈ evs ∧
        (P.elem i).sent P.pw = true ∧ (P.elem i).scalar = false ∧ old.length = (P.elem i).T.size P.pw ∧
        (P.elem i).T.hasValue P.pw old = false ∧
        (P.elem i).T.hasValue P.pw (P.partial_ i k (s2.env.tick - 1) old) = true := by
  by_cases hh : Op.AllHarmless P ops Spec.start
  · exact .inl (C74_harmless_partial hP hB ops hl hh rs s hs)
  · obtain ⟨pre, op, post, rs1, a1, rfl, hp, hr, hn⟩ := Op.first_harmful hh
    obtain ⟨rs1', s1, rs2, rfl, hs1, hs2⟩ := Std.run_append pre hs
    have hl1 : ∀ o ∈ pre, o.Legal P := fun o ho => hl o (List.mem_append_left _ ho)
    have h0 : R P Prog.start (Spec.start : AState Val) := ⟨rfl, fun _ => trivial⟩
    have hS : Std.SR P (Spec.start : AState Val) Std.start := ⟨fun _ => rfl, rfl, rfl, fun _ => rfl⟩
    have h2 := Std.run_rel hP hB pre hS
    rw [hs1, hr] at h2
    obtain ⟨rfl, h2⟩ := h2
    have h1 := Prog.run_sim_harmless hP h0 hl1 (Std.run_allowed hP hB pre hS hs1) hp
    rw [hr] at h1
    cases hw : P.run pre Prog.start with
    | ok rs3 w =>
      rw [hw] at h1
      obtain ⟨rfl, h1⟩ := h1
      simp only [Op.Harmless, Prog.ThrowSafeAt, Classical.not_forall, Bool.not_eq_false] at hn
      obtain ⟨a', evs, i, k, e0, e1, e2, e3, old, e4, _, e5, _, e6, e7, e8⟩ := hn
      have h3 := Std.runOp_rel hP hB h2 op
      rw [e1] at h3
      have hsame := Std.same_of h1 h2
      obtain ⟨hi, rfl⟩ := Prog.R_abs h1
      cases hop : Std.runOp P 0 op s1 with
      | throw s2 =>
        rw [hop] at h3
        refine .inr ⟨pre, op, post, rs3, w, s1, s2, rfl, hs1, hw, hsame, hop, a', evs, i, k, old, e0, e1, e2, e3, e4, e5, e6, e7, ?_⟩
        rw [← h3.env.tick]
        exact e8
      | ub =>
        simp only [Std.run, bind_run, Prog.catch_, hop] at hs2
        cases hs2
      | ok _ _ => rw [hop] at h3; exact h3.elim
      | verify => rw [hop] at h3; exact h3.elim
    | throw _ => rw [hw] at h1; exact h1.elim
    | verify => rw [hw] at h1; exact h1.elim
    | ub => rw [hw] at h1; exact h1.elim

/-- both alternatives occur: the third operation of `Demo.stdStory` fails in this program, in the one without exceptions none -/
example : (Demo.kept true (· == 1) Demo.vptrFirst).OK ∧ (Demo.kept true (· == 1) Demo.vptrFirst).ScalarsKeep ∧
    (∀ op ∈ Demo.stdStory, op.Legal (Demo.kept true (· == 1) Demo.vptrFirst)) ∧
    ∃ rs s, Std.run (Demo.kept true (· == 1) Demo.vptrFirst) 0 Demo.stdStory Std.start = .ok rs s :=
  ⟨Demo.kept_ok Demo.ok_vptr, fun _ _ _ _ _ => rfl, Demo.stdStory_legal, by
    obtain ⟨s, h, _⟩ := Std.of_seen (x := Std.run (Demo.kept true (· == 1) Demo.vptrFirst) 0 Demo.stdStory Std.start)
      (r := [.unit, .unit, .threw, .bool false, .unit, .unit, .threw, .unit, .unit, .bool true, .val 5, .unit, .unit, .unit,
        .word 3, .val 5, .unit, .bool true, .unit, .unit])
      (l := [.ctor 1 .args, .dtor 1, .ctorFail 1 .args, .ctor 1 .args, .ctor 5 .move, .call0 true, .ctor 2 .args,
        .assign 2 .args true, .call0 true, .tmpCtor .copy true, .dtor 5, .dtor 1])
      (by decide +kernel)
    exact ⟨_, s, h⟩⟩

/-- **C74**, one operation in any state: also the exceptions agree, and what they leave behind -/
theorem C74_step_partial (hP : P.OK) (hT : P.ThrowSafe) (hB : P.ScalarsKeep) (op : Op Val) (hl : op.Legal P) (w : World)
    (hw : P.Inv w) :
    match Std.runOp P 0 op ⟨fun i => (P.view w i).map fun x => ⟨x.isSome, x⟩, w.env⟩ with
    | .ok r s => ∃ w', P.runOp op w = .ok r w' ∧ Std.Same P w' s
    | .throw s => ∃ w', P.runOp op w = .throw w' ∧ Std.Same P w' s
    | .verify => P.runOp op w = .verify
    | .ub => True := by
  have h1 := Prog.runOp_sim hP hT (Prog.abs_R hw) hl
  have h2 := Std.runOp_rel hP hB (a := P.abs w) (s := ⟨fun i => (P.view w i).map fun x => ⟨x.isSome, x⟩, w.env⟩)
    ⟨fun _ => rfl, rfl, rfl, fun _ => rfl⟩ op
  revert h1 h2
  cases Std.runOp P 0 op ⟨fun i => (P.view w i).map fun x => ⟨x.isSome, x⟩, w.env⟩ with
  | ub => intros; trivial
  | ok r s =>
    cases Spec.runOp P op (P.abs w) with
    | ok r' a =>
      cases P.runOp op w with
      | ok r'' w' =>
        rintro ⟨rfl, h1⟩ ⟨rfl, h2⟩
        exact ⟨w', rfl, Std.same_of h1 h2⟩
      | _ => exact fun h => h.elim
    | _ => exact fun _ h => h.elim
  | throw s =>
    cases Spec.runOp P op (P.abs w) with
    | throw a =>
      cases P.runOp op w with
      | throw w' => exact fun h1 h2 => ⟨w', rfl, Std.same_of h1 h2⟩
      | _ => exact fun h => h.elim
    | _ => exact fun _ h => h.elim
  | verify =>
    cases Spec.runOp P op (P.abs w) with
    | verify =>
      cases P.runOp op w with
      | verify => intros; rfl
      | _ => exact fun h => h.elim
    | _ => exact fun _ h => h.elim

example : (Demo.kept true (· == 0) Demo.tidy).OK ∧ (Demo.kept true (· == 0) Demo.tidy).ThrowSafe ∧
    (Demo.kept true (· == 0) Demo.tidy).ScalarsKeep ∧ (Op.swap 0 4 : Op Byte).Legal (Demo.kept true (· == 0) Demo.tidy) ∧
    (Demo.prog true (· == 0) Demo.tidy).Inv Demo.world :=
  ⟨Demo.kept_ok Demo.ok_tidy, fun _ _ _ _ _ _ _ _ _ h => h, fun _ _ _ _ _ => rfl, trivial, Demo.inv⟩

/-- **C74 is violated** (README: "fully compatible with `std::optional`") for a constructor that throws after writing the
vtable pointer: `std::optional` is empty after such an `emplace` and is destroyed without trouble, `opt::option` says it has a
value, and destroying it is undefined behaviour. -/
theorem C74_violated_constructor :
    (Demo.kept true (· == 0) Demo.vptrFirst).OK ∧
    (∃ s, Std.run (Demo.kept true (· == 0) Demo.vptrFirst) 0 [.ctorDefault 1, .emplace 1 (.args 5), .hasValue 1, .dtor 1]
      Std.start = .ok [.unit, .threw, .bool false, .unit] s ∧ s.env.log = [.ctorFail 1 .args]) ∧
    (∃ w, (Demo.kept true (· == 0) Demo.vptrFirst).run [.ctorDefault 1, .emplace 1 (.args 5), .hasValue 1] Prog.start =
      .ok [.unit, .threw, .bool true] w ∧ w.env.log = [.ctorFail 1 .args]) ∧
    (Demo.kept true (· == 0) Demo.vptrFirst).run [.ctorDefault 1, .emplace 1 (.args 5), .hasValue 1, .dtor 1] Prog.start =
      .ub :=
  ⟨Demo.kept_ok Demo.ok_vptr, Std.of_seen (by decide +kernel), Out.of_seen (by decide +kernel),
    Out.of_isUb (by decide +kernel)⟩

/-- **C74 is violated** in C++17 for a type that is trivially move assignable but not trivially destructible: the standard
builds the value in place, the library builds a temporary, copies its bytes and destroys it, so there is one destructor call
too many. -/
theorem C74_violated_temporary :
    Demo.lent.OK ∧ Demo.lent.ThrowSafe ∧ Demo.lent.ScalarsKeep ∧
    (∃ s, Std.run Demo.lent 0 [.ctorDefault 0, .emplace 0 (.args 5), .dtor 0] Std.start = .ok [.unit, .unit, .unit] s ∧
      s.env.log = [.ctor 0 .args, .dtor 0]) ∧
    (∃ w, Demo.lent.run [.ctorDefault 0, .emplace 0 (.args 5), .dtor 0] Prog.start = .ok [.unit, .unit, .unit] w ∧
      w.env.log = [.tmpCtor .args true, .tmpDtor, .dtor 0]) :=
  ⟨Demo.ok_lent, fun _ _ _ _ h => (by cases h), fun _ _ _ _ h => (by cases h), Std.of_seen (by decide +kernel),
    Out.of_seen (by decide +kernel)⟩

end Opt
