import Verif.Lemmas.Stored

/-!
# C83: A value that looks empty is stopped where it is stored

Options without a flag take the bytes of the value for the state.  The functions that construct or assign a value check afterwards that the
option shows one (option.hpp 2018-2105, 2924, 2945, 2968).  This holds for every program: no law of the element type is assumed.
-/

namespace Opt

open Stored

variable {Val : Type} (P : Prog Val)

/-- **C83 (stored).**  If a constructor from a value, `emplace`, `try_emplace`, assignment of a value or `|=` with a value returns, the
option shows a value. -/
theorem C83_stored_partial {op : Op Val} {i : Nat} (hop : stores op = some i) (hs : (P.elem i).sent P.pw = true) {w w' : World} {r : Ret Val}
    (h : P.runOp op w = .ok r w') : Shows P i w' := by
  cases op <;> simp only [stores, Option.some.injEq, reduceCtorEq] at hop <;> subst hop
  · exact ends_asRet (.bind fun _ => ends_ctorArg hs _) _ _ _ h
  · exact ends_asRet (ends_assignValue hs _) _ _ _ h
  · exact ends_asRet (.bind fun _ => .bind fun _ => .bind fun _ => Ends.getCheck _) _ _ _ h
  · refine ends_asRet (.bind fun _ => .bind fun _ => .ite (fun _ => Ends.getCheck _) fun _ => .bind fun _ => Ends.getCheck _) _ _ _ h
  · obtain ⟨a, e⟩ := asRet_ok h
    obtain ⟨_, w1, _, e⟩ := seq_ok e
    obtain ⟨b, w2, hb, e⟩ := seq_ok e
    have := hasValue_same hb
    subst this
    cases b
    · exact ends_assignValue hs _ _ _ _ e
    · cases e
      exact hb

/-- **C83 (passed on).**  If a function that makes an option out of options returns, and the operands showed a value, the result shows
one. -/
theorem C83_passed_on_partial {op : Op Val} {js : List Nat} {i : Nat} (hop : passes P op = some (js, i)) (hs : (P.elem i).sent P.pw = true)
    {w w' : World} {r : Ret Val} (hj : ∀ j ∈ js, Shows P j w) (h : P.runOp op w = .ok r w') : Shows P i w' := by
  cases op <;> simp only [passes, Option.some.injEq, Prod.mk.injEq, reduceCtorEq] at hop
  case assignFrom i' j' mv =>
    by_cases hc : P.cls i' = P.cls j'
    · simp [hc] at hop
    simp only [if_neg hc, Option.some.injEq, Prod.mk.injEq] at hop
    obtain ⟨rfl, rfl⟩ := hop
    obtain ⟨a, e⟩ := asRet_ok h
    exact assignConv_shows hc hs (hj j' (by simp)) e
  all_goals
    obtain ⟨rfl, rfl⟩ := hop
    obtain ⟨a, e⟩ := asRet_ok h
  case ctorFrom i' j' mv => exact ctorFrom_shows hs (hj j' (by simp)) e
  case take i' r' => exact take_shows hs (hj i' (by simp)) e
  case map i' r' f =>
    have e := known (hj i' (by simp)) e
    exact (Ends.bind fun _ => .bind fun _ => .bind fun _ => ends_tail hs) _ _ _ e
  case orElse i' r' mv x =>
    have e := known (hj i' (by simp)) e
    exact ctorFrom_shows hs (hj i' (by simp)) e
  case orOp i' j' r' mi mj =>
    have e := known (hj i' (by simp)) e
    exact ctorFrom_shows hs (hj i' (by simp)) e
  case orAssignFrom i' j' mv =>
    have e := known (hj i' (by simp)) e
    cases e
    exact hj i' (by simp)
  case andOp i' j' r' mv =>
    have e := known (hj i' (by simp)) e
    exact ctorFrom_shows hs (hj j' (by simp)) e
  case zip is r' g =>
    obtain ⟨b, w1, h1, e⟩ := seq_ok e
    rw [allHave_true fun p hp => hj p.1 (List.mem_map_of_mem hp)] at h1
    cases h1
    obtain ⟨vs, w2, _, e⟩ := seq_ok e
    obtain ⟨_, w3, h3, e⟩ := seq_ok e
    exact drop_shows (P.only_dropTmps _) ((ends_ctorArg hs _).onThrow _ _ _ h3) e
  case zipWith is r' g =>
    obtain ⟨b, w1, h1, e⟩ := seq_ok e
    rw [allHave_true fun p hp => by
      obtain ⟨k, hk, rfl⟩ := List.mem_map.1 hp
      exact hj k hk] at h1
    cases h1
    obtain ⟨vs, w2, _, e⟩ := seq_ok e
    obtain ⟨b, w2', _, e⟩ := seq_ok e
    obtain ⟨_, w3, h3, e⟩ := seq_ok e
    exact drop_shows (P.only_dropTmp _) ((ends_ctorArg hs _).onThrow _ _ _ h3) e

/-- **C83 (stopped).**  A value whose bytes mean "empty" cannot be stored: constructors, `emplace` and assignments that are given one never
return normally. -/
theorem C83_stopped {op : Op Val} {i : Nat} {v : Val} (hop : given op = some (i, v)) (hs : (P.elem i).sent P.pw = true)
    (hv : LooksEmpty P i v) (w : World) (r : Ret Val) (w' : World) : P.runOp op w ≠ .ok r w' := by
  intro h
  cases op <;> simp only [given, Option.map_eq_some_iff, Prod.mk.injEq, reduceCtorEq] at hop
  all_goals
    obtain ⟨v', ho, rfl, rfl⟩ := hop
    obtain ⟨a, e⟩ := asRet_ok h
  · exact (Ends.bind fun _ => never_ctorArg hs ho hv) _ _ _ e
  · exact never_assignValue hs ho hv _ _ _ e
  · exact never_emplace hs ho hv _ _ _ e

/-- **C83 (report).**  Constructing an option from such a value ends in the report of `OPTION_VERIFY`, unless the constructor of the value
throws. -/
theorem C83_report {i : Nat} {src : Src Val} {v : Val} (ho : outside src = some v) (hs : (P.elem i).sent P.pw = true)
    (hv : LooksEmpty P i v) {w : World} (hfree : w.mem i = none) (ht : P.throwsAt w.env.tick = false) :
    P.runOp (.ctorValue i src) w = .verify := by
  have hev : P.evalArg src = pure () := by cases src <;> simp_all [outside, Prog.evalArg]
  have hin : ∃ o w1, P.constructInPlace i src { w with mem := upd w.mem i (some ⟨P.garbage i w.env.tick, false⟩) } = .ok () w1 ∧
      w1.mem i = some o ∧ (P.elem i).T.hasValue P.pw o.bytes = false := by
    have hval := outside_val (P := P) (i := i) ho
    have hself := outside_self (i := i) ho
    have haft : ∀ n, P.srcAfter false n src = pure () := by intro n; cases src <;> simp_all [outside, Prog.srcAfter]
    simp only [Prog.constructInPlace, bind, M.seq, Prog.obj, upd_same, Bool.false_and, Bool.false_eq_true, if_false, hself, hval, pure, M.ret]
    by_cases hk : (P.elem i).ctorTriv (P.kind i src)
    · rw [if_pos hk, outside_bytes ho]
      simp only [bind, M.seq, Prog.now, pure, M.ret, Prog.setPayload, Prog.obj, upd_same, Prog.setObj]
      refine ⟨⟨wr (P.garbage i w.env.tick) 0 (P.build i w.env.tick v (P.payload i ⟨P.garbage i w.env.tick, false⟩)), true⟩,
        _, rfl, ?_, hv _ _ _⟩
      exact upd_same _ _ _
    · rw [if_neg hk]
      simp only [M.seq, Prog.userOp, ht, Bool.false_eq_true, if_false, haft, pure, M.ret, bind, Prog.setPayload, Prog.obj, upd_same, Prog.setObj]
      refine ⟨⟨wr (P.garbage i w.env.tick) 0 (P.build i w.env.tick v (P.payload i ⟨P.garbage i w.env.tick, false⟩)), true⟩,
        _, rfl, ?_, hv _ _ _⟩
      exact upd_same _ _ _
  obtain ⟨o, w1, h1, hm, hb⟩ := hin
  simp only [Prog.runOp, Prog.asRet, Prog.ctorValue, Prog.ctorArg, hev, bind, M.seq, pure, M.ret, Prog.newObj, hfree, M.onThrow, h1, hs, if_pos,
    Prog.hasValue, Prog.obj, hm, Bool.not_true, Bool.false_and, Bool.false_eq_true, if_false, hb, M.check]

/-! ## What is not stopped -/

/-- **C83, violated: assignment through a reference.**  `*o = handle(255)` (here inside `inspect`) stores the sentinel without any check.
The option is then empty, and the destructor of the value is never called. -/
theorem C83_reference_violated :
    outcome (handles id cap) [.ctorValue 0 (.args 5), .inspect 0 ⟨fun _ => (), fun _ => 255, id⟩, .hasValue 0, .dtor 0] =
      some ([.unit, .unit, .bool false, .unit], [.ctor 0 .args, .call 0 true]) := by decide +kernel

/-- the program is lawful; only the write is not -/
example : (handles id cap).OK := handles_ok

/-- the same history with a write of another value -/
example : outcome (handles id cap) [.ctorValue 0 (.args 5), .inspect 0 ⟨fun _ => (), fun _ => 7, id⟩, .hasValue 0, .dtor 0] =
    some ([.unit, .unit, .bool true, .unit], [.ctor 0 .args, .call 0 true, .dtor 0]) := by decide +kernel

/-- **C83, violated: moved-from values.**  If objects of the type hold the sentinel after a move, the source of a move is empty afterwards
although it had a value before, and the destructor of the moved-from object is never called. -/
theorem C83_moved_violated :
    outcome (handles (fun _ => 255) cap)
        [.ctorValue 0 (.args 5), .ctorFrom 2 0 true, .hasValue 0, .hasValue 2, .dtor 2, .dtor 0] =
      some ([.unit, .unit, .bool false, .bool true, .unit, .unit], [.ctor 0 .args, .ctor 2 .move, .dtor 2]) := by decide +kernel

/-- a type that is not changed by a move -/
example : outcome (handles id cap) [.ctorValue 0 (.args 5), .ctorFrom 2 0 true, .hasValue 0, .hasValue 2, .dtor 2, .dtor 0] =
    some ([.unit, .unit, .bool true, .bool true, .unit, .unit], [.ctor 0 .args, .ctor 2 .move, .dtor 2, .dtor 0]) := by decide +kernel

/-- **C83, violated: `swap` of options of different types.**  When both have values they are swapped without a check afterwards: a value that
converts to the sentinel leaves the first option empty. -/
theorem C83_swap_violated :
    outcome (handles id id) [.ctorValue 0 (.args 5), .ctorValue 1 (.args 255), .swap 0 1, .hasValue 0, .hasValue 1] =
      some ([.unit, .unit, .unit, .bool false, .bool true], [.ctor 0 .args, .ctor 1 .args, .swap 0 1 true]) := by decide +kernel

/-- converting assignment of the same value is stopped -/
example : outcome (handles id id) [.ctorValue 0 (.args 5), .ctorValue 1 (.args 255), .assignFrom 0 1 false] = none := by decide +kernel

/-! ## The hypotheses -/

theorem looks_empty_255 (left conv : Byte → Byte) : LooksEmpty (handles left conv) 0 255 := fun _ _ _ => rfl

/-- storing 5, copying, converting and zipping complete; 255 is stopped -/
example : (outcome (handles id cap) [.ctorValue 0 (.args 5), .emplace 0 (.args 6), .assignValue 0 (.copy 7), .ctorFrom 2 0 false, .ctorValue 1 (.args 8),
      .assignFrom 2 1 false, .zip [(0, false), (1, false)] 4 (fun vs => vs.foldl (· + ·) 0), .hasValue 4, .get 4]).map (·.1) =
    some [.unit, .unit, .unit, .unit, .unit, .unit, .unit, .bool true, .val 15] := by decide +kernel

example : (handles id cap).runOp (.ctorValue 0 (.args 255)) start = .verify :=
  C83_report _ rfl rfl (looks_empty_255 _ _) rfl rfl

example : (handles id cap).runOp (.emplace 0 (.args 255)) start ≠ .ok .unit start :=
  C83_stopped _ (i := 0) (v := 255) rfl rfl (looks_empty_255 _ _) _ _ _

#print axioms C83_stored_partial
#print axioms C83_passed_on_partial
#print axioms C83_stopped
#print axioms C83_report
#print axioms C83_reference_violated
#print axioms C83_moved_violated
#print axioms C83_swap_violated

end Opt
