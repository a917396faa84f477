import Verif.Spec.RefOption
import Verif.Lemmas.MachineRun

/-!
# Options of references: the machine follows the specification
-/

namespace Opt

variable {Val : Type}

theorem RState.of_ref (w : RWorld Val) (i : Nat) : (RState.of w).ref i = (w.ptr i).loc := rfl

theorem RState.of_mem (w : RWorld Val) : (RState.of w).mem = w.cell := rfl

theorem RState.of_store (p : Nat → Ptr) (c : Cells Val) (i : Nat) (q : Ptr) :
    RState.of ⟨upd p i q, c⟩ = (RState.of ⟨p, c⟩).rebind i q.loc := by
  simp only [RState.of, RState.rebind, RState.mk.injEq, and_true]
  funext k
  simp only [upd]
  split <;> rfl

namespace RefOpt

theorem load_run (i : Nat) (w : RWorld Val) : load i w = .ok (w.ptr i) w := rfl
theorem store_run (i : Nat) (p : Ptr) (w : RWorld Val) : store i p w = .ok () ⟨upd w.ptr i p, w.cell⟩ := rfl
theorem hasValue_run (i : Nat) (w : RWorld Val) : hasValue i w = .ok (w.ptr i != .null) w := rfl
theorem value_run (r : Loc) (w : RWorld Val) : value r w = match w.cell r with
    | some v => .ok v w
    | none => .ub := rfl
theorem elem_null (a p : Nat) : (Ptr.elem a p != Ptr.null) = true := rfl
theorem call_run {α : Type} (f : RFn Val α) (r : Loc) (w : RWorld Val) :
    call f r w = match f r w.cell with
      | .ok a c => .ok a ⟨w.ptr, c⟩
      | .throw c => .throw ⟨w.ptr, c⟩
      | .verify => .verify
      | .ub => .ub := rfl
theorem call0_run {α : Type} (f : M (Cells Val) α) (w : RWorld Val) :
    RefOpt.call0 f w = match f w.cell with
      | .ok a c => .ok a ⟨w.ptr, c⟩
      | .throw c => .throw ⟨w.ptr, c⟩
      | .verify => .verify
      | .ub => .ub := rfl
theorem get_run (i : Nat) (w : RWorld Val) :
    get i w = match w.ptr i with
      | .null => .verify
      | .elem a p => .ok (a, p) w := by
  simp only [get, bind_run, hasValue_run, obind_ok]
  cases h : w.ptr i
  · rfl
  · have e : M.check (σ := RWorld Val) true w = .ok () w := rfl
    simp only [elem_null, e, obind_ok, bind_run, load_run, h]; rfl

end RefOpt

theorem caughtAs_run {σ α β : Type} (g : α → β) (t : β) (x : M σ α) (w : σ) :
    caughtAs g t x w = match x w with
      | .ok a w' => .ok (g a) w'
      | .throw w' => .ok t w'
      | .verify => .verify
      | .ub => .ub := rfl

theorem elem_ne_null (a p : Nat) : (Ptr.elem a p != Ptr.null) = true := rfl
theorem null_ne_null : (Ptr.null != Ptr.null) = false := rfl

open RefOpt in
/-- one operation -/
theorem ROp.run_spec (o : ROp Val) (w : RWorld Val) : (o.run w).abs = o.spec (RState.of w) := by
  obtain ⟨p, c⟩ := w
  cases o with
  | ctorDefault i => simp only [run, spec, caughtAs_run, RefOpt.ctorDefault, store_run, Out.abs, RState.of_store]; rfl
  | ctorRef i r => simp only [run, spec, caughtAs_run, RefOpt.ctorRef, store_run, Out.abs, RState.of_store]; rfl
  | ctorFrom i j =>
    simp only [run, spec, caughtAs_run, RefOpt.ctorFrom, bind_run, load_run, obind_ok, store_run, Out.abs, RState.of_store,
      RState.of_ref]
  | reset i => simp only [run, spec, caughtAs_run, RefOpt.reset, store_run, Out.abs, RState.of_store]; rfl
  | assignFrom i j =>
    simp only [run, spec, caughtAs_run, RefOpt.assignFrom, bind_run, load_run, obind_ok, store_run, Out.abs, RState.of_store,
      RState.of_ref]
  | assignRef i r => simp only [run, spec, caughtAs_run, RefOpt.assignRef, store_run, Out.abs, RState.of_store]; rfl
  | assignConv i j up =>
    simp only [run, spec, caughtAs_run, RefOpt.assignConv, bind_run, hasValue_run, obind_ok, ite_run, get_run, RState.of_ref]
    cases h : p j <;>
      simp only [elem_ne_null, null_ne_null, if_true, Bool.false_eq_true, if_false, obind_ok, RefOpt.reset, store_run, Out.abs,
        RState.of_store, refToPtr, Ptr.loc, Option.map]
  | emplace i r =>
    simp only [run, spec, caughtAs_run, RefOpt.emplace, bind_run, RefOpt.reset, RefOpt.construct, store_run, obind_ok, get_run,
      refToPtr, upd, if_true, Out.abs]
    refine congrArg _ ?_
    simp only [RState.of, RState.rebind, RState.mk.injEq, and_true]
    funext k
    simp only [upd]
    split <;> rfl
  | tryEmplace i r =>
    simp only [run, spec, caughtAs_run, RefOpt.tryEmplace, bind_run, hasValue_run, obind_ok, ite_run, RState.of_ref]
    cases h : p i
    · simp only [null_ne_null, Bool.not_false, if_true, RefOpt.construct, store_run, obind_ok, get_run, upd, refToPtr, Out.abs,
        Ptr.loc, Option.getD]
      refine congrArg _ ?_
      simp only [RState.of, RState.rebind, RState.mk.injEq, and_true]
      funext k
      simp only [upd]
      split
      · rfl
      · rfl
    · simp only [elem_ne_null, Bool.not_true, Bool.false_eq_true, if_false, pure_run, obind_ok, get_run, h, Out.abs, Ptr.loc,
        Option.getD]
      refine congrArg _ ?_
      simp only [RState.of, RState.rebind, RState.mk.injEq, and_true]
      funext k
      split
      · subst_vars; rw [h]; rfl
      · rfl
  | take i k =>
    simp only [run, spec, caughtAs_run, RefOpt.take, bind_run, load_run, obind_ok, RefOpt.reset, store_run, Out.abs, RState.of_store,
      RState.of_ref]
    rfl
  | takeIf i k f =>
    simp only [run, spec, caughtAs_run, RefOpt.takeIf, bind_run, hasValue_run, obind_ok, ite_run, get_run, RState.of_ref]
    cases h : p i with
    | null =>
      simp only [null_ne_null, Bool.false_eq_true, if_false, RefOpt.ctorDefault, store_run, Out.abs, Ptr.loc, RState.of_store]
    | elem a n =>
      simp only [elem_ne_null, if_true, obind_ok, bind_run, call_run, Ptr.loc, RState.after, RState.of_mem]
      cases f (a, n) c with
      | ok b c' =>
        cases b
        · simp only [obind_ok, Bool.false_eq_true, if_false, RefOpt.ctorDefault, store_run, Out.abs, RState.of_store, Ptr.loc]
          rfl
        · simp only [obind_ok, if_true, RefOpt.take, bind_run, load_run, RefOpt.reset, store_run, Out.abs, RState.of_store, h,
            Ptr.loc]
          rfl
      | throw c' => rfl
      | verify => rfl
      | ub => rfl
  | hasValue i =>
    simp only [run, spec, caughtAs_run, hasValue_run, Out.abs, RState.of_ref]
    cases p i <;> rfl
  | get i =>
    simp only [run, spec, caughtAs_run, get_run, RState.must, RState.of_ref]
    cases p i <;> rfl
  | getUnchecked i =>
    simp only [run, spec, caughtAs_run, RefOpt.getUnchecked, bind_run, load_run, obind_ok, RState.must, RState.of_ref]
    cases p i <;> rfl
  | valueOrThrow i =>
    simp only [run, spec, caughtAs_run, RefOpt.valueOrThrow, bind_run, hasValue_run, obind_ok, ite_run, get_run, RState.of_ref]
    cases p i <;> rfl
  | valueOr i d =>
    simp only [run, spec, caughtAs_run, RefOpt.valueOr, bind_run, hasValue_run, obind_ok, ite_run, get_run, RState.of_ref]
    cases p i <;> rfl
  | ptrOrNull i =>
    simp only [run, spec, caughtAs_run, RefOpt.ptrOrNull, bind_run, hasValue_run, obind_ok, ite_run, get_run, RState.of_ref]
    cases p i <;> rfl
  | hasValueAnd i f =>
    simp only [run, spec, caughtAs_run, RefOpt.hasValueAnd, bind_run, hasValue_run, obind_ok, ite_run, get_run, RState.of_ref]
    cases p i with
    | null => rfl
    | elem a n =>
      simp only [elem_ne_null, if_true, obind_ok, bind_run, call_run, Ptr.loc, RState.after, RState.of_mem]
      cases f (a, n) c <;> rfl
  | inspect i f =>
    simp only [run, spec, caughtAs_run, RefOpt.inspect, bind_run, hasValue_run, obind_ok, ite_run, get_run, RState.of_ref]
    cases p i with
    | null => rfl
    | elem a n =>
      simp only [elem_ne_null, if_true, obind_ok, bind_run, call_run, Ptr.loc, RState.after, RState.of_mem]
      cases f (a, n) c <;> rfl
  | filter i k f =>
    simp only [run, spec, caughtAs_run, RefOpt.filter, bind_run, hasValue_run, obind_ok, ite_run, get_run, RState.of_ref]
    cases h : p i with
    | null =>
      simp only [null_ne_null, Bool.false_eq_true, if_false, RefOpt.ctorDefault, store_run, Out.abs, Ptr.loc, RState.of_store]
    | elem a n =>
      simp only [elem_ne_null, if_true, obind_ok, bind_run, call_run, Ptr.loc, RState.after, RState.of_mem]
      cases f (a, n) c with
      | ok b c' =>
        cases b
        · simp only [obind_ok, Bool.false_eq_true, if_false, RefOpt.ctorDefault, store_run, Out.abs, RState.of_store, Ptr.loc]
          rfl
        · simp only [obind_ok, if_true, bind_run, get_run, h, RefOpt.ctorRef, store_run, Out.abs, RState.of_store, refToPtr,
            Ptr.loc]
          rfl
      | throw c' => rfl
      | verify => rfl
      | ub => rfl
  | map i k f =>
    simp only [run, spec, caughtAs_run, RefOpt.map, bind_run, hasValue_run, obind_ok, ite_run, get_run, RState.of_ref]
    cases h : p i with
    | null =>
      simp only [null_ne_null, Bool.false_eq_true, if_false, RefOpt.ctorDefault, store_run, Out.abs, Ptr.loc, RState.of_store]
    | elem a n =>
      simp only [elem_ne_null, if_true, obind_ok, RefOpt.ctorInvoke, bind_run, call_run, Ptr.loc, RState.after, RState.of_mem]
      cases f (a, n) c with
      | ok b c' =>
        simp only [obind_ok, store_run, Out.abs, RState.of_store, refToPtr, Ptr.loc]
        rfl
      | throw c' => rfl
      | verify => rfl
      | ub => rfl
  | andThen i k f =>
    simp only [run, spec, caughtAs_run, RefOpt.andThen, bind_run, hasValue_run, obind_ok, ite_run, get_run, RState.of_ref]
    cases h : p i with
    | null =>
      simp only [null_ne_null, Bool.false_eq_true, if_false, RefOpt.ctorDefault, store_run, Out.abs, Ptr.loc, RState.of_store]
    | elem a n =>
      simp only [elem_ne_null, if_true, obind_ok, bind_run, call_run, Ptr.loc, RState.after, RState.of_mem]
      cases f (a, n) c with
      | ok b c' =>
        cases b <;>
          simp only [obind_ok, RefOpt.ctorDefault, RefOpt.ctorRef, store_run, Out.abs, RState.of_store, refToPtr, Ptr.loc] <;>
          rfl
      | throw c' => rfl
      | verify => rfl
      | ub => rfl
  | orElse i k f =>
    simp only [run, spec, caughtAs_run, RefOpt.orElse, bind_run, hasValue_run, obind_ok, ite_run, RState.of_ref]
    cases h : p i with
    | elem a n =>
      simp only [elem_ne_null, if_true, RefOpt.ctorFrom, bind_run, load_run, obind_ok, store_run, Out.abs, Ptr.loc, RState.of_store,
        h]
    | null =>
      simp only [null_ne_null, Bool.false_eq_true, if_false, bind_run, call0_run, Ptr.loc, RState.after, RState.of_mem]
      cases f c with
      | ok b c' =>
        cases b <;>
          simp only [obind_ok, RefOpt.ctorDefault, RefOpt.ctorRef, store_run, Out.abs, RState.of_store, refToPtr, Ptr.loc] <;>
          rfl
      | throw c' => rfl
      | verify => rfl
      | ub => rfl
  | swap i j =>
    simp only [run, spec, caughtAs_run, RefOpt.swap, bind_run, hasValue_run, obind_ok, ite_run, RState.of_ref]
    cases hi : p i <;> cases hj : p j <;>
      simp only [elem_ne_null, null_ne_null, Bool.not_false, Bool.not_true, Bool.and_self, Bool.and_false, Bool.and_true,
        Bool.false_eq_true, if_true, if_false, pure_run, bind_run, load_run, obind_ok, get_run, hi, hj, RefOpt.construct,
        RefOpt.reset, store_run, Out.abs, RState.of_store, refToPtr, Ptr.loc]
    · refine congrArg _ ?_
      simp only [RState.of, RState.rebind, RState.mk.injEq, and_true]
      funext k
      split
      · subst_vars; rw [hj]; rfl
      · split
        · subst_vars; rw [hi]; rfl
        · rfl
    · have hne : i ≠ j := by rintro rfl; rw [hi] at hj; cases hj
      refine congrArg _ ?_
      simp only [RState.rebind, RState.mk.injEq, and_true]
      funext k
      by_cases h1 : k = i <;> by_cases h2 : k = j <;> simp_all
  | fromNullable i q =>
    cases q with
    | null => simp only [run, spec, caughtAs_run, RefOpt.fromNullable, if_true, RefOpt.ctorDefault, store_run, Out.abs,
        RState.of_store, Ptr.loc]
    | elem a n =>
      simp only [run, spec, caughtAs_run, RefOpt.fromNullable, reduceCtorEq, if_false, bind_run, star, pure_run, obind_ok,
        RefOpt.ctorRef, store_run, Out.abs, RState.of_store, refToPtr, Ptr.loc]
  | cmp op rel i j =>
    simp only [run, spec, caughtAs_run, RefOpt.cmp, bind_run, hasValue_run, obind_ok, ite_run, RState.of_ref, get_run]
    cases hi : p i <;> cases hj : p j <;>
      simp only [elem_ne_null, null_ne_null, Bool.and_self, Bool.and_false, Bool.and_true,
        Bool.false_eq_true, if_true, if_false, pure_run, obind_ok, Ptr.loc, Out.abs, bind_run, get_run, hj, value_run,
        RState.of_mem]
    · cases op <;> rfl
    · cases op <;> rfl
    · cases op <;> rfl
    · cases c _ with
      | none => rfl
      | some a =>
        simp only [obind_ok, bind_run, value_run]
        cases c _ <;> rfl
  | writeThrough i v =>
    simp only [run, spec, caughtAs_run, RefOpt.writeThrough, bind_run, get_run, RState.must, RState.of_ref]
    cases p i with
    | null => rfl
    | elem a n =>
      simp only [obind_ok, bind_run, value_run, Ptr.loc, RState.of_mem]
      rcases Option.eq_none_or_eq_some (c (a, n)) with h | ⟨b, h⟩ <;>
        simp only [h, Option.isSome, if_true, Bool.false_eq_true, if_false] <;> rfl
  | poke r v => rfl

/-- whole histories -/
theorem ROp.runAll_spec (os : List (ROp Val)) (w : RWorld Val) :
    (ROp.runAll os w).abs = ROp.specAll os (RState.of w) := by
  induction os generalizing w with
  | nil => rfl
  | cons o os ih =>
    simp only [runAll, specAll, bind_run]
    rw [← ROp.run_spec]
    cases o.run w with
    | ok r w' =>
      simp only [obind_ok, Out.abs, bind_run]
      rw [← ih]
      cases runAll os w' <;> rfl
    | throw w' => rfl
    | verify => rfl
    | ub => rfl

end Opt
