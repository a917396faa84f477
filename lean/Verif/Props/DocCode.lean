import Verif.Lemmas.DocCode
import Verif.Lemmas.DemoWorld

/-!
# C96: the operations do what the code of the manual says
-/

namespace Opt.Doc

variable {Val : Type} {P : Prog Val} {w : World} {i j : Nat} {mv : Bool} {src : Src Val}

/-- **C96**: for all worlds, `swap` is the code of the manual: the checks in `get()` never make a difference. -/
theorem C96_swap : P.swap i j w = Doc.swap P i j w := by
  simp only [Prog.swap, Doc.swap, bind_run]
  cases hi : P.hasValue i w with
  | ok b w' =>
    have := Stored.hasValue_same hi
    subst this
    simp only [obind_ok, bind_run]
    cases hj : P.hasValue j w' with
    | ok c w'' =>
      have := Stored.hasValue_same hj
      subst this
      cases b <;> cases c <;> simp [bind_run, Prog.getCheck, hi, hj, check_true, obind_ok]
    | throw _ => rfl
    | verify => rfl
    | ub => rfl
  | throw _ => rfl
  | verify => rfl
  | ub => rfl

/-- an engaged and an empty option of a class with non-trivial members -/
example : (Demo.prog true (fun _ => false) Demo.tidy).swap 1 5 Demo.world = Doc.swap (Demo.prog true (fun _ => false) Demo.tidy) 1 5 Demo.world ∧
    (match Doc.swap (Demo.prog true (fun _ => false) Demo.tidy) 1 5 Demo.world with
      | .ok _ w => w.env.log
      | _ => []) = [.ctor 5 .move, .dtor 1] :=
  ⟨C96_swap, by decide +kernel⟩

/-- **C96**: the copy, move and converting constructors, whether they copy bytes or run code, agree with the code of the
manual, whatever throws and whatever a failed constructor leaves behind. -/
theorem C96_ctor_from (hP : P.OK) (hw : P.Inv w) (hi : w.mem i = none) (hj : w.mem j ≠ none) :
    Agree P (P.ctorFrom i j mv w) (Doc.ctorFrom P i j mv w) := by
  by_cases hc : P.cls i = P.cls j
  rotate_left
  · simp only [Prog.ctorFrom, hc, if_false, ctorManual_eq]; exact .refl _
  by_cases hm : (if mv = true then (P.elem i).members.moveCtor else (P.elem i).members.copyCtor) = .default
  rotate_left
  · simp only [Prog.ctorFrom, hc, if_true, hm, if_false, ctorManual_eq]; exact .refl _
  have ht : (P.elem i).ctorTriv (P.kind i (.opt j mv)) = true := by
    cases mv
    · simp only [Prog.kind, hc, if_true, Bool.false_eq_true, if_false, Elem.ctorTriv] at hm ⊢
      exact Prog.members_copyCtor _ _ _ _ _ hm
    · simp only [Prog.kind, hc, if_true, Elem.ctorTriv] at hm ⊢
      exact Prog.members_moveCtor _ _ _ _ _ hm
  rw [← ctorManual_eq]
  obtain ⟨x, hx⟩ := mem_abs (P := P) hj
  refine agree_of (ctorFrom_ne hP (a := P.abs w) (mv := mv) ?_ (by rw [hx]; exact fun h => by cases h))
    (Prog.ctorFrom_sim hP (fun _ => .nothrow (.inl ht)) (Prog.abs_R hw))
    (Prog.ctorManual_sim hP (fun _ => .nothrow (.inl ht)) (Prog.abs_R hw))
  simp only [Prog.abs, Prog.view, hi, Option.map_none]

/-- option 2 is of a trivially copied type: the bytes are copied -/
example : Agree (Demo.prog true (fun _ => true) Demo.vptrFirst)
    ((Demo.prog true (fun _ => true) Demo.vptrFirst).ctorFrom 6 2 false Demo.world)
    (Doc.ctorFrom (Demo.prog true (fun _ => true) Demo.vptrFirst) 6 2 false Demo.world) :=
  C96_ctor_from Demo.ok_vptr Demo.inv rfl (fun h => by cases h)

/-- the copy of option 1 fails and leaves the storage looking engaged: still the same outcome -/
example : Agree (Demo.prog true (fun _ => true) Demo.vptrFirst)
    ((Demo.prog true (fun _ => true) Demo.vptrFirst).ctorFrom 13 1 false Demo.world)
    (Doc.ctorFrom (Demo.prog true (fun _ => true) Demo.vptrFirst) 13 1 false Demo.world) :=
  C96_ctor_from Demo.ok_vptr Demo.inv rfl (fun h => by cases h)

/-- **C96**: the copy, move and converting assignments agree with the code of the manual: the check after a converting
assignment never fails, and copying the bytes of an option is the same as assigning, constructing or resetting. -/
theorem C96_assign_from (hP : P.OK) (hw : P.Inv w) (hi : w.mem i ≠ none) (hj : w.mem j ≠ none) :
    Agree P (P.assignFrom i j mv w) (Doc.assignFrom P i j mv w) := by
  obtain ⟨x, hx⟩ := mem_abs (P := P) hi
  obtain ⟨y, hy⟩ := mem_abs (P := P) hj
  have hR := Prog.abs_R hw
  by_cases hc : P.cls i = P.cls j
  · by_cases hm : (if mv = true then (P.elem i).members.moveAssign else (P.elem i).members.copyAssign) = .default
    rotate_left
    · simp only [Prog.assignFrom, hc, if_true, hm, if_false, assignManual_eq hc]; exact .refl _
    have ht : (P.elem i).ctorTriv (P.kind i (.opt j mv)) = true := by
      cases mv
      · simp only [Prog.kind, hc, if_true, Bool.false_eq_true, if_false, Elem.ctorTriv] at hm ⊢
        exact (Prog.members_copyAssign _ _ _ _ _ hm).1
      · simp only [Prog.kind, hc, if_true, Elem.ctorTriv] at hm ⊢
        exact (Prog.members_moveAssign _ _ _ _ _ hm).1
    rw [← assignManual_eq hc]
    exact agree_of (assignFrom_ne hP (a := P.abs w) (mv := mv) (by rw [hx]; exact fun h => by cases h)
      (by rw [hy]; exact fun h => by cases h))
      (Prog.assignFrom_sim hP (fun _ _ => .nothrow (.inl ht)) hR)
      (Prog.assignManual_sim hP (fun _ _ => .nothrow (.inl ht)) hR)
  · have e : P.assignFrom i j mv w = Doc.assignFrom P i j mv w := by
      obtain ⟨oi, hoi, hri⟩ := hR.some' hx
      obtain ⟨oj, hoj, hrj⟩ := hR.some' hy
      simp only [Prog.assignFrom, hc, if_false, assignFrom_eq, Prog.assignManual, bind_run, Prog.hasValue_run hoj hrj, obind_ok]
      cases y with
      | none => rfl
      | some v =>
        simp only [Option.isSome_some, if_true, bind_run, Prog.hasValue_run hoi hri, obind_ok]
        cases x with
        | none => simp only [Option.isSome_none, Bool.false_eq_true, if_false, bind_run, Prog.getCheck_run hoj hrj, Option.isSome_some, check_true, obind_ok]
        | some u =>
          have := assignT_check hP (src := .opt j mv) hw trivial (assign_ne (P := P) hx (Spec.gives_opt hy))
          simp only [bind_run] at this
          simp only [Option.isSome_some, if_true, bind_run, Prog.getCheck_run hoj hrj, check_true, obind_ok, this]
    rw [e]
    exact .refl _

/-- option 9 into option 1, by a move assignment that throws; option 1 into option 0, which is a conversion -/
example : Agree (Demo.prog true (fun _ => true) Demo.vptrFirst)
      ((Demo.prog true (fun _ => true) Demo.vptrFirst).assignFrom 1 9 true Demo.world)
      (Doc.assignFrom (Demo.prog true (fun _ => true) Demo.vptrFirst) 1 9 true Demo.world) ∧
    Agree (Demo.prog true (fun _ => false) Demo.vptrFirst)
      ((Demo.prog true (fun _ => false) Demo.vptrFirst).assignFrom 0 1 false Demo.world)
      (Doc.assignFrom (Demo.prog true (fun _ => false) Demo.vptrFirst) 0 1 false Demo.world) :=
  ⟨C96_assign_from Demo.ok_vptr Demo.inv (fun h => by cases h) (fun h => by cases h),
    C96_assign_from Demo.ok_vptr Demo.inv (fun h => by cases h) (fun h => by cases h)⟩

/-- **C96**: assigning a value agrees with the code of the manual, which assigns where the library constructs when `T` is
a scalar.  Missing: a scalar that gets its value by a conversion that runs user code; there the model names the call
differently. -/
theorem C96_assign_value_partial (hP : P.OK) (hw : P.Inv w) (hl : src.Legal P i) (hi : w.mem i ≠ none)
    (hs : (P.elem i).scalar = true → P.kind i src = .copy ∨ P.kind i src = .move) :
    Agree P (P.assignValue i src w) (Doc.assignValue P i src w) := by
  obtain ⟨x, hx⟩ := mem_abs (P := P) hi
  have hR := Prog.abs_R hw
  obtain ⟨oi, hoi, hri⟩ := hR.some' hx
  simp only [Prog.assignValue, Doc.assignValue, bind_run]
  have key : ∀ v, src.gives P (P.abs w).mem i = some v →
      Agree P ((if (P.elem i).scalar = true then P.construct i src
        else do
          let h ← P.hasValue i
          if h = true then do
            P.assignT i src
            P.getCheck i
          else P.construct i src) w)
        ((P.hasValue i w).bind fun h => if h = true then do
            P.getCheck i
            P.assignT i src
          else P.construct i src) := by
    intro v hv
    simp only [Prog.hasValue_run hoi hri, obind_ok]
    cases x with
    | none => 
      simp only [Option.isSome_none, Bool.false_eq_true, if_false, bind_run, Prog.hasValue_run hoi hri, obind_ok, ite_run, ite_self]
      exact .refl _
    | some u =>
      simp only [Option.isSome_some, if_true, bind_run, Prog.getCheck_run hoi hri, check_true, obind_ok, ite_run, Prog.hasValue_run hoi hri]
      cases hsc : (P.elem i).scalar
      · have := assignT_check hP (src := src) hw hl (assign_ne (P := P) hx hv)
        simp only [bind_run] at this
        simp only [Bool.false_eq_true, if_false, this]
        exact .refl _
      · simp only [if_true]
        have hk := hP.scalar (P.cls i) hsc
        have h1 : (P.elem i).ctorTriv (P.kind i src) = true := by
          rcases hs hsc with h | h <;> rw [h]
          · exact hk.2.1
          · exact hk.2.2.2.1
        have h2 : (P.elem i).assignTriv (P.kind i src) = true := by
          rcases hs hsc with h | h <;> rw [h]
          · exact hk.2.2.1
          · exact hk.2.2.2.2
        have c := Prog.construct_sim hP (.nothrow (.inl h1)) hR hl (i := i)
        rw [init_assign (P := P) hx hv hsc h1 h2] at c
        exact agree_of (assign_ne (P := P) hx hv)
          (rel_mono c (fun _ _ _ _ h => h.1) (fun _ _ h => h.1))
          (rel_mono (Prog.assignT_sim hP hR hl) (fun _ _ _ _ h => h.1) (fun _ _ h => h))
  cases src with
  | opt k mv =>
    simp only [Prog.evalArg]
    cases hk : P.getCheck k w with
    | ok r w' =>
      obtain ⟨rfl, hsh⟩ := Stored.getCheck_ok hk
      obtain ⟨o, ho⟩ := Stored.shows_alloc hsh
      obtain ⟨y, hy⟩ := mem_abs (P := P) (w := w') (i := k) (by rw [ho]; exact fun h => by cases h)
      cases y with
      | none =>
        obtain ⟨o', ho', hr'⟩ := hR.some' hy
        rw [Prog.getCheck_run ho' hr'] at hk
        cases hk
      | some v => exact key _ (Spec.gives_opt hy)
    | throw _ => exact .refl _
    | verify => exact .refl _
    | ub => exact .refl _
  | args v => exact key v rfl
  | copy v => exact key v rfl
  | move v => exact key v rfl

/-- a copy into an engaged `unsigned char`, which is constructed where the manual assigns -/
example : Agree (Demo.prog true (fun _ => true) Demo.vptrFirst)
    ((Demo.prog true (fun _ => true) Demo.vptrFirst).assignValue 2 (.copy 4) Demo.world)
    (Doc.assignValue (Demo.prog true (fun _ => true) Demo.vptrFirst) 2 (.copy 4) Demo.world) :=
  C96_assign_value_partial Demo.ok_vptr Demo.inv (Demo.dom_mk 2 (.inr (.inr (.inl rfl)))) (fun h => by cases h) fun _ => .inl rfl

/-- the third numbered call throws -/
def third : Prog Byte := Demo.prog true (fun n => n == 2) Demo.tidy

def double : Prog.Fn Byte Byte := ⟨fun v => v + v, id, id⟩

/-- **C96**: `map` is not the code of the manual: that moves the result of the function, and here the move throws, while
`map` builds the result in place and completes. -/
theorem C96_map_violated : ∃ (P : Prog Byte) (w : World) (i r : Nat) (f : Prog.Fn Byte Byte), P.OK ∧ P.Inv w ∧
    ¬ Agree P (P.map i r f w) (Doc.map P i r f w) ∧
    (∃ w', P.map i r f w = .ok () w' ∧ P.view w' r = some (some 14)) ∧ ∃ w', Doc.map P i r f w = .throw w' := by
  have h1 : (match third.map 0 8 double Demo.world with
      | .ok _ w => third.view w 8 == some (some 14)
      | _ => false) = true := by decide +kernel
  have h2 : (match Doc.map third 0 8 double Demo.world with
      | .throw _ => true
      | _ => false) = true := by decide +kernel
  refine ⟨third, Demo.world, 0, 8, double, Demo.ok_tidy, Demo.inv, ?_⟩
  cases hm : third.map 0 8 double Demo.world with
  | ok r w =>
    rw [hm] at h1
    cases hd : Doc.map third 0 8 double Demo.world with
    | throw v => exact ⟨fun h => h, ⟨w, rfl, by simpa using h1⟩, v, rfl⟩
    | ok _ _ => rw [hd] at h2; cases h2
    | verify => rw [hd] at h2; cases h2
    | ub => rw [hd] at h2; cases h2
  | throw _ => rw [hm] at h1; cases h1
  | verify => rw [hm] at h1; cases h1
  | ub => rw [hm] at h1; cases h1

end Opt.Doc

#print axioms Opt.Doc.C96_swap
#print axioms Opt.Doc.C96_ctor_from
#print axioms Opt.Doc.C96_assign_from
#print axioms Opt.Doc.C96_assign_value_partial
#print axioms Opt.Doc.C96_map_violated
