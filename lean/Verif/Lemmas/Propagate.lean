import Verif.Spec.Propagate
import Verif.Lemmas.MachineRun
import Verif.Lemmas.Noexcept

/-!
# Exceptions pass through every operation
-/

namespace Opt

variable {α β Val : Type}

/-- see `Propagates` -/
def Clean (x : M World α) : Prop := ∀ w, Propagates w (x w)

/-- ends with an exception and without a (further) failing call -/
def Fails (x : M World α) : Prop :=
  ∀ w, match x w with
    | .ok _ _ => False
    | .throw w' => ∃ evs, w'.env.log = w.env.log ++ evs ∧ evs.countP Event.failed = 0
    | _ => True

/-- never throws, no failing call -/
def Silent (x : M World α) : Prop :=
  ∀ w, match x w with
    | .ok _ w' => ∃ evs, w'.env.log = w.env.log ++ evs ∧ evs.countP Event.failed = 0
    | .throw _ => False
    | _ => True

theorem Silent.clean {x : M World α} (h : Silent x) : Clean x := by
  intro w
  have := h w
  cases hx : x w with
  | ok a w' => rw [hx] at this; exact this
  | throw w' => rw [hx] at this; exact this.elim
  | verify => trivial
  | ub => trivial

theorem Silent.pure (a : α) : Silent (pure a : M World α) := fun _ => ⟨[], (List.append_nil _).symm, rfl⟩
theorem Silent.bad : Silent (M.bad : M World α) := fun _ => trivial
theorem Silent.check (b : Bool) : Silent (M.check b) := by
  intro w
  cases b
  · trivial
  · exact ⟨[], (List.append_nil _).symm, rfl⟩
theorem Fails.raise : Fails (M.raise : M World α) := fun _ => ⟨[], (List.append_nil _).symm, rfl⟩

theorem Silent.bind {x : M World α} {f : α → M World β} (h : Silent x) (hf : ∀ a, Silent (f a)) : Silent (x >>= f) := by
  intro w
  have h1 := h w
  rw [bind_run]
  cases hw : x w with
  | ok a w' =>
    rw [hw] at h1
    obtain ⟨e1, h1, c1⟩ := h1
    have h2 := hf a w'
    rw [obind_ok]
    cases hfw : f a w' with
    | ok b w'' =>
      rw [hfw] at h2
      obtain ⟨e2, h2, c2⟩ := h2
      exact ⟨e1 ++ e2, by rw [h2, h1, List.append_assoc], by rw [List.countP_append, c1, c2]⟩
    | throw w'' => rw [hfw] at h2; exact h2.elim
    | verify => trivial
    | ub => trivial
  | throw w' => rw [hw] at h1; exact h1.elim
  | verify => trivial
  | ub => trivial

theorem Silent.fails {x : M World α} {f : α → M World β} (h : Silent x) (hf : ∀ a, Fails (f a)) : Fails (x >>= f) := by
  intro w
  have h1 := h w
  rw [bind_run]
  cases hw : x w with
  | ok a w' =>
    rw [hw] at h1
    obtain ⟨e1, h1, c1⟩ := h1
    have h2 := hf a w'
    rw [obind_ok]
    cases hfw : f a w' with
    | ok b w'' => rw [hfw] at h2; exact h2.elim
    | throw w'' =>
      rw [hfw] at h2
      obtain ⟨e2, h2, c2⟩ := h2
      exact ⟨e1 ++ e2, by rw [h2, h1, List.append_assoc], by rw [List.countP_append, c1, c2]⟩
    | verify => trivial
    | ub => trivial
  | throw w' => rw [hw] at h1; exact h1.elim
  | verify => trivial
  | ub => trivial

theorem Clean.bind {x : M World α} {f : α → M World β} (h : Clean x) (hf : ∀ a, Clean (f a)) : Clean (x >>= f) := by
  intro w
  have h1 := h w
  rw [bind_run]
  cases hw : x w with
  | ok a w' =>
    rw [hw] at h1
    obtain ⟨e1, h1, c1⟩ := h1
    have h2 := hf a w'
    rw [obind_ok]
    cases hfw : f a w' with
    | ok b w'' =>
      rw [hfw] at h2
      obtain ⟨e2, h2, c2⟩ := h2
      exact ⟨e1 ++ e2, by rw [h2, h1, List.append_assoc], by rw [List.countP_append, c1, c2]⟩
    | throw w'' =>
      rw [hfw] at h2
      obtain ⟨e2, h2, c2⟩ := h2
      exact ⟨e1 ++ e2, by rw [h2, h1, List.append_assoc], by rw [List.countP_append, c1, c2]⟩
    | verify => trivial
    | ub => trivial
  | throw w' => rw [hw] at h1; exact h1
  | verify => trivial
  | ub => trivial

theorem Silent.ite {c : Prop} [Decidable c] {x y : M World α} (hx : Silent x) (hy : Silent y) :
    Silent (if c then x else y) := by
  split
  · exact hx
  · exact hy

theorem Clean.ite {c : Prop} [Decidable c] {x y : M World α} (hx : Clean x) (hy : Clean y) :
    Clean (if c then x else y) := by
  split
  · exact hx
  · exact hy

theorem Fails.ite {c : Prop} [Decidable c] {x y : M World α} (hx : Fails x) (hy : Fails y) :
    Fails (if c then x else y) := by
  split
  · exact hx
  · exact hy

theorem Clean.onThrow {x : M World α} {h : M World Unit} (hx : Clean x) (hh : Silent h) : Clean (M.onThrow x h) := by
  intro w
  have h1 := hx w
  unfold M.onThrow
  cases hw : x w with
  | ok a w' => rw [hw] at h1; exact h1
  | throw w' =>
    rw [hw] at h1
    obtain ⟨e1, h1, c1⟩ := h1
    have h2 := hh w'
    dsimp only
    cases hc : h w' with
    | ok a w'' =>
      rw [hc] at h2
      obtain ⟨e2, h2, c2⟩ := h2
      exact ⟨e1 ++ e2, by rw [h2, h1, List.append_assoc], by rw [List.countP_append, c1, c2]⟩
    | throw w'' => trivial
    | verify => trivial
    | ub => trivial
  | verify => trivial
  | ub => trivial

namespace Prog

variable (P : Prog Val)

theorem clean_userOp {okE failE : Event} {f : Nat × Bool → M World α} (ho : okE.failed = false)
    (hk : failE.failed = true) (h1 : ∀ n, Fails (f (n, true))) (h2 : ∀ n, Clean (f (n, false))) :
    Clean (P.userOp okE failE >>= f) := by
  intro w
  show Propagates w (f (w.env.tick, P.throwsAt w.env.tick) _)
  cases ht : P.throwsAt w.env.tick with
  | true =>
    have := h1 w.env.tick ⟨w.mem, ⟨w.env.tick + 1, w.env.log ++ [failE]⟩⟩
    simp only [if_true]
    cases hf : f (w.env.tick, true) ⟨w.mem, ⟨w.env.tick + 1, w.env.log ++ [failE]⟩⟩ with
    | ok a w' => rw [hf] at this; exact this.elim
    | throw w' =>
      rw [hf] at this
      obtain ⟨e2, h2, c2⟩ := this
      exact ⟨failE :: e2, by rw [h2]; simp, by rw [List.countP_cons, c2, hk]; rfl⟩
    | verify => trivial
    | ub => trivial
  | false =>
    have := h2 w.env.tick ⟨w.mem, ⟨w.env.tick + 1, w.env.log ++ [okE]⟩⟩
    simp only [Bool.false_eq_true, if_false]
    cases hf : f (w.env.tick, false) ⟨w.mem, ⟨w.env.tick + 1, w.env.log ++ [okE]⟩⟩ with
    | ok a w' =>
      rw [hf] at this
      obtain ⟨e2, h2, c2⟩ := this
      exact ⟨okE :: e2, by rw [h2]; simp, by rw [List.countP_cons, c2, ho]; rfl⟩
    | throw w' =>
      rw [hf] at this
      obtain ⟨e2, h2, c2⟩ := this
      exact ⟨okE :: e2, by rw [h2]; simp, by rw [List.countP_cons, c2, ho]; rfl⟩
    | verify => trivial
    | ub => trivial

theorem quiet_obj (i : Nat) : Silent (obj i) := by
  intro w
  unfold obj
  cases w.mem i with
  | none => trivial
  | some o => exact ⟨[], (List.append_nil _).symm, rfl⟩

theorem quiet_setObj (i : Nat) (o : Obj) : Silent (setObj i o) := fun _ => ⟨[], (List.append_nil _).symm, rfl⟩
theorem quiet_delObj (i : Nat) : Silent (delObj i) := fun _ => ⟨[], (List.append_nil _).symm, rfl⟩
theorem quiet_now : Silent now := fun _ => ⟨[], (List.append_nil _).symm, rfl⟩
theorem quiet_note {e : Event} (h : e.failed = false) : Silent (note e) := fun _ =>
  ⟨[e], rfl, by rw [List.countP_cons, h]; rfl⟩

theorem quiet_newObj (i : Nat) : Silent (P.newObj i) := by
  intro w
  unfold newObj
  cases w.mem i with
  | some o => trivial
  | none => exact ⟨[], (List.append_nil _).symm, rfl⟩

theorem quiet_setPayload (i : Nat) (b : Bytes) (a : Bool) : Silent (setPayload i b a) :=
  (quiet_obj i).bind fun _ => quiet_setObj _ _

theorem quiet_setFlag (i : Nat) (b : Bool) : Silent (P.setFlag i b) := (quiet_obj i).bind fun _ => quiet_setObj _ _

theorem quiet_setLevel0 {i : Nat} (hs : (P.elem i).T.SetNoexcept) : Silent (P.setLevel0 i) := by
  refine (quiet_obj i).bind fun o => ?_
  have := Ty.set_ne_throw P.pw (P.elem i).T hs o.bytes 0
  show Silent (match ((P.elem i).T.sizeTraits P.pw).2.setLevel o.bytes 0 with
    | .ok b => setObj i ⟨b, false⟩
    | .throw => M.raise
    | .verify => M.check false
    | .ub => M.bad)
  cases hr : ((P.elem i).T.sizeTraits P.pw).2.setLevel o.bytes 0 with
  | ok b => exact quiet_setObj _ _
  | throw => exact absurd hr this
  | verify => exact Silent.check _
  | ub => exact Silent.bad

theorem quiet_readT (j : Nat) : Silent (P.readT j) := (quiet_obj j).bind fun _ => Silent.ite (Silent.pure _) Silent.bad

theorem quiet_writeT (j n : Nat) (v : Val) : Silent (P.writeT j n v) :=
  (quiet_obj j).bind fun _ => Silent.ite (quiet_setPayload _ _ _) Silent.bad

theorem quiet_srcVal (i : Nat) (src : Src Val) : Silent (P.srcVal i src) := by
  cases src
  case opt j mv => exact (P.quiet_readT j).bind fun _ => Silent.pure _
  all_goals exact Silent.pure _

theorem quiet_srcAfter (b : Bool) (n : Nat) (src : Src Val) : Silent (P.srcAfter b n src) := by
  cases src
  case opt j mv =>
    cases mv
    · exact Silent.pure _
    · exact (P.quiet_readT j).bind fun _ => P.quiet_writeT _ _ _
  all_goals exact Silent.pure _

theorem quiet_srcBytes (i : Nat) (v : Val) (old : Bytes) (src : Src Val) : Silent (P.srcBytes i v old src) := by
  cases src
  case opt j mv => exact (quiet_obj j).bind fun _ => Silent.pure _
  all_goals exact quiet_now.bind fun _ => Silent.pure _

theorem clean_constructInPlace (i : Nat) (src : Src Val) : Clean (P.constructInPlace i src) := by
  refine (quiet_obj i).clean.bind fun o => Clean.ite Silent.bad.clean (Clean.ite Silent.bad.clean ?_)
  refine (P.quiet_srcVal i src).clean.bind fun v => Clean.ite ?_ ?_
  · exact ((P.quiet_srcBytes _ _ _ _).bind fun _ => quiet_setPayload _ _ _).clean
  · refine P.clean_userOp rfl rfl (fun n => ?_) (fun n => ?_)
    · show Fails (P.srcAfter true n src >>= fun _ =>
        if (P.elem i).scalar = true then M.raise
        else setPayload i (P.partial_ i (P.kind i src) n (P.payload i o)) false >>= fun _ => M.raise)
      exact (P.quiet_srcAfter _ _ _).fails fun _ =>
        Fails.ite Fails.raise ((quiet_setPayload _ _ _).fails fun _ => Fails.raise)
    · exact ((P.quiet_srcAfter _ _ _).bind fun _ => quiet_setPayload _ _ _).clean

theorem clean_constructByAssign (i : Nat) (src : Src Val) : Clean (P.constructByAssign i src) := by
  refine (quiet_obj i).clean.bind fun o => (P.quiet_srcVal i src).clean.bind fun v => Clean.ite ?_ (Clean.ite ?_ ?_)
  · exact ((P.quiet_srcBytes _ _ _ _).bind fun _ => quiet_setPayload _ _ _).clean
  · refine P.clean_userOp rfl rfl (fun n => ?_) (fun n => ?_)
    · exact (P.quiet_srcAfter _ _ _).fails fun _ => Fails.raise
    · exact ((P.quiet_srcAfter _ _ _).bind fun _ => quiet_setPayload _ _ _).clean
  · refine P.clean_userOp rfl rfl (fun n => ?_) (fun n => ?_)
    · exact (P.quiet_srcAfter _ _ _).fails fun _ => Fails.raise
    · exact ((P.quiet_srcAfter _ _ _).bind fun _ => (quiet_setPayload _ _ _).bind fun _ => quiet_note rfl).clean

theorem quiet_destroyT (i : Nat) : Silent (P.destroyT i) :=
  (quiet_obj i).bind fun _ => Silent.ite
    ((quiet_note rfl).bind fun _ => quiet_now.bind fun _ => quiet_setPayload _ _ _) Silent.bad

theorem clean_assignT (i : Nat) (src : Src Val) : Clean (P.assignT i src) := by
  refine (quiet_obj i).clean.bind fun o => Clean.ite Silent.bad.clean (Clean.ite ?_ ?_)
  · exact ((P.quiet_srcVal i src).bind fun v => (P.quiet_srcBytes _ _ _ _).bind fun _ => quiet_setPayload _ _ _).clean
  · refine (P.quiet_readT i).clean.bind fun old => (P.quiet_srcVal i src).clean.bind fun v =>
      P.clean_userOp rfl rfl (fun n => ?_) (fun n => ?_)
    · exact (P.quiet_srcAfter true n src).fails fun _ => (P.quiet_writeT _ _ _).fails fun _ => Fails.raise
    · show Clean (if (false = true) then _ else _)
      rw [if_neg (by decide)]
      refine Clean.ite ?_ ?_
      · cases src
        case opt j mv => cases mv <;> exact (P.quiet_writeT _ _ _).clean
        all_goals exact (P.quiet_writeT _ _ _).clean
      · exact ((P.quiet_srcAfter _ _ _).bind fun _ => P.quiet_writeT _ _ _).clean

theorem clean_swapT (i j : Nat) : Clean (P.swapT i j) := by
  refine (P.quiet_readT i).clean.bind fun vi => (P.quiet_readT j).clean.bind fun vj =>
    P.clean_userOp rfl rfl (fun n => ?_) (fun n => ?_)
  · exact (P.quiet_writeT _ _ _).fails fun _ => (P.quiet_writeT _ _ _).fails fun _ => Fails.raise
  · exact ((P.quiet_writeT _ _ _).bind fun _ => P.quiet_writeT _ _ _).clean

theorem quiet_hasValue (i : Nat) : Silent (P.hasValue i) :=
  (quiet_obj i).bind fun _ => Silent.ite Silent.bad (Silent.pure _)

theorem quiet_getCheck (i : Nat) : Silent (P.getCheck i) := (P.quiet_hasValue i).bind fun _ => Silent.check _

theorem quiet_evalArg (src : Src Val) : Silent (P.evalArg src) := by
  cases src
  case opt j mv => exact P.quiet_getCheck j
  all_goals exact Silent.pure _

theorem quiet_ctorDefault {i : Nat} (hs : (P.elem i).T.SetNoexcept) : Silent (P.ctorDefault i) :=
  (P.quiet_newObj i).bind fun _ => Silent.ite
    ((quiet_setPayload _ _ _).bind fun _ => (P.quiet_setLevel0 hs).bind fun _ => (P.quiet_hasValue i).bind fun _ =>
      Silent.check _)
    (P.quiet_setFlag _ _)

/-- the check or flag after a construction -/
theorem quiet_seal (i : Nat) : Silent (if (P.elem i).sent P.pw = true then P.hasValue i >>= fun h => M.check h
    else P.setFlag i true) :=
  Silent.ite ((P.quiet_hasValue i).bind fun _ => Silent.check _) (P.quiet_setFlag _ _)

theorem clean_construct (i : Nat) (src : Src Val) : Clean (P.construct i src) :=
  Clean.bind (Clean.ite (P.clean_constructInPlace i src) (P.clean_constructByAssign i src)) fun _ =>
    (P.quiet_seal i).clean

theorem clean_ctorArg (i : Nat) (src : Src Val) : Clean (P.ctorArg i src) :=
  (P.quiet_newObj i).clean.bind fun _ =>
    Clean.bind ((P.clean_constructInPlace i src).onThrow (quiet_delObj i)) fun _ => (P.quiet_seal i).clean

theorem quiet_reset {i : Nat} (hs : (P.elem i).T.SetNoexcept) : Silent (P.reset i) := by
  have h0 : Silent (P.setLevel0 i >>= fun _ => P.hasValue i >>= fun h => M.check (!h)) :=
    (P.quiet_setLevel0 hs).bind fun _ => (P.quiet_hasValue i).bind fun _ => Silent.check _
  refine Silent.ite (Silent.ite h0 (P.quiet_setFlag _ _)) ?_
  refine (P.quiet_hasValue i).bind fun h => Silent.ite ((P.quiet_destroyT i).bind fun _ => ?_) (Silent.pure _)
  exact Silent.ite h0 (P.quiet_setFlag _ _)

theorem quiet_dtor (i : Nat) : Silent (P.dtor i) :=
  Silent.ite ((quiet_obj i).bind fun _ => quiet_delObj _)
    ((P.quiet_hasValue i).bind fun _ => Silent.ite ((P.quiet_destroyT i).bind fun _ => quiet_delObj _) (quiet_delObj _))

theorem clean_ctorManual {i j : Nat} {mv : Bool} (hs : (P.elem i).T.SetNoexcept) : Clean (P.ctorManual i j mv) := by
  refine (P.quiet_ctorDefault hs).clean.bind fun _ => Clean.onThrow ?_ (P.quiet_dtor i)
  refine (P.quiet_hasValue j).clean.bind fun h => Clean.ite ?_ (Silent.pure _).clean
  split
  · exact (Silent.pure ()).clean.bind fun _ => P.clean_construct i _
  · exact (P.quiet_getCheck j).clean.bind fun _ => P.clean_construct i _

theorem clean_ctorFrom {i j : Nat} {mv : Bool} (hs : (P.elem i).T.SetNoexcept) : Clean (P.ctorFrom i j mv) := by
  have hb : Clean (P.copyBytesNew i j) :=
    ((quiet_obj j).bind fun _ => (P.quiet_newObj i).bind fun _ => quiet_setObj _ _).clean
  unfold ctorFrom
  exact Clean.ite (Clean.ite hb (P.clean_ctorManual hs)) (P.clean_ctorManual hs)

theorem clean_assignManual {i j : Nat} {mv : Bool} (hs : (P.elem i).T.SetNoexcept) : Clean (P.assignManual i j mv) := by
  refine (P.quiet_hasValue j).clean.bind fun hj => Clean.ite ?_ (P.quiet_reset hs).clean
  refine (P.quiet_hasValue i).clean.bind fun hi => Clean.ite (Clean.ite (P.clean_assignT _ _) ?_) ?_
  · exact (P.quiet_getCheck j).clean.bind fun _ => (P.clean_assignT _ _).bind fun _ => (P.quiet_getCheck i).clean
  · split
    · exact (Silent.pure ()).clean.bind fun _ => P.clean_construct i _
    · exact (P.quiet_getCheck j).clean.bind fun _ => P.clean_construct i _

theorem clean_assignFrom {i j : Nat} {mv : Bool} (hs : (P.elem i).T.SetNoexcept) : Clean (P.assignFrom i j mv) := by
  have hb : Clean (copyBytes i j) :=
    ((quiet_obj j).bind fun _ => (quiet_obj i).bind fun _ => quiet_setObj _ _).clean
  unfold assignFrom
  exact Clean.ite (Clean.ite hb (P.clean_assignManual hs)) (P.clean_assignManual hs)

theorem clean_assignValue (i : Nat) (src : Src Val) : Clean (P.assignValue i src) := by
  refine (P.quiet_evalArg src).clean.bind fun _ => Clean.ite (P.clean_construct i src) ?_
  exact (P.quiet_hasValue i).clean.bind fun _ => Clean.ite
    ((P.clean_assignT i src).bind fun _ => (P.quiet_getCheck i).clean) (P.clean_construct i src)

theorem clean_emplace {i : Nat} (src : Src Val) (hs : (P.elem i).T.SetNoexcept) : Clean (P.emplace i src) :=
  (P.quiet_evalArg src).clean.bind fun _ => (P.quiet_reset hs).clean.bind fun _ => (P.clean_construct i src).bind fun _ =>
    (P.quiet_getCheck i).clean

theorem clean_tryEmplace (i : Nat) (src : Src Val) : Clean (P.tryEmplace i src) :=
  (P.quiet_evalArg src).clean.bind fun _ => (P.quiet_hasValue i).clean.bind fun _ => Clean.ite (P.quiet_getCheck i).clean
    ((P.clean_construct i src).bind fun _ => (P.quiet_getCheck i).clean)

theorem clean_swap {i j : Nat} (hsi : (P.elem i).T.SetNoexcept) (hsj : (P.elem j).T.SetNoexcept) :
    Clean (P.swap i j) := by
  refine (P.quiet_hasValue i).clean.bind fun a => (P.quiet_hasValue j).clean.bind fun b =>
    Clean.ite (Silent.pure _).clean (Clean.ite (P.clean_swapT i j) (Clean.ite ?_ ?_))
  · exact (P.quiet_getCheck i).clean.bind fun _ => (P.clean_construct j _).bind fun _ => (P.quiet_reset hsi).clean
  · exact (P.quiet_getCheck j).clean.bind fun _ => (P.clean_construct i _).bind fun _ => (P.quiet_reset hsj).clean

theorem clean_take {i r : Nat} (hsi : (P.elem i).T.SetNoexcept) (hsr : (P.elem r).T.SetNoexcept) : Clean (P.take i r) :=
  (P.clean_ctorFrom hsr).bind fun _ => (P.quiet_reset hsi).clean

theorem clean_callT {i : Nat} (f : Fn Val β) : Clean (P.callT i f) := by
  refine (P.quiet_getCheck i).clean.bind fun _ => (P.quiet_readT i).clean.bind fun v =>
    P.clean_userOp rfl rfl (fun n => ?_) (fun n => ?_)
  · exact (P.quiet_writeT _ _ _).fails fun _ => Fails.raise
  · exact ((P.quiet_writeT _ _ _).bind fun _ => Silent.pure _).clean

theorem clean_call0 (b : β) : Clean (P.call0 b) :=
  P.clean_userOp rfl rfl (fun _ => Fails.raise) fun _ => (Silent.pure _).clean

theorem clean_returnT (i : Nat) (src : Src Val) : Clean (P.returnT i src) := by
  refine (P.quiet_srcVal i src).clean.bind fun v => Clean.ite (Silent.pure _).clean ?_
  refine P.clean_userOp rfl rfl (fun n => ?_) (fun n => ?_)
  · exact (P.quiet_srcAfter _ _ _).fails fun _ => Fails.raise
  · exact ((P.quiet_srcAfter _ _ _).bind fun _ => Silent.pure _).clean

theorem clean_makeOption {r : Nat} (x : Option Val) (hs : (P.elem r).T.SetNoexcept) : Clean (P.makeOption r x) := by
  cases x
  · exact (P.quiet_ctorDefault hs).clean
  · exact P.clean_ctorArg r _

theorem quiet_allHave (is : List (Nat × Bool)) : Silent (P.allHave is) := by
  induction is with
  | nil => exact Silent.pure _
  | cons p is ih => exact (P.quiet_hasValue p.1).bind fun _ => Silent.ite ih (Silent.pure _)

theorem quiet_dropTmp (i : Nat) : Silent (P.dropTmp i) := Silent.ite (Silent.pure _) (quiet_note rfl)

theorem quiet_dropTmps (is : List Nat) : Silent (P.dropTmps is) := by
  induction is with
  | nil => exact Silent.pure _
  | cons i is ih => exact (P.quiet_dropTmp i).bind fun _ => ih

theorem clean_zipElems (is : List (Nat × Bool)) : Clean (P.zipElems is) := by
  induction is with
  | nil => exact (Silent.pure _).clean
  | cons p is ih =>
    exact (P.quiet_getCheck p.1).clean.bind fun _ => (P.clean_returnT _ _).bind fun _ =>
      (ih.onThrow (P.quiet_dropTmp _)).bind fun _ => (Silent.pure _).clean

theorem quiet_zipArgs (is : List Nat) : Silent (P.zipArgs is) := by
  induction is with
  | nil => exact Silent.pure _
  | cons i is ih =>
    exact (P.quiet_getCheck i).bind fun _ => (P.quiet_readT i).bind fun _ => ih.bind fun _ => Silent.pure _

theorem clean_liftRes {x : Res α} (hx : x ≠ .throw) : Clean (liftRes x : M World α) := by
  cases x with
  | ok a => exact (Silent.pure a).clean
  | throw => exact absurd rfl hx
  | verify => exact (Silent.check false).clean.bind fun _ => Silent.bad.clean
  | ub => exact Silent.bad.clean

theorem ptrAdd_throw (len : Nat → Nat) (a i : Nat) (n : Int) : Iter.ptrAdd len a i n ≠ .throw := by
  unfold Iter.ptrAdd; split <;> nofun

theorem clean_applyRef (i : Nat) (f : Fn Val Unit) : Clean (P.applyRef i f) := by
  refine (P.quiet_readT i).clean.bind fun v => P.clean_userOp rfl rfl (fun n => ?_) (fun n => ?_)
  · exact (P.quiet_writeT _ _ _).fails fun _ => Fails.raise
  · exact (P.quiet_writeT _ _ _).clean

theorem clean_forLoop (f : Fn Val Unit) : ∀ (fuel : Nat) (it e : Ptr), Clean (P.forLoop f fuel it e)
  | 0, _, _ => Silent.bad.clean
  | fuel + 1, it, e => by
    refine Clean.ite ((clean_liftRes ?_).bind fun p => (P.clean_applyRef _ f).bind fun _ => (clean_liftRes ?_).bind fun it' =>
      clean_forLoop f fuel it' e) (Silent.pure _).clean
    · cases it
      · nofun
      · simp only [Iter.deref, Iter.ptrDeref]; split <;> nofun
    · cases it
      · nofun
      · exact ptrAdd_throw _ _ _ _

theorem clean_forEach (fuel i : Nat) (f : Fn Val Unit) : Clean (P.forEach fuel i f) := by
  have hp : ∀ {α : Type} (a : α), Clean (pure a : M World α) := fun a => (Silent.pure a).clean
  refine Clean.bind ?_ fun b => Clean.bind ?_ fun e => P.clean_forLoop f fuel b e
  · exact (P.quiet_hasValue i).clean.bind fun _ => Clean.ite ((P.quiet_getCheck i).clean.bind fun _ => hp _) (hp _)
  · exact (P.quiet_hasValue i).clean.bind fun _ => Clean.ite ((P.quiet_getCheck i).clean.bind fun _ =>
      clean_liftRes (ptrAdd_throw _ _ _ _)) (hp _)

theorem clean_unzipElems (q : Parts Val) (i : Nat) (mv : Bool) : ∀ ps : List (Nat × Nat), Clean (P.unzipElems q i mv ps)
  | [] => (Silent.pure _).clean
  | (k, r) :: ps => by
    refine Clean.bind ?_ fun _ => (clean_unzipElems q i mv ps).onThrow (P.quiet_dtor r)
    refine (P.quiet_getCheck i).clean.bind fun _ => (P.quiet_readT i).clean.bind fun v => quiet_now.clean.bind fun n =>
      Clean.ite ?_ (P.clean_ctorArg r _)
    exact ((P.clean_ctorArg r _).onThrow (P.quiet_writeT _ _ _)).bind fun _ => (P.quiet_writeT _ _ _).clean

theorem clean_unzipNone (hs : ∀ c, (P.elemOf c).T.SetNoexcept) : ∀ rs : List Nat, Clean (P.unzipNone rs)
  | [] => (Silent.pure _).clean
  | _ :: rs => (P.quiet_ctorDefault (hs _)).clean.bind fun _ => clean_unzipNone hs rs

theorem clean_unzipList (hs : ∀ c, (P.elemOf c).T.SetNoexcept) (q : Parts Val) (i : Nat) (mv : Bool) (rs : List Nat) :
    Clean (P.unzipList q i mv rs) :=
  (P.quiet_hasValue i).clean.bind fun _ => Clean.ite (P.clean_unzipElems q i mv _) (P.clean_unzipNone hs rs)

theorem clean_moveAll (hs : ∀ c, (P.elemOf c).T.SetNoexcept) : ∀ ms : List (Nat × Nat), Clean (P.moveAll ms)
  | [] => (Silent.pure _).clean
  | (r, _) :: ms => (P.clean_ctorFrom (hs _)).bind fun _ => (clean_moveAll hs ms).onThrow (P.quiet_dtor r)

theorem quiet_dtorAll : ∀ ts : List Nat, Silent (P.dtorAll ts)
  | [] => Silent.pure _
  | t :: ts => (P.quiet_dtor t).bind fun _ => quiet_dtorAll ts

theorem clean_runOp (hs : ∀ c, (P.elemOf c).T.SetNoexcept) (op : Op Val) (hop : op.isValueOrThrow = false) :
    Clean (P.runOp op) := by
  have wrap : ∀ {α : Type} {x : M World α} (f : α → Ret Val), Clean x → Clean (asRet f x) := fun f h =>
    h.bind fun _ => (Silent.pure _).clean
  have hd : ∀ i, Clean (P.ctorDefault i) := fun i => (P.quiet_ctorDefault (hs _)).clean
  have hv : ∀ i, Clean (P.hasValue i) := fun i => (P.quiet_hasValue i).clean
  have hg : ∀ i, Clean (P.getCheck i) := fun i => (P.quiet_getCheck i).clean
  have hr : ∀ i, Clean (P.readT i) := fun i => (P.quiet_readT i).clean
  have hc : ∀ i j mv, Clean (P.ctorFrom i j mv) := fun i j mv => P.clean_ctorFrom (hs _)
  have hp : ∀ {α : Type} (a : α), Clean (pure a : M World α) := fun a => (Silent.pure a).clean
  have he : ∀ s, Clean (P.evalArg s) := fun s => (P.quiet_evalArg s).clean
  cases op with
  | ctorDefault i => exact wrap _ (hd i)
  | ctorValue i src => exact wrap _ ((he src).bind fun _ => P.clean_ctorArg i src)
  | ctorFrom i j mv => exact wrap _ (hc i j mv)
  | dtor i => exact wrap _ (P.quiet_dtor i).clean
  | reset i => exact wrap _ (P.quiet_reset (hs _)).clean
  | assignFrom i j mv => exact wrap _ (P.clean_assignFrom (hs _))
  | assignValue i src => exact wrap _ (P.clean_assignValue i src)
  | emplace i src => exact wrap _ (P.clean_emplace src (hs _))
  | tryEmplace i src => exact wrap _ (P.clean_tryEmplace i src)
  | swap i j => exact wrap _ (P.clean_swap (hs _) (hs _))
  | take i r => exact wrap _ (P.clean_take (hs _) (hs _))
  | takeIf i r f =>
    exact wrap _ ((hv i).bind fun _ => Clean.ite ((P.clean_callT f).bind fun _ =>
      Clean.ite (P.clean_take (hs _) (hs _)) (hd r)) (hd r))
  | hasValue i => exact wrap _ (hv i)
  | get i => exact wrap _ ((hg i).bind fun _ => hr i)
  | getUnchecked i => exact wrap _ (hr i)
  | valueOrThrow i => cases hop
  | ptrOrNull i =>
    exact wrap _ ((hv i).bind fun _ => Clean.ite ((hg i).bind fun _ => (hr i).bind fun _ => hp _) (hp _))
  | valueOr i mv d =>
    exact wrap _ ((he d).bind fun _ => (hv i).bind fun _ => Clean.ite ((hg i).bind fun _ => P.clean_returnT _ _)
      (P.clean_returnT _ _))
  | hasValueAnd i f => exact wrap _ ((hv i).bind fun _ => Clean.ite (P.clean_callT f) (hp _))
  | inspect i f => exact wrap _ ((hv i).bind fun _ => Clean.ite (P.clean_callT f) (hp _))
  | mapOr i d f =>
    exact wrap _ ((hv i).bind fun _ => Clean.ite (P.clean_callT f)
      (P.clean_userOp rfl rfl (fun _ => Fails.raise) fun _ => hp _))
  | mapOrElse i d f => exact wrap _ ((hv i).bind fun _ => Clean.ite (P.clean_callT f) (P.clean_call0 d))
  | map i r f =>
    refine wrap _ ((hv i).bind fun _ => Clean.ite ((hg i).bind fun _ => (P.quiet_newObj r).clean.bind fun _ => ?_) (hd r))
    exact Clean.bind (Clean.onThrow ((P.clean_callT f).bind fun _ => P.clean_constructInPlace r _) (quiet_delObj r))
      fun _ => (P.quiet_seal r).clean
  | andThen i r f =>
    exact wrap _ ((hv i).bind fun _ => Clean.ite ((P.clean_callT f).bind fun _ => P.clean_makeOption _ (hs _)) (hd r))
  | orElse i r mv x =>
    exact wrap _ ((hv i).bind fun _ => Clean.ite (hc r i mv) ((P.clean_call0 x).bind fun _ => P.clean_makeOption _ (hs _)))
  | filter i r mv f =>
    exact wrap _ ((hv i).bind fun _ => Clean.ite ((P.clean_callT f).bind fun _ =>
      Clean.ite ((hg i).bind fun _ => P.clean_ctorArg r _) (hd r)) (hd r))
  | orOp i j r mi mj => exact wrap _ ((hv i).bind fun _ => Clean.ite (hc r i mi) (hc r j mj))
  | orAssignValue i src =>
    exact wrap _ ((he src).bind fun _ => (hv i).bind fun _ => Clean.ite (P.clean_assignValue i src) (hp _))
  | orAssignFrom i j mv => exact wrap _ ((hv i).bind fun _ => Clean.ite (P.clean_assignFrom (hs _)) (hp _))
  | andOp i j r mv => exact wrap _ ((hv i).bind fun _ => Clean.ite (hc r j mv) (hd r))
  | xorOp i j r mi mj =>
    exact wrap _ ((hv i).bind fun _ => (hv j).bind fun _ => Clean.ite (hc r i mi) (Clean.ite (hc r j mj) (hd r)))
  | zip is r g =>
    exact wrap _ ((P.quiet_allHave is).clean.bind fun _ => Clean.ite ((P.clean_zipElems is).bind fun _ =>
      ((P.clean_ctorArg r _).onThrow (P.quiet_dropTmps _)).bind fun _ => (P.quiet_dropTmps _).clean) (hd r))
  | zipWith is r g =>
    exact wrap _ ((P.quiet_allHave _).clean.bind fun _ => Clean.ite ((P.quiet_zipArgs is).clean.bind fun _ =>
      (P.clean_call0 _).bind fun _ => ((P.clean_ctorArg r _).onThrow (P.quiet_dropTmp _)).bind fun _ =>
      (P.quiet_dropTmp _).clean) (hd r))
  | ioWrite i d =>
    refine wrap _ ((hv i).bind fun _ => Clean.ite ((hg i).bind fun _ => (hr i).bind fun _ => P.clean_call0 _) ?_)
    cases d
    · exact hp _
    · exact P.clean_call0 _
  | ioRead i d v =>
    exact wrap _ ((hv i).bind fun _ => Clean.ite ((P.clean_callT _).bind fun _ => hp _) (P.clean_call0 v))
  | cmp o rel i j =>
    exact wrap _ ((hv i).bind fun _ => (hv j).bind fun _ => Clean.ite (((hg i).bind fun _ => hr i).bind fun _ =>
      ((hg j).bind fun _ => hr j).bind fun _ => P.clean_call0 _) (hp _))
  | cmpNone o i => cases o <;> first | exact wrap _ (hp _) | exact wrap _ (hv i) | exact wrap _ ((hv i).bind fun _ => hp _)
  | noneCmp o i => cases o <;> first | exact wrap _ (hp _) | exact wrap _ (hv i) | exact wrap _ ((hv i).bind fun _ => hp _)
  | cmpVal o rel i v =>
    exact wrap _ ((hv i).bind fun _ => Clean.ite (((hg i).bind fun _ => hr i).bind fun _ => P.clean_call0 _) (hp _))
  | valCmp o rel v i =>
    exact wrap _ ((hv i).bind fun _ => Clean.ite (((hg i).bind fun _ => hr i).bind fun _ => P.clean_call0 _) (hp _))
  | hash i f =>
    exact wrap _ ((hv i).bind fun _ => Clean.ite (((hg i).bind fun _ => hr i).bind fun _ => P.clean_call0 _) (hp _))
  | forEach i f => exact wrap _ (P.clean_forEach 2 i f)
  | unzipArray q i mv rs => exact wrap _ (P.clean_unzipList hs q i mv rs)
  | unzipTuple q i mv ts ms =>
    exact wrap _ ((P.clean_unzipList hs q i mv ts).bind fun _ =>
      ((P.clean_moveAll hs ms).onThrow (P.quiet_dtorAll _)).bind fun _ => (P.quiet_dtorAll _).clean)

end Prog

end Opt
