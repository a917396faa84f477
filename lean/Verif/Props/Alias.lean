import Verif.Lemmas.Alias
import Verif.Props.Stable

/-!
# C89: options of references to contained values are other names for them
-/

namespace Opt

variable {Val : Type} {P : Prog Val}

namespace Alias

theorem xview_XR {s : XWorld} (h : P.Inv s.opts) : XR P s (P.xview s) := ⟨Prog.abs_R h, rfl⟩

theorem XR_xview {s : XWorld} {t : XState Val} (h : XR P s t) : P.Inv s.opts ∧ P.xview s = t := by
  obtain ⟨w, p⟩ := s
  obtain ⟨a, q⟩ := t
  obtain ⟨h, rfl⟩ := h
  obtain ⟨h1, rfl⟩ := Prog.R_abs h
  exact ⟨h1, rfl⟩

end Alias

/-- **C89.** Every use through a reference is the operation on the option itself, in every state and whatever user code does: equal results, states,
calls and exceptions.  (The two uses that make copies are in `C89_step_partial`: there the option itself may copy its bytes.) -/
theorem C89_same (w : World) (hw : P.Inv w) (p : Nat → Option Nat) (k j : Nat) (hk : p k = some j) (v : Val) (hv : P.view w j = some (some v))
    (u : Use Val) (h1 : ∀ i mv, u ≠ .copyTo i mv) (h2 : ∀ i mv, u ≠ .assignTo i mv) :
    Alias.runOp P (.via k u) ⟨w, p⟩ =
      match P.runOp (u.on j) w with
      | .ok r w' => .ok r ⟨w', p⟩
      | .throw w' => .throw ⟨w', p⟩
      | .verify => .verify
      | .ub => .ub := by
  obtain ⟨o, ho, hr⟩ := (Prog.abs_R hw).some' (show (P.abs w).mem j = some (some v) from hv)
  have h := Alias.use_eq (u := u) hk ho hr h1 h2
  rw [Alias.lift_run] at h
  rw [Alias.runOp, h]
  cases P.runOp (u.on j) w <;> rfl

example : Demo.calm.Inv Demo.world ∧ Demo.calm.view Demo.world 1 = some (some 5) ∧
    (∀ i mv, (Use.map 13 ⟨fun v => v, id, id⟩ : Use Byte) ≠ .copyTo i mv) := ⟨Demo.inv, Demo.view1, fun _ _ h => by cases h⟩

/-- **C89** (partial: `Harmless`).  One operation of a program with options of values and options of references to those values: what a client sees afterwards, and what it
gets, is what the same operation does directly on the option referred to.  It is never undefined when what is referred to is there.  Missing: a
constructor that throws after overwriting the sentinel (`C17_violated_*`). -/
theorem C89_step_partial (hP : P.OK) (op : XOp Val) (s : XWorld) (hw : P.Inv s.opts) (hl : op.Legal P (P.xview s)) (ha : op.Allowed (P.xview s))
    (hh : op.Harmless P (P.xview s)) :
    match Alias.runOp P op s, op.spec P (P.xview s) with
    | .ok r s', .ok r' t => r = r' ∧ P.Inv s'.opts ∧ P.xview s' = t
    | .throw s', .throw t => P.Inv s'.opts ∧ P.xview s' = t
    | .verify, .verify => True
    | _, _ => False := by
  have h := Alias.runOp_sim hP (Alias.xview_XR hw) hl ha hh
  have hg := Alias.spec_good hP ha
  revert h hg
  cases Alias.runOp P op s <;> cases op.spec P (P.xview s) <;> intro h hg <;> first
    | exact absurd rfl hg
    | exact h.elim
    | trivial
    | exact ⟨h.1, Alias.XR_xview h.2⟩
    | exact Alias.XR_xview h

/-- **C89** (partial: `Harmless`).  The same for a history of any length, with caught exceptions. -/
theorem C89_run_partial (hP : P.OK) (ops : List (XOp Val)) (s : XWorld) (hw : P.Inv s.opts) (hf : XOp.AllFine P ops (P.xview s)) :
    match Alias.run P ops s, XOp.specAll P ops (P.xview s) with
    | .ok rs s', .ok rs' t => rs = rs' ∧ P.Inv s'.opts ∧ P.xview s' = t
    | .verify, .verify => True
    | _, _ => False := by
  have h := Alias.run_sim hP (Alias.xview_XR hw) hf
  have hg := Alias.specAll_good hP hf
  revert h hg
  cases Alias.run P ops s <;> cases XOp.specAll P ops (P.xview s) <;> intro h hg <;> first
    | exact hg.elim
    | exact h.elim
    | trivial
    | exact ⟨h.1, Alias.XR_xview h.2⟩

/-- **C89.** A reference taken once is good as long as C78 says: after any history that spares the contained object of `j`, an option of a
reference to it still has a value, and it gives the value the option `j` has by then. -/
theorem C89_keep (hP : P.OK) (ops : List (Op Val)) (hl : ∀ op ∈ ops, op.Legal P) (w : World) (hw : P.Inv w)
    (ha : Op.AllAllowed P ops ⟨P.view w, w.env⟩) (hh : Op.AllHarmless P ops ⟨P.view w, w.env⟩) (j : Nat) (v : Val)
    (hv : P.view w j = some (some v)) (he : Op.AllSpare P j ops ⟨P.view w, w.env⟩) (rs : List (Ret Val)) (w' : World)
    (hr : P.run ops w = .ok rs w') (p : Nat → Option Nat) (k : Nat) (hk : p k = some j) :
    ∃ v', P.view w' j = some (some v') ∧ Alias.runOp P (.via k .get) ⟨w', p⟩ = .ok (.val v') ⟨w', p⟩ := by
  obtain ⟨⟨v', hv'⟩, _⟩ := C78_history_partial hP ops hl w hw ha hh j v hv he rs w' hr
  refine ⟨v', hv', ?_⟩
  have hs := Prog.run_sim_harmless hP (Prog.abs_R hw) hl ha hh
  rw [hr] at hs
  have hR : ∃ a, R P w' a := by
    have hg := Spec.run_good hP ⟨_, Spec.here_st (P := P) (P.abs w)⟩ ha
    revert hs hg
    cases Spec.run P ops (P.abs w) <;> intro hs hg <;> first | exact hs.elim | exact ⟨_, hs.2⟩ | exact hg.elim
  obtain ⟨a, h⟩ := hR
  obtain ⟨hi, rfl⟩ := Prog.R_abs h
  obtain ⟨o, ho, hr⟩ := h.some' (show (P.abs w').mem j = some (some v') from hv')
  simp only [Alias.runOp, Alias.use, Alias.asRet_run, bind_run, Alias.place_run hk, obind_ok, Alias.lift_run, Prog.readT_run ho hr, pure_run]

/-- **C89.** The reverse.  Once the value is gone (the option is empty, or does not exist any more), nothing in the library notices: the option of a
reference still says that it has a value, and every function that reads it does so outside the lifetime of the object.  The option itself would fail
its check. -/
theorem C89_dangling (w : World) (hw : P.Inv w) (p : Nat → Option Nat) (k j : Nat) (hk : p k = some j)
    (hj : P.view w j = none ∨ P.view w j = some none ∧ (P.elem j).trivDtor = false) :
    Alias.runOp P (.hasValue k) ⟨w, p⟩ = .ok (.bool true) ⟨w, p⟩ ∧
    (∀ u ∈ [Use.get, .getUnchecked, .valueOrThrow], Alias.runOp P (.via k u) ⟨w, p⟩ = .ub) ∧
    (∀ f, Alias.runOp P (.via k (.hasValueAnd f)) ⟨w, p⟩ = .ub ∧ ∀ l, Alias.runOp P (.filter k l f) ⟨w, p⟩ = .ub) ∧
    (P.view w j = some none → P.runOp (.get j) w = .verify ∧ P.runOp (.hasValue j) w = .ok (.bool false) w) := by
  have hb : P.readT j w = .ub := by
    cases ho : w.mem j with
    | none => simp only [Prog.readT, bind_run, Prog.obj, ho, obind_ub]
    | some o =>
      obtain h | ⟨h, ht⟩ := hj
      · simp only [Prog.view, ho, Option.map_some] at h; cases h
      · obtain ⟨o', ho', hr⟩ := (Prog.abs_R hw).some' (show (P.abs w).mem j = some none from h)
        rw [ho] at ho'; cases ho'
        simp only [Prog.readT, bind_run, Prog.obj_run ho, obind_ok, hr.dead rfl ht, Bool.false_eq_true, if_false]
        rfl
  have hc : ∀ {γ : Type} (f : Prog.Fn Val γ), Alias.callAt P j f w = .ub := fun f => by
    simp only [Alias.callAt, bind_run, hb, obind_ub]
  refine ⟨?_, ?_, fun f => ⟨?_, fun l => ?_⟩, fun h => ?_⟩
  · simp only [Alias.runOp, Alias.asRet_run, Alias.hasValue_run, hk, Option.isSome_some]; rfl
  · intro u hu
    simp only [List.mem_cons, List.not_mem_nil, or_false] at hu
    obtain rfl | rfl | rfl := hu
    · simp only [Alias.runOp, Alias.use, Alias.asRet_run, bind_run, Alias.place_run hk, obind_ok, Alias.lift_run, hb]; rfl
    · simp only [Alias.runOp, Alias.use, Alias.asRet_run, bind_run, Alias.placeUnchecked_run hk, obind_ok, Alias.lift_run, hb]; rfl
    · simp only [Alias.runOp, Alias.use, Alias.asRet_run, bind_run, Alias.hasValue_run, hk, Alias.place_run hk, obind_ok, Alias.lift_run, hb,
        Option.isSome_some, Bool.not_true, Bool.false_eq_true, if_false]; rfl
  · simp only [Alias.runOp, Alias.use, Alias.asRet_run, bind_run, Alias.hasValue_run, hk, Alias.place_run hk, obind_ok, Alias.lift_run, hc,
      Option.isSome_some, if_true]; rfl
  · simp only [Alias.runOp, Alias.asRet_run, bind_run, Alias.hasValue_run, hk, Alias.place_run hk, obind_ok, Alias.lift_run, hc,
      Option.isSome_some, if_true]; rfl
  · obtain ⟨o, ho, hr⟩ := (Prog.abs_R hw).some' (show (P.abs w).mem j = some none from h)
    constructor
    · simp only [Prog.runOp, Alias.asRet_run, Prog.get, bind_run, Prog.getCheck_run ho hr]; rfl
    · simp only [Prog.runOp, Alias.asRet_run, Prog.hasValue_run ho hr]; rfl

/-- Options 1 (holds 5) and 5 (empty) of `Demo.world`, and options of references: bind, change the value through the reference, read it both ways, copy
it, hand the reference on, assign from it as an rvalue -/
def Demo.names : List (XOp Byte) := [.bind 0 1, .via 0 (.inspect ⟨fun _ => (), fun _ => 1, id⟩), .val (.get 1), .via 0 (.copyTo 13 true), .take 0 1,
  .via 1 (.assignTo 5 true), .val (.get 5), .via 1 .get, .hasValue 0, .via 0 .valueOrThrow, .cmp .eq (fun _ a b => a == b) 1 1]

def Demo.xworld : XWorld := ⟨Demo.world, fun _ => none⟩

example : Demo.calm.OK ∧ Demo.calm.Inv Demo.xworld.opts ∧ XOp.AllFine Demo.calm Demo.names (Demo.calm.xview Demo.xworld) ∧
    (match Alias.run Demo.calm Demo.names Demo.xworld with
    | .ok rs _ => decide (rs = [.unit, .unit, .val 1, .unit, .unit, .unit, .val 1, .val 1, .bool false, .threw, .bool true])
    | _ => false) = true := by
  refine ⟨Demo.ok_tidy, Demo.inv, Alias.allFine_of Demo.throwSafe_tidy ?_ (by decide +kernel), by decide +kernel⟩
  simp only [Demo.names, List.forall_mem_cons]
  refine ⟨fun _ => trivial, fun _ _ _ => ?_, fun _ => trivial, fun _ _ _ => trivial, fun _ => trivial, fun _ _ _ => trivial, fun _ => trivial,
    fun _ _ _ => trivial, fun _ => trivial, fun _ _ _ => trivial, fun _ => trivial, fun _ h => by cases h⟩
  exact fun v hv => ⟨Demo.dom_mk _ (.inr (.inr (.inr (.inr rfl)))), hv⟩

/-- a reference that was handed out before option 1 was reset -/
example : (match Demo.calm.run [.reset 1] Demo.world with
    | .ok _ w => decide (Demo.calm.view w 1 = some none ∧ (Demo.calm.elem 1).trivDtor = false ∧
        (match Alias.runOp Demo.calm (.via 0 .get) ⟨w, fun _ => some 1⟩ with | .ub => true | _ => false) = true)
    | _ => false) = true := by decide +kernel

/-- `Demo.used` spares option 1; its value is the one left by a move -/
example : Demo.calm.view Demo.world 1 = some (some 5) ∧ Op.AllSpare Demo.calm 1 Demo.used ⟨Demo.calm.view Demo.world, Demo.world.env⟩ ∧
    (match Demo.calm.run Demo.used Demo.world with
    | .ok _ w => match Alias.runOp Demo.calm (.via 0 .get) ⟨w, fun _ => some 1⟩ with | .ok (.val v) _ => some v | _ => none
    | _ => none) = some 0 := by decide +kernel

end Opt
