import Verif.Lemmas.Propagate
import Verif.Props.History
import Verif.Props.Machine

/-!
# C50: exceptions come from user code and reach the client
-/

namespace Opt

variable {Val : Type} (P : Prog Val)

/-- **C50.** Every operation in every state, legal or not, whatever the program: when it completes, none of the user code
it called has thrown; when it lets out an exception, exactly one call of user code has.  So the library neither swallows
nor invents exceptions, and calls nothing that can fail after a failure.  (`value_or_throw` is the exception, next
theorem.) -/
theorem C50_propagates (hs : ∀ c, (P.elemOf c).T.SetNoexcept) (op : Op Val) (hop : op.isValueOrThrow = false)
    (w : World) : Propagates w (P.runOp op w) := P.clean_runOp hs op hop w

theorem Demo.set_noexcept : ∀ c, (Demo.elemOf c).T.SetNoexcept := by
  intro c
  unfold Demo.elemOf
  split <;> trivial

/- Assignment between engaged options with an assignment operator that throws: one failing call, and it is let out. -/
example : Propagates Demo.world (Demo.angry.runOp (.assignFrom 0 9 false) Demo.world) :=
  C50_propagates Demo.angry Demo.set_noexcept (.assignFrom 0 9 false) rfl _
example : (Demo.angry.runOp (.assignFrom 4 0 false) Demo.world).isThrow = true := by decide +kernel

/-- **C50.** `value_or_throw` calls no user code and changes nothing; it throws exactly when the option is empty. -/
theorem C50_value_or_throw (i : Nat) (w : World) :
    (∀ v w', P.valueOrThrow i w = .ok v w' → w' = w ∧ P.hasValue i w = .ok true w) ∧
    (∀ w', P.valueOrThrow i w = .throw w' ↔ w' = w ∧ P.hasValue i w = .ok false w) := by
  have hh : (∃ b, P.hasValue i w = .ok b w) ∨ P.hasValue i w = .ub := by
    unfold Prog.hasValue Prog.obj
    rw [bind_run]
    cases w.mem i with
    | none => exact .inr rfl
    | some o =>
      rw [obind_ok]
      split
      · exact .inr rfl
      · exact .inl ⟨_, rfl⟩
  have hr : (∃ v, P.readT i w = .ok v w) ∨ P.readT i w = .ub := by
    unfold Prog.readT Prog.obj
    rw [bind_run]
    cases w.mem i with
    | none => exact .inr rfl
    | some o =>
      rw [obind_ok]
      split
      · exact .inl ⟨_, rfl⟩
      · exact .inr rfl
  unfold Prog.valueOrThrow Prog.getCheck
  rw [bind_run]
  rcases hh with ⟨b, hb⟩ | hb
  · rw [hb, obind_ok]
    cases b with
    | false =>
      refine ⟨fun v w' h => ?_, fun w' => ⟨fun h => ?_, fun h => ?_⟩⟩
      · cases h
      · cases h; exact ⟨rfl, rfl⟩
      · rw [h.1]; rfl
    | true =>
      simp only [Bool.not_true, Bool.false_eq_true, if_false, bind_run, hb, obind_ok, check_true]
      rcases hr with ⟨v, hv⟩ | hv
      · rw [hv]
        refine ⟨fun v w' h => ?_, fun w' => ⟨fun h => ?_, fun h => ?_⟩⟩
        · cases h; exact ⟨rfl, trivial⟩
        · cases h
        · cases h.2
      · rw [hv]
        refine ⟨fun v w' h => ?_, fun w' => ⟨fun h => ?_, fun h => ?_⟩⟩
        · cases h
        · cases h
        · cases h.2
  · rw [hb, obind_ub]
    refine ⟨fun v w' h => ?_, fun w' => ⟨fun h => ?_, fun h => ?_⟩⟩
    · cases h
    · cases h
    · cases h.2

example : (Demo.angry.valueOrThrow 3 Demo.world).isThrow = true ∧
    (Demo.angry.valueOrThrow 0 Demo.world).isThrow = false := by decide +kernel

/-- how many of the operations other than `value_or_throw` made the client catch an exception -/
def caught : List (Op Val) → List (Ret Val) → Nat
  | op :: ops, r :: rs => (if r.isThrew && !op.isValueOrThrow then 1 else 0) + caught ops rs
  | _, _ => 0

/-- **C50.** Over any history, of any length, from any state: the client catches as many exceptions as calls of user code
failed (not counting those of `value_or_throw`). -/
theorem C50_history (hs : ∀ c, (P.elemOf c).T.SetNoexcept) (ops : List (Op Val)) (w : World) {rs : List (Ret Val)}
    {w' : World} (hr : P.run ops w = .ok rs w') :
    rs.length = ops.length ∧
      ∃ evs, w'.env.log = w.env.log ++ evs ∧ evs.countP Event.failed = caught ops rs := by
  induction ops generalizing w rs w' with
  | nil =>
    cases hr
    exact ⟨rfl, [], (List.append_nil _).symm, rfl⟩
  | cons op ops ih =>
    unfold Prog.run at hr
    rw [bind_run] at hr
    have key : ∀ r w1, Prog.catch_ (P.runOp op) w = .ok r w1 →
        ∃ evs, w1.env.log = w.env.log ++ evs ∧
          evs.countP Event.failed = if r.isThrew && !op.isValueOrThrow then 1 else 0 := by
      intro r w1 h
      unfold Prog.catch_ at h
      cases hop : op.isValueOrThrow with
      | true =>
        simp only [Bool.not_true, Bool.and_false, Bool.false_eq_true, if_false]
        cases op with
        | valueOrThrow i =>
          have hv := C50_value_or_throw P i w
          simp only [Prog.runOp, Prog.asRet, bind_run] at h
          cases hx : P.valueOrThrow i w with
          | ok v w2 =>
            rw [hx, obind_ok, pure_run] at h
            cases h
            have := (hv.1 v _ hx).1
            exact ⟨[], by rw [this, List.append_nil], rfl⟩
          | throw w2 =>
            rw [hx, obind_throw] at h
            cases h
            have := ((hv.2 _).1 hx).1
            exact ⟨[], by rw [this, List.append_nil], rfl⟩
          | verify => rw [hx] at h; cases h
          | ub => rw [hx] at h; cases h
        | _ => cases hop
      | false =>
        have hp := C50_propagates P hs op hop w
        have hne : ∀ r w2, P.runOp op w = .ok r w2 → r.isThrew = false := by
          intro r w2 hx
          have : ∀ {α : Type} {x : M World α} {f : α → Ret Val}, (∀ a, (f a).isThrew = false) →
              Prog.asRet f x w = .ok r w2 → r.isThrew = false := by
            intro α x f hf hx
            unfold Prog.asRet at hx
            rw [bind_run] at hx
            cases hxw : x w with
            | ok a w3 => rw [hxw, obind_ok, pure_run] at hx; cases hx; exact hf a
            | _ => rw [hxw] at hx; cases hx
          cases op <;> exact this (fun _ => rfl) hx
        cases hx : P.runOp op w with
        | ok r1 w2 =>
          rw [hx] at h hp
          cases h
          rw [hne r w1 hx]
          exact hp
        | throw w2 =>
          rw [hx] at h hp
          cases h
          exact hp
        | verify => rw [hx] at h; cases h
        | ub => rw [hx] at h; cases h
    cases hx : Prog.catch_ (P.runOp op) w with
    | ok r w1 =>
      obtain ⟨e1, h1, c1⟩ := key r w1 hx
      rw [hx, obind_ok, bind_run] at hr
      cases hy : P.run ops w1 with
      | ok rs' w2 =>
        rw [hy, obind_ok, pure_run] at hr
        cases hr
        obtain ⟨hl, e2, h2, c2⟩ := ih w1 hy
        refine ⟨by rw [List.length_cons, hl, List.length_cons], e1 ++ e2, ?_, ?_⟩
        · rw [h2, h1, List.append_assoc]
        · rw [List.countP_append, c1, c2]
          rfl
      | throw w2 => rw [hy] at hr; cases hr
      | verify => rw [hy] at hr; cases hr
      | ub => rw [hy] at hr; cases hr
    | throw w1 => rw [hx] at hr; cases hr
    | verify => rw [hx] at hr; cases hr
    | ub => rw [hx] at hr; cases hr

/- In the demonstration story one construction throws and `value_or_throw` throws once: the client catches one exception
that is not from `value_or_throw`. -/
example : ∃ rs w', (Demo.prog true (· == 1) Demo.tidy).run Demo.story Prog.start = .ok rs w' ∧ caught Demo.story rs = 1 := by
  obtain ⟨w, h, _⟩ := Out.of_seen (x := (Demo.prog true (· == 1) Demo.tidy).run Demo.story Prog.start)
    (r := [.unit, .unit, .threw, .unit, .unit, .unit, .threw, .unit, .opt none, .unit, .unit, .unit])
    (l := [.ctor 1 .args, .dtor 1, .ctorFail 1 .args]) (by decide +kernel)
  exact ⟨_, w, h, rfl⟩

end Opt
