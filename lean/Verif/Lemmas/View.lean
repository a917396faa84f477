import Verif.Spec.View
import Verif.Lemmas.ApiSim

/-!
# The simulation relation is the invariant together with the view
-/

namespace Opt

variable {Val : Type} {P : Prog Val}

namespace Prog

/-- the abstract state a world implements -/
def abs (P : Prog Val) (w : World) : AState Val := ⟨P.view w, w.env⟩

theorem view_some {w : World} {i : Nat} {o : Obj} {x : Option Val} (h : w.mem i = some o) (hr : ObjR P i o x) :
    P.view w i = some x := by
  simp only [view, h, Option.map_some, hr.hv]
  cases x with
  | none => rfl
  | some v => simp only [Option.isSome_some, if_true, (hr.live v rfl).2.2]

theorem R_abs {w : World} {a : AState Val} (h : R P w a) : P.Inv w ∧ a = P.abs w := by
  constructor
  · intro i o ho
    have := h.cell i
    rw [ho] at this
    cases hx : a.mem i with
    | none => rw [hx] at this; exact this.elim
    | some x =>
      rw [hx] at this
      have hr : ObjR P i o x := this
      refine ⟨hr.len, hr.flag, fun hv => ?_, fun hv htd => ?_⟩
      · rw [hr.hv] at hv
        obtain ⟨v, rfl⟩ := Option.isSome_iff_exists.1 hv
        obtain ⟨h1, h2, _⟩ := hr.live v rfl
        exact ⟨h1, h2⟩
      · rw [hr.hv] at hv
        cases x with
        | none => exact hr.dead rfl htd
        | some v => cases hv
  · cases a with
    | mk m e =>
      have he := h.env
      simp only at he
      simp only [abs, he, AState.mk.injEq, and_true]
      funext i
      cases hx : m i with
      | none => simp only [view, h.none' hx, Option.map_none]
      | some x =>
        obtain ⟨o, ho, hr⟩ := h.some' hx
        exact (view_some ho hr).symm

theorem abs_R {w : World} (h : P.Inv w) : R P w (P.abs w) := by
  refine ⟨rfl, fun i => ?_⟩
  cases ho : w.mem i with
  | none => simp only [abs, view, ho, Option.map_none]; exact trivial
  | some o =>
    obtain ⟨h1, h2, h3, h4⟩ := h i o ho
    simp only [abs, view, ho, Option.map_some]
    cases hv : (P.elem i).T.hasValue P.pw o.bytes
    · exact ⟨h1, h2, hv, fun v hv => (by cases hv), fun _ => h4 hv⟩
    · obtain ⟨h5, h6⟩ := h3 hv
      exact ⟨h1, h2, hv, fun v hv => (by cases hv; exact ⟨h5, h6, rfl⟩), fun h => (by cases h)⟩

theorem inv_start : P.Inv start := fun _ _ h => by cases h

/-- a completed operation of the specification is a completed operation of the machine -/
theorem ends_of {α β : Type} {w : World} {x : Out World α} {y : Out (AState Val) β} {B : α → World → β → AState Val → Prop}
    {C : World → AState Val → Prop} (h : Out.Rel B C x y) (hB : ∀ r w' b a', B r w' b a' → R P w' a')
    {b : β} {m : Nat → Option (Option Val)} {evs : List Event} (hy : y = .ok b ⟨m, w.env.after evs⟩) :
    ∃ r, (∃ w', B r w' b ⟨m, w.env.after evs⟩) ∧ P.Ends w x r evs m := by
  subst hy
  cases x with
  | ok r w' =>
    obtain ⟨hi, ha⟩ := R_abs (hB _ _ _ _ h)
    simp only [abs, AState.mk.injEq] at ha
    exact ⟨r, ⟨w', h⟩, w', rfl, hi, ha.1.symm, ha.2.symm⟩
  | throw _ => exact h.elim
  | verify => exact h.elim
  | ub => exact h.elim

theorem ends_unit {w : World} {x : Out World Unit} {y : Out (AState Val) Unit} {B : Unit → World → Unit → AState Val → Prop}
    {C : World → AState Val → Prop} (h : Out.Rel B C x y) (hB : ∀ r w' b a', B r w' b a' → R P w' a')
    {m : Nat → Option (Option Val)} {evs : List Event} (hy : y = .ok () ⟨m, w.env.after evs⟩) :
    P.Ends w x () evs m := (ends_of h hB hy).choose_spec.2

theorem ends_val {α : Type} {w : World} {x : Out World α} {y : Out (AState Val) α}
    {C : World → AState Val → Prop} (h : Out.Rel (fun u w' v a' => u = v ∧ R P w' a') C x y)
    {b : α} {m : Nat → Option (Option Val)} {evs : List Event} (hy : y = .ok b ⟨m, w.env.after evs⟩) :
    P.Ends w x b evs m := by
  obtain ⟨r, ⟨_, rfl, _⟩, h2⟩ := ends_of h (fun _ _ _ _ h => h.2) hy
  exact h2

theorem throws_of {α β : Type} {w : World} {x : Out World α} {y : Out (AState Val) β} {B : α → World → β → AState Val → Prop}
    {C : World → AState Val → Prop} (h : Out.Rel B C x y) (hC : ∀ w' a', C w' a' → R P w' a')
    {m : Nat → Option (Option Val)} {evs : List Event} (hy : y = .throw ⟨m, w.env.after evs⟩) :
    P.Throws w x evs m := by
  subst hy
  cases x with
  | throw w' =>
    obtain ⟨hi, ha⟩ := R_abs (hC _ _ h)
    simp only [abs, AState.mk.injEq] at ha
    exact ⟨w', rfl, hi, ha.1.symm, ha.2.symm⟩
  | ok _ _ => exact h.elim
  | verify => exact h.elim
  | ub => exact h.elim

end Prog

end Opt
