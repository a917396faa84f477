import Verif.Lemmas.MachineObj

/-!
# Simulation between the machine and the specification
-/

namespace Opt

/-- Outcomes correspond: results and states related by `B` on completion, states by `C` on a throw; a client error of
the specification relates to anything. -/
def Out.Rel {σ τ α β : Type} (B : α → σ → β → τ → Prop) (C : σ → τ → Prop) : Out σ α → Out τ β → Prop
  | _, .ub => True
  | .ok a s, .ok b t => B a s b t
  | .throw s, .throw t => C s t
  | .verify, .verify => True
  | _, _ => False

section rel
variable {σ τ α β α' β' : Type}

theorem rel_ub {B : α → σ → β → τ → Prop} {C : σ → τ → Prop} (x : Out σ α) : Out.Rel B C x (.ub : Out τ β) := by
  cases x <;> exact trivial

theorem rel_bind {B : α → σ → β → τ → Prop} {B' : α' → σ → β' → τ → Prop} {C : σ → τ → Prop} {x : M σ α} {y : M τ β}
    {f : α → M σ α'} {g : β → M τ β'} {s : σ} {t : τ} (h : Out.Rel B C (x s) (y t))
    (hf : ∀ a s b t, B a s b t → Out.Rel B' C (f a s) (g b t)) : Out.Rel B' C ((x >>= f) s) ((y >>= g) t) := by
  simp only [bind, M.seq]
  revert h
  generalize x s = xs
  generalize y t = yt
  intro h
  cases yt with
  | ub => exact rel_ub _
  | ok b t' =>
    cases xs with
    | ok a s' => exact hf _ _ _ _ h
    | throw _ => exact h.elim
    | verify => exact h.elim
    | ub => exact h.elim
  | throw t' =>
    cases xs with
    | throw s' => exact h
    | ok _ _ => exact h.elim
    | verify => exact h.elim
    | ub => exact h.elim
  | verify =>
    cases xs with
    | verify => exact trivial
    | ok _ _ => exact h.elim
    | throw _ => exact h.elim
    | ub => exact h.elim

theorem rel_mono {B B' : α → σ → β → τ → Prop} {C C' : σ → τ → Prop} {x : Out σ α} {y : Out τ β}
    (h : Out.Rel B C x y) (hB : ∀ a s b t, B a s b t → B' a s b t) (hC : ∀ s t, C s t → C' s t) :
    Out.Rel B' C' x y := by
  cases y with
  | ub => exact rel_ub _
  | ok b t' =>
    cases x with
    | ok a s' => exact hB _ _ _ _ h
    | throw _ => exact h.elim
    | verify => exact h.elim
    | ub => exact h.elim
  | throw t' =>
    cases x with
    | throw s' => exact hC _ _ h
    | ok _ _ => exact h.elim
    | verify => exact h.elim
    | ub => exact h.elim
  | verify =>
    cases x with
    | verify => exact trivial
    | ok _ _ => exact h.elim
    | throw _ => exact h.elim
    | ub => exact h.elim

theorem rel_bad {B : α → σ → β → τ → Prop} {C : σ → τ → Prop} (x : Out σ α) (t : τ) :
    Out.Rel B C x ((M.bad : M τ β) t) := rel_ub x

theorem rel_pure {B : α → σ → β → τ → Prop} {C : σ → τ → Prop} {a : α} {b : β} {s : σ} {t : τ} (h : B a s b t) :
    Out.Rel B C ((pure a : M σ α) s) ((pure b : M τ β) t) := h

theorem rel_raise {B : α → σ → β → τ → Prop} {C : σ → τ → Prop} {s : σ} {t : τ} (h : C s t) :
    Out.Rel B C ((M.raise : M σ α) s) ((M.raise : M τ β) t) := h

theorem rel_check {B : Unit → σ → Unit → τ → Prop} {C : σ → τ → Prop} {c d : Bool} {s : σ} {t : τ} (hcd : c = d)
    (h : c = true → B () s () t) : Out.Rel B C ((M.check c : M σ Unit) s) ((M.check d : M τ Unit) t) := by
  subst hcd
  simp only [M.check]
  cases c
  · exact trivial
  · exact h rfl

theorem rel_onThrow {B : α → σ → β → τ → Prop} {C C' : σ → τ → Prop} {x : M σ α} {y : M τ β} {h : M σ Unit}
    {k : M τ Unit} {s : σ} {t : τ} (hx : Out.Rel B C' (x s) (y t))
    (hh : ∀ s t, C' s t → Out.Rel (fun _ s _ t => C s t) (fun _ _ => False) (h s) (k t)) :
    Out.Rel B C (M.onThrow x h s) (M.onThrow y k t) := by
  simp only [M.onThrow]
  revert hx
  generalize x s = xs
  generalize y t = yt
  intro hx
  cases yt with
  | ub => exact rel_ub _
  | ok b t' =>
    cases xs with
    | ok a s' => exact hx
    | throw _ => exact hx.elim
    | verify => exact hx.elim
    | ub => exact hx.elim
  | throw t' =>
    cases xs with
    | throw s' =>
      have := hh _ _ hx
      simp only
      revert this
      generalize h s' = hs
      generalize k t' = kt
      intro this
      cases kt with
      | ub => exact rel_ub _
      | ok b t' =>
        cases hs with
        | ok a s' => exact this
        | throw _ => exact this.elim
        | verify => exact this.elim
        | ub => exact this.elim
      | throw t' => exact rel_ub _
      | verify =>
        cases hs with
        | verify => exact trivial
        | ok _ _ => exact this.elim
        | throw _ => exact this.elim
        | ub => exact this.elim
    | ok _ _ => exact hx.elim
    | verify => exact hx.elim
    | ub => exact hx.elim
  | verify =>
    cases xs with
    | verify => exact trivial
    | ok _ _ => exact hx.elim
    | throw _ => exact hx.elim
    | ub => exact hx.elim

end rel

variable {Val : Type}

/-- the two sides of one address -/
def Cell (X : Nat → Obj → Option Val → Prop) (k : Nat) : Option Obj → Option (Option Val) → Prop
  | none, none => True
  | some o, some x => X k o x
  | _, _ => False

/-- every address satisfies `X`; the calls of user code so far agree -/
structure RX (X : Nat → Obj → Option Val → Prop) (w : World) (a : AState Val) : Prop where
  env : w.env = a.env
  cell : ∀ k, Cell X k (w.mem k) (a.mem k)

/-- the simulation relation: all objects satisfy the invariant -/
abbrev R (P : Prog Val) : World → AState Val → Prop := RX (ObjR P)

theorem upd_same {α : Type} (f : Nat → α) (i : Nat) (x : α) : upd f i x i = x := by simp [upd]
theorem upd_other {α : Type} (f : Nat → α) {i k : Nat} (x : α) (h : k ≠ i) : upd f i x k = f k := by simp [upd, h]
theorem upd_upd {α : Type} (f : Nat → α) (i : Nat) (x y : α) : upd (upd f i x) i y = upd f i y := by
  funext k; simp only [upd]; split <;> rfl

theorem RX.put {X Y : Nat → Obj → Option Val → Prop} {w : World} {a : AState Val} {i : Nat} {o : Obj} {x : Option Val}
    (h : RX X w a) (hXY : ∀ k, k ≠ i → ∀ o x, X k o x → Y k o x) (hi : Y i o x) :
    RX Y { w with mem := upd w.mem i (some o) } { a with mem := upd a.mem i (some x) } := by
  refine ⟨h.env, fun k => ?_⟩
  by_cases e : k = i
  · subst e; simp only [upd_same]; exact hi
  · simp only [upd_other _ _ e]
    have := h.cell k
    revert this
    cases w.mem k <;> cases a.mem k <;> intro this
    · exact trivial
    · exact this.elim
    · exact this.elim
    · exact hXY k e _ _ this

theorem RX.del {X Y : Nat → Obj → Option Val → Prop} {w : World} {a : AState Val} {i : Nat}
    (h : RX X w a) (hXY : ∀ k, k ≠ i → ∀ o x, X k o x → Y k o x) :
    RX Y { w with mem := upd w.mem i none } { a with mem := upd a.mem i none } := by
  refine ⟨h.env, fun k => ?_⟩
  by_cases e : k = i
  · subst e; simp only [upd_same]; exact trivial
  · simp only [upd_other _ _ e]
    have := h.cell k
    revert this
    cases w.mem k <;> cases a.mem k <;> intro this
    · exact trivial
    · exact this.elim
    · exact this.elim
    · exact hXY k e _ _ this

theorem RX.mono {X Y : Nat → Obj → Option Val → Prop} {w : World} {a : AState Val} (h : RX X w a)
    (hXY : ∀ k o x, w.mem k = some o → a.mem k = some x → X k o x → Y k o x) : RX Y w a := by
  refine ⟨h.env, fun k => ?_⟩
  have := h.cell k
  revert this
  have hh := hXY k
  revert hh
  cases w.mem k <;> cases a.mem k <;> intro hh this
  · exact trivial
  · exact this.elim
  · exact this.elim
  · exact hh _ _ rfl rfl this

theorem RX.some' {X : Nat → Obj → Option Val → Prop} {w : World} {a : AState Val} (h : RX X w a) {i : Nat}
    {x : Option Val} (hx : a.mem i = some x) : ∃ o, w.mem i = some o ∧ X i o x := by
  have := h.cell i
  rw [hx] at this
  revert this
  cases w.mem i <;> intro this
  · exact this.elim
  · exact ⟨_, rfl, this⟩

theorem RX.none' {X : Nat → Obj → Option Val → Prop} {w : World} {a : AState Val} (h : RX X w a) {i : Nat}
    (hx : a.mem i = none) : w.mem i = none := by
  have := h.cell i
  rw [hx] at this
  revert this
  cases w.mem i <;> simp [Cell]

/-- replace the condition at one address -/
abbrev exc (P : Prog Val) (i : Nat) (Q : Obj → Option Val → Prop) : Nat → Obj → Option Val → Prop := upd (ObjR P) i Q

/-- the object at `i` is exactly `o`, the variable exactly `x` -/
abbrev pin (P : Prog Val) (i : Nat) (o : Obj) (x : Option Val) : Nat → Obj → Option Val → Prop :=
  exc P i (fun o' x' => o' = o ∧ x' = x)

theorem RX.toPin {P : Prog Val} {X : Nat → Obj → Option Val → Prop} {w : World} {a : AState Val} {i : Nat} {o : Obj}
    {x : Option Val} (h : RX X w a) (hX : ∀ k, k ≠ i → X k = ObjR P k) (ho : w.mem i = some o) (hx : a.mem i = some x) :
    RX (pin P i o x) w a := by
  refine h.mono fun k o' x' h1 h2 h3 => ?_
  by_cases e : k = i
  · subst e
    rw [ho] at h1; rw [hx] at h2; cases h1; cases h2
    simp only [pin, exc, upd_same]; simp
  · simp only [pin, exc, upd_other _ _ e]
    rw [hX k e] at h3; exact h3

theorem RX.unpin {P : Prog Val} {w : World} {a : AState Val} {i : Nat} {o : Obj} {x : Option Val}
    (h : RX (pin P i o x) w a) (hi : ObjR P i o x) : R P w a := by
  refine h.mono fun k o' x' _ _ h3 => ?_
  by_cases e : k = i
  · subst e
    simp only [pin, exc, upd_same] at h3
    rw [h3.1, h3.2]; exact hi
  · simp only [pin, exc, upd_other _ _ e] at h3
    exact h3

theorem RX.at {P : Prog Val} {w : World} {a : AState Val} {i : Nat} {o : Obj} {x : Option Val}
    (h : RX (pin P i o x) w a) (hi : ∃ y, a.mem i = some y) : w.mem i = some o ∧ a.mem i = some x := by
  obtain ⟨y, hy⟩ := hi
  obtain ⟨o', h1, h2⟩ := h.some' hy
  simp only [pin, exc, upd_same] at h2
  rw [h1, hy, h2.1, h2.2]; exact ⟨rfl, rfl⟩

end Opt
