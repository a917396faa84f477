import Verif.Spec.Typestate
import Verif.Props.Engaged
import Verif.Props.Api

/-!
# C61 Typestate annotations
-/

namespace Opt

variable {Val α β : Type} {P : Prog Val}

/-- if the computation completes, the option has one of the given values -/
def Gives (i : Nat) (Q : Option Val → Prop) (x : M (AState Val) α) : Prop :=
  ∀ a r a', x a = .ok r a' → ∃ y, a'.mem i = some y ∧ Q y

namespace Gives

variable {i : Nat} {Q : Option Val → Prop}

theorem bind {x : M (AState Val) α} {f : α → M (AState Val) β} (h : ∀ r, Gives i Q (f r)) : Gives i Q (x >>= f) := by
  intro a r a' he
  rw [bind_run] at he
  cases hx : x a with
  | ok r1 a1 => rw [hx, obind_ok] at he; exact h r1 a1 r a' he
  | throw a1 => rw [hx] at he; cases he
  | verify => rw [hx] at he; cases he
  | ub => rw [hx] at he; cases he

theorem put {y : Option Val} (h : Q y) : Gives i Q (Spec.put i y) := by
  intro a r a' he
  cases he
  exact ⟨y, upd_same .., h⟩

theorem raise : Gives i Q (M.raise : M (AState Val) α) := fun _ _ _ h => by cases h
theorem bad : Gives i Q (M.bad : M (AState Val) α) := fun _ _ _ h => by cases h

theorem onThrow {x : M (AState Val) α} {c : M (AState Val) Unit} (h : Gives i Q x) : Gives i Q (M.onThrow x c) := by
  intro a r a' he
  rw [M.onThrow] at he
  cases hx : x a with
  | ok r1 a1 => rw [hx] at he; cases he; exact h a r a' hx
  | throw a1 => rw [hx] at he; simp only at he; cases hc : c a1 <;> rw [hc] at he <;> cases he
  | verify => rw [hx] at he; cases he
  | ub => rw [hx] at he; cases he

theorem asRet {x : M (AState Val) α} {f : α → Ret Val} (h : Gives i Q x) : Gives i Q (Prog.asRet f x) := by
  intro a r a' he
  rw [Prog.asRet, bind_run] at he
  cases hx : x a with
  | ok r1 a1 => rw [hx, obind_ok, pure_run] at he; cases he; exact h a r1 _ hx
  | throw a1 => rw [hx] at he; cases he
  | verify => rw [hx] at he; cases he
  | ub => rw [hx] at he; cases he

theorem put_note {y : Option Val} {t : Bool} (h : Q y) :
    Gives i Q (do Spec.put i y; if t then Spec.note .tmpDtor else pure () : M (AState Val) Unit) := by
  intro a r a' he
  cases t <;> cases he <;> exact ⟨y, upd_same .., h⟩

theorem initAs (t : Bool) (src : Src Val) : Gives i (fun y => y.isSome = true) (Spec.initAs P t i src) := by
  rw [Spec.initAs]
  refine bind fun x => ?_
  split
  · exact bad
  · refine bind fun v => ?_
    split
    · exact put rfl
    · refine bind fun n => bind fun _ => ?_
      split
      · exact raise
      · exact put_note rfl

theorem assign (src : Src Val) : Gives i (fun y => y.isSome = true) (Spec.assign P i src) := by
  rw [Spec.assign]
  refine bind fun old => bind fun v => ?_
  split
  · exact put rfl
  · refine bind fun n => ?_
    split
    split
    · exact bind fun _ => bind fun _ => raise
    · split
      · split
        · exact put rfl
        · exact put rfl
      · exact bind fun _ => put rfl

theorem clear : Gives i (fun y => y = none) (Spec.clear P i) := by
  intro a r a' he
  rw [Spec.clear, bind_run] at he
  cases hx : a.mem i with
  | none => rw [Spec.get, hx] at he; cases he
  | some x =>
    rw [Spec.get, hx, obind_ok] at he
    cases x with
    | none => cases he; exact ⟨none, hx, rfl⟩
    | some v =>
      dsimp only at he
      split at he
      · exact put (Q := fun y => y = none) rfl a r a' he
      · exact bind (fun _ => put (Q := fun y => y = none) rfl) a r a' he

theorem new : Gives i (fun y => y = none) (Spec.new i : M (AState Val) Unit) := by
  intro a r a' he
  rw [Spec.new] at he
  cases hx : a.mem i with
  | none => rw [hx] at he; cases he; exact ⟨none, upd_same .., rfl⟩
  | some x => rw [hx] at he; cases he

theorem tryEmplace (src : Src Val) : Gives i (fun y => y.isSome = true) (Spec.tryEmplace P i src) := by
  rw [Spec.tryEmplace]
  refine bind fun _ => ?_
  intro a r a' he
  rw [bind_run] at he
  cases hx : a.mem i with
  | none => rw [Spec.get, hx] at he; cases he
  | some x =>
    rw [Spec.get, hx, obind_ok] at he
    cases x with
    | none => exact initAs _ src a r a' he
    | some v => cases he; exact ⟨some v, hx, rfl⟩

theorem assignValue (src : Src Val) : Gives i (fun y => y.isSome = true) (Spec.assignValue P i src) := by
  rw [Spec.assignValue]
  refine bind fun _ => ?_
  split
  · exact initAs _ src
  · refine bind fun x => ?_
    cases x
    · exact initAs _ src
    · exact assign src

end Gives

namespace Typestate

theorem holds_some {x : Option (Option Val)} (h : ∃ y, x = some y ∧ y.isSome = true) : Holds .consumed x := by
  obtain ⟨y, h1, h2⟩ := h
  cases y with
  | none => cases h2
  | some v => exact ⟨v, h1⟩

theorem holds_none {x : Option (Option Val)} (h : ∃ y, x = some y ∧ y = none) : Holds .unconsumed x := by
  obtain ⟨y, h1, h2⟩ := h
  rw [h1, h2]
  rfl

end Typestate

/-- the annotations are right on the specification machine -/
theorem Spec.annotated {c : Call Val} {a a' : AState Val} {r : Ret Val} (he : Spec.runOp P c.toOp a = .ok r a') :
    ∀ p ∈ c.annotated, p.2.Holds (a'.mem p.1) := by
  have one : ∀ {i : Nat} {t : Typestate}, t.Holds (a'.mem i) → ∀ p ∈ [(i, t)], p.2.Holds (a'.mem p.1) := by
    intro i t h p hp
    rw [List.mem_singleton] at hp
    rw [hp]
    exact h
  cases c with
  | assignNone i => exact one (Typestate.holds_none (Gives.asRet Gives.clear a r a' he))
  | op o =>
    cases o <;> try exact fun _ h => absurd h List.not_mem_nil
    case ctorDefault i => exact one (Typestate.holds_none (Gives.asRet Gives.new a r a' he))
    case ctorValue i src =>
      exact one (Typestate.holds_some (Gives.asRet (Gives.bind fun _ => Gives.bind fun _ => Gives.onThrow (Gives.initAs _ src)) a r a' he))
    case assignValue i src => exact one (Typestate.holds_some (Gives.asRet (Gives.assignValue src) a r a' he))
    case emplace i src =>
      exact one (Typestate.holds_some (Gives.asRet (Gives.bind fun _ => Gives.bind fun _ => Gives.initAs _ src) a r a' he))
    case tryEmplace i src => exact one (Typestate.holds_some (Gives.asRet (Gives.tryEmplace src) a r a' he))
    case take i q =>
      intro p hp
      simp only [Call.annotated, List.mem_cons, List.not_mem_nil, or_false] at hp
      rcases hp with rfl | rfl
      · exact Typestate.holds_none (Gives.asRet (Gives.bind fun _ => Gives.clear) a r a' he)
      · trivial

theorem Gives.ctorFrom {i j : Nat} {mv : Bool} {a a' : AState Val} {v : Val} {r : Unit} (hj : a.mem j = some (some v))
    (he : Spec.ctorFrom P i j mv a = .ok r a') : ∃ u, a'.mem i = some (some u) := by
  rw [Spec.ctorFrom, bind_run, Spec.get, hj, obind_ok] at he
  exact Typestate.holds_some (Gives.bind (fun _ => Gives.onThrow (Gives.initAs _ _)) a r a' he)

/-- the options an operation may empty: by annotation, silently, or as a destructor -/
theorem Call.mem_empties {c : Call Val} {k : Nat} (h : k ∈ c.toOp.empties) :
    k ∈ c.silentlyEmpties ∨ (∃ t, c.annotated.lookup k = some t) ∨ c = .op (.dtor k) ∨ ∃ i, c = .op (.swap i k) := by
  cases c with
  | assignNone i =>
    rw [List.mem_singleton.1 h]
    exact .inr (.inl ⟨.unconsumed, by simp [annotated]⟩)
  | op o =>
    cases o <;> try exact absurd h List.not_mem_nil
    case dtor i => rw [List.mem_singleton.1 h]; exact .inr (.inr (.inl rfl))
    case reset i => exact .inl h
    case assignFrom i j mv => exact .inl h
    case emplace i src => rw [List.mem_singleton.1 h]; exact .inr (.inl ⟨.consumed, by simp [annotated]⟩)
    case swap i j =>
      rcases List.mem_cons.1 h with h | h
      · exact .inl (h ▸ List.mem_cons_self)
      · rw [List.mem_singleton.1 h]; exact .inr (.inr (.inr ⟨i, rfl⟩))
    case take i q => rw [List.mem_singleton.1 h]; exact .inr (.inl ⟨.unconsumed, by simp [annotated]⟩)
    case takeIf i q f => exact .inl h

/-- one call of the specification that completes -/
theorem Spec.track_sound {c : Call Val} {σ : Nat → Typestate} {a a' : AState Val} {r : Ret Val} (ha : c.toOp.Allowed a.mem)
    (he : Spec.runOp P c.toOp a = .ok r a') (hs : ∀ k ∈ c.silentlyEmpties, σ k ≠ .consumed) (h : Sound σ a.mem) :
    Sound (P.track false c σ) a'.mem := by
  have hk := Spec.stays_runOp (P := P) ha
  rw [he] at hk
  intro k ht
  unfold Prog.track at ht
  cases hl : c.annotated.lookup k with
  | some t =>
    rw [hl] at ht
    simp only at ht
    have hm : (k, t) ∈ c.annotated := by
      obtain ⟨l1, l2, h1, _⟩ := List.lookup_eq_some_iff.1 hl
      rw [h1]
      simp
    have := Spec.annotated he (k, t) hm
    rw [ht] at this
    exact this
  | none =>
    rw [hl] at ht
    simp only [Bool.false_and, Bool.false_eq_true, if_false] at ht
    have stay : σ k = .consumed → c ≠ .op (.dtor k) → (∀ i, c ≠ .op (.swap i k)) → ∃ v, a'.mem k = some (some v) := by
      intro hc hd hw
      obtain ⟨v, hv⟩ := h k hc
      refine hk.1 k v (fun hm => ?_) hv
      rcases Call.mem_empties hm with h1 | ⟨t, h1⟩ | h1 | ⟨i, h1⟩
      · exact hs k h1 hc
      · rw [hl] at h1; cases h1
      · exact hd h1
      · exact hw i h1
    split at ht
    · rename_i i j mv
      split at ht
      · rename_i hki
        subst hki
        split at ht
        · obtain ⟨v, hv⟩ := h j ht
          rw [Call.toOp, Spec.runOp, Prog.asRet, bind_run] at he
          cases hx : Spec.ctorFrom P k j mv a with
          | ok _ a1 =>
            rw [hx, obind_ok] at he
            cases he
            exact Gives.ctorFrom hv hx
          | throw _ => rw [hx] at he; cases he
          | verify => rw [hx] at he; cases he
          | ub => rw [hx] at he; cases he
        · cases ht
      · exact stay ht (fun h => by cases h) (fun _ h => by cases h)
    · rename_i i
      split at ht
      · cases ht
      · rename_i hki
        exact stay ht (fun h => hki (by cases h; rfl)) (fun _ h => by cases h)
    · rename_i i j
      split at ht
      · cases ht
      · rename_i hki
        exact stay ht (fun h => by cases h) (fun _ h => hki (by cases h; rfl))
    · rename_i hd hw
      split at ht
      · cases ht
      · exact stay ht (hd k) (fun i h => hw i k h)

/-- C61, annotations: a call that completes leaves every option that its annotation mentions in the annotated state. -/
theorem C61_annotations (hP : P.OK) (c : Call Val) (hl : c.toOp.Legal P) (w : World) (hw : P.Inv w) (ha : c.toOp.Allowed (P.view w))
    (hh : c.toOp.Harmless P ⟨P.view w, w.env⟩) (r : Ret Val) (w' : World) (he : P.runOp c.toOp w = .ok r w') :
    ∀ p ∈ c.annotated, p.2.Holds (P.view w' p.1) := by
  have hs := Prog.runOp_sim_harmless hP (Prog.abs_R hw) hl ha hh
  have hg := Spec.runOp_good hP (Spec.here_st (P := P) (P.abs w)) ha
  rw [he] at hs
  simp only [Prog.abs] at hs hg
  cases hx : Spec.runOp P c.toOp ⟨P.view w, w.env⟩ with
  | ok r' a =>
    rw [hx] at hs
    obtain ⟨_, rfl⟩ := Prog.R_abs hs.2
    exact Spec.annotated hx
  | throw a => rw [hx] at hs; exact hs.elim
  | verify => rw [hx] at hs; exact hs.elim
  | ub => rw [hx] at hg; exact hg.elim

/-- C61, accessors: those annotated `OPTION_CALLABLE_WHEN(consumed)` succeed if the option has a value; if it is empty the check
stops the program. -/
theorem C61_callable_when {w : World} (hw : P.Inv w) {i : Nat} {x : Option Val} (hx : P.view w i = some x) :
    Typestate.consumed.Holds (P.view w i) ↔ ∃ v, P.get i w = .ok v w := by
  cases x with
  | none =>
    rw [(C24_empty hw hx).1, hx]
    exact ⟨fun ⟨_, h⟩ => (by cases h), fun ⟨_, h⟩ => (by cases h)⟩
  | some v => exact ⟨fun _ => ⟨v, (C24_engaged hw hx).1⟩, fun _ => ⟨v, hx⟩⟩

/-- C61, one call: if all options assumed to have a value have one before a call that completes, then also afterwards, by the
annotations and default rules.
Missing: calls that silently empty an option assumed to have a value (`reset()`, `swap`, `take_if`, assignment from an option;
`C61_violated_reset`, `C61_violated_assign`, `C61_violated_swap`), and Clang's rule for moved-from variables (`C61_violated_moved`). -/
theorem C61_step_partial (hP : P.OK) (c : Call Val) (hl : c.toOp.Legal P) (w : World) (hw : P.Inv w) (ha : c.toOp.Allowed (P.view w))
    (hh : c.toOp.Harmless P ⟨P.view w, w.env⟩) (r : Ret Val) (w' : World) (he : P.runOp c.toOp w = .ok r w')
    (σ : Nat → Typestate) (hs : ∀ k ∈ c.silentlyEmpties, σ k ≠ .consumed) (h : Sound σ (P.view w)) :
    Sound (P.track false c σ) (P.view w') := by
  have hr := Prog.runOp_sim_harmless hP (Prog.abs_R hw) hl ha hh
  have hg := Spec.runOp_good hP (Spec.here_st (P := P) (P.abs w)) ha
  rw [he] at hr
  simp only [Prog.abs] at hr hg
  cases hx : Spec.runOp P c.toOp ⟨P.view w, w.env⟩ with
  | ok r' a =>
    rw [hx] at hr
    obtain ⟨_, rfl⟩ := Prog.R_abs hr.2
    exact Spec.track_sound ha hx hs h
  | throw a => rw [hx] at hr; exact hr.elim
  | verify => rw [hx] at hr; exact hr.elim
  | ub => rw [hx] at hg; exact hg.elim

/-- C61, histories of any length without exceptions, from any valid state: as long as no call silently empties an option assumed to
have a value, every option assumed to have a value at the end has one, so that its accessors succeed. -/
theorem C61_history_partial (hP : P.OK) : ∀ (cs : List (Call Val)) (_ : ∀ c ∈ cs, c.toOp.Legal P) (w : World) (_ : P.Inv w)
    (_ : Op.AllAllowed P (cs.map Call.toOp) ⟨P.view w, w.env⟩) (_ : Op.AllHarmless P (cs.map Call.toOp) ⟨P.view w, w.env⟩)
    (rs : List (Ret Val)) (w' : World) (_ : P.run (cs.map Call.toOp) w = .ok rs w') (_ : Ret.threw ∉ rs)
    (σ : Nat → Typestate) (_ : P.Careful cs σ) (_ : Sound σ (P.view w)),
    Sound (P.trackAll false cs σ) (P.view w') ∧ ∀ i, P.trackAll false cs σ i = .consumed → ∃ v, P.get i w' = .ok v w'
  | [], _, w, hw, _, _, rs, w', he, _, σ, _, h => by
    rw [List.map_nil, Prog.run, pure_run] at he
    cases he
    exact ⟨h, fun i hi => by obtain ⟨v, hv⟩ := h i hi; exact ⟨v, (C24_engaged hw hv).1⟩⟩
  | c :: cs, hl, w, hw, ha, hh, rs, w', he, ht, σ, hs, h => by
    have hr := Prog.runOp_sim_harmless hP (Prog.abs_R hw) (hl c List.mem_cons_self) ha.1 hh.1
    have hg := Spec.runOp_good hP (Spec.here_st (P := P) (P.abs w)) ha.1
    have ha2 := ha.2
    have hh2 := hh.2
    rw [List.map_cons, Prog.run, bind_run] at he
    simp only [Prog.abs] at hr hg
    cases hx : P.runOp c.toOp w with
    | verify => simp only [Prog.catch_, hx] at he; cases he
    | ub => simp only [Prog.catch_, hx] at he; cases he
    | throw w1 =>
      simp only [Prog.catch_, hx, obind_ok, bind_run] at he
      exfalso
      cases h2 : P.run (cs.map Call.toOp) w1 with
      | ok rs1 w2 => rw [h2, obind_ok, pure_run] at he; cases he; exact ht List.mem_cons_self
      | throw _ => rw [h2] at he; cases he
      | verify => rw [h2] at he; cases he
      | ub => rw [h2] at he; cases he
    | ok r w1 =>
      simp only [Prog.catch_, hx, obind_ok, bind_run] at he
      have step := C61_step_partial hP c (hl c List.mem_cons_self) w hw ha.1 hh.1 r w1 hx σ hs.1 h
      rw [hx] at hr
      cases hy : Spec.runOp P c.toOp ⟨P.view w, w.env⟩ with
      | throw a => rw [hy] at hr; exact hr.elim
      | verify => rw [hy] at hr; exact hr.elim
      | ub => rw [hy] at hg; exact hg.elim
      | ok r' a =>
        rw [hy] at hr
        obtain ⟨hw1, rfl⟩ := Prog.R_abs hr.2
        simp only [Prog.catch_, hy] at ha2 hh2
        cases h2 : P.run (cs.map Call.toOp) w1 with
        | ok rs1 w2 =>
          rw [h2, obind_ok, pure_run] at he
          cases he
          exact C61_history_partial hP cs (fun c' h' => hl c' (List.mem_cons_of_mem _ h')) w1 hw1 ha2 hh2 rs1 _ h2
            (fun h' => ht (List.mem_cons_of_mem _ h')) _ hs.2 step
        | throw _ => rw [h2] at he; cases he
        | verify => rw [h2] at he; cases he
        | ub => rw [h2] at he; cases he

/-- Violation: `reset()` is not annotated, unlike `operator=(none_t)`, which does the same.  In every valid state, an option with a
value is assumed to have one after `reset()`; it is empty, and the accessor that the analysis accepts stops the program. -/
theorem C61_violated_reset (hP : P.OK) {w : World} (hw : P.Inv w) {i : Nat} {v : Val} (hx : P.view w i = some (some v)) (b : Bool)
    (σ : Nat → Typestate) (hσ : σ i = .consumed) :
    (∃ w', P.reset i w = .ok () w' ∧ P.view w' i = some none ∧ P.get i w' = .verify) ∧
    P.track b (.op (.reset i)) σ i = .consumed ∧ P.track b (.assignNone i) σ i = .unconsumed := by
  obtain ⟨w', h1, h2, h3, _⟩ := C20_reset hP hw hx
  have h4 : P.view w' i = some none := by rw [h3, upd_same]
  refine ⟨⟨w', h1, h4, (C24_empty h2 h4).1⟩, ?_, ?_⟩
  · simp [Prog.track, Call.annotated, Call.movedArg, Call.toOp, Op.makes, hσ]
  · simp [Prog.track, Call.annotated]

/-- Violation: assignment from an option is not annotated either, so after assignment from an empty option the target is still assumed
to have a value. -/
theorem C61_violated_assign (hP : P.OK) {w : World} (hw : P.Inv w) {i j : Nat} {v : Val} (hx : P.view w i = some (some v))
    (hy : P.view w j = some none) (mv b : Bool) (σ : Nat → Typestate) (hσ : σ i = .consumed) :
    (∃ w', P.assignFrom i j mv w = .ok () w' ∧ P.view w' i = some none ∧ P.get i w' = .verify) ∧
    P.track b (.op (.assignFrom i j mv)) σ i = .consumed := by
  obtain ⟨w', h1, h2, h3, _⟩ := C20_assign_from_empty (mv := mv) hP hw hx hy
  have h4 : P.view w' i = some none := by rw [h3, upd_same]
  refine ⟨⟨w', h1, h4, (C24_empty h2 h4).1⟩, ?_⟩
  simp [Prog.track, Call.annotated, Call.toOp, Op.makes, hσ]

/-- Violation: nor is `swap`; the option it is called on is still assumed to have a value after it gave it to an empty one. -/
theorem C61_violated_swap (hP : P.OK) {w : World} (hw : P.Inv w) {i j : Nat} {v : Val} (hx : P.view w i = some (some v))
    (hy : P.view w j = some none) (ht : P.CtorOK j (.opt i true) w.env.tick) (b : Bool) (σ : Nat → Typestate) (hσ : σ i = .consumed) :
    (∃ w', P.swap i j w = .ok () w' ∧ P.view w' i = some none ∧ P.get i w' = .verify) ∧
    P.track b (.op (.swap i j)) σ i = .consumed := by
  obtain ⟨w', h1, h2, h3, _⟩ := C22_swap_left hP hw hx hy ht
  have h4 : P.view w' i = some none := by rw [h3, upd_same]
  refine ⟨⟨w', h1, h4, (C24_empty h2 h4).1⟩, ?_⟩
  have hij : i ≠ j := fun h => by rw [h, hy] at hx; cases hx
  simp [Prog.track, Call.annotated, Call.movedArg, hσ, hij]

/-- Violation: Clang assumes that a variable given as an rvalue reference is `consumed` afterwards.  Here this means that an empty option
that was moved from is assumed to have a value, even after it was found to be empty. -/
theorem C61_violated_moved (hP : P.OK) {w : World} (hw : P.Inv w) {i j : Nat} (hx : P.view w i = none) (hy : P.view w j = some none)
    (σ : Nat → Typestate) :
    (∃ w', P.ctorFrom i j true w = .ok () w' ∧ P.view w' j = some none ∧ P.get j w' = .verify) ∧
    P.track true (.op (.ctorFrom i j true)) σ j = .consumed := by
  obtain ⟨w', h1, h2, h3, _⟩ := C20_construct_from_empty (mv := true) hP hw hx hy
  have hij : j ≠ i := fun h => by rw [h, hx] at hy; cases hy
  have h4 : P.view w' j = some none := by rw [h3, upd_other _ _ hij, hy]
  refine ⟨⟨w', h1, h4, (C24_empty h2 h4).1⟩, ?_⟩
  simp [Prog.track, Call.annotated, Call.movedArg]

/-- Violation: what unannotated functions return gets the state of the class, `unconsumed`; a conversion of an option with a value to
another option type gives an option with a value that is assumed to be empty. -/
theorem C61_violated_class (hP : P.OK) {w : World} (hw : P.Inv w) {i j : Nat} {v : Val} (hx : P.view w i = none)
    (hy : P.view w j = some (some v)) (hc : P.cls i ≠ P.cls j) (mv b : Bool) (ht : P.CtorOK i (.opt j mv) w.env.tick)
    (σ : Nat → Typestate) :
    (∃ w', P.ctorFrom i j mv w = .ok () w' ∧ ∃ u, P.view w' i = some (some u)) ∧
    P.track b (.op (.ctorFrom i j mv)) σ i = .unconsumed := by
  obtain ⟨w', h1, _, h3, _⟩ := C20_construct_from_engaged (mv := mv) hP hw hx hy ht
  have hij : i ≠ j := fun h => by rw [h, hy] at hx; cases hx
  refine ⟨⟨w', h1, _, by rw [h3, upd_same]⟩, ?_⟩
  cases mv <;> simp [Prog.track, Call.annotated, Call.movedArg, classTypestate, hc, hij.symm]

/-! Cases that meet the hypotheses. -/

/-- a sequence of calls: a value is assigned to the empty option 5, it is copied, and given up by `take` -/
def Demo.watched : List (Call Byte) :=
  [.op (.assignValue 5 (.args 8)), .op (.ctorFrom 13 5 false), .op (.take 5 17), .op (.reset 5), .op (.assignFrom 5 13 false)]

example : (∀ c ∈ Demo.watched, c.toOp.Legal Demo.calm) ∧
    Op.AllAllowed Demo.calm (Demo.watched.map Call.toOp) ⟨Demo.calm.view Demo.world, Demo.world.env⟩ ∧
    Op.AllHarmless Demo.calm (Demo.watched.map Call.toOp) ⟨Demo.calm.view Demo.world, Demo.world.env⟩ ∧
    (Demo.calm.run (Demo.watched.map Call.toOp) Demo.world).seen.isSome = true ∧
    Demo.calm.Careful Demo.watched (fun _ => .unknown) ∧ Sound (fun _ => .unknown) (Demo.calm.view Demo.world) ∧
    Demo.calm.trackAll false Demo.watched (fun _ => .unknown) 13 = .consumed := by
  refine ⟨?_, by decide +kernel, Op.allHarmless_of_throwSafe Demo.throwSafe_tidy _ _, by decide +kernel, ?_, (fun _ h => by cases h), by decide +kernel⟩
  · simp only [Demo.watched, List.forall_mem_cons]
    exact ⟨Demo.dom_mk 1 (.inr (.inl rfl)), trivial, trivial, trivial, trivial, fun _ h => by cases h⟩
  · simp only [Demo.watched, Prog.Careful]
    decide +kernel

example : ∃ w', Demo.angry.reset 1 Demo.world = .ok () w' ∧ Demo.angry.view w' 1 = some none ∧ Demo.angry.get 1 w' = .verify :=
  (C61_violated_reset Demo.ok_tidy Demo.inv Demo.view1 true (fun _ => .consumed) rfl).1

example : ∃ w', Demo.angry.assignFrom 1 5 false Demo.world = .ok () w' ∧ Demo.angry.view w' 1 = some none ∧
    Demo.angry.get 1 w' = .verify :=
  (C61_violated_assign Demo.ok_tidy Demo.inv Demo.view1 Demo.view5 false true (fun _ => .consumed) rfl).1

example : ∃ w', Demo.calm.swap 1 5 Demo.world = .ok () w' ∧ Demo.calm.view w' 1 = some none ∧ Demo.calm.get 1 w' = .verify :=
  (C61_violated_swap Demo.ok_tidy Demo.inv Demo.view1 Demo.view5 (.inr rfl) true (fun _ => .consumed) rfl).1

example : ∃ w', Demo.angry.ctorFrom 13 5 true Demo.world = .ok () w' ∧ Demo.angry.view w' 5 = some none ∧
    Demo.angry.get 5 w' = .verify :=
  (C61_violated_moved Demo.ok_tidy Demo.inv Demo.view13 Demo.view5 (fun _ => .unconsumed)).1

example : ∃ w', Demo.calm.ctorFrom 13 0 false Demo.world = .ok () w' ∧ ∃ u, Demo.calm.view w' 13 = some (some u) :=
  (C61_violated_class Demo.ok_tidy Demo.inv Demo.view13 Demo.view0 (by decide) false true (.inr rfl) (fun _ => .consumed)).1

end Opt
