import Verif.Lemmas.Stable
import Verif.Props.Engaged

/-!
# C78: references to the contained value stay good
-/

namespace Opt

variable {Val : Type} {P : Prog Val}

namespace Spec

theorem not_makes {op : Op Val} {a : AState Val} {i : Nat} (ha : op.Allowed a.mem) (h : Has i a) : i ∉ op.makes := fun hm => by
  obtain ⟨v, hv⟩ := h
  rw [ha.2.1 i hm] at hv; cases hv

theorem kept_run {i : Nat} : ∀ {ops : List (Op Val)} {a : AState Val}, Has i a → Op.AllAllowed P ops a → Op.AllSpare P i ops a →
    KeptBy P i a (run P ops a)
  | [], _, h, _, _ => Kept.refl h
  | op :: ops, a, h, ⟨h1, h2⟩, ⟨s1, s2⟩ => by
    have hk := kept_runOp (P := P) h (not_makes h1 h) s1
    have go : ∀ r a1, Prog.catch_ (runOp P op) a = .ok r a1 → Kept P i a a1 → KeptBy P i a (run P (op :: ops) a) := by
      intro r a1 hc hst
      rw [hc] at h2 s2
      have ih := kept_run hst.1 h2 s2
      simp only [run, bind_run, hc, obind_ok]
      revert ih
      cases run P ops a1 with
      | ok rs a2 => exact fun ih => Kept.trans hst ih
      | throw a2 => exact fun ih => Kept.trans hst ih
      | verify => exact fun _ => trivial
      | ub => exact fun _ => trivial
    cases hx : runOp P op a with
    | ok r a1 => rw [hx] at hk; exact go r a1 (by simp only [Prog.catch_, hx]) hk
    | throw a1 => rw [hx] at hk; exact go .threw a1 (by simp only [Prog.catch_, hx]) hk
    | verify => simp only [run, bind_run, Prog.catch_, hx]; trivial
    | ub => simp only [run, bind_run, Prog.catch_, hx]; trivial

end Spec

/-- **C78.** One operation, completed or ended by an exception: if the option is engaged and the operation is not one that ends the contained object
(`Op.ends`), that very object is still there afterwards: no destructor ran for it and no constructor in its place.
Missing: a constructor that fails in the storage of another, empty option and destroys the sentinel there (`Op.Harmless`; see `C17_violated_throwing_constructor`). -/
theorem C78_step_partial (hP : P.OK) (op : Op Val) (hl : op.Legal P) (w : World) (hw : P.Inv w) (ha : op.Allowed (P.view w))
    (hh : op.Harmless P ⟨P.view w, w.env⟩) (i : Nat) (v : Val) (hv : P.view w i = some (some v)) (he : i ∉ op.ends (P.view w)) :
    match P.runOp op w with
    | .ok _ w' => (∃ v', P.view w' i = some (some v')) ∧ ∃ evs, w'.env.log = w.env.log ++ evs ∧ P.Untouched i evs
    | .throw w' => (∃ v', P.view w' i = some (some v')) ∧ ∃ evs, w'.env.log = w.env.log ++ evs ∧ P.Untouched i evs
    | _ => True := by
  have hs := Prog.runOp_sim_harmless hP (Prog.abs_R hw) hl ha hh
  have hi : Has i (P.abs w) := ⟨v, hv⟩
  have hk := Spec.kept_runOp (P := P) hi (Spec.not_makes ha hi) he
  have hg := Spec.runOp_good hP (Spec.here_st (P := P) (P.abs w)) ha
  simp only [Prog.abs] at hs hk hg
  revert hs hk hg
  cases P.runOp op w with
  | verify => exact fun _ _ _ => trivial
  | ub => exact fun _ _ _ => trivial
  | throw w' =>
    cases Spec.runOp P op ⟨P.view w, w.env⟩ with
    | throw a =>
      intro h hk _
      obtain ⟨_, rfl⟩ := Prog.R_abs h
      exact hk
    | ub => exact fun _ _ h => h.elim
    | ok _ _ => exact fun h => h.elim
    | verify => exact fun h => h.elim
  | ok r w' =>
    cases Spec.runOp P op ⟨P.view w, w.env⟩ with
    | throw a => exact fun h => h.elim
    | ub => exact fun _ _ h => h.elim
    | ok _ _ =>
      rintro ⟨_, h⟩ hk _
      obtain ⟨_, rfl⟩ := Prog.R_abs h
      exact hk
    | verify => exact fun h => h.elim

/- option 1 holds 5 and option 0 holds 7: assigning or swapping the two ends neither of the objects; with the empty option 5 it does -/
example : (Op.assignFrom 1 0 true : Op Byte).ends (Demo.calm.view Demo.world) = [] ∧
    (Op.swap 1 0 : Op Byte).ends (Demo.calm.view Demo.world) = [] ∧
    (Op.swap 1 5 : Op Byte).ends (Demo.calm.view Demo.world) = [1] := by decide +kernel

/-- **C78.** The operations that end the contained object do end it: when they complete, its destructor has run (if it has one).  An exception from the
move out of the option is the only way for them to leave it in place.
Missing: as for `C78_step_partial`. -/
theorem C78_ends_partial (hP : P.OK) (op : Op Val) (hl : op.Legal P) (w w' : World) (hw : P.Inv w) (ha : op.Allowed (P.view w))
    (hh : op.Harmless P ⟨P.view w, w.env⟩) (i : Nat) (v : Val) (hv : P.view w i = some (some v)) (he : i ∈ op.ends (P.view w))
    (ht : P.tracked i = true) (r : Ret Val) (hr : P.runOp op w = .ok r w') :
    ∃ evs, w'.env.log = w.env.log ++ evs ∧ Event.dtor i ∈ evs := by
  have hs := Prog.runOp_sim_harmless hP (Prog.abs_R hw) hl ha hh
  have hi : Has i (P.abs w) := ⟨v, hv⟩
  have hk := fun b a' => Spec.drops_runOp (P := P) (b := b) (a' := a') ht hi (Spec.not_makes ha hi) he
  have hg := Spec.runOp_good hP (Spec.here_st (P := P) (P.abs w)) ha
  rw [hr] at hs
  simp only [Prog.abs] at hs hk hg
  revert hs hk hg
  cases Spec.runOp P op ⟨P.view w, w.env⟩ with
  | throw a => exact fun h => h.elim
  | ub => exact fun _ _ h => h.elim
  | verify => exact fun h => h.elim
  | ok b a =>
    rintro ⟨_, h⟩ hk _
    obtain ⟨_, rfl⟩ := Prog.R_abs h
    exact hk _ _ rfl

/-- `emplace` on option 1: the old value is destroyed, a new one constructed -/
example : 1 ∈ (Op.emplace 1 (.args 9) : Op Byte).ends (Demo.calm.view Demo.world) ∧ Demo.calm.tracked 1 = true ∧
    ((Demo.calm.runOp (.emplace 1 (.args 9)) Demo.world).seen.map Prod.snd) = some [.dtor 1, .ctor 1 .args] := by decide +kernel

/-- **C78.** Over a history of any length: a reference to the contained value taken at the beginning is good at the end if no operation on the way
is one that ends the object, in the state in which it is performed.
Missing: as for `C78_step_partial`. -/
theorem C78_history_partial (hP : P.OK) (ops : List (Op Val)) (hl : ∀ op ∈ ops, op.Legal P) (w : World) (hw : P.Inv w)
    (ha : Op.AllAllowed P ops ⟨P.view w, w.env⟩) (hh : Op.AllHarmless P ops ⟨P.view w, w.env⟩) (i : Nat) (v : Val)
    (hv : P.view w i = some (some v)) (he : Op.AllSpare P i ops ⟨P.view w, w.env⟩) (rs : List (Ret Val)) (w' : World)
    (hr : P.run ops w = .ok rs w') :
    (∃ v', P.view w' i = some (some v')) ∧ ∃ evs, w'.env.log = w.env.log ++ evs ∧ P.Untouched i evs := by
  have hs := Prog.run_sim_harmless hP (Prog.abs_R hw) hl ha hh
  have hi : Has i (P.abs w) := ⟨v, hv⟩
  have hk := Spec.kept_run (P := P) hi ha he
  have hg := Spec.run_good hP ⟨_, Spec.here_st (P := P) (P.abs w)⟩ ha
  rw [hr] at hs
  simp only [Prog.abs] at hs hk hg
  revert hs hk hg
  cases Spec.run P ops ⟨P.view w, w.env⟩ with
  | throw a => exact fun h => h.elim
  | ub => exact fun _ _ h => h.elim
  | verify => exact fun h => h.elim
  | ok rs' a =>
    rintro ⟨_, h⟩ hk _
    obtain ⟨_, rfl⟩ := Prog.R_abs h
    exact hk

instance Op.decAllSpare [DecidableEq Val] (P : Prog Val) (i : Nat) : ∀ (ops : List (Op Val)) (a : AState Val), Decidable (Op.AllSpare P i ops a)
  | [], _ => isTrue trivial
  | op :: ops, a => by
    unfold Op.AllSpare
    refine @instDecidableAnd _ _ inferInstance ?_
    cases Prog.catch_ (Spec.runOp P op) a with
    | ok _ a' => exact Op.decAllSpare P i ops a'
    | throw _ => exact isTrue trivial
    | verify => exact isTrue trivial
    | ub => exact isTrue trivial

/-- option 1 is assigned, swapped, moved from, and refused by `take_if` and `|=`: a reference to its value is good all the time -/
def Demo.used : List (Op Byte) := [.assignFrom 1 0 false, .swap 1 2, .ctorFrom 13 1 true, .assignValue 1 (.args 8), .orAssignFrom 1 5 false,
  .takeIf 1 17 ⟨fun _ => false, id, id⟩, .assignFrom 5 1 true, .reset 0, .swap 2 5]

example : Op.AllAllowed Demo.calm Demo.used ⟨Demo.calm.view Demo.world, Demo.world.env⟩ ∧
    Op.AllSpare Demo.calm 1 Demo.used ⟨Demo.calm.view Demo.world, Demo.world.env⟩ ∧
    (Demo.calm.run Demo.used Demo.world).seen.isSome = true := by decide +kernel

end Opt
