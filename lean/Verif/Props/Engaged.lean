import Verif.Lemmas.Engaged
import Verif.Props.HistoryExact

/-!
# C57: which operations empty or fill an option
-/

namespace Opt

variable {Val : Type} {P : Prog Val}

namespace Spec

/-- one operation a client may perform -/
theorem stays_runOp {op : Op Val} {a : AState Val} (ha : op.Allowed a.mem) : Stays op.empties op.fills a (runOp P op a) := by
  have hk := keeps_runOp P op a
  have hm : ∀ k ∈ op.makes, a.mem k = none := ha.2.1
  have go : ∀ m', Stay (op.empties ++ op.makes) (op.fills ++ op.makes) a.mem m' → Stay op.empties op.fills a.mem m' := by
    intro m' h
    refine ⟨fun k v hE hv => h.1 k v ?_ hv, fun k hF he => h.2 k ?_ he⟩
    · rw [List.mem_append, not_or]
      exact ⟨hE, fun hk => by rw [hm k hk] at hv; cases hv⟩
    · rw [List.mem_append, not_or]
      exact ⟨hF, fun hk => by rw [hm k hk] at he; cases he⟩
  revert hk
  cases runOp P op a with
  | ok _ a' => exact go a'.mem
  | throw a' => exact go a'.mem
  | verify => exact fun _ => trivial
  | ub => exact fun _ => trivial

/-- a history a client may perform -/
theorem stays_run {E F : List Nat} : ∀ {ops : List (Op Val)} {a : AState Val}, Op.AllAllowed P ops a →
    (∀ op ∈ ops, (∀ k ∈ op.empties, k ∈ E) ∧ ∀ k ∈ op.fills, k ∈ F) → Stays E F a (run P ops a)
  | [], _, _, _ => Stay.refl _
  | op :: ops, a, ⟨h1, h2⟩, hs => by
    have hk := stays_runOp (P := P) h1
    have hs0 := hs op (List.mem_cons_self ..)
    have weak : ∀ m', Stay op.empties op.fills a.mem m' → Stay E F a.mem m' := fun m' h =>
      ⟨fun k v hk hv => h.1 k v (fun h => hk (hs0.1 k h)) hv, fun k hk he => h.2 k (fun h => hk (hs0.2 k h)) he⟩
    have go : ∀ r a1, Prog.catch_ (runOp P op) a = .ok r a1 → Stay op.empties op.fills a.mem a1.mem →
        Stays E F a (run P (op :: ops) a) := by
      intro r a1 hc hst
      rw [hc] at h2
      have ih := stays_run h2 fun o ho => hs o (List.mem_cons_of_mem _ ho)
      simp only [run, bind_run, hc, obind_ok]
      revert ih
      cases run P ops a1 with
      | ok rs a2 => exact fun ih => Stay.trans (weak _ hst) ih
      | throw a2 => exact fun ih => Stay.trans (weak _ hst) ih
      | verify => exact fun _ => trivial
      | ub => exact fun _ => trivial
    cases hx : runOp P op a with
    | ok r a1 => rw [hx] at hk; exact go r a1 (by simp only [Prog.catch_, hx]) hk
    | throw a1 => rw [hx] at hk; exact go .threw a1 (by simp only [Prog.catch_, hx]) hk
    | verify => simp only [run, bind_run, Prog.catch_, hx]; trivial
    | ub => simp only [run, bind_run, Prog.catch_, hx]; trivial

end Spec

/-- **C57.** One operation, completed or ended by an exception: an engaged option is still engaged unless the operation is a
destructor, `reset`, an assignment from an option, `emplace`, `swap`, `take` or `take_if` of this option; an empty option is
still empty unless the operation is a destructor, an assignment, `emplace`, `try_emplace`, `swap` or `|=` of this option.  In
particular an option that is moved from, by whatever operation, stays engaged. -/
theorem C57_step (hP : P.OK) (op : Op Val) (hl : op.Legal P) (w : World) (hw : P.Inv w) (ha : op.Allowed (P.view w))
    (hh : op.Harmless P ⟨P.view w, w.env⟩) :
    match P.runOp op w with
    | .ok _ w' => Stay op.empties op.fills (P.view w) (P.view w')
    | .throw w' => Stay op.empties op.fills (P.view w) (P.view w')
    | _ => True := by
  have hs := Prog.runOp_sim_harmless hP (Prog.abs_R hw) hl ha hh
  have hk := Spec.stays_runOp (P := P) (a := P.abs w) ha
  have hg := Spec.runOp_good hP (Spec.here_st (P := P) (P.abs w)) ha
  simp only [Prog.abs] at hs hk hg
  revert hs hk hg
  cases P.runOp op w with
  | verify => exact fun _ _ _ => trivial
  | ub => exact fun _ _ _ => trivial
  | throw w' =>
    cases Spec.runOp P op ⟨P.view w, w.env⟩ with
    | throw a =>
      intro h hk _
      obtain ⟨_, rfl⟩ := Prog.R_abs h
      exact hk
    | ub => exact fun _ _ h => h.elim
    | ok _ _ => exact fun h => h.elim
    | verify => exact fun h => h.elim
  | ok r w' =>
    cases Spec.runOp P op ⟨P.view w, w.env⟩ with
    | throw a => exact fun h => h.elim
    | ub => exact fun _ _ h => h.elim
    | ok _ _ =>
      rintro ⟨_, h⟩ hk _
      obtain ⟨_, rfl⟩ := Prog.R_abs h
      exact hk
    | verify => exact fun h => h.elim

/- moving from option 1 (which holds 5) into a new option 9: option 1 is not in the list, so it stays engaged -/
example : (Op.ctorFrom 9 1 true : Op Byte).empties = [] ∧ (Op.ctorFrom 9 1 true : Op Byte).fills = [] := ⟨rfl, rfl⟩

/-- **C57.** Over a history of any length, started in any valid state: an option is engaged at the end if it was at the beginning
and no operation of the history is one of those that empty it, and likewise for empty options. -/
theorem C57_history (hP : P.OK) (ops : List (Op Val)) (hl : ∀ op ∈ ops, op.Legal P) (w : World) (hw : P.Inv w)
    (ha : Op.AllAllowed P ops ⟨P.view w, w.env⟩) (hh : Op.AllHarmless P ops ⟨P.view w, w.env⟩) (rs : List (Ret Val)) (w' : World)
    (hr : P.run ops w = .ok rs w') :
    (∀ i v, P.view w i = some (some v) → (∀ op ∈ ops, i ∉ op.empties) → ∃ v', P.view w' i = some (some v')) ∧
    (∀ i, P.view w i = some none → (∀ op ∈ ops, i ∉ op.fills) → P.view w' i = some none) := by
  have hs := Prog.run_sim_harmless hP (Prog.abs_R hw) hl ha hh
  have hk := Spec.stays_run (P := P) (E := ops.flatMap Op.empties) (F := ops.flatMap Op.fills) ha fun op ho =>
    ⟨fun k hk => List.mem_flatMap.2 ⟨op, ho, hk⟩, fun k hk => List.mem_flatMap.2 ⟨op, ho, hk⟩⟩
  have hg := Spec.run_good hP ⟨_, Spec.here_st (P := P) (P.abs w)⟩ ha
  rw [hr] at hs
  simp only [Prog.abs] at hs hk hg
  revert hs hk hg
  cases Spec.run P ops ⟨P.view w, w.env⟩ with
  | throw a => exact fun h => h.elim
  | ub => exact fun _ _ h => h.elim
  | verify => exact fun h => h.elim
  | ok rs' a =>
    rintro ⟨_, h⟩ hk _
    obtain ⟨_, rfl⟩ := Prog.R_abs h
    refine ⟨fun i v hv hi => hk.1 i v (fun hm => ?_) hv, fun i he hi => hk.2 i (fun hm => ?_) he⟩
    · obtain ⟨op, ho, hm⟩ := List.mem_flatMap.1 hm
      exact hi op ho hm
    · obtain ⟨op, ho, hm⟩ := List.mem_flatMap.1 hm
      exact hi op ho hm

/-- move from option 1 into option 5, then into a new option 13, and take the latter; option 1 is never emptied -/
def Demo.passing : List (Op Byte) := [.assignFrom 5 1 true, .ctorFrom 13 1 true, .take 13 17, .valueOr 1 true (.args 5)]

example : (∀ op ∈ Demo.passing, op.Legal Demo.calm) ∧ Op.AllAllowed Demo.calm Demo.passing ⟨Demo.calm.view Demo.world, Demo.world.env⟩ ∧
    Op.AllHarmless Demo.calm Demo.passing ⟨Demo.calm.view Demo.world, Demo.world.env⟩ ∧
    (Demo.calm.run Demo.passing Demo.world).seen.isSome = true ∧ (∀ op ∈ Demo.passing, 1 ∉ op.empties) := by
  refine ⟨?_, by decide +kernel, Op.allHarmless_of_throwSafe Demo.throwSafe_tidy _ _, by decide +kernel, by decide +kernel⟩
  simp only [Demo.passing, List.forall_mem_cons]
  exact ⟨trivial, trivial, trivial, Demo.dom_mk 1 (.inr (.inl rfl)), fun _ h => by cases h⟩

end Opt
