import Verif.Lemmas.UnzipSim

/-!
# Histories: simulation and lifetimes
-/

namespace Opt

variable {Val : Type} {P : Prog Val} {B : Base}

open Prog in
theorem asRet_rel {α β : Type} {w : World} {a : AState Val} {B : α → World → β → AState Val → Prop}
    {C : World → AState Val → Prop} {x : M World α} {y : M (AState Val) β} {f : α → Ret Val} {g : β → Ret Val}
    (h : Out.Rel B C (x w) (y a)) (hB : ∀ r w' r' a', B r w' r' a' → f r = g r' ∧ R P w' a')
    (hC : ∀ w' a', C w' a' → R P w' a') :
    Out.Rel (fun r w' r' a' => r = r' ∧ R P w' a') (R P) (asRet f x w) (asRet g y a) :=
  rel_bind (rel_mono h (fun _ _ _ _ h => h) hC) fun r w' r' a' h => hB r w' r' a' h

open Prog in
theorem asRet_unit {w : World} {a : AState Val} {x : M World Unit} {y : M (AState Val) Unit}
    (h : Out.Rel (fun _ w' _ a' => R P w' a') (R P) (x w) (y a)) :
    Out.Rel (fun r w' r' a' => r = r' ∧ R P w' a') (R P)
      (asRet (fun _ => (Ret.unit : Ret Val)) x w) (asRet (fun _ => (Ret.unit : Ret Val)) y a) :=
  asRet_rel h (fun _ _ _ _ h => ⟨rfl, h⟩) (fun _ _ h => h)

open Prog in
theorem asRet_val {α : Type} {w : World} {a : AState Val} {x : M World α} {y : M (AState Val) α} {f : α → Ret Val}
    (h : Out.Rel (fun u w' v a' => u = v ∧ R P w' a') (R P) (x w) (y a)) :
    Out.Rel (fun r w' r' a' => r = r' ∧ R P w' a') (R P) (asRet f x w) (asRet f y a) :=
  asRet_rel h (fun _ _ _ _ h => ⟨by rw [h.1], h.2⟩) (fun _ _ h => h)

namespace Prog

theorem runOp_sim (hP : P.OK) (hT : P.ThrowSafe) {w : World} {a : AState Val} {op : Op Val}
    (h : R P w a) (hl : op.Legal P) :
    Out.Rel (fun r w' r' a' => r = r' ∧ R P w' a') (R P) (P.runOp op w) (Spec.runOp P op a) := by
  cases op with
  | ctorDefault i => exact asRet_unit (rel_nothrow (ctorDefault_sim hP h))
  | ctorValue i src => exact asRet_unit (ctorValue_sim hP h hl)
  | ctorFrom i j mv => exact asRet_unit (ctorFrom_sim hP (fun _ => .of hT _ _ _) h)
  | dtor i => exact asRet_unit (rel_nothrow (dtor_sim hP h))
  | reset i => exact asRet_unit (rel_nothrow (reset_sim hP h))
  | assignFrom i j mv => exact asRet_unit (assignFrom_sim hP (fun _ _ => .of hT _ _ _) h)
  | assignValue i src => exact asRet_unit (assignValue_sim hP (fun _ => .of hT _ _ _) h hl)
  | emplace i src => exact asRet_unit (emplace_sim hP (.of hT _ _ _) h hl)
  | tryEmplace i src => exact asRet_unit (tryEmplace_sim hP (fun _ => .of hT _ _ _) h hl)
  | swap i j => exact asRet_unit (swap_sim hP (fun _ _ => .of hT _ _ _) (fun _ _ => .of hT _ _ _) h)
  | take i r => exact asRet_unit (take_sim hP (fun _ => .of hT _ _ _) h)
  | takeIf i r f => exact asRet_unit (takeIf_sim hP (fun _ _ _ _ => .of hT _ _ _) h hl)
  | hasValue i =>
    refine asRet_val (rel_nothrow ?_)
    simp only [Spec.engaged, bind_run]
    cases hi : a.mem i with
    | none => simp only [Spec.get_none hi, obind_ub]; exact rel_ub _
    | some x =>
      obtain ⟨o, ho, hr⟩ := h.some' hi
      rw [hasValue_run ho hr, Spec.get_run hi]
      exact ⟨rfl, h⟩
  | get i =>
    refine asRet_val (rel_nothrow (rel_mono (get_sim h) ?_ (fun _ _ h => h)))
    rintro _ _ _ _ ⟨rfl, rfl, rfl⟩; exact ⟨rfl, h⟩
  | getUnchecked i =>
    refine asRet_val (rel_nothrow (rel_mono (readT_sim w h) ?_ (fun _ _ h => h)))
    rintro _ _ _ _ ⟨rfl, rfl, rfl, _⟩; exact ⟨rfl, h⟩
  | valueOrThrow i =>
    refine asRet_val (rel_mono (valueOrThrow_sim h) ?_ ?_)
    · rintro _ _ _ _ ⟨rfl, rfl, rfl⟩; exact ⟨rfl, h⟩
    · rintro _ _ ⟨rfl, rfl⟩; exact h
  | ptrOrNull i =>
    refine asRet_val (rel_nothrow (rel_mono (ptrOrNull_sim h) ?_ (fun _ _ h => h)))
    rintro _ _ _ _ ⟨rfl, rfl, rfl⟩; exact ⟨rfl, h⟩
  | valueOr i mv d => exact asRet_val (valueOr_sim hP h hl)
  | hasValueAnd i f => exact asRet_val (hasValueAnd_sim hP h hl)
  | inspect i f => exact asRet_unit (inspect_sim hP h hl)
  | mapOr i d f => exact asRet_val (mapOr_sim hP h hl)
  | mapOrElse i d f => exact asRet_val (mapOrElse_sim hP h hl)
  | map i r f => exact asRet_unit (map_sim hP h hl.1 hl.2)
  | andThen i r f => exact asRet_unit (andThen_sim hP h hl.1 hl.2)
  | orElse i r mv x => exact asRet_unit (orElse_sim hP (fun _ => .of hT _ _ _) h hl)
  | filter i r mv f => exact asRet_unit (filter_sim hP h hl)
  | orOp i j r mi mj => exact asRet_unit (orOp_sim hP (fun _ => .of hT _ _ _) (fun _ _ => .of hT _ _ _) h)
  | orAssignValue i src => exact asRet_unit (orAssignValue_sim hP (fun _ => .of hT _ _ _) h hl)
  | orAssignFrom i j mv => exact asRet_unit (orAssignFrom_sim hP (fun _ _ => .of hT _ _ _) h)
  | andOp i j r mv => exact asRet_unit (andOp_sim hP (fun _ _ => .of hT _ _ _) h)
  | xorOp i j r mi mj => exact asRet_unit (xorOp_sim hP (fun _ _ => .of hT _ _ _) (fun _ _ => .of hT _ _ _) h)
  | zip is r g => exact asRet_unit (zip_sim hP h hl)
  | zipWith is r g => exact asRet_unit (zipWith_sim hP h hl)
  | ioWrite i d => exact asRet_val (ioWrite_sim h)
  | ioRead i d v => exact asRet_val (ioRead_sim hP h hl)
  | cmp o rel i j => exact asRet_val (cmp_sim h)
  | cmpNone o i => exact asRet_val (cmpNone_sim h)
  | noneCmp o i => exact asRet_val (noneCmp_sim h)
  | cmpVal o rel i v => exact asRet_val (cmpVal_sim h)
  | valCmp o rel v i => exact asRet_val (valCmp_sim h)
  | hash i f => exact asRet_val (hash_sim h)
  | forEach i f => exact asRet_unit (forEach_sim hP h hl)
  | unzipArray q i mv rs => exact asRet_unit (unzipNew_sim hP h hl)
  | unzipTuple q i mv ts ms =>
    exact asRet_unit (unzipVia_sim hP h hl fun _ _ _ _ _ _ _ _ _ _ _ => .of hT _ _ _)

theorem catch_sim {w : World} {a : AState Val} {x : M World (Ret Val)} {y : M (AState Val) (Ret Val)}
    (h : Out.Rel (fun r w' r' a' => r = r' ∧ R P w' a') (R P) (x w) (y a)) :
    Out.Rel (fun r w' r' a' => r = r' ∧ R P w' a') (fun _ _ => False) (catch_ x w) (catch_ y a) := by
  simp only [catch_]
  revert h
  cases y a with
  | ub => intro _; exact rel_ub _
  | ok _ _ =>
    cases x w with
    | ok _ _ => exact fun h => h
    | throw _ => exact fun h => h.elim
    | verify => exact fun h => h.elim
    | ub => exact fun h => h.elim
  | verify =>
    cases x w with
    | verify => exact fun h => h
    | ok _ _ => exact fun h => h.elim
    | throw _ => exact fun h => h.elim
    | ub => exact fun h => h.elim
  | throw _ =>
    cases x w with
    | throw _ => exact fun h => ⟨rfl, h⟩
    | ok _ _ => exact fun h => h.elim
    | verify => exact fun h => h.elim
    | ub => exact fun h => h.elim

theorem run_sim (hP : P.OK) (hT : P.ThrowSafe) : ∀ {ops : List (Op Val)} {w : World} {a : AState Val},
    R P w a → (∀ op ∈ ops, op.Legal P) →
    Out.Rel (fun r w' r' a' => r = r' ∧ R P w' a') (fun _ _ => False) (P.run ops w) (Spec.run P ops a)
  | [], _, _, h, _ => ⟨rfl, h⟩
  | op :: ops, w, a, h, hl => by
    refine rel_bind (catch_sim (runOp_sim hP hT h (hl op List.mem_cons_self))) ?_
    rintro r w1 r' a1 ⟨rfl, h1⟩
    refine rel_bind (run_sim hP hT h1 fun o ho => hl o (List.mem_cons_of_mem _ ho)) ?_
    rintro rs w2 rs' a2 ⟨rfl, h2⟩
    exact ⟨rfl, h2⟩

end Prog

namespace Spec

variable {s : Nat → Option Bool} {a : AState Val}

theorem asRet_good {α : Type} {x : M (AState Val) α} {f : α → Ret Val} (h : Good B P (x a)) :
    Good B P (Prog.asRet f x a) := safe_bind h fun _ _ h => h

theorem runOp_good (hP : P.OK) (h : St B P s a) {op : Op Val} (hal : op.Allowed a.mem) : Good B P (runOp P op a) := by
  obtain ⟨hu, hm, hnd, hx⟩ := hal
  have fine : Fine B P a := ⟨s, h⟩
  cases op with
  | ctorDefault i => exact asRet_good (good_of' (new_safe h (h.of_none (hm i (List.mem_singleton.2 rfl)))))
  | ctorValue i src =>
    refine asRet_good (safe_bind (safe_nothrow (evalArg_safe h hu)) ?_)
    rintro _ a' ⟨rfl, hs⟩
    exact good_of (create_safe hP h (h.of_none (hm i (List.mem_singleton.2 rfl))) hs)
  | ctorFrom i j mv =>
    exact asRet_good (safe_mono (ctorFrom_safe hP h (h.of_none (hm i (List.mem_singleton.2 rfl))) (hu j (by simp [Op.uses])))
      (fun _ _ ⟨_, h⟩ => ⟨_, h⟩) (fun _ h => ⟨_, h⟩))
  | dtor i =>
    obtain ⟨x, hi⟩ := Option.ne_none_iff_exists'.1 (hu i (by simp [Op.uses]))
    refine asRet_good (safe_bind (safe_nothrow (clear_safe h (h.of_mem hi))) ?_)
    intro _ a' h'
    exact good_of' (del_safe h' (upd_same _ _ _))
  | reset i =>
    obtain ⟨x, hi⟩ := Option.ne_none_iff_exists'.1 (hu i (by simp [Op.uses]))
    exact asRet_good (good_of' (clear_safe h (h.of_mem hi)))
  | assignFrom i j mv =>
    refine asRet_good (safe_bind (safe_nothrow (get_safe h (hu i (by simp [Op.uses])))) ?_)
    rintro x a' ⟨rfl, hxi, hsi⟩
    refine safe_bind (safe_nothrow (get_safe h (hu j (by simp [Op.uses])))) ?_
    rintro y a' ⟨rfl, hyj, hsj⟩
    cases y with
    | none => exact good_of' (clear_safe h hsi)
    | some v =>
      refine safe_bind (safe_nothrow (get_safe h (hu i (by simp [Op.uses])))) ?_
      rintro x a' ⟨rfl, hxi, hsi⟩
      cases x with
      | some u => exact good_of (assign_safe h hsi hsj)
      | none =>
        have hs : SrcOK s (.opt (Val := Val) j mv) := hsj
        exact good_of (init_safe hP h hsi (.inl ⟨rfl, hs.notSelf (by rw [hsi]; nofun)⟩) hs)
  | assignValue i src =>
    refine asRet_good (safe_bind (safe_nothrow (evalArg_safe h fun j hj => hu j (List.mem_cons_of_mem _ hj))) ?_)
    rintro _ a' ⟨rfl, hs⟩
    obtain ⟨x, hi⟩ := Option.ne_none_iff_exists'.1 (hu i (by simp [Op.uses]))
    have hsi := h.of_mem hi
    by_cases hsc : (P.elem i).scalar = true
    · simp only [hsc, if_true]
      exact good_of (init_safe hP h hsi (.inr hsc) hs)
    · simp only [hsc, Bool.false_eq_true, if_false, bind_run, get_run hi, obind_ok]
      cases x with
      | some u => exact good_of (assign_safe h hsi hs)
      | none => exact good_of (init_safe hP h hsi (.inl ⟨rfl, hs.notSelf (by rw [hsi]; nofun)⟩) hs)
  | emplace i src =>
    refine asRet_good (safe_bind (safe_nothrow (evalArg_safe h fun j hj => hu j (List.mem_cons_of_mem _ hj))) ?_)
    rintro _ a' ⟨rfl, hs⟩
    obtain ⟨x, hi⟩ := Option.ne_none_iff_exists'.1 (hu i (by simp [Op.uses]))
    refine safe_bind (safe_nothrow (clear_safe h (h.of_mem hi))) ?_
    intro _ a1 h1
    have hs' : SrcOK (upd s i (some false)) src := by
      cases src with
      | opt j mv =>
        have hne : j ≠ i := by simpa [Src.isSelf] using hx
        exact (upd_other _ _ hne).trans hs
      | _ => exact trivial
    exact good_of (init_safe hP h1 (upd_same _ _ _) (.inl ⟨rfl, hx⟩) hs')
  | tryEmplace i src =>
    refine asRet_good (safe_bind (safe_nothrow (evalArg_safe h fun j hj => hu j (List.mem_cons_of_mem _ hj))) ?_)
    rintro _ a' ⟨rfl, hs⟩
    refine safe_bind (safe_nothrow (get_safe h (hu i (by simp [Op.uses])))) ?_
    rintro x a' ⟨rfl, hxi, hsi⟩
    cases x with
    | some u => exact fine
    | none => exact good_of (init_safe hP h hsi (.inl ⟨rfl, hs.notSelf (by rw [hsi]; nofun)⟩) hs)
  | swap i j =>
    refine asRet_good (safe_bind (safe_nothrow (get_safe h (hu i (by simp [Op.uses])))) ?_)
    rintro x a' ⟨rfl, hxi, hsi⟩
    refine safe_bind (safe_nothrow (get_safe h (hu j (by simp [Op.uses])))) ?_
    rintro y a' ⟨rfl, hyj, hsj⟩
    cases x with
    | none =>
      cases y with
      | none => exact fine
      | some v =>
        have hs : SrcOK s (.opt (Val := Val) j true) := hsj
        have hne : j ≠ i := fun e => by subst e; rw [hsi] at hsj; cases hsj
        refine safe_bind (safe_mono (init_safe hP h hsi (.inl ⟨rfl, hs.notSelf (by rw [hsi]; nofun)⟩) hs)
          (fun _ _ h => h) (fun _ h => ⟨_, h⟩)) ?_
        intro _ a1 h1
        exact good_of' (clear_safe h1 ((upd_other _ _ hne).trans hsj))
    | some u =>
      cases y with
      | none =>
        have hs : SrcOK s (.opt (Val := Val) i true) := hsi
        have hne : i ≠ j := fun e => by subst e; rw [hsi] at hsj; cases hsj
        refine safe_bind (safe_mono (init_safe hP h hsj (.inl ⟨rfl, hs.notSelf (by rw [hsj]; nofun)⟩) hs)
          (fun _ _ h => h) (fun _ h => ⟨_, h⟩)) ?_
        intro _ a1 h1
        exact good_of' (clear_safe h1 ((upd_other _ _ hne).trans hsi))
      | some v =>
        simp only [bind_run, user_eq, obind_ok]
        have h1 : ∀ b, St B P s { a' with env := ⟨a'.env.tick + 1, a'.env.log ++ [.swap i j b]⟩ } :=
          fun b => h.event (step_swap hsi hsj _)
        cases hthr : P.throwsAt a'.env.tick
        · exact ⟨_, ((h1 true).put hsi).put hsj⟩
        · exact ⟨_, ((h1 false).put hsi).put hsj⟩
  | take i r => exact asRet_good (take_good hP h (h.of_none (hm r (List.mem_singleton.2 rfl))) (hu i (by simp [Op.uses])))
  | takeIf i r f =>
    refine asRet_good (safe_bind (safe_nothrow (get_safe h (hu i (by simp [Op.uses])))) ?_)
    rintro x a' ⟨rfl, hxi, hsi⟩
    cases x with
    | none => exact good_of' (new_safe h (h.of_none (hm r (List.mem_singleton.2 rfl))))
    | some u =>
      refine safe_bind (safe_mono (call_safe h hsi) (fun _ _ h => h) (fun _ h => ⟨_, h⟩)) ?_
      intro b a1 h1
      cases b
      · exact good_of' (new_safe h1 (h.of_none (hm r (List.mem_singleton.2 rfl))))
      · obtain ⟨v, hv⟩ := h1.engaged hsi
        exact take_good hP h1 (h.of_none (hm r (List.mem_singleton.2 rfl))) (by rw [hv]; simp)
  | hasValue i =>
    refine asRet_good (safe_bind (safe_nothrow (get_safe h (hu i (by simp [Op.uses])))) ?_)
    rintro x a' ⟨rfl, hxi, hsi⟩
    exact fine
  | get i =>
    refine asRet_good (safe_bind (safe_nothrow (get_safe h (hu i (by simp [Op.uses])))) ?_)
    rintro x a' ⟨rfl, hxi, hsi⟩
    cases x with
    | none => exact trivial
    | some v => exact fine
  | getUnchecked i =>
    obtain ⟨x, hi⟩ := Option.ne_none_iff_exists'.1 (hu i (by simp [Op.uses]))
    cases x with
    | none => exact absurd hi hx
    | some v =>
      refine asRet_good ?_
      rw [val_run hi]; exact fine
  | valueOrThrow i =>
    refine asRet_good (safe_bind (safe_nothrow (get_safe h (hu i (by simp [Op.uses])))) ?_)
    rintro x a' ⟨rfl, hxi, hsi⟩
    cases x with
    | none => exact fine
    | some v => exact fine
  | ptrOrNull i =>
    refine asRet_good (safe_nothrow (safe_mono (get_safe h (hu i (by simp [Op.uses]))) ?_ (fun _ h => h)))
    rintro x a' ⟨rfl, hxi, hsi⟩
    exact fine
  | valueOr i mv d =>
    refine asRet_good (safe_bind (safe_nothrow (evalArg_safe h fun j hj => hu j (List.mem_cons_of_mem _ hj))) ?_)
    rintro _ a' ⟨rfl, hs⟩
    refine safe_bind (safe_nothrow (get_safe h (hu i (by simp [Op.uses])))) ?_
    rintro x a' ⟨rfl, hxi, hsi⟩
    cases x with
    | none => exact good_of (give_safe h hs)
    | some v => exact good_of (give_safe h hsi)
  | hasValueAnd i f =>
    refine asRet_good (safe_bind (safe_nothrow (get_safe h (hu i (by simp [Op.uses])))) ?_)
    rintro x a' ⟨rfl, hxi, hsi⟩
    cases x with
    | none => exact fine
    | some v => exact good_of (call_safe h hsi)
  | inspect i f =>
    refine asRet_good (safe_bind (safe_nothrow (get_safe h (hu i (by simp [Op.uses])))) ?_)
    rintro x a' ⟨rfl, hxi, hsi⟩
    cases x with
    | none => exact fine
    | some v => exact good_of (call_safe h hsi)
  | mapOr i d f =>
    refine asRet_good (safe_bind (safe_nothrow (get_safe h (hu i (by simp [Op.uses])))) ?_)
    rintro x a' ⟨rfl, hxi, hsi⟩
    cases x with
    | none =>
      simp only [bind_run, user_eq, obind_ok]
      have h1 : ∀ b, St B P s { a' with env := ⟨a'.env.tick + 1, a'.env.log ++ [.tmpCtor .args b]⟩ } := fun b => h.event rfl
      cases hthr : P.throwsAt a'.env.tick
      · exact ⟨_, h1 true⟩
      · exact ⟨_, h1 false⟩
    | some v => exact good_of (call_safe h hsi)
  | mapOrElse i d f =>
    refine asRet_good (safe_bind (safe_nothrow (get_safe h (hu i (by simp [Op.uses])))) ?_)
    rintro x a' ⟨rfl, hxi, hsi⟩
    cases x with
    | none => exact safe_mono (call0_safe h d) (fun _ _ h => ⟨_, h.2.1⟩) (fun _ h => ⟨_, h⟩)
    | some v => exact good_of (call_safe h hsi)
  | map i r f =>
    refine asRet_good (safe_bind (safe_nothrow (get_safe h (hu i (by simp [Op.uses])))) ?_)
    rintro x a' ⟨rfl, hxi, hsi⟩
    have hr := h.of_none (hm r (List.mem_singleton.2 rfl))
    cases x with
    | none => exact good_of' (new_safe h hr)
    | some v =>
      have hne : i ≠ r := fun e => by subst e; rw [hr] at hsi; cases hsi
      refine safe_bind (safe_nothrow (new_safe h hr)) ?_
      intro _ a1 h1
      refine safe_onThrow (T' := St B P (upd s r (some false))) ?_ ?_
      · refine safe_bind (call_safe h1 ((upd_other _ _ hne).trans hsi)) ?_
        intro u a2 h2
        exact safe_mono (initAs_safe hP (fun _ => rfl) h2 (upd_same _ _ _) (.inl ⟨rfl, rfl⟩) trivial) (fun _ _ h => ⟨_, h⟩) (fun _ h => h)
      · intro a2 h2
        exact safe_mono (del_safe h2 (upd_same _ _ _)) (fun _ _ h => ⟨_, h⟩) (fun _ h => h)
  | andThen i r f =>
    refine asRet_good (safe_bind (safe_nothrow (get_safe h (hu i (by simp [Op.uses])))) ?_)
    rintro x a' ⟨rfl, hxi, hsi⟩
    have hr := h.of_none (hm r (List.mem_singleton.2 rfl))
    cases x with
    | none => exact good_of' (new_safe h hr)
    | some v =>
      refine safe_bind (safe_mono (call_safe h hsi) (fun _ _ h => h) (fun _ h => ⟨_, h⟩)) ?_
      intro x a1 h1
      exact make_safe hP h1 hr x
  | orElse i r mv x =>
    refine asRet_good (safe_bind (safe_nothrow (get_safe h (hu i (by simp [Op.uses])))) ?_)
    rintro y a' ⟨rfl, hxi, hsi⟩
    have hr := h.of_none (hm r (List.mem_singleton.2 rfl))
    cases y with
    | none =>
      refine safe_bind (safe_mono (call0_safe h x) (fun _ _ h => h) (fun _ h => ⟨_, h⟩)) ?_
      rintro _ a1 ⟨rfl, h1, _⟩
      exact make_safe hP h1 hr _
    | some v =>
      exact safe_mono (ctorFrom_safe hP h hr (hu i (by simp [Op.uses]))) (fun _ _ ⟨_, h⟩ => ⟨_, h⟩) (fun _ h => ⟨_, h⟩)
  | filter i r mv f =>
    refine asRet_good (safe_bind (safe_nothrow (get_safe h (hu i (by simp [Op.uses])))) ?_)
    rintro y a' ⟨rfl, hxi, hsi⟩
    have hr := h.of_none (hm r (List.mem_singleton.2 rfl))
    cases y with
    | none => exact good_of' (new_safe h hr)
    | some v =>
      refine safe_bind (safe_mono (call_safe h hsi) (fun _ _ h => h) (fun _ h => ⟨_, h⟩)) ?_
      intro b a1 h1
      cases b
      · exact good_of' (new_safe h1 hr)
      · exact good_of (create_safe hP h1 hr hsi)
  | orOp i j r mi mj =>
    refine asRet_good (safe_bind (safe_nothrow (get_safe h (hu i (by simp [Op.uses])))) ?_)
    rintro y a' ⟨rfl, hxi, hsi⟩
    have hr := h.of_none (hm r (List.mem_singleton.2 rfl))
    cases y with
    | none =>
      exact safe_mono (ctorFrom_safe hP h hr (hu j (by simp [Op.uses]))) (fun _ _ ⟨_, h⟩ => ⟨_, h⟩) (fun _ h => ⟨_, h⟩)
    | some v =>
      exact safe_mono (ctorFrom_safe hP h hr (hu i (by simp [Op.uses]))) (fun _ _ ⟨_, h⟩ => ⟨_, h⟩) (fun _ h => ⟨_, h⟩)
  | orAssignValue i src =>
    refine asRet_good (safe_bind (safe_nothrow (evalArg_safe h fun j hj => hu j (List.mem_cons_of_mem _ hj))) ?_)
    rintro _ a' ⟨rfl, hs⟩
    refine safe_bind (safe_nothrow (get_safe h (hu i (by simp [Op.uses])))) ?_
    rintro x a' ⟨rfl, hxi, hsi⟩
    cases x with
    | some u => exact fine
    | none => exact good_of (init_safe hP h hsi (.inl ⟨rfl, hs.notSelf (by rw [hsi]; nofun)⟩) hs)
  | orAssignFrom i j mv =>
    refine asRet_good (safe_bind (safe_nothrow (get_safe h (hu i (by simp [Op.uses])))) ?_)
    rintro x a' ⟨rfl, hxi, hsi⟩
    cases x with
    | some u => exact fine
    | none =>
      refine safe_bind (safe_nothrow (get_safe h (hu j (by simp [Op.uses])))) ?_
      rintro y a' ⟨rfl, hyj, hsj⟩
      cases y with
      | none => exact fine
      | some v =>
        have hs : SrcOK s (.opt (Val := Val) j mv) := hsj
        exact good_of (init_safe hP h hsi (.inl ⟨rfl, hs.notSelf (by rw [hsi]; nofun)⟩) hs)
  | andOp i j r mv =>
    refine asRet_good (safe_bind (safe_nothrow (get_safe h (hu i (by simp [Op.uses])))) ?_)
    rintro y a' ⟨rfl, hxi, hsi⟩
    have hr := h.of_none (hm r (List.mem_singleton.2 rfl))
    cases y with
    | none => exact good_of' (new_safe h hr)
    | some v =>
      exact safe_mono (ctorFrom_safe hP h hr (hu j (by simp [Op.uses]))) (fun _ _ ⟨_, h⟩ => ⟨_, h⟩) (fun _ h => ⟨_, h⟩)
  | xorOp i j r mi mj =>
    refine asRet_good (safe_bind (safe_nothrow (get_safe h (hu i (by simp [Op.uses])))) ?_)
    rintro x a' ⟨rfl, hxi, hsi⟩
    refine safe_bind (safe_nothrow (get_safe h (hu j (by simp [Op.uses])))) ?_
    rintro y a' ⟨rfl, hyj, hsj⟩
    have hr := h.of_none (hm r (List.mem_singleton.2 rfl))
    have hj := safe_mono (ctorFrom_safe hP h (mv := mj) hr (hu j (by simp [Op.uses]))) (Q := fun _ => Fine B P) (T := Fine B P)
      (fun _ _ ⟨_, h⟩ => ⟨_, h⟩) (fun _ h => ⟨_, h⟩)
    have hi := safe_mono (ctorFrom_safe hP h (mv := mi) hr (hu i (by simp [Op.uses]))) (Q := fun _ => Fine B P) (T := Fine B P)
      (fun _ _ ⟨_, h⟩ => ⟨_, h⟩) (fun _ h => ⟨_, h⟩)
    cases x <;> cases y
    · exact good_of' (new_safe h hr)
    · exact hj
    · exact hi
    · exact good_of' (new_safe h hr)
  | zip is r g =>
    have hr := h.of_none (hm r (List.mem_singleton.2 rfl))
    refine asRet_good (safe_bind (safe_nothrow (allHave_safe h fun p hp => hu p.1 (List.mem_map.2 ⟨p, hp, rfl⟩))) ?_)
    rintro b a' ⟨rfl, hb⟩
    cases b
    · exact good_of' (new_safe h hr)
    · refine safe_bind (safe_mono (zipElems_safe h (hb rfl)) (fun _ _ h => h) (fun _ h => ⟨_, h⟩)) ?_
      intro vs a1 h1
      exact safe_bind (safe_mono (safe_onThrow (create_safe hP h1 hr trivial) fun _ h => dropTmps_safe h)
        (fun _ _ h => h) (fun _ h => ⟨_, h⟩)) fun _ _ h => good_of' (dropTmps_safe h)
  | zipWith is r g =>
    have hr := h.of_none (hm r (List.mem_singleton.2 rfl))
    refine asRet_good (safe_bind (safe_nothrow (allHave_safe h ?_)) ?_)
    · intro p hp
      obtain ⟨i, hi, rfl⟩ := List.mem_map.1 hp
      exact hu i hi
    rintro b a' ⟨rfl, hb⟩
    cases b
    · exact good_of' (new_safe h hr)
    · refine safe_bind (safe_nothrow (vals_safe h fun i hi => hb rfl (i, false) (List.mem_map.2 ⟨i, hi, rfl⟩))) ?_
      rintro vs a1 rfl
      refine safe_bind (safe_mono (call0_safe h _) (fun _ _ h => h) (fun _ h => ⟨_, h⟩)) ?_
      rintro _ a1 ⟨rfl, h1, _⟩
      exact safe_bind (safe_mono (safe_onThrow (create_safe hP h1 hr trivial) fun _ h => dropTmp_safe h r)
        (fun _ _ h => h) (fun _ h => ⟨_, h⟩)) fun _ _ h => good_of' (dropTmp_safe h r)
  | ioWrite i d =>
    refine asRet_good (safe_bind (safe_nothrow (get_safe h (hu i (by simp [Op.uses])))) ?_)
    rintro x a' ⟨rfl, hxi, hsi⟩
    cases x with
    | some v => exact safe_mono (call0_safe h _) (fun _ _ h => ⟨_, h.2.1⟩) (fun _ h => ⟨_, h⟩)
    | none =>
      cases d with
      | none => exact fine
      | some d => exact safe_mono (call0_safe h _) (fun _ _ h => ⟨_, h.2.1⟩) (fun _ h => ⟨_, h⟩)
  | ioRead i d v =>
    refine asRet_good (safe_bind (safe_nothrow (get_safe h (hu i (by simp [Op.uses])))) ?_)
    rintro x a' ⟨rfl, hxi, hsi⟩
    cases x with
    | none => exact safe_mono (call0_safe h _) (fun _ _ h => ⟨_, h.2.1⟩) (fun _ h => ⟨_, h⟩)
    | some u =>
      simp only [bind_run, user_eq, obind_ok]
      have h1 : ∀ b, St B P s { a' with env := ⟨a'.env.tick + 1, a'.env.log ++ [.call i b]⟩ } :=
        fun b => h.event (step_call hsi _)
      cases hthr : P.throwsAt a'.env.tick
      · exact ⟨_, (h1 true).put hsi⟩
      · exact ⟨_, (h1 false).put hsi⟩
  | cmp o rel i j =>
    refine asRet_good (safe_bind (safe_nothrow (get_safe h (hu i (by simp [Op.uses])))) ?_)
    rintro x a' ⟨rfl, hxi, hsi⟩
    refine safe_bind (safe_nothrow (get_safe h (hu j (by simp [Op.uses])))) ?_
    rintro y a' ⟨rfl, hyj, hsj⟩
    cases x with
    | none => exact fine
    | some v =>
      cases y with
      | none => exact fine
      | some v => exact safe_mono (call0_safe h _) (fun _ _ h => ⟨_, h.2.1⟩) (fun _ h => ⟨_, h⟩)
  | cmpNone o i =>
    refine asRet_good (safe_bind (safe_nothrow (get_safe h (hu i (by simp [Op.uses])))) ?_)
    rintro x a' ⟨rfl, hxi, hsi⟩
    exact fine
  | noneCmp o i =>
    refine asRet_good (safe_bind (safe_nothrow (get_safe h (hu i (by simp [Op.uses])))) ?_)
    rintro x a' ⟨rfl, hxi, hsi⟩
    exact fine
  | cmpVal o rel i v =>
    refine asRet_good (safe_bind (safe_nothrow (get_safe h (hu i (by simp [Op.uses])))) ?_)
    rintro x a' ⟨rfl, hxi, hsi⟩
    cases x with
    | none => exact fine
    | some v => exact safe_mono (call0_safe h _) (fun _ _ h => ⟨_, h.2.1⟩) (fun _ h => ⟨_, h⟩)
  | valCmp o rel v i =>
    refine asRet_good (safe_bind (safe_nothrow (get_safe h (hu i (by simp [Op.uses])))) ?_)
    rintro x a' ⟨rfl, hxi, hsi⟩
    cases x with
    | none => exact fine
    | some v => exact safe_mono (call0_safe h _) (fun _ _ h => ⟨_, h.2.1⟩) (fun _ h => ⟨_, h⟩)
  | hash i f =>
    refine asRet_good (safe_bind (safe_nothrow (get_safe h (hu i (by simp [Op.uses])))) ?_)
    rintro x a' ⟨rfl, hxi, hsi⟩
    cases x with
    | none => exact fine
    | some v => exact safe_mono (call0_safe h _) (fun _ _ h => ⟨_, h.2.1⟩) (fun _ h => ⟨_, h⟩)
  | forEach i f =>
    refine asRet_good (safe_bind (safe_nothrow (get_safe h (hu i (by simp [Op.uses])))) ?_)
    rintro x a' ⟨rfl, hxi, hsi⟩
    cases x with
    | none => exact fine
    | some v => exact good_of (call_safe h hsi)
  | unzipArray q i mv rs =>
    exact asRet_good (safe_mono (unzipNew_safe hP h (hu i (by simp [Op.uses])) hnd fun r hr => h.of_none (hm r hr))
      (fun _ _ ⟨_, h, _⟩ => ⟨_, h⟩) (fun _ h => ⟨_, h⟩))
  | unzipTuple q i mv ts ms =>
    exact asRet_good (unzipVia_good hP h (hu i (by simp [Op.uses])) hnd (fun r hr => h.of_none (hm r hr)) hx)

theorem catch_good {x : M (AState Val) (Ret Val)} (h : Good B P (x a)) :
    Out.Safe (fun _ => Fine B P) (fun _ => False) (Prog.catch_ x a) := by
  simp only [Prog.catch_]
  revert h
  cases x a <;> exact fun h => h

theorem run_good (hP : P.OK) : ∀ {ops : List (Op Val)} {a : AState Val}, Fine B P a → Op.AllAllowed P ops a →
    Out.Safe (fun _ => Fine B P) (fun _ => False) (run P ops a)
  | [], _, h, _ => h
  | op :: ops, a, ⟨s, h⟩, ⟨h1, h2⟩ => by
    have hg := catch_good (runOp_good hP h h1)
    simp only [run, bind_run]
    revert hg h2
    cases Prog.catch_ (runOp P op) a with
    | ub => exact fun _ h => h
    | verify => exact fun _ _ => trivial
    | throw _ => exact fun _ h => h.elim
    | ok r a' =>
      intro h2 hg
      simp only [obind_ok]
      exact safe_bind (run_good hP hg h2) fun _ _ h => h

/-- nothing happened yet -/
abbrev base0 : Base := ⟨[], fun _ => false⟩

theorem start_fine : Fine base0 P (start : AState Val) :=
  ⟨fun _ => none, rfl, fun _ => ⟨[], rfl, by
    simp only [Life.runFrom, List.foldl_nil]
    congr 1; funext i; simp only [liveSet]; simp⟩⟩

/-- any state, counting from there -/
theorem here_st (a : AState Val) : St ⟨a.env.log, liveSet P (shape a.mem)⟩ P (shape a.mem) a :=
  ⟨rfl, fun _ => ⟨[], (List.append_nil _).symm, rfl⟩⟩

end Spec

end Opt
