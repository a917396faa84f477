import Verif.Spec.Alias
import Verif.Lemmas.Harmless
import Verif.Lemmas.View
import Verif.Lemmas.Decide

/-!
# Uses of a referenced value are uses of the option it is in
-/

namespace Opt

variable {Val : Type} {P : Prog Val}

namespace Alias

variable {α β : Type} {w : World} {p : Nat → Option Nat} {k j : Nat}

/-- related states -/
def XR (P : Prog Val) (s : XWorld) (t : XState Val) : Prop := R P s.opts t.opts ∧ s.ptr = t.ref

theorem lift_run (x : M World α) : lift x ⟨w, p⟩ = (match x w with
    | .ok a w' => .ok a ⟨w', p⟩
    | .throw w' => .throw ⟨w', p⟩
    | .verify => .verify
    | .ub => .ub) := rfl

theorem lift_bind (x : M World α) (f : α → M World β) : lift (x >>= f) = lift x >>= fun a => lift (f a) := by
  funext s
  simp only [lift, bind_run]
  cases x s.opts <;> rfl

theorem lift_pure (a : α) : lift (pure a) = pure a := rfl
theorem lift_raise : lift (M.raise : M World α) = M.raise := rfl
theorem lift_asRet (g : α → Ret Val) (x : M World α) : lift (Prog.asRet g x) = Prog.asRet g (lift x) := by
  simp only [Prog.asRet, lift_bind, lift_pure]

theorem load_run : load k ⟨w, p⟩ = .ok (p k) ⟨w, p⟩ := rfl
theorem store_run (x : Option Nat) : store k x ⟨w, p⟩ = .ok () ⟨w, upd p k x⟩ := rfl
theorem hasValue_run : hasValue k ⟨w, p⟩ = .ok (p k).isSome ⟨w, p⟩ := rfl

theorem place_run (h : p k = some j) : place k ⟨w, p⟩ = .ok j ⟨w, p⟩ := by
  simp only [place, bind_run, hasValue_run, obind_ok, h, Option.isSome_some, check_true, load_run, star, pure_run]

theorem placeUnchecked_run (h : p k = some j) : placeUnchecked k ⟨w, p⟩ = .ok j ⟨w, p⟩ := by
  simp only [placeUnchecked, bind_run, obind_ok, h, Option.isSome_some, check_true, load_run, star, pure_run]

theorem asRet_run (g : α → Ret Val) {σ : Type} (x : M σ α) (s : σ) : Prog.asRet g x s = (x s).bind fun a => pure (g a) := rfl

/-- the check of `callT` succeeds -/
theorem callAt_eq {f : Prog.Fn Val β} {o : Obj} {v : Val} (ho : w.mem j = some o) (hr : ObjR P j o (some v)) :
    callAt P j f w = P.callT j f w := by
  simp only [callAt, Prog.callT, bind_run, Prog.getCheck_run ho hr, Option.isSome_some, check_true, obind_ok]

theorem mapAt_eq {f : Prog.Fn Val Val} {r : Nat} {o : Obj} {v : Val} (ho : w.mem j = some o) (hr : ObjR P j o (some v)) :
    mapAt P j r f w = P.map j r f w := by
  simp only [mapAt, Prog.map, bind_run, Prog.hasValue_run ho hr, Prog.getCheck_run ho hr, Option.isSome_some, check_true, obind_ok, if_true]
  cases hx : w.mem r with
  | some x => simp only [Prog.newObj, hx, obind_ub]
  | none =>
    have hne : j ≠ r := fun e => by subst e; rw [ho] at hx; cases hx
    have ho' : (w.put r ⟨P.garbage r w.env.tick, false⟩).mem j = some o := (upd_other _ _ hne).trans ho
    simp only [Prog.newObj_run hx, obind_ok, bind_run, M.onThrow, callAt_eq ho' hr]

/-- the relation of results -/
abbrev Same (P : Prog Val) (r : Ret Val) (s : XWorld) (r' : Ret Val) (t : XState Val) : Prop := r = r' ∧ XR P s t

theorem lift_after {a : AState Val} {x : M World α} {y : M (AState Val) β} {B : α → World → β → AState Val → Prop}
    {f : α → M XWorld (Ret Val)} {g : β → XState Val → Out (XState Val) (Ret Val)}
    (h : Out.Rel B (R P) (x w) (y a))
    (hf : ∀ u w' v a', B u w' v a' → Out.Rel (Same P) (XR P) (f u ⟨w', p⟩) (g v ⟨a', p⟩)) :
    Out.Rel (Same P) (XR P) ((lift x >>= f) ⟨w, p⟩) ((⟨a, p⟩ : XState Val).after y g) := by
  simp only [bind_run, lift_run, XState.after]
  revert h
  cases hx : x w <;> cases hy : y a <;> intro h <;> first
    | exact h.elim
    | exact rel_ub _
    | exact hf _ _ _ _ h
    | exact ⟨h, rfl⟩
    | exact trivial

theorem lift_only {a : AState Val} {x : M World (Ret Val)} {y : M (AState Val) (Ret Val)}
    (h : Out.Rel (fun r w' r' a' => r = r' ∧ R P w' a') (R P) (x w) (y a)) :
    Out.Rel (Same P) (XR P) (lift x ⟨w, p⟩) ((⟨a, p⟩ : XState Val).only y) := by
  simp only [lift_run, XState.only, XState.after]
  revert h
  cases hx : x w <;> cases hy : y a <;> intro h <;> first
    | exact h.elim
    | exact rel_ub _
    | exact ⟨h.1, h.2, rfl⟩
    | exact ⟨h, rfl⟩
    | exact trivial

/-- through an option of a reference that refers to a value: the operation on the option of that value, apart from the two that make copies -/
theorem use_eq {u : Use Val} {o : Obj} {v : Val} (hk : p k = some j) (ho : w.mem j = some o) (hr : ObjR P j o (some v))
    (h1 : ∀ i mv, u ≠ .copyTo i mv) (h2 : ∀ i mv, u ≠ .assignTo i mv) : use P k u ⟨w, p⟩ = lift (P.runOp (u.on j)) ⟨w, p⟩ := by
  have hv := Prog.hasValue_run ho hr
  have hg := Prog.getCheck_run ho hr
  have hc : ∀ {γ : Type} (f : Prog.Fn Val γ), callAt P j f w = P.callT j f w := fun f => callAt_eq ho hr
  cases u with
  | copyTo i mv => exact absurd rfl (h1 i mv)
  | assignTo i mv => exact absurd rfl (h2 i mv)
  | map r f =>
    simp only [use, Use.on, Prog.runOp, lift_asRet, asRet_run, bind_run, hasValue_run, hk, place_run hk, obind_ok, Option.isSome_some, if_true,
      lift_run, mapAt_eq ho hr]
    cases P.map j r f w <;> rfl
  | getUnchecked =>
    simp only [use, Use.on, Prog.runOp, lift_asRet, asRet_run, bind_run, placeUnchecked_run hk, obind_ok, Prog.getUnchecked]
  | andThen r f =>
    simp only [use, Use.on, Prog.runOp, asRet_run, bind_run, hasValue_run, hk, place_run hk, obind_ok, Option.isSome_some, if_true,
      lift_run, Prog.andThen, hv, hc]
    cases P.callT j f w with
    | ok x w' =>
      simp only [obind_ok, lift_run]
      cases P.makeOption r x w' <;> rfl
    | _ => all_goals rfl
  | cmpVal c rel x =>
    simp only [use, Use.on, Prog.runOp, asRet_run, bind_run, hasValue_run, hk, place_run hk, obind_ok, Option.isSome_some, if_true,
      lift_run, Prog.cmpVal, Prog.get, hv, hg, check_true, Prog.readT_run ho hr]
    cases P.call0 (rel c v x) w <;> rfl
  | valCmp c rel x =>
    simp only [use, Use.on, Prog.runOp, asRet_run, bind_run, hasValue_run, hk, place_run hk, obind_ok, Option.isSome_some, if_true,
      lift_run, Prog.valCmp, Prog.get, hv, hg, check_true, Prog.readT_run ho hr]
    cases P.call0 (rel c x v) w <;> rfl
  | _ =>
    all_goals
    simp only [use, Use.on, Prog.runOp, lift_asRet, asRet_run, bind_run, hasValue_run, hk, place_run hk, obind_ok, Option.isSome_some, if_true,
      lift_run, Prog.get, Prog.valueOrThrow, Prog.hasValueAnd, Prog.inspect, Prog.mapOr, Prog.mapOrElse, Prog.andThen, Prog.cmpVal, Prog.valCmp,
      hv, hg, hc, check_true, Bool.not_true, Bool.false_eq_true, if_false]
    try (first | rfl | (cases P.callT j _ w <;> rfl) | (cases P.readT j w <;> rfl))

theorem lift_onThrow (x : M World α) (h : M World Unit) : lift (M.onThrow x h) = M.onThrow (lift x) (lift h) := by
  funext s
  simp only [lift, M.onThrow]
  cases x s.opts with
  | throw w' => simp only []; cases h w' <;> rfl
  | _ => all_goals rfl

/-- `option<T> x{r}` is `option<T> x{o}` done by hand, as an lvalue -/
theorem copyTo_eq (hP : P.OK) {i : Nat} {mv : Bool} {o : Obj} {v : Val} (hk : p k = some j) (ho : w.mem j = some o)
    (hr : ObjR P j o (some v)) (hi : w.mem i = none) :
    use P k (.copyTo i mv) ⟨w, p⟩ = lift (Prog.asRet (fun _ => .unit) (P.ctorManual i j false)) ⟨w, p⟩ := by
  obtain ⟨o1, e1, _⟩ := Prog.ctorDefault_run hP hi
  have hne : j ≠ i := fun e => by subst e; rw [ho] at hi; cases hi
  have ho' : (w.put i o1).mem j = some o := (upd_other _ _ hne).trans ho
  simp only [use, asRet_run, bind_run, lift_run, e1, obind_ok, Prog.ctorManual, M.onThrow, hasValue_run, hk, place_run hk, Option.isSome_some, if_true,
    Prog.hasValue_run ho' hr]
  have hcls : (if P.cls i = P.cls j then P.construct i (.opt j false) else do
      P.getCheck j
      P.construct i (.opt j false)) (w.put i o1) = P.construct i (.opt j false) (w.put i o1) := by
    by_cases hc : P.cls i = P.cls j
    · simp only [hc, if_true]
    · simp only [hc, if_false, bind_run, Prog.getCheck_run ho' hr, check_true, obind_ok, Option.isSome_some]
  simp only [hcls]
  cases P.construct i (.opt j false) (w.put i o1) with
  | throw w' => simp only [lift]; cases P.dtor i w' <;> rfl
  | _ => all_goals rfl

theorem use_copyTo (hP : P.OK) {a : AState Val} (h : R P w a) {i : Nat} {mv : Bool} {v : Val} (hk : p k = some j)
    (hj : a.mem j = some (some v)) (hi : a.mem i = none) (hh : (Op.ctorFrom i j false).Harmless P a) :
    Out.Rel (Same P) (XR P) (use P k (.copyTo i mv) ⟨w, p⟩) ((⟨a, p⟩ : XState Val).only (Spec.runOp P (.ctorFrom i j false))) := by
  obtain ⟨o, ho, hr⟩ := h.some' hj
  obtain ⟨m, e⟩ := a
  have hE : w.env = e := h.env
  rw [copyTo_eq hP hk ho hr (h.none' hi)]
  refine lift_only (asRet_unit (Prog.ctorManual_sim hP (fun hj => ?_) h))
  refine Prog.fit_of_harmless' (op := .ctorFrom i j false) (by simp [Op.inStorage]) hh fun h1 h2 => ?_
  obtain ⟨m', hr'⟩ := Prog.ctorFrom_fail (e := e) hi hj h1 (hE ▸ h2)
  exact ⟨m', [], Prog.asRet_throw hr', by rw [Prog.buildFail_tick, Env.after_nil, hE]⟩

/-- `x = r`: the converting assignment checks afterwards, the assignment of the same type does not -/
theorem use_assignTo (hP : P.OK) {a : AState Val} (h : R P w a) {i : Nat} {mv : Bool} {v : Val} (hk : p k = some j)
    (hj : a.mem j = some (some v)) (hi : a.mem i ≠ none) (hh : (Op.assignFrom i j false).Harmless P a) :
    Out.Rel (Same P) (XR P) (use P k (.assignTo i mv) ⟨w, p⟩) ((⟨a, p⟩ : XState Val).only (Spec.runOp P (.assignFrom i j false))) := by
  obtain ⟨o, ho, hr⟩ := h.some' hj
  obtain ⟨x, hi⟩ := Option.ne_none_iff_exists'.1 hi
  obtain ⟨o', ho', hr'⟩ := h.some' hi
  have e1 : use P k (.assignTo i mv) ⟨w, p⟩ = lift (Prog.asRet (fun _ => .unit) (assignAt P i j)) ⟨w, p⟩ := by
    simp only [use, asRet_run, bind_run, lift_run, hasValue_run, hk, place_run hk, Option.isSome_some, if_true, obind_ok]
    cases assignAt P i j w <;> rfl
  rw [e1]
  refine lift_only (asRet_unit ?_)
  simp only [assignAt, Spec.assignFrom, bind_run, Spec.get_run hi, Spec.get_run hj, obind_ok, Prog.hasValue_run ho' hr']
  cases x with
  | none =>
    simp only [Option.isSome_none, Bool.false_eq_true, if_false]
    have hF : P.FitAt i (P.kind i (.opt j false)) w.env.tick := by
      obtain ⟨m, e⟩ := a
      have hE : w.env = e := h.env
      refine Prog.fit_of_harmless' (op := .assignFrom i j false) (by simp [Op.inStorage]) hh fun h1 h2 => ?_
      exact ⟨_, [], Prog.asRet_throw ((Spec.assignFrom_eq hi hj).trans (Prog.init_fail hi (Spec.gives_opt hj) h1 (hE ▸ h2))),
        by rw [Prog.buildFail_tick, Env.after_nil, hE]⟩
    exact rel_mono (Prog.construct_sim hP hF (i := i) (src := .opt j false) h trivial)
      (fun _ w' _ a' (h : R P w' a' ∧ _) => h.1) (fun w' a' (h : R P w' a' ∧ _) => h.1)
  | some vi =>
    simp only [Option.isSome_some, if_true]
    refine rel_then (Prog.assignT_sim hP (i := i) (src := .opt j false) h trivial) fun _ w' _ a' h' => ?_
    obtain ⟨h1, u, h2⟩ := h'
    obtain ⟨o2, ho2, hr2⟩ := h1.some' h2
    exact ⟨(), w', by rw [Prog.getCheck_run ho2 hr2]; rfl, h1⟩

/-- through an empty option of a reference -/
theorem use_nothing (hP : P.OK) {a : AState Val} (h : R P w a) {u : Use Val} (hk : p k = none) :
    Out.Rel (Same P) (XR P) (use P k u ⟨w, p⟩) ((⟨a, p⟩ : XState Val).only (u.onNothing P)) := by
  have new : ∀ r, Out.Rel (fun r w' r' a' => r = r' ∧ R P w' a') (R P) (Prog.asRet (fun _ => (.unit : Ret Val)) (P.ctorDefault r) w)
      (Prog.asRet (fun _ => (.unit : Ret Val)) (Spec.new r) a) := fun r => asRet_unit (rel_nothrow (Prog.ctorDefault_sim hP h))
  cases u with
  | get => simp only [use, asRet_run, bind_run, place, hasValue_run, hk, obind_ok]; trivial
  | getUnchecked => simp only [use, asRet_run, bind_run, placeUnchecked, load_run, hk, obind_ok]; trivial
  | valueOrThrow => simp only [use, asRet_run, bind_run, hasValue_run, hk, obind_ok]; exact ⟨h, rfl⟩
  | hasValueAnd f => simp only [use, asRet_run, bind_run, hasValue_run, hk, obind_ok]; exact ⟨rfl, h, rfl⟩
  | inspect f => simp only [use, asRet_run, bind_run, hasValue_run, hk, obind_ok]; exact ⟨rfl, h, rfl⟩
  | cmpVal o rel v =>
    simp only [use, asRet_run, bind_run, hasValue_run, hk, obind_ok]
    cases o <;> exact ⟨rfl, h, rfl⟩
  | valCmp o rel v =>
    simp only [use, asRet_run, bind_run, hasValue_run, hk, obind_ok]
    cases o <;> exact ⟨rfl, h, rfl⟩
  | mapOr d f =>
    have e : use P k (.mapOr d f) ⟨w, p⟩ = lift (Prog.asRet .val (do
        let (_, thr) ← P.userOp (.tmpCtor .args true) (.tmpCtor .args false)
        if thr then M.raise else pure d)) ⟨w, p⟩ := by
      rw [lift_asRet]
      simp only [use, asRet_run, bind_run, hasValue_run, hk, obind_ok, Option.isSome_none, Bool.false_eq_true, if_false]
    rw [e]
    refine lift_only ?_
    simp only [asRet_run, Use.onNothing, bind_run, Prog.userOp_run, Spec.user_run, obind_ok]
    rw [h.env]
    have h2 := h.envs (a.env.use P (.tmpCtor .args true) (.tmpCtor .args false))
    cases hthr : P.throwsAt a.env.tick
    · simp only [Bool.false_eq_true, if_false, pure_run, obind_ok]; exact ⟨rfl, h2⟩
    · simp only [if_true, raise_run]; exact h2
  | mapOrElse d f =>
    have e : use P k (.mapOrElse d f) ⟨w, p⟩ = lift (Prog.asRet .val (P.call0 d)) ⟨w, p⟩ := by
      rw [lift_asRet]
      simp only [use, asRet_run, bind_run, hasValue_run, hk, obind_ok, Option.isSome_none, Bool.false_eq_true, if_false]
    rw [e]
    exact lift_only (asRet_val (rel_mono (Prog.call0_sim h) (fun _ _ _ _ h => ⟨h.1.trans h.2.1.symm, h.2.2.1⟩) (fun _ _ h => h)))
  | map r f =>
    have e : use P k (.map r f) ⟨w, p⟩ = lift (Prog.asRet (fun _ => .unit) (P.ctorDefault r)) ⟨w, p⟩ := by
      rw [lift_asRet]
      simp only [use, asRet_run, bind_run, hasValue_run, hk, obind_ok, Option.isSome_none, Bool.false_eq_true, if_false]
    rw [e]; exact lift_only (new r)
  | andThen r f =>
    have e : use P k (.andThen r f) ⟨w, p⟩ = lift (Prog.asRet (fun _ => .unit) (P.ctorDefault r)) ⟨w, p⟩ := by
      rw [lift_asRet]
      simp only [use, asRet_run, bind_run, hasValue_run, hk, obind_ok, Option.isSome_none, Bool.false_eq_true, if_false]
    rw [e]; exact lift_only (new r)
  | copyTo i mv =>
    have e : use P k (.copyTo i mv) ⟨w, p⟩ = lift (Prog.asRet (fun _ => .unit) (P.ctorDefault i)) ⟨w, p⟩ := by
      simp only [use, asRet_run, bind_run, lift_run]
      cases P.ctorDefault i w with
      | ok u w' =>
        simp only [obind_ok, M.onThrow, bind_run, hasValue_run, hk, Option.isSome_none, Bool.false_eq_true, if_false, pure_run]
      | _ => all_goals rfl
    rw [e]; exact lift_only (new i)
  | assignTo i mv =>
    have e : use P k (.assignTo i mv) ⟨w, p⟩ = lift (Prog.asRet (fun _ => .unit) (P.reset i)) ⟨w, p⟩ := by
      rw [lift_asRet]
      simp only [use, asRet_run, bind_run, hasValue_run, hk, obind_ok, Option.isSome_none, Bool.false_eq_true, if_false]
    rw [e]; exact lift_only (asRet_unit (rel_nothrow (Prog.reset_sim hP h)))

theorem full_iff {s : XState Val} {j : Nat} : s.full j = true ↔ ∃ v, s.opts.mem j = some (some v) := by
  simp only [XState.full]
  split
  · rename_i v h; exact ⟨fun _ => ⟨v, h⟩, fun _ => rfl⟩
  · rename_i h; exact ⟨fun e => by simp at e, fun ⟨v, e⟩ => absurd e (h v)⟩

/-- a use through a reference whose value is there -/
theorem use_some (hP : P.OK) {a : AState Val} (h : R P w a) {u : Use Val} {v : Val} (hk : p k = some j) (hj : a.mem j = some (some v))
    (hl : (u.on j).Legal P) (hal : (u.on j).Allowed a.mem) (hh : (u.on j).Harmless P a) :
    Out.Rel (Same P) (XR P) (use P k u ⟨w, p⟩) ((⟨a, p⟩ : XState Val).only (Spec.runOp P (u.on j))) := by
  obtain ⟨o, ho, hr⟩ := h.some' hj
  have rest : (∀ i mv, u ≠ .copyTo i mv) → (∀ i mv, u ≠ .assignTo i mv) →
      Out.Rel (Same P) (XR P) (use P k u ⟨w, p⟩) ((⟨a, p⟩ : XState Val).only (Spec.runOp P (u.on j))) := fun h1 h2 => by
    rw [use_eq hk ho hr h1 h2]
    exact lift_only (Prog.runOp_sim_harmless hP h hl hal hh)
  cases u with
  | copyTo i mv => exact use_copyTo hP h hk hj (hal.2.1 i (List.mem_singleton.2 rfl)) hh
  | assignTo i mv => exact use_assignTo hP h hk hj (hal.1 i (List.mem_cons_self ..)) hh
  | _ => all_goals exact rest (fun _ _ e => by cases e) (fun _ _ e => by cases e)

theorem upd_refer {a : AState Val} {x : Option Nat} : (⟨a, upd p k x⟩ : XState Val) = (⟨a, p⟩ : XState Val).refer k x := rfl

theorem onBool_below {x y : Option Nat} (o : CmpOp) (h : (x.isSome && y.isSome) = false) :
    o.onBool x.isSome y.isSome = below (fun _ _ _ => true) o x y := by
  cases x <;> cases y <;> cases o <;> first | rfl | cases h

/-- one operation -/
theorem runOp_sim (hP : P.OK) {s : XWorld} {t : XState Val} (h : XR P s t) {op : XOp Val} (hl : op.Legal P t) (hal : op.Allowed t)
    (hh : op.Harmless P t) : Out.Rel (Same P) (XR P) (runOp P op s) (op.spec P t) := by
  obtain ⟨w, p⟩ := s
  obtain ⟨a, q⟩ := t
  obtain ⟨h, hp⟩ := h
  simp only at h hp
  subst hp
  cases op with
  | val op => exact lift_only (Prog.runOp_sim_harmless hP h hl hal hh)
  | bind k i =>
    simp only [runOp, XOp.spec, asRet_run, bind_run, lift_run]
    cases hi : a.mem i with
    | none => exact rel_ub _
    | some x =>
      obtain ⟨o, ho, hr⟩ := h.some' hi
      cases x with
      | none => simp only [Prog.getCheck_run ho hr]; trivial
      | some v =>
        simp only [Prog.getCheck_run ho hr, Option.isSome_some, check_true, obind_ok, store_run]
        exact ⟨rfl, h, rfl⟩
  | tryBind k i =>
    simp only [runOp, XOp.spec, asRet_run, bind_run, lift_run]
    cases hi : a.mem i with
    | none => exact rel_ub _
    | some x =>
      obtain ⟨o, ho, hr⟩ := h.some' hi
      cases x with
      | none => simp only [Prog.getCheck_run ho hr]; trivial
      | some v =>
        simp only [Prog.getCheck_run ho hr, Option.isSome_some, check_true, obind_ok, bind_run, hasValue_run]
        cases hk : p k with
        | none => exact ⟨rfl, h, by rfl⟩
        | some j =>
          refine ⟨rfl, h, ?_⟩
          funext l
          simp only [XState.refer, Option.getD_some]
          split
          · rename_i e; rw [e, hk]
          · rfl
  | bindPtr k i =>
    simp only [runOp, XOp.spec, asRet_run, bind_run, lift_run]
    cases hi : a.mem i with
    | none => exact rel_ub _
    | some x =>
      obtain ⟨o, ho, hr⟩ := h.some' hi
      cases x with
      | none =>
        simp only [Prog.hasValue_run ho hr, Option.isSome_none, Bool.false_eq_true, if_false, obind_ok, store_run]
        exact ⟨rfl, h, rfl⟩
      | some v =>
        simp only [Prog.hasValue_run ho hr, Prog.getCheck_run ho hr, Option.isSome_some, check_true, obind_ok, store_run, if_true, bind_run, lift_run]
        exact ⟨rfl, h, rfl⟩
  | drop k => exact ⟨rfl, h, rfl⟩
  | copy k l => exact ⟨rfl, h, rfl⟩
  | take k l => exact ⟨rfl, h, rfl⟩
  | swap k l =>
    simp only [runOp, XOp.spec, asRet_run, swap, bind_run, hasValue_run, obind_ok]
    cases hk : p k with
    | none =>
      cases hl : p l with
      | none =>
        refine ⟨rfl, h, ?_⟩
        funext m
        simp only [XState.refer]
        split
        · rename_i e; rw [e, hl]
        · split
          · rename_i e; rw [e, hk]
          · rfl
      | some j =>
        simp only [Option.isSome_none, Option.isSome_some, Bool.not_false, Bool.not_true, Bool.and_false, Bool.false_and, Bool.false_eq_true,
          if_false, bind_run, place_run hl, obind_ok, store_run, pure_run]
        exact ⟨rfl, h, rfl⟩
    | some i =>
      cases hl' : p l with
      | none =>
        simp only [Option.isSome_none, Option.isSome_some, Bool.not_false, Bool.not_true, Bool.and_true, Bool.and_false, Bool.false_eq_true,
          if_false, if_true, bind_run, place_run hk, obind_ok, store_run, pure_run]
        refine ⟨rfl, h, ?_⟩
        have hne : l ≠ k := fun e => by subst e; rw [hk] at hl'; cases hl'
        funext m
        simp only [XState.refer, upd]
        split
        · rename_i e; rw [if_neg (fun e' => hne (e'.symm.trans e))]
        · rfl
      | some j => exact ⟨rfl, h, by simp only [hk, hl']; rfl⟩
  | hasValue k => exact ⟨rfl, h, rfl⟩
  | filter k l f =>
    simp only [runOp, XOp.spec, asRet_run, bind_run, hasValue_run, obind_ok]
    cases hk : p k with
    | none => exact ⟨rfl, h, rfl⟩
    | some j =>
      obtain ⟨v, hv⟩ := full_iff.1 (hal j hk)
      obtain ⟨o, ho, hr⟩ := h.some' hv
      simp only [hal j hk, if_true, Option.isSome_some, bind_run, place_run hk, obind_ok, lift_run, callAt_eq ho hr, XState.after]
      have hs := Prog.callT_sim hP h (hl j hk)
      revert hs
      cases P.callT j f w <;> cases Spec.call P j f a <;> intro hs <;> first
        | exact hs.elim
        | exact rel_ub _
        | exact ⟨hs, rfl⟩
        | exact trivial
        | (obtain ⟨rfl, hs⟩ := hs
           rename_i b w' a'
           cases b
           · exact ⟨rfl, hs, rfl⟩
           · simp only [obind_ok, if_true, bind_run, place_run hk, store_run]; exact ⟨rfl, hs, rfl⟩)
  | takeIf k l f =>
    simp only [runOp, XOp.spec, asRet_run, bind_run, hasValue_run, obind_ok]
    cases hk : p k with
    | none => exact ⟨rfl, h, rfl⟩
    | some j =>
      obtain ⟨v, hv⟩ := full_iff.1 (hal j hk)
      obtain ⟨o, ho, hr⟩ := h.some' hv
      simp only [hal j hk, if_true, Option.isSome_some, bind_run, place_run hk, obind_ok, lift_run, callAt_eq ho hr, XState.after]
      have hs := Prog.callT_sim hP h (hl j hk)
      revert hs
      cases P.callT j f w <;> cases Spec.call P j f a <;> intro hs <;> first
        | exact hs.elim
        | exact rel_ub _
        | exact ⟨hs, rfl⟩
        | exact trivial
        | (obtain ⟨rfl, hs⟩ := hs
           rename_i b w' a'
           cases b
           · exact ⟨rfl, hs, rfl⟩
           · simp only [obind_ok, if_true, bind_run, load_run, hk, store_run]; exact ⟨rfl, hs, rfl⟩)
  | orElse k l m =>
    simp only [runOp, XOp.spec, asRet_run, bind_run, hasValue_run, obind_ok]
    cases hk : p k with
    | some j =>
      simp only [Option.isSome_some, if_true, bind_run, load_run, hk, obind_ok, store_run]
      exact ⟨rfl, h, rfl⟩
    | none =>
      simp only [Option.isSome_none, Bool.false_eq_true, if_false, bind_run, lift_run, XState.after]
      have hs := Prog.call0_sim (b := ()) h
      revert hs
      cases P.call0 () w <;> cases Spec.call0 P () a <;> intro hs <;> first
        | exact hs.elim
        | exact rel_ub _
        | exact ⟨hs, rfl⟩
        | exact trivial
        | exact ⟨rfl, hs.2.2.1, rfl⟩
  | cmp o rel k l =>
    simp only [runOp, XOp.spec, asRet_run, bind_run, hasValue_run, obind_ok]
    cases hk : p k with
    | none =>
      have e := onBool_below (x := none) (y := p l) o (by simp)
      simp only [Option.isSome_none, Bool.false_and, Bool.false_eq_true, if_false, pure_run, obind_ok]
      exact ⟨congrArg Ret.bool e, h, rfl⟩
    | some i =>
      cases hl' : p l with
      | none =>
        have e := onBool_below (x := some i) (y := none) o (by simp)
        simp only [Option.isSome_some, Option.isSome_none, Bool.and_false, Bool.false_eq_true, if_false, pure_run, obind_ok]
        exact ⟨congrArg Ret.bool e, h, rfl⟩
      | some j =>
        obtain ⟨f1, f2⟩ := hal i j hk hl'
        obtain ⟨v1, e1⟩ := full_iff.1 f1
        obtain ⟨v2, e2⟩ := full_iff.1 f2
        obtain ⟨o1, ho1, hr1⟩ := h.some' e1
        obtain ⟨o2, ho2, hr2⟩ := h.some' e2
        simp only [f1, f2, Bool.and_self, if_true]
        refine cast ?_ (lift_only (p := p) (asRet_val (f := .bool) (Prog.cmp_sim (o := o) (rel := rel) (i := i) (j := j) h)))
        congr 1
        simp only [Prog.cmp, lift_run, asRet_run, bind_run, Prog.hasValue_run ho1 hr1, Prog.hasValue_run ho2 hr2, Option.isSome_some, Bool.and_self, obind_ok,
          if_true, Prog.get, Prog.getCheck_run ho1 hr1, Prog.getCheck_run ho2 hr2, check_true, Prog.readT_run ho1 hr1, Prog.readT_run ho2 hr2,
          place_run hk, place_run hl']
        cases P.call0 (rel o v1 v2) w <;> rfl
  | via k u =>
    simp only [runOp, XOp.spec]
    cases hk : p k with
    | none => exact use_nothing hP h hk
    | some j =>
      simp only [XOp.Allowed, hk] at hal
      obtain ⟨v, hv⟩ := full_iff.1 hal.1
      simp only [hal.1, if_true]
      exact use_some hP h hk hv (hl j hk) hal.2 (hh j hk)

theorem run_sim (hP : P.OK) {ops : List (XOp Val)} : ∀ {s : XWorld} {t : XState Val}, XR P s t → XOp.AllFine P ops t →
    Out.Rel (fun rs s' rs' t' => rs = rs' ∧ XR P s' t') (XR P) (run P ops s) (XOp.specAll P ops t) := by
  induction ops with
  | nil => exact fun h _ => ⟨rfl, h⟩
  | cons op ops ih =>
    intro s t h hf
    obtain ⟨hl, hal, hh, hf⟩ := hf
    have hs := runOp_sim hP h hl hal hh
    have hc : Out.Rel (Same P) (XR P) (catch_ (runOp P op) s) (XOp.caught (op.spec P t)) := by
      simp only [catch_, XOp.caught]
      revert hs
      cases runOp P op s <;> cases op.spec P t <;> intro hs <;> first
        | exact hs.elim
        | exact rel_ub _
        | exact hs
        | exact ⟨rfl, hs⟩
        | exact trivial
    simp only [run, XOp.specAll, bind_run]
    revert hc hf
    cases catch_ (runOp P op) s <;> cases XOp.caught (op.spec P t) <;> intro hf hc <;> first
      | exact hc.elim
      | exact rel_ub _
      | exact hc
      | exact trivial
      | skip
    rename_i r s' r' t'
    obtain ⟨rfl, hx⟩ := hc
    have hi := ih hx hf
    simp only [obind_ok, bind_run]
    revert hi
    cases run P ops s' <;> cases XOp.specAll P ops t' <;> intro hi <;> first
      | exact hi.elim
      | exact rel_ub _
      | exact hi
      | exact trivial
      | exact ⟨congrArg _ hi.1, hi.2⟩

/-- the client's duties are enough -/
theorem spec_good (hP : P.OK) {t : XState Val} {op : XOp Val} (hal : op.Allowed t) : op.spec P t ≠ .ub := by
  obtain ⟨a, q⟩ := t
  have hc : ∀ {γ : Type} (j : Nat) (f : Prog.Fn Val γ) (v : Val), a.mem j = some (some v) → Spec.call P j f a ≠ .ub := by
    intro γ j f v hv
    simp only [Spec.call, bind_run, Spec.checked_run hv, Option.isSome_some, check_true, obind_ok, Spec.val_run hv, Spec.user_run]
    split <;> simp [Spec.put, bind_run, M.raise, pure_run, obind_ok]
  have h0 : ∀ {γ : Type} (b : γ), Spec.call0 P b a ≠ .ub := by
    intro γ b
    simp only [Spec.call0, bind_run, Spec.user_run, obind_ok]
    split <;> simp [M.raise, pure_run]
  have after : ∀ {γ : Type} {x : M (AState Val) γ} {g : γ → XState Val → Out (XState Val) (Ret Val)}, x a ≠ .ub → (∀ u t, g u t ≠ .ub) →
      (⟨a, q⟩ : XState Val).after x g ≠ .ub := by
    intro γ x g hx hg
    simp only [XState.after]
    cases h : x a with
    | ub => exact absurd h hx
    | ok u s => exact hg _ _
    | _ => all_goals simp
  have only : ∀ {x : M (AState Val) (Ret Val)}, x a ≠ .ub → (⟨a, q⟩ : XState Val).only x ≠ .ub := fun hx => after hx fun _ _ => by simp
  have op_ : ∀ {op : Op Val}, op.Allowed a.mem → Spec.runOp P op a ≠ .ub := by
    intro op ha e
    have := Spec.runOp_good hP (Spec.here_st (P := P) a) ha
    rw [e] at this; exact this
  have asRet : ∀ {γ : Type} {x : M (AState Val) γ} {g : γ → Ret Val}, x a ≠ .ub → Prog.asRet g x a ≠ .ub := by
    intro γ x g hx
    simp only [asRet_run]
    cases h : x a with
    | ub => exact absurd h hx
    | _ => all_goals simp [Out.bind, pure_run]
  have new : ∀ {r : Nat}, a.mem r = none → Spec.new r a ≠ .ub := fun {r} hr e => by
    rw [Spec.new_run hr] at e; cases e
  cases op with
  | val op => exact only (op_ hal)
  | bind k i =>
    simp only [XOp.spec]
    split <;> simp_all [XOp.Allowed]
  | tryBind k i =>
    simp only [XOp.spec]
    split <;> simp_all [XOp.Allowed]
  | bindPtr k i =>
    simp only [XOp.spec]
    split <;> simp_all [XOp.Allowed]
  | filter k l f =>
    simp only [XOp.spec]
    cases hk : q k with
    | none => simp
    | some j =>
      simp only [hal j hk, if_true]
      obtain ⟨v, hv⟩ := full_iff.1 (hal j hk)
      exact after (hc j f v hv) fun _ _ => by simp
  | takeIf k l f =>
    simp only [XOp.spec]
    cases hk : q k with
    | none => simp
    | some j =>
      simp only [hal j hk, if_true]
      obtain ⟨v, hv⟩ := full_iff.1 (hal j hk)
      exact after (hc j f v hv) fun _ _ => by simp
  | orElse k l m =>
    simp only [XOp.spec]
    cases hk : q k with
    | some j => simp
    | none => exact after (h0 ()) fun _ _ => by simp
  | cmp o rel k l =>
    simp only [XOp.spec]
    cases hk : q k with
    | none => simp
    | some i =>
      cases hl : q l with
      | none => simp
      | some j =>
        obtain ⟨f1, f2⟩ := hal i j hk hl
        obtain ⟨v1, e1⟩ := full_iff.1 f1
        obtain ⟨v2, e2⟩ := full_iff.1 f2
        simp only [f1, f2, Bool.and_self, if_true]
        refine only (op_ ⟨fun m hm => ?_, fun r hr => ?_, ?_, trivial⟩)
        · simp only [Op.uses, List.mem_cons, List.not_mem_nil, or_false] at hm
          obtain rfl | rfl := hm
          · exact fun e => by rw [e1] at e; cases e
          · exact fun e => by rw [e2] at e; cases e
        · cases hr
        · exact List.nodup_nil
  | via k u =>
    simp only [XOp.spec]
    cases hk : q k with
    | some j =>
      simp only [XOp.Allowed, hk] at hal
      simp only [hal.1, if_true]
      exact only (op_ hal.2)
    | none =>
      simp only [XOp.Allowed, hk] at hal
      refine only ?_
      cases u with
      | mapOr d f =>
        simp only [Use.onNothing, bind_run, Spec.user_run, obind_ok]
        split <;> simp [M.raise, pure_run]
      | mapOrElse d f => exact asRet (h0 d)
      | map r f => exact asRet (new hal)
      | andThen r f => exact asRet (new hal)
      | copyTo r f => exact asRet (new hal)
      | assignTo r f =>
        have := op_ (op := .reset r) ⟨fun m hm => ?_, fun r hr => ?_, ?_, trivial⟩
        · exact this
        · simp only [Op.uses, List.mem_cons, List.not_mem_nil, or_false] at hm
          rw [hm]; exact hal
        · cases hr
        · exact List.nodup_nil
      | _ => all_goals simp [Use.onNothing, M.raise, pure_run]
  | _ => all_goals simp [XOp.spec]

theorem specAll_good (hP : P.OK) : ∀ {ops : List (XOp Val)} {t : XState Val}, XOp.AllFine P ops t →
    (match XOp.specAll P ops t with | .ok _ _ => True | .verify => True | _ => False)
  | [], _, _ => trivial
  | op :: ops, t, hf => by
    have hg := spec_good hP hf.2.1
    have hf := hf.2.2.2
    have hc : (match XOp.caught (op.spec P t) with | .ok _ _ => True | .verify => True | _ => False) := by
      simp only [XOp.caught]
      cases hx : op.spec P t with
      | ub => exact absurd hx hg
      | _ => all_goals trivial
    simp only [XOp.specAll]
    revert hf hc
    cases XOp.caught (op.spec P t) with
    | ok r t' =>
      intro hf _
      have ih := specAll_good hP hf
      simp only
      revert ih
      cases XOp.specAll P ops t' <;> exact id
    | _ => all_goals exact fun _ h => h

/-- `XOp.Allowed` along a history, to compute with -/
def allowedB [DecidableEq Val] (op : XOp Val) (s : XState Val) : Bool :=
  match op with
  | .val op => decide (op.Allowed s.opts.mem)
  | .bind _ i | .tryBind _ i | .bindPtr _ i => (s.opts.mem i).isSome
  | .filter k _ _ | .takeIf k _ _ => (s.ref k).all s.full
  | .cmp _ _ k l => (s.ref k).all s.full && (s.ref l).all s.full
  | .via k u =>
    match s.ref k with
    | some j => s.full j && decide ((u.on j).Allowed s.opts.mem)
    | none =>
      match u with
      | .map r _ | .andThen r _ | .copyTo r _ => (s.opts.mem r).isNone
      | .assignTo i _ => (s.opts.mem i).isSome
      | _ => true
  | _ => true

theorem allowed_of [DecidableEq Val] {op : XOp Val} {s : XState Val} (h : allowedB op s = true) : op.Allowed s := by
  have hs : ∀ {x : Option (Option Val)}, x.isSome = true → x ≠ none := fun h e => by rw [e] at h; cases h
  have hn : ∀ {x : Option (Option Val)}, x.isNone = true → x = none := fun h => by simpa using h
  have ha : ∀ {k j : Nat}, (s.ref k).all s.full = true → s.ref k = some j → s.full j = true := fun h e => by rw [e] at h; exact h
  cases op with
  | val op => exact of_decide_eq_true (p := op.Allowed s.opts.mem) h
  | bind k i => exact hs h
  | tryBind k i => exact hs h
  | bindPtr k i => exact hs h
  | filter k l f => exact fun j e => ha h e
  | takeIf k l f => exact fun j e => ha h e
  | cmp o rel k l =>
    have h : (_ && _) = true := h
    rw [Bool.and_eq_true] at h
    exact fun i j e1 e2 => ⟨ha h.1 e1, ha h.2 e2⟩
  | via k u =>
    simp only [allowedB] at h
    simp only [XOp.Allowed]
    cases hk : s.ref k with
    | some j =>
      simp only [hk, Bool.and_eq_true] at h
      exact ⟨h.1, of_decide_eq_true h.2⟩
    | none =>
      simp only [hk] at h
      cases u with
      | map r f => exact hn h
      | andThen r f => exact hn h
      | copyTo r f => exact hn h
      | assignTo i f => exact hs h
      | _ => all_goals trivial
  | _ => all_goals trivial

def allAllowedB [DecidableEq Val] (P : Prog Val) : List (XOp Val) → XState Val → Bool
  | [], _ => true
  | op :: ops, s => allowedB op s &&
    match XOp.caught (op.spec P s) with
    | .ok _ t => allAllowedB P ops t
    | _ => true

theorem allFine_of [DecidableEq Val] (hT : P.ThrowSafe) : ∀ {ops : List (XOp Val)} {s : XState Val}, (∀ op ∈ ops, ∀ t, op.Legal P t) →
    allAllowedB P ops s = true → XOp.AllFine P ops s
  | [], _, _, _ => trivial
  | op :: ops, s, hl, h => by
    simp only [allAllowedB, Bool.and_eq_true] at h
    refine ⟨hl op (List.mem_cons_self ..) s, allowed_of h.1, ?_, ?_⟩
    · cases op <;> first | trivial | exact Op.harmless_of_throwSafe hT _ _ | exact fun _ _ => Op.harmless_of_throwSafe hT _ _
    · have h2 := h.2
      revert h2
      cases XOp.caught (op.spec P s) with
      | ok r t => exact fun h2 => allFine_of hT (fun op ho => hl op (List.mem_cons_of_mem _ ho)) h2
      | _ => all_goals exact fun _ => trivial

end Alias

end Opt
