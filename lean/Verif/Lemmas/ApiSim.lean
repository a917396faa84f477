import Verif.Lemmas.MachineOps
import Verif.Model.Api
import Verif.Spec.OptionalApi
import Verif.Model.Iter

/-!
# Observers, monadic operations and operators implement their specification
-/

namespace Opt

variable {Val : Type} {P : Prog Val}

/-- weaken the throw side of a computation that does not throw -/
theorem rel_nothrow {σ τ α β : Type} {B : α → σ → β → τ → Prop} {C : σ → τ → Prop} {x : Out σ α} {y : Out τ β}
    (h : Out.Rel B (fun _ _ => False) x y) : Out.Rel B C x y :=
  rel_mono h (fun _ _ _ _ h => h) (fun _ _ (h : False) => h.elim)

namespace Prog

theorem hasValue_sim {w : World} {a : AState Val} {i : Nat} (h : R P w a) :
    Out.Rel (fun b w' x a' => b = Option.isSome x ∧ w' = w ∧ a' = a ∧ a.mem i = some x) (fun _ _ => False)
      (P.hasValue i w) (Spec.get i a) := by
  cases hi : a.mem i with
  | none => simp only [Spec.get_none hi]; exact rel_ub _
  | some x =>
    obtain ⟨oi, hoi, hri⟩ := h.some' hi
    rw [hasValue_run hoi hri, Spec.get_run hi]
    exact ⟨rfl, rfl, rfl, rfl⟩

theorem readT_sim (w : World) {a : AState Val} {i : Nat} (h : R P w a) :
    Out.Rel (fun u w' v a' => u = v ∧ w' = w ∧ a' = a ∧ (P.elem i).Dom P.pw v) (fun _ _ => False)
      (P.readT i w) (Spec.val i a) := by
  cases hi : a.mem i with
  | none => simp only [Spec.val_no hi]; exact rel_ub _
  | some x =>
    cases x with
    | none => simp only [Spec.val_none hi]; exact rel_ub _
    | some v =>
      obtain ⟨oi, hoi, hri⟩ := h.some' hi
      rw [readT_run hoi hri, Spec.val_run hi]
      exact ⟨rfl, rfl, rfl, hri.dom⟩

theorem returnT_sim (hP : P.OK) {w : World} {a : AState Val} {i : Nat} {src : Src Val} (h : R P w a)
    (hleg : src.Legal P i) :
    Out.Rel (fun u w' v a' => u = v ∧ R P w' a' ∧ (P.elem i).Dom P.pw v ∧
        ∀ k v, a.mem k = some (some v) → ∃ v', a'.mem k = some (some v'))
      (R P) (P.returnT i src w) (Spec.give P i src a) := by
  simp only [returnT, Spec.give, bind_run]
  rcases srcVal_run hP Good.obj h hleg with hv | ⟨v, hv, hv', hd⟩
  · rw [hv]; exact rel_ub _
  simp only [hv, hv', obind_ok]
  by_cases ht : (P.elem i).ctorTriv (P.kind i src) = true
  · simp only [ht, if_true, pure_run]
    exact ⟨rfl, h, hd, fun k v h => ⟨v, h⟩⟩
  simp only [ht, if_false, bind_run, userOp_run, Spec.user_run, obind_ok, Bool.false_eq_true]
  rw [h.env]
  have h2 := h.envs (a.env.use P (.tmpCtor (P.kind i src) true) (.tmpCtor (P.kind i src) false))
  obtain ⟨w', a', e1, e2, e3, e4, e5⟩ := srcAfter_run hP Good.obj h2 (i := i) hv rfl (P.throwsAt a.env.tick) a.env.tick
  simp only [e1, e2, obind_ok]
  cases hthr : P.throwsAt a.env.tick
  · simp only [Bool.false_eq_true, if_false, pure_run]
    exact ⟨rfl, e3, hd, e5⟩
  · simp only [if_true, raise_run]
    exact e3

theorem call0_sim {β : Type} {w : World} {a : AState Val} {b : β} (h : R P w a) :
    Out.Rel (fun x w' y a' => x = b ∧ y = b ∧ R P w' a' ∧ a'.mem = a.mem) (R P) (P.call0 b w) (Spec.call0 P b a) := by
  simp only [call0, Spec.call0, bind_run, userOp_run, Spec.user_run, obind_ok]
  rw [h.env]
  have h2 := h.envs (a.env.use P (.call0 true) (.call0 false))
  cases hthr : P.throwsAt a.env.tick
  · simp only [Bool.false_eq_true, if_false, pure_run]; exact ⟨rfl, rfl, h2, rfl⟩
  · simp only [if_true, raise_run]; exact h2

theorem makeOption_sim (hP : P.OK) {w : World} {a : AState Val} {r : Nat} {x : Option Val} (h : R P w a)
    (hx : ∀ v, x = some v → (P.elem r).Dom P.pw v) :
    Out.Rel (fun _ w' _ a' => R P w' a') (R P) (P.makeOption r x w) (Spec.make P r x a) := by
  cases x with
  | none => exact rel_nothrow (ctorDefault_sim hP h)
  | some v => exact ctorArg_sim hP h (hx v rfl)

theorem get_sim {w : World} {a : AState Val} {i : Nat} (h : R P w a) :
    Out.Rel (fun u w' v a' => u = v ∧ w' = w ∧ a' = a) (fun _ _ => False) (P.get i w) (Spec.getOrDie i a) := by
  simp only [get, Spec.getOrDie, bind_run]
  cases hi : a.mem i with
  | none => simp only [Spec.get_none hi, obind_ub]; exact rel_ub _
  | some x =>
    obtain ⟨oi, hoi, hri⟩ := h.some' hi
    simp only [Spec.get_run hi, obind_ok, getCheck_run hoi hri]
    cases x with
    | none => exact trivial
    | some v =>
      simp only [Option.isSome_some, check_true, obind_ok, readT_run hoi hri, pure_run]
      exact ⟨rfl, rfl, rfl⟩

theorem valueOrThrow_sim {w : World} {a : AState Val} {i : Nat} (h : R P w a) :
    Out.Rel (fun u w' v a' => u = v ∧ w' = w ∧ a' = a) (fun w' a' => w' = w ∧ a' = a)
      (P.valueOrThrow i w) (Spec.getOrThrow i a) := by
  simp only [valueOrThrow, Spec.getOrThrow, bind_run]
  cases hi : a.mem i with
  | none => simp only [Spec.get_none hi, obind_ub]; exact rel_ub _
  | some x =>
    obtain ⟨oi, hoi, hri⟩ := h.some' hi
    simp only [Spec.get_run hi, obind_ok, hasValue_run hoi hri]
    cases x with
    | none => exact ⟨rfl, rfl⟩
    | some v =>
      simp only [Option.isSome_some, Bool.not_true, Bool.false_eq_true, if_false, bind_run, getCheck_run hoi hri,
        check_true, obind_ok, readT_run hoi hri, pure_run]
      exact ⟨rfl, rfl, rfl⟩

theorem ptrOrNull_sim {w : World} {a : AState Val} {i : Nat} (h : R P w a) :
    Out.Rel (fun u w' v a' => u = v ∧ w' = w ∧ a' = a) (fun _ _ => False) (P.ptrOrNull i w) (Spec.get i a) := by
  simp only [ptrOrNull, bind_run]
  cases hi : a.mem i with
  | none => simp only [Spec.get_none hi]; exact rel_ub _
  | some x =>
    obtain ⟨oi, hoi, hri⟩ := h.some' hi
    simp only [Spec.get_run hi, obind_ok, hasValue_run hoi hri]
    cases x with
    | none => exact ⟨rfl, rfl, rfl⟩
    | some v =>
      simp only [Option.isSome_some, if_true, bind_run, getCheck_run hoi hri,
        check_true, obind_ok, readT_run hoi hri, pure_run]
      exact ⟨rfl, rfl, rfl⟩

theorem valueOr_sim (hP : P.OK) {w : World} {a : AState Val} {i : Nat} {mv : Bool} {d : Src Val} (h : R P w a)
    (hleg : d.Legal P i) :
    Out.Rel (fun u w' v a' => u = v ∧ R P w' a') (R P) (P.valueOr i mv d w) (Spec.valueOr P i mv d a) := by
  refine rel_bind (rel_nothrow (evalArg_sim h)) ?_
  rintro _ w' _ a' ⟨rfl, rfl⟩
  simp only [bind_run]
  cases hi : a'.mem i with
  | none => simp only [Spec.get_none hi, obind_ub]; exact rel_ub _
  | some x =>
    obtain ⟨oi, hoi, hri⟩ := h.some' hi
    simp only [Spec.get_run hi, obind_ok, hasValue_run hoi hri]
    have key := fun (src : Src Val) (hl : src.Legal P i) =>
      rel_mono (returnT_sim hP (i := i) h hl) (fun u w' v a' h => (⟨h.1, h.2.1⟩ : u = v ∧ R P w' a')) (fun _ _ h => h)
    cases x with
    | none => exact key d hleg
    | some v =>
      simp only [Option.isSome_some, if_true, bind_run, getCheck_run hoi hri, check_true, obind_ok]
      exact key (.opt i mv) trivial

theorem hasValueAnd_sim (hP : P.OK) {w : World} {a : AState Val} {i : Nat} {f : Fn Val Bool} (h : R P w a)
    (hf : f.Legal P i) :
    Out.Rel (fun u w' v a' => u = v ∧ R P w' a') (R P) (P.hasValueAnd i f w) (Spec.hasValueAnd P i f a) := by
  simp only [hasValueAnd, Spec.hasValueAnd, bind_run]
  cases hi : a.mem i with
  | none => simp only [Spec.get_none hi, obind_ub]; exact rel_ub _
  | some x =>
    obtain ⟨oi, hoi, hri⟩ := h.some' hi
    simp only [Spec.get_run hi, obind_ok, hasValue_run hoi hri]
    cases x with
    | none => exact ⟨rfl, h⟩
    | some v => exact callT_sim hP h hf

theorem inspect_sim (hP : P.OK) {w : World} {a : AState Val} {i : Nat} {f : Fn Val Unit} (h : R P w a)
    (hf : f.Legal P i) :
    Out.Rel (fun _ w' _ a' => R P w' a') (R P) (P.inspect i f w) (Spec.inspect P i f a) := by
  simp only [inspect, Spec.inspect, bind_run]
  cases hi : a.mem i with
  | none => simp only [Spec.get_none hi, obind_ub]; exact rel_ub _
  | some x =>
    obtain ⟨oi, hoi, hri⟩ := h.some' hi
    simp only [Spec.get_run hi, obind_ok, hasValue_run hoi hri]
    cases x with
    | none => exact h
    | some v => exact rel_mono (callT_sim hP h hf) (fun _ _ _ _ h => h.2) (fun _ _ h => h)

theorem mapOr_sim (hP : P.OK) {w : World} {a : AState Val} {i : Nat} {d : Val} {f : Fn Val Val} (h : R P w a)
    (hf : f.Legal P i) :
    Out.Rel (fun u w' v a' => u = v ∧ R P w' a') (R P) (P.mapOr i d f w) (Spec.mapOr P i d f a) := by
  simp only [mapOr, Spec.mapOr, bind_run]
  cases hi : a.mem i with
  | none => simp only [Spec.get_none hi, obind_ub]; exact rel_ub _
  | some x =>
    obtain ⟨oi, hoi, hri⟩ := h.some' hi
    simp only [Spec.get_run hi, obind_ok, hasValue_run hoi hri]
    cases x with
    | none =>
      simp only [Option.isSome_none, Bool.false_eq_true, if_false, bind_run, userOp_run, Spec.user_run, obind_ok]
      rw [h.env]
      have h2 := h.envs (a.env.use P (.tmpCtor .args true) (.tmpCtor .args false))
      cases hthr : P.throwsAt a.env.tick
      · simp only [Bool.false_eq_true, if_false, pure_run]; exact ⟨rfl, h2⟩
      · simp only [if_true, raise_run]; exact h2
    | some v => exact callT_sim hP h hf

theorem mapOrElse_sim (hP : P.OK) {w : World} {a : AState Val} {i : Nat} {d : Val} {f : Fn Val Val} (h : R P w a)
    (hf : f.Legal P i) :
    Out.Rel (fun u w' v a' => u = v ∧ R P w' a') (R P) (P.mapOrElse i d f w) (Spec.mapOrElse P i d f a) := by
  simp only [mapOrElse, Spec.mapOrElse, bind_run]
  cases hi : a.mem i with
  | none => simp only [Spec.get_none hi, obind_ub]; exact rel_ub _
  | some x =>
    obtain ⟨oi, hoi, hri⟩ := h.some' hi
    simp only [Spec.get_run hi, obind_ok, hasValue_run hoi hri]
    cases x with
    | none => exact rel_mono (call0_sim h) (fun _ _ _ _ h => ⟨h.1.trans h.2.1.symm, h.2.2.1⟩) (fun _ _ h => h)
    | some v => exact callT_sim hP h hf

theorem callT_dom (hP : P.OK) {β : Type} {w : World} {a : AState Val} {i : Nat} {f : Fn Val β}
    {X : Nat → Obj → Option Val → Prop} {r : Nat} (hX : ∀ k, k ≠ r → X k = ObjR P k) (hri : i ≠ r)
    (h : RX X w a) (hf : f.Legal P i) :
    Out.Rel (fun b w' b' a' => b = b' ∧ RX X w' a' ∧ w'.mem r = w.mem r ∧ a'.mem r = a.mem r ∧
        ∃ v, (P.elem i).Dom P.pw v ∧ b' = f.ret v)
      (fun w' a' => RX X w' a' ∧ w'.mem r = w.mem r ∧ a'.mem r = a.mem r)
      (P.callT i f w) (Spec.call P i f a) := by
  simp only [callT, Spec.call, bind_run]
  cases hi : a.mem i with
  | none => simp only [Spec.checked, bind_run, Spec.get_none hi, obind_ub]; exact rel_ub _
  | some x =>
    obtain ⟨o, ho, hr⟩ := h.some' hi
    rw [hX i hri] at hr
    rw [getCheck_run ho hr, Spec.checked_run hi]
    cases x with
    | none => exact trivial
    | some v =>
      simp only [Option.isSome_some, check_true, bind_run, obind_ok, readT_run ho hr, Spec.val_run hi, userOp_run, Spec.user_run]
      rw [h.env]
      have h2 := h.envs (a.env.use P (.call i true) (.call i false))
      obtain ⟨hal, _, _⟩ := hr.live v rfl
      have key : ∀ u, (P.elem i).Dom P.pw u → ∃ o', P.writeT i a.env.tick u
          { w with env := a.env.use P (.call i true) (.call i false) } = .ok ()
            (World.put { w with env := a.env.use P (.call i true) (.call i false) } i o') ∧
          RX X (World.put { w with env := a.env.use P (.call i true) (.call i false) } i o')
            (AState.put { a with env := a.env.use P (.call i true) (.call i false) } i (some u)) := by
        intro u hu
        have hb := hP.build i a.env.tick u (P.payload i o) hu (hr.payload_len hP)
        refine ⟨_, writeT_run (w := { w with env := a.env.use P (.call i true) (.call i false) }) ho hal _ u, h2.put (fun _ _ _ _ h => h) ?_⟩
        rw [hX i hri]; exact hr.write hP hb.1 hb.2
      have hne : r ≠ i := fun e => hri e.symm
      cases hthr : P.throwsAt a.env.tick
      · obtain ⟨o1, e1, r1⟩ := key _ (hf v hr.dom).1
        simp only [Bool.false_eq_true, if_false, bind_run, e1, obind_ok, Spec.put_run, pure_run]
        exact ⟨rfl, r1, upd_other _ _ hne, upd_other _ _ hne, v, hr.dom, rfl⟩
      · obtain ⟨o1, e1, r1⟩ := key _ (hf v hr.dom).2
        simp only [if_true, bind_run, e1, obind_ok, Spec.put_run, raise_run]
        exact ⟨r1, upd_other _ _ hne, upd_other _ _ hne⟩

theorem callT_ret (hP : P.OK) {β : Type} {w : World} {a : AState Val} {i r : Nat} {f : Fn Val β} (hri : i ≠ r)
    (h : R P w a) (hf : f.Legal P i) :
    Out.Rel (fun b w' b' a' => b = b' ∧ R P w' a' ∧ ∃ v, (P.elem i).Dom P.pw v ∧ b' = f.ret v) (R P)
      (P.callT i f w) (Spec.call P i f a) :=
  rel_mono (callT_dom hP (fun _ _ => rfl) hri h hf) (fun _ _ _ _ h => ⟨h.1, h.2.1, h.2.2.2.2⟩) (fun _ _ h => h.1)

theorem map_sim (hP : P.OK) {w : World} {a : AState Val} {i r : Nat} {f : Fn Val Val} (h : R P w a)
    (hf : f.Legal P i) (hret : f.RetIn P r i) :
    Out.Rel (fun _ w' _ a' => R P w' a') (R P) (P.map i r f w) (Spec.map P i r f a) := by
  simp only [map, Spec.map, bind_run]
  cases hi : a.mem i with
  | none => simp only [Spec.get_none hi, obind_ub]; exact rel_ub _
  | some x =>
    obtain ⟨oi, hoi, hri⟩ := h.some' hi
    simp only [Spec.get_run hi, obind_ok, hasValue_run hoi hri]
    cases x with
    | none => exact rel_nothrow (ctorDefault_sim hP h)
    | some v =>
      cases hx : a.mem r with
      | some x => simp only [bind_run, Spec.new_some hx, obind_ub]; exact rel_ub _
      | none =>
        have hne : i ≠ r := fun e => by subst e; rw [hi] at hx; cases hx
        simp only [Option.isSome_some, if_true, bind_run, getCheck_run hoi hri, check_true, obind_ok,
          newObj_run (h.none' hx), Spec.new_run hx]
        have h1 : RX (exc P r (PreR P r)) (w.put r ⟨P.garbage r w.env.tick, false⟩) (a.put r none) :=
          (h.pre r).set' ⟨hP.garbage _ _, fun _ h => (by cases h), fun _ _ => rfl⟩
        refine rel_then (B := fun _ w' _ a' => RX (exc P r (MidR P r)) w' a' ∧ (a'.mem r).isSome = true)
          (rel_onThrow (C' := fun w' a' => ∃ X, (∀ k, k ≠ r → X k = ObjR P k) ∧ RX X w' a') ?_ ?_) ?_
        rotate_left
        · rintro w' a' ⟨X, hX, h'⟩
          exact h'.del fun k e o x hk => by rw [hX k e] at hk; exact hk
        rotate_left
        · refine rel_bind (B := fun b w' b' a' => b = b' ∧ RX (exc P r (PreR P r)) w' a' ∧
              w'.mem r = some ⟨P.garbage r w.env.tick, false⟩ ∧ a'.mem r = some none ∧
              (P.elem r).Dom P.pw b') ?_ ?_
          · refine rel_mono (callT_dom hP (r := r) (fun k e => upd_other _ _ e) hne h1 hf) ?_ ?_
            · rintro b w' b' a' ⟨rfl, h2, h3, h4, v, hv, rfl⟩
              exact ⟨rfl, h2, h3.trans (upd_same _ _ _), h4.trans (upd_same _ _ _), hret v hv⟩
            · rintro w' a' ⟨h2, _⟩
              exact ⟨_, fun k e => upd_other _ _ e, h2⟩
          · rintro b w' b' a' ⟨rfl, h2, h3, h4, h5⟩
            exact rel_mono (constructInPlace_sim hP h2 h3 h4 h5) (fun _ _ _ _ h => h)
              (fun _ _ h => ⟨_, fun k e => upd_other _ _ e, h.1⟩)
        · exact fun _ w' _ a' h' =>
            let ⟨w'', h1, h2⟩ := finish_run hP h'.1 h'.2
            ⟨(), w'', h1, h2⟩

theorem andThen_sim (hP : P.OK) {w : World} {a : AState Val} {i r : Nat} {f : Fn Val (Option Val)} (h : R P w a)
    (hf : f.Legal P i) (hret : ∀ v u, (P.elem i).Dom P.pw v → f.ret v = some u → (P.elem r).Dom P.pw u) :
    Out.Rel (fun _ w' _ a' => R P w' a') (R P) (P.andThen i r f w) (Spec.andThen P i r f a) := by
  simp only [andThen, Spec.andThen, bind_run]
  cases hi : a.mem i with
  | none => simp only [Spec.get_none hi, obind_ub]; exact rel_ub _
  | some x =>
    obtain ⟨oi, hoi, hri⟩ := h.some' hi
    simp only [Spec.get_run hi, obind_ok, hasValue_run hoi hri]
    cases x with
    | none => exact rel_nothrow (ctorDefault_sim hP h)
    | some v =>
      refine rel_bind (callT_ret hP (r := i + 1) (Nat.ne_of_lt (Nat.lt_succ_self i)) h hf) ?_
      rintro b w' b' a' ⟨rfl, h2, v, hv, rfl⟩
      exact makeOption_sim hP h2 fun u hu => hret v u hv hu

theorem orElse_sim (hP : P.OK) {w : World} {a : AState Val} {i r : Nat} {mv : Bool}
    (hF : (∃ v, a.mem i = some (some v)) → P.FitAt r (P.kind r (.opt i mv)) w.env.tick) {x : Option Val} (h : R P w a)
    (hx : ∀ v, x = some v → (P.elem r).Dom P.pw v) :
    Out.Rel (fun _ w' _ a' => R P w' a') (R P) (P.orElse i r mv x w) (Spec.orElse P i r mv x a) := by
  simp only [orElse, Spec.orElse, bind_run]
  cases hi : a.mem i with
  | none => simp only [Spec.get_none hi, obind_ub]; exact rel_ub _
  | some y =>
    obtain ⟨oi, hoi, hri⟩ := h.some' hi
    simp only [Spec.get_run hi, obind_ok, hasValue_run hoi hri]
    cases y with
    | some v => exact ctorFrom_sim hP hF h
    | none =>
      refine rel_bind (call0_sim h) ?_
      rintro b w' b' a' ⟨rfl, rfl, h2, _⟩
      exact makeOption_sim hP h2 hx

theorem filter_sim (hP : P.OK) {w : World} {a : AState Val} {i r : Nat} {mv : Bool} {f : Fn Val Bool} (h : R P w a)
    (hf : f.Legal P i) :
    Out.Rel (fun _ w' _ a' => R P w' a') (R P) (P.filter i r mv f w) (Spec.filter P i r mv f a) := by
  simp only [filter, Spec.filter, bind_run]
  cases hi : a.mem i with
  | none => simp only [Spec.get_none hi, obind_ub]; exact rel_ub _
  | some y =>
    obtain ⟨oi, hoi, hri⟩ := h.some' hi
    simp only [Spec.get_run hi, obind_ok, hasValue_run hoi hri]
    cases y with
    | none => exact rel_nothrow (ctorDefault_sim hP h)
    | some v =>
      refine rel_bind (B := fun b w' b' a' => b = b' ∧ R P w' a' ∧ ∃ v, a'.mem i = some (some v)) ?_ ?_
      · refine rel_bind (rel_nothrow (getCheck_sim h)) ?_
        rintro _ w' _ a' ⟨rfl, rfl, v, hv⟩
        simp only [bind_run, readT_run hoi hri, Spec.val_run hi, obind_ok, userOp_run, Spec.user_run]
        rw [h.env]
        have h2 := h.envs (a'.env.use P (.call i true) (.call i false))
        cases hthr : P.throwsAt a'.env.tick
        · obtain ⟨o1, e1, r1⟩ := writeT_sim hP (i := i) (n := a'.env.tick) h2 hi (hf _ hri.dom).1
          simp only [Bool.false_eq_true, if_false, bind_run, e1, obind_ok, Spec.put_run, pure_run]
          exact ⟨rfl, r1, _, upd_same _ _ _⟩
        · obtain ⟨o1, e1, r1⟩ := writeT_sim hP (i := i) (n := a'.env.tick) h2 hi (hf _ hri.dom).2
          simp only [if_true, bind_run, e1, obind_ok, Spec.put_run, raise_run]
          exact r1
      · rintro b w' b' a' ⟨rfl, h2, u, hu⟩
        cases b
        · exact rel_nothrow (ctorDefault_sim hP h2)
        · obtain ⟨o', ho', hr'⟩ := h2.some' hu
          simp only [if_true, bind_run, getCheck_run ho' hr', Option.isSome_some, check_true, obind_ok]
          exact ctorArg_sim hP h2 trivial

theorem orOp_sim (hP : P.OK) {w : World} {a : AState Val} {i j r : Nat} {mi mj : Bool}
    (hF : (∃ v, a.mem i = some (some v)) → P.FitAt r (P.kind r (.opt i mi)) w.env.tick)
    (hF2 : a.mem i = some none → (∃ v, a.mem j = some (some v)) → P.FitAt r (P.kind r (.opt j mj)) w.env.tick)
    (h : R P w a) :
    Out.Rel (fun _ w' _ a' => R P w' a') (R P) (P.orOp i j r mi mj w) (Spec.orOp P i j r mi mj a) := by
  simp only [orOp, Spec.orOp, bind_run]
  cases hi : a.mem i with
  | none => simp only [Spec.get_none hi, obind_ub]; exact rel_ub _
  | some y =>
    obtain ⟨oi, hoi, hri⟩ := h.some' hi
    simp only [Spec.get_run hi, obind_ok, hasValue_run hoi hri]
    cases y with
    | none => exact ctorFrom_sim hP (hF2 hi) h
    | some v => exact ctorFrom_sim hP hF h

theorem orAssignValue_sim (hP : P.OK) {w : World} {a : AState Val} {i : Nat} {src : Src Val}
    (hF : a.mem i = some none → P.FitAt i (P.kind i src) w.env.tick) (h : R P w a) (hleg : src.Legal P i) :
    Out.Rel (fun _ w' _ a' => R P w' a') (R P) (P.orAssignValue i src w) (Spec.orAssignValue P i src a) := by
  refine rel_bind (rel_nothrow (evalArg_sim h)) ?_
  rintro _ w' _ a' ⟨rfl, rfl⟩
  simp only [bind_run]
  cases hi : a'.mem i with
  | none => simp only [Spec.get_none hi, obind_ub]; exact rel_ub _
  | some y =>
    obtain ⟨oi, hoi, hri⟩ := h.some' hi
    simp only [Spec.get_run hi, obind_ok, hasValue_run hoi hri]
    cases y with
    | some v => exact h
    | none =>
      simp only [Option.isSome_none, Bool.not_false, if_true, assignValue, bind_run]
      have key := rel_mono (construct_sim hP (hF hi) (i := i) (src := src) h hleg)
        (fun _ w' _ a' (h : R P w' a' ∧ _) => h.1) (fun w' a' (h : R P w' a' ∧ _) => h.1)
      have hev := evalArg_sim (src := src) h
      revert hev
      cases hs : Spec.evalArg src a' with
      | ub =>
        intro _
        have : Spec.init P i src a' = .ub := by
          cases src with
          | opt j mv =>
            simp only [Spec.evalArg] at hs
            cases hj : a'.mem j with
            | none =>
              simp only [Spec.init, Spec.initAs, bind_run, Spec.get_run hi, obind_ok]
              split
              · rfl
              · simp only [Spec.value, bind_run, Spec.val_no hj, obind_ub]
            | some x =>
              rw [Spec.checked_run hj] at hs
              simp only [M.check] at hs
              split at hs <;> cases hs
          | _ => cases hs
        rw [this]; exact rel_ub _
      | verify =>
        intro _
        have : Spec.init P i src a' = .ub := by
          cases src with
          | opt j mv =>
            simp only [Spec.evalArg] at hs
            cases hj : a'.mem j with
            | none => simp only [Spec.checked, bind_run, Spec.get_none hj, obind_ub] at hs; cases hs
            | some x =>
              rw [Spec.checked_run hj] at hs
              cases x with
              | some v => cases hs
              | none =>
                simp only [Spec.init, Spec.initAs, bind_run, Spec.get_run hi, obind_ok]
                split
                · rfl
                · simp only [Spec.value, bind_run, Spec.val_none hj, obind_ub]
          | _ => cases hs
        rw [this]; exact rel_ub _
      | throw t =>
        cases P.evalArg src w' with
        | throw s => intro h; exact h.elim
        | ok _ _ => intro h; exact h.elim
        | verify => intro h; exact h.elim
        | ub => intro h; exact h.elim
      | ok u t =>
        cases P.evalArg src w' with
        | throw s => intro h; exact h.elim
        | verify => intro h; exact h.elim
        | ub => intro h; exact h.elim
        | ok _ s =>
          rintro ⟨rfl, rfl⟩
          simp only [obind_ok, ite_run, bind_run, hasValue_run hoi hri, Option.isSome_none, Bool.false_eq_true, if_false]
          split <;> exact key

theorem orAssignFrom_sim (hP : P.OK) {w : World} {a : AState Val} {i j : Nat} {mv : Bool}
    (hF : a.mem i = some none → (∃ v, a.mem j = some (some v)) → P.FitAt i (P.kind i (.opt j mv)) w.env.tick)
    (h : R P w a) :
    Out.Rel (fun _ w' _ a' => R P w' a') (R P) (P.orAssignFrom i j mv w) (Spec.orAssignFrom P i j mv a) := by
  simp only [orAssignFrom, Spec.orAssignFrom, bind_run]
  cases hi : a.mem i with
  | none => simp only [Spec.get_none hi, obind_ub]; exact rel_ub _
  | some y =>
    obtain ⟨oi, hoi, hri⟩ := h.some' hi
    simp only [Spec.get_run hi, obind_ok, hasValue_run hoi hri]
    cases y with
    | some v => exact h
    | none =>
      have key := assignFrom_sim hP hF (i := i) (j := j) (mv := mv) h
      simp only [Option.isSome_none, Bool.not_false, if_true, bind_run]
      simp only [Spec.assignFrom, bind_run, Spec.get_run hi, obind_ok] at key
      cases hj : a.mem j with
      | none => simp only [Spec.get_none hj, obind_ub]; exact rel_ub _
      | some z =>
        simp only [Spec.get_run hj, obind_ok] at key ⊢
        cases z with
        | none =>
          simp only [Spec.clear, bind_run, Spec.get_run hi, obind_ok] at key
          exact key
        | some v =>
          simp only [bind_run, Spec.get_run hi, obind_ok] at key
          exact key

theorem andOp_sim (hP : P.OK) {w : World} {a : AState Val} {i j r : Nat} {mv : Bool}
    (hF : (∃ v, a.mem i = some (some v)) → (∃ v, a.mem j = some (some v)) →
      P.FitAt r (P.kind r (.opt j mv)) w.env.tick) (h : R P w a) :
    Out.Rel (fun _ w' _ a' => R P w' a') (R P) (P.andOp i j r mv w) (Spec.andOp P i j r mv a) := by
  simp only [andOp, Spec.andOp, bind_run]
  cases hi : a.mem i with
  | none => simp only [Spec.get_none hi, obind_ub]; exact rel_ub _
  | some y =>
    obtain ⟨oi, hoi, hri⟩ := h.some' hi
    simp only [Spec.get_run hi, obind_ok, hasValue_run hoi hri]
    cases y with
    | none => exact rel_nothrow (ctorDefault_sim hP h)
    | some v => exact ctorFrom_sim hP (hF ⟨_, hi⟩) h

theorem xorOp_sim (hP : P.OK) {w : World} {a : AState Val} {i j r : Nat} {mi mj : Bool}
    (hF : (∃ v, a.mem i = some (some v)) → a.mem j = some none → P.FitAt r (P.kind r (.opt i mi)) w.env.tick)
    (hF2 : a.mem i = some none → (∃ v, a.mem j = some (some v)) → P.FitAt r (P.kind r (.opt j mj)) w.env.tick)
    (h : R P w a) :
    Out.Rel (fun _ w' _ a' => R P w' a') (R P) (P.xorOp i j r mi mj w) (Spec.xorOp P i j r mi mj a) := by
  simp only [xorOp, Spec.xorOp, bind_run]
  cases hi : a.mem i with
  | none => simp only [Spec.get_none hi, obind_ub]; exact rel_ub _
  | some x =>
    simp only [Spec.get_run hi, obind_ok]
    cases hj : a.mem j with
    | none => simp only [bind_run, Spec.get_none hj, obind_ub]; exact rel_ub _
    | some y =>
      obtain ⟨oi, hoi, hri⟩ := h.some' hi
      obtain ⟨oj, hoj, hrj⟩ := h.some' hj
      simp only [bind_run, Spec.get_run hj, obind_ok, hasValue_run hoi hri, hasValue_run hoj hrj]
      cases x <;> cases y
      · exact rel_nothrow (ctorDefault_sim hP h)
      · exact ctorFrom_sim hP (hF2 hi) h
      · exact ctorFrom_sim hP (fun hv => hF hv hj) h
      · exact rel_nothrow (ctorDefault_sim hP h)

theorem allHave_sim {w : World} {a : AState Val} (h : R P w a) : ∀ is : List (Nat × Bool),
    Out.Rel (fun b w' b' a' => b = b' ∧ w' = w ∧ a' = a ∧
        (b = true → ∀ p ∈ is, ∃ v, a.mem p.1 = some (some v))) (fun _ _ => False)
      (P.allHave is w) (Spec.allHave is a)
  | [] => ⟨rfl, rfl, rfl, fun _ _ h => (by cases h)⟩
  | (i, mv) :: is => by
    simp only [allHave, Spec.allHave, bind_run]
    cases hi : a.mem i with
    | none => simp only [Spec.get_none hi, obind_ub]; exact rel_ub _
    | some x =>
      obtain ⟨oi, hoi, hri⟩ := h.some' hi
      simp only [Spec.get_run hi, obind_ok, hasValue_run hoi hri]
      cases x with
      | none => exact ⟨rfl, rfl, rfl, fun h => (by cases h)⟩
      | some v =>
        refine rel_mono (allHave_sim h is) ?_ (fun _ _ h => h)
        rintro b w' b' a' ⟨rfl, rfl, rfl, h'⟩
        refine ⟨rfl, rfl, rfl, fun hb p hp => ?_⟩
        rcases List.mem_cons.1 hp with rfl | hp
        · exact ⟨v, hi⟩
        · exact h' hb p hp

theorem note_sim {x : Event} {w : World} {a : AState Val} (h : R P w a) :
    Out.Rel (fun _ w' _ a' => R P w' a') (fun _ _ => False) ((note x : M World Unit) w) ((Spec.note x : M (AState Val) Unit) a) :=
  ⟨by show ({ w.env with log := w.env.log ++ [x] } : Env) = _; rw [h.1], h.2⟩

theorem dropTmp_sim {i : Nat} {w : World} {a : AState Val} (h : R P w a) :
    Out.Rel (fun _ w' _ a' => R P w' a') (fun _ _ => False) (P.dropTmp i w) (Spec.dropTmp P i a) := by
  unfold dropTmp Spec.dropTmp
  split
  · exact h
  · exact note_sim h

theorem dropTmps_sim : ∀ {is : List Nat} {w : World} {a : AState Val}, R P w a →
    Out.Rel (fun _ w' _ a' => R P w' a') (fun _ _ => False) (P.dropTmps is w) (Spec.dropTmps P is a)
  | [], _, _, h => h
  | _ :: _, _, _, h => rel_bind (dropTmp_sim h) fun _ _ _ _ h => dropTmps_sim h

theorem zipElems_sim (hP : P.OK) : ∀ (is : List (Nat × Bool)) {w : World} {a : AState Val}, R P w a →
    (∀ p ∈ is, ∃ v, a.mem p.1 = some (some v)) →
    Out.Rel (fun vs w' vs' a' => vs = vs' ∧ R P w' a' ∧ TupleDom P (is.map (·.1)) vs) (R P)
      (P.zipElems is w) (Spec.zipElems P is a)
  | [], _, _, h, _ => ⟨rfl, h, .nil⟩
  | (i, mv) :: is, w, a, h, hall => by
    simp only [zipElems, Spec.zipElems, bind_run]
    obtain ⟨v, hi⟩ := hall (i, mv) (List.mem_cons_self)
    obtain ⟨oi, hoi, hri⟩ := h.some' hi
    simp only [getCheck_run hoi hri, Option.isSome_some, check_true, obind_ok]
    refine rel_bind (returnT_sim hP h trivial) ?_
    rintro u w1 u' a1 ⟨rfl, h1, hd, hk⟩
    refine rel_bind (rel_onThrow (zipElems_sim hP is h1 ?_) fun _ _ h => dropTmp_sim h) ?_
    · intro p hp
      obtain ⟨v, hv⟩ := hall p (List.mem_cons_of_mem _ hp)
      exact hk _ _ hv
    · rintro vs w2 vs' a2 ⟨rfl, h2, hd2⟩
      exact ⟨rfl, h2, .cons hd hd2⟩

theorem zip_sim (hP : P.OK) {w : World} {a : AState Val} {is : List (Nat × Bool)} {r : Nat} {g : List Val → Val}
    (h : R P w a) (hg : ∀ vs, TupleDom P (is.map (·.1)) vs → (P.elem r).Dom P.pw (g vs)) :
    Out.Rel (fun _ w' _ a' => R P w' a') (R P) (P.zip is r g w) (Spec.zip P is r g a) := by
  refine rel_bind (rel_nothrow (allHave_sim h is)) ?_
  rintro b w' b' a' ⟨rfl, rfl, rfl, hb⟩
  cases b
  · exact rel_nothrow (ctorDefault_sim hP h)
  · refine rel_bind (zipElems_sim hP is h (hb rfl)) ?_
    rintro vs w2 vs' a2 ⟨rfl, h2, hd⟩
    exact rel_bind (rel_onThrow (ctorArg_sim hP h2 (hg vs hd)) fun _ _ h => dropTmps_sim h)
      fun _ _ _ _ h => rel_nothrow (dropTmps_sim h)

theorem zipArgs_sim : ∀ (is : List Nat) {w : World} {a : AState Val}, R P w a →
    (∀ i ∈ is, ∃ v, a.mem i = some (some v)) →
    Out.Rel (fun vs w' vs' a' => vs = vs' ∧ w' = w ∧ a' = a ∧ TupleDom P is vs) (fun _ _ => False)
      (P.zipArgs is w) (Spec.vals is a)
  | [], _, _, _, _ => ⟨rfl, rfl, rfl, .nil⟩
  | i :: is, w, a, h, hall => by
    simp only [zipArgs, Spec.vals, bind_run]
    obtain ⟨v, hi⟩ := hall i (List.mem_cons_self)
    obtain ⟨oi, hoi, hri⟩ := h.some' hi
    simp only [bind_run, getCheck_run hoi hri, Option.isSome_some, check_true, obind_ok, readT_run hoi hri, Spec.val_run hi]
    refine rel_bind (zipArgs_sim is h fun i hi => hall i (List.mem_cons_of_mem _ hi)) ?_
    rintro vs w2 vs' a2 ⟨rfl, rfl, rfl, hd2⟩
    exact ⟨rfl, rfl, rfl, .cons hri.dom hd2⟩

theorem zipWith_sim (hP : P.OK) {w : World} {a : AState Val} {is : List Nat} {r : Nat} {g : List Val → Val}
    (h : R P w a) (hg : ∀ vs, TupleDom P is vs → (P.elem r).Dom P.pw (g vs)) :
    Out.Rel (fun _ w' _ a' => R P w' a') (R P) (P.zipWith is r g w) (Spec.zipWith P is r g a) := by
  refine rel_bind (rel_nothrow (allHave_sim h _)) ?_
  rintro b w' b' a' ⟨rfl, rfl, rfl, hb⟩
  cases b
  · exact rel_nothrow (ctorDefault_sim hP h)
  · refine rel_bind (rel_nothrow (zipArgs_sim is h ?_)) ?_
    · intro i hi
      exact hb rfl (i, false) (List.mem_map.2 ⟨i, hi, rfl⟩)
    · rintro vs w2 vs' a2 ⟨rfl, rfl, rfl, hd⟩
      refine rel_bind (call0_sim h) ?_
      rintro b w3 b' a3 ⟨rfl, rfl, h3, _⟩
      exact rel_bind (rel_onThrow (ctorArg_sim hP h3 (hg vs hd)) fun _ _ h => dropTmp_sim h)
        fun _ _ _ _ h => rel_nothrow (dropTmp_sim h)

theorem zipWithVoid_sim {w : World} {a : AState Val} {is : List Nat} (h : R P w a) :
    Out.Rel (fun u w' v a' => u = v ∧ R P w' a') (R P) (P.zipWithVoid is w) (Spec.zipWithVoid P is a) := by
  refine rel_bind (rel_nothrow (allHave_sim h _)) ?_
  rintro b w' b' a' ⟨rfl, rfl, rfl, hb⟩
  cases b
  · exact ⟨rfl, h⟩
  · refine rel_bind (rel_nothrow (zipArgs_sim is h ?_)) ?_
    · intro i hi
      exact hb rfl (i, false) (List.mem_map.2 ⟨i, hi, rfl⟩)
    · rintro vs w2 vs' a2 ⟨rfl, rfl, rfl, hd⟩
      exact rel_mono (call0_sim (b := some vs) h) (fun x w' y a' h => ⟨h.1.trans h.2.1.symm, h.2.2.1⟩) (fun _ _ h => h)

theorem ioWrite_sim {w : World} {a : AState Val} {i : Nat} {d : Option Val} (h : R P w a) :
    Out.Rel (fun u w' v a' => u = v ∧ R P w' a') (R P) (P.ioWrite i d w) (Spec.ioWrite P i d a) := by
  simp only [ioWrite, Spec.ioWrite, bind_run]
  have key := fun (b : Option Val) => rel_mono (call0_sim (b := b) h)
    (fun x w' y a' h => (⟨h.1.trans h.2.1.symm, h.2.2.1⟩ : x = y ∧ R P w' a')) (fun _ _ h => h)
  cases hi : a.mem i with
  | none => simp only [Spec.get_none hi, obind_ub]; exact rel_ub _
  | some x =>
    obtain ⟨oi, hoi, hri⟩ := h.some' hi
    simp only [Spec.get_run hi, obind_ok, hasValue_run hoi hri]
    cases x with
    | some v =>
      simp only [Option.isSome_some, if_true, bind_run, getCheck_run hoi hri, check_true, obind_ok, readT_run hoi hri]
      exact key _
    | none =>
      cases d with
      | none => exact ⟨rfl, h⟩
      | some d => exact key _

theorem ioRead_sim (hP : P.OK) {w : World} {a : AState Val} {i : Nat} {d v : Val} (h : R P w a)
    (hv : (P.elem i).Dom P.pw v) :
    Out.Rel (fun u w' v a' => u = v ∧ R P w' a') (R P) (P.ioRead i d v w) (Spec.ioRead P i d v a) := by
  simp only [ioRead, Spec.ioRead, bind_run]
  cases hi : a.mem i with
  | none => simp only [Spec.get_none hi, obind_ub]; exact rel_ub _
  | some x =>
    obtain ⟨oi, hoi, hri⟩ := h.some' hi
    simp only [Spec.get_run hi, obind_ok, hasValue_run hoi hri]
    cases x with
    | none => exact rel_mono (call0_sim h) (fun _ _ _ _ h => ⟨h.1.trans h.2.1.symm, h.2.2.1⟩) (fun _ _ h => h)
    | some u =>
      simp only [Option.isSome_some, if_true, bind_run, callT, getCheck_run hoi hri, check_true, obind_ok,
        readT_run hoi hri, userOp_run, Spec.user_run]
      rw [h.env]
      have h2 := h.envs (a.env.use P (.call i true) (.call i false))
      cases hthr : P.throwsAt a.env.tick
      · obtain ⟨o1, e1, r1⟩ := writeT_sim hP (i := i) (n := a.env.tick) h2 hi hv
        simp only [Bool.false_eq_true, if_false, bind_run, e1, obind_ok, Spec.put_run, pure_run]
        exact ⟨rfl, r1⟩
      · obtain ⟨o1, e1, r1⟩ := writeT_sim hP (i := i) (n := a.env.tick) h2 hi hri.dom
        simp only [if_true, bind_run, e1, obind_ok, obind_throw, Spec.put_run, raise_run]
        exact r1

/-! ### Comparisons, hash, iteration -/

theorem call0_val_sim {β : Type} {w : World} {a : AState Val} (h : R P w a) (b : β) :
    Out.Rel (fun u w' v a' => u = v ∧ R P w' a') (R P) (P.call0 b w) (Spec.call0 P b a) :=
  rel_mono (call0_sim h) (fun _ _ _ _ h => ⟨h.1.trans h.2.1.symm, h.2.2.1⟩) (fun _ _ h => h)

theorem cmp_sim {w : World} {a : AState Val} {o : CmpOp} {rel : CmpOp → Val → Val → Bool} {i j : Nat} (h : R P w a) :
    Out.Rel (fun u w' v a' => u = v ∧ R P w' a') (R P) (P.cmp o rel i j w) (Spec.compare P o rel i j a) := by
  simp only [cmp, Spec.compare, bind_run]
  cases hi : a.mem i with
  | none => simp only [Spec.get_none hi, obind_ub]; exact rel_ub _
  | some x =>
    obtain ⟨oi, hoi, hri⟩ := h.some' hi
    simp only [Spec.get_run hi, obind_ok, hasValue_run hoi hri, bind_run]
    cases hj : a.mem j with
    | none => simp only [Spec.get_none hj, obind_ub]; exact rel_ub _
    | some y =>
      obtain ⟨oj, hoj, hrj⟩ := h.some' hj
      simp only [Spec.get_run hj, obind_ok, hasValue_run hoj hrj]
      cases x with
      | none => cases y <;> cases o <;> exact ⟨rfl, h⟩
      | some u =>
        cases y with
        | none => cases o <;> exact ⟨rfl, h⟩
        | some v =>
          simp only [Option.isSome_some, Bool.and_self, if_true, bind_run, get, getCheck_run hoi hri, getCheck_run hoj hrj,
            check_true, obind_ok, readT_run hoi hri, readT_run hoj hrj]
          exact call0_val_sim h _

theorem cmpNone_sim {w : World} {a : AState Val} {o : CmpOp} {i : Nat} (h : R P w a) :
    Out.Rel (fun u w' v a' => u = v ∧ R P w' a') (R P) (P.cmpNone o i w) (Spec.compareNone o i a) := by
  simp only [Spec.compareNone, bind_run]
  cases hi : a.mem i with
  | none => simp only [Spec.get_none hi, obind_ub]; exact rel_ub _
  | some x =>
    obtain ⟨oi, hoi, hri⟩ := h.some' hi
    simp only [Spec.get_run hi, obind_ok]
    cases o <;> simp only [cmpNone, bind_run, hasValue_run hoi hri, obind_ok] <;> cases x <;> exact ⟨rfl, h⟩

theorem noneCmp_sim {w : World} {a : AState Val} {o : CmpOp} {i : Nat} (h : R P w a) :
    Out.Rel (fun u w' v a' => u = v ∧ R P w' a') (R P) (P.noneCmp o i w) (Spec.noneCompare o i a) := by
  simp only [Spec.noneCompare, bind_run]
  cases hi : a.mem i with
  | none => simp only [Spec.get_none hi, obind_ub]; exact rel_ub _
  | some x =>
    obtain ⟨oi, hoi, hri⟩ := h.some' hi
    simp only [Spec.get_run hi, obind_ok]
    cases o <;> simp only [noneCmp, bind_run, hasValue_run hoi hri, obind_ok] <;> cases x <;> exact ⟨rfl, h⟩

theorem cmpVal_sim {w : World} {a : AState Val} {o : CmpOp} {rel : CmpOp → Val → Val → Bool} {i : Nat} {v : Val}
    (h : R P w a) :
    Out.Rel (fun u w' v a' => u = v ∧ R P w' a') (R P) (P.cmpVal o rel i v w) (Spec.compareVal P o rel i v a) := by
  simp only [cmpVal, Spec.compareVal, bind_run]
  cases hi : a.mem i with
  | none => simp only [Spec.get_none hi, obind_ub]; exact rel_ub _
  | some x =>
    obtain ⟨oi, hoi, hri⟩ := h.some' hi
    simp only [Spec.get_run hi, obind_ok, hasValue_run hoi hri]
    cases x with
    | none => cases o <;> exact ⟨rfl, h⟩
    | some u =>
      simp only [Option.isSome_some, if_true, bind_run, get, getCheck_run hoi hri, check_true, obind_ok, readT_run hoi hri]
      exact call0_val_sim h _

theorem valCmp_sim {w : World} {a : AState Val} {o : CmpOp} {rel : CmpOp → Val → Val → Bool} {i : Nat} {v : Val}
    (h : R P w a) :
    Out.Rel (fun u w' v a' => u = v ∧ R P w' a') (R P) (P.valCmp o rel v i w) (Spec.valCompare P o rel v i a) := by
  simp only [valCmp, Spec.valCompare, bind_run]
  cases hi : a.mem i with
  | none => simp only [Spec.get_none hi, obind_ub]; exact rel_ub _
  | some x =>
    obtain ⟨oi, hoi, hri⟩ := h.some' hi
    simp only [Spec.get_run hi, obind_ok, hasValue_run hoi hri]
    cases x with
    | none => cases o <;> exact ⟨rfl, h⟩
    | some u =>
      simp only [Option.isSome_some, if_true, bind_run, get, getCheck_run hoi hri, check_true, obind_ok, readT_run hoi hri]
      exact call0_val_sim h _

theorem hash_sim {w : World} {a : AState Val} {f : Val → U64} {i : Nat} (h : R P w a) :
    Out.Rel (fun u w' v a' => u = v ∧ R P w' a') (R P) (P.hash f i w) (Spec.hash P f i a) := by
  simp only [hash, Spec.hash, bind_run]
  cases hi : a.mem i with
  | none => simp only [Spec.get_none hi, obind_ub]; exact rel_ub _
  | some x =>
    obtain ⟨oi, hoi, hri⟩ := h.some' hi
    simp only [Spec.get_run hi, obind_ok, hasValue_run hoi hri]
    cases x with
    | none => exact ⟨rfl, h⟩
    | some u =>
      simp only [Option.isSome_some, if_true, bind_run, get, getCheck_run hoi hri, check_true, obind_ok, readT_run hoi hri]
      exact call0_val_sim h _

/-- the loop over an option is `inspect` -/
theorem forEach_eq {w : World} {a : AState Val} {i : Nat} {f : Fn Val Unit} {x : Option Val} (h : R P w a)
    (hi : a.mem i = some x) : P.forEach 2 i f w = P.inspect i f w := by
  obtain ⟨oi, hoi, hri⟩ := h.some' hi
  cases x with
  | none =>
    simp only [forEach, inspect, begin_, end_, bind_run, hasValue_run hoi hri, obind_ok, Option.isSome_none,
      Bool.false_eq_true, if_false, pure_run]
    rfl
  | some v =>
    simp only [forEach, inspect, begin_, end_, bind_run, hasValue_run hoi hri, obind_ok, Option.isSome_some, if_true,
      getCheck_run hoi hri, check_true, pure_run, callT]
    have e1 : Iter.ptrAdd single i 0 1 = .ok (.elem i 1) := rfl
    have e2 : Iter.deref single (.elem i 0) = .ok (i, 0) := rfl
    have e3 : Iter.inc single (.elem i 0) = .ok (.elem i 1) := rfl
    have e4 : Iter.ne (.elem i 0) (.elem i 1) = true := by simp [Iter.ne]
    have e5 : Iter.ne (.elem i 1) (.elem i 1) = false := by simp [Iter.ne]
    simp only [forLoop, e1, e2, e3, e4, e5, liftRes, pure_run, obind_ok, if_true, bind_run, Bool.false_eq_true, if_false,
      applyRef, readT_run hoi hri, userOp_run]
    split
    · simp only [bind_run]
      cases P.writeT i w.env.tick (f.afterThrow v) _ <;> rfl
    · simp only [bind_run]
      cases P.writeT i w.env.tick (f.after v) _ with
      | ok u w' => simp only [obind_ok, pure_run, bind_run, e5, Bool.false_eq_true, if_false]
      | _ => rfl

theorem forEach_sim (hP : P.OK) {w : World} {a : AState Val} {i : Nat} {f : Fn Val Unit} (h : R P w a) (hf : f.Legal P i) :
    Out.Rel (fun _ w' _ a' => R P w' a') (R P) (P.forEach 2 i f w) (Spec.inspect P i f a) := by
  cases hi : a.mem i with
  | none => simp only [Spec.inspect, bind_run, Spec.get_none hi, obind_ub]; exact rel_ub _
  | some x => rw [forEach_eq h hi]; exact inspect_sim hP h hf

end Prog

end Opt
