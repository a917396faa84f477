import Verif.Lemmas.MachineSim

/-!
# The modifiers of `option` implement the specification
-/

namespace Opt

variable {Val : Type} {P : Prog Val}

namespace Prog

theorem assignT_sim (hP : P.OK) {w : World} {a : AState Val} {i : Nat} {src : Src Val} (h : R P w a)
    (hleg : src.Legal P i) :
    Out.Rel (fun _ w' _ a' => R P w' a' ∧ ∃ v, a'.mem i = some (some v)) (fun w' a' => R P w' a')
      (P.assignT i src w) (Spec.assign P i src a) := by
  cases hx : a.mem i with
  | none => simp only [Spec.assign, bind_run, Spec.val_no hx, obind_ub]; exact rel_ub _
  | some x =>
    cases x with
    | none => simp only [Spec.assign, bind_run, Spec.val_none hx, obind_ub]; exact rel_ub _
    | some old =>
      obtain ⟨o, ho, hr⟩ := h.some' hx
      obtain ⟨hal, _, _⟩ := hr.live old rfl
      simp only [assignT, Spec.assign, bind_run, obj_run ho, Spec.val_run hx, obind_ok, hal, Bool.not_true,
        Bool.false_eq_true, if_false]
      rcases srcVal_run hP Good.obj h hleg with hv | ⟨v, hv, hv', hd⟩
      · rw [hv]; exact rel_ub _
      simp only [bind_run, hv, obind_ok]
      by_cases ht : (P.elem i).assignTriv (P.kind i src) = true
      · obtain ⟨b, hb1, hb2, hb3⟩ := srcBytes_run hP Good.obj h (old := P.payload i o) hv hd
          (fun j mv e => by subst e; exact kind_triv_assign ht) (hr.payload_len hP)
        simp only [ht, if_true, bind_run, hv', hb1, obind_ok, setPayload_run ho, Spec.put_run]
        exact ⟨h.put (fun _ _ _ _ h => h) (hr.write hP hb2 hb3), v, upd_same _ _ _⟩
      simp only [ht, if_false, bind_run, readT_run ho hr, hv', userOp_run, Spec.user_run, obind_ok,
        Bool.false_eq_true]
      rw [h.env]
      have h2 : R P { w with env := a.env.use P (.assign i (P.kind i src) true) (.assign i (P.kind i src) false) }
        { a with env := a.env.use P (.assign i (P.kind i src) true) (.assign i (P.kind i src) false) } := h.envs _
      have hx2 : AState.mem
        { a with env := a.env.use P (.assign i (P.kind i src) true) (.assign i (P.kind i src) false) } i =
          some (some old) := hx
      cases hthr : P.throwsAt a.env.tick
      · simp only [Bool.false_eq_true, if_false]
        cases hself : src.isSelf i
        · obtain ⟨w', a', e1, e2, e3, e4, e5⟩ := srcAfter_run hP Good.obj h2 (i := i) hv rfl false a.env.tick
          obtain ⟨e4, e4'⟩ := e4 hself
          simp only [Bool.false_eq_true, if_false, bind_run, e1, e2, obind_ok, Spec.put_run]
          obtain ⟨o', h3, h4⟩ := writeT_sim hP (n := a.env.tick) e3 (e4'.trans hx) hd
          rw [h3]; exact ⟨h4, v, upd_same _ _ _⟩
        · simp only [if_true]
          cases src with
          | opt j mv =>
            cases mv
            · obtain ⟨o', h3, h4⟩ := writeT_sim hP (n := a.env.tick) h2 hx2 hr.dom
              simp only [h3, Spec.put_run]
              exact ⟨h4, old, upd_same _ _ _⟩
            · obtain ⟨o', h3, h4⟩ := writeT_sim hP (n := a.env.tick) h2 hx2 (hP.selfMoved i a.env.tick old hr.dom)
              simp only [h3, Spec.put_run]
              exact ⟨h4, _, upd_same _ _ _⟩
          | _ => cases hself
      · simp only [if_true, bind_run]
        obtain ⟨w', a', e1, e2, e3, e4, e5⟩ := srcAfter_run hP Good.obj h2 (i := i) hv rfl true a.env.tick
        obtain ⟨u', e5⟩ := e5 i old hx2
        obtain ⟨o', h3, h4⟩ := writeT_sim hP (n := a.env.tick) e3 e5 (hP.broken i a.env.tick old v hr.dom hd)
        simp only [bind_run, e1, e2, obind_ok, h3, raise_run, Spec.put_run]
        exact h4

theorem convFrom_dom (hP : P.OK) {i j : Nat} {v : Val} (h : (P.elem j).Dom P.pw v) :
    (P.elem i).Dom P.pw (P.convFrom i j v) := by
  simp only [convFrom]
  split
  · rename_i e
    simp only [elem, e]; exact h
  · exact hP.conv _ _ _ h

theorem assignManual_sim (hP : P.OK) {w : World} {a : AState Val} {i j : Nat} {mv : Bool}
    (hF : a.mem i = some none → (∃ v, a.mem j = some (some v)) → P.FitAt i (P.kind i (.opt j mv)) w.env.tick) (h : R P w a) :
    Out.Rel (fun _ w' _ a' => R P w' a') (fun w' a' => R P w' a')
      (P.assignManual i j mv w) (Spec.assignFrom P i j mv a) := by
  simp only [Spec.assignFrom, assignManual, bind_run]
  cases hi : a.mem i with
  | none => simp only [bind_run, Spec.get_none hi, obind_ub]; exact rel_ub _
  | some x =>
    simp only [bind_run, Spec.get_run hi, obind_ok]
    cases hj : a.mem j with
    | none => simp only [bind_run, Spec.get_none hj, obind_ub]; exact rel_ub _
    | some y =>
      obtain ⟨oi, hoi, hri⟩ := h.some' hi
      obtain ⟨oj, hoj, hrj⟩ := h.some' hj
      simp only [bind_run, Spec.get_run hj, obind_ok, hasValue_run hoj hrj, ite_run]
      cases y with
      | none =>
        simp only [Option.isSome_none, Bool.false_eq_true, if_false]
        exact rel_mono (reset_sim hP h) (fun _ _ _ _ h => h) (fun _ _ (h : False) => h.elim)
      | some vj =>
        simp only [Option.isSome_some, if_true, bind_run, Spec.get_run hi, obind_ok, hasValue_run hoi hri, ite_run]
        cases x with
        | none =>
          simp only [Option.isSome_none, Bool.false_eq_true, if_false]
          have key := rel_mono (construct_sim hP (hF hi ⟨_, hj⟩) (i := i) (src := .opt j mv) h trivial)
            (fun _ w' _ a' (h : R P w' a' ∧ _) => h.1) (fun w' a' (h : R P w' a' ∧ _) => h.1)
          by_cases hc : P.cls i = P.cls j
          · simp only [hc, if_true, pure_bind, pure_run, obind_ok, bind_run]; exact key
          · simp only [hc, if_false, bind_run, getCheck_run hoj hrj, Option.isSome_some, check_true, obind_ok]
            exact key
        | some vi =>
          simp only [Option.isSome_some, if_true]
          have key := assignT_sim hP (i := i) (src := .opt j mv) h trivial
          by_cases hc : P.cls i = P.cls j
          · simp only [hc, if_true]
            exact rel_mono key (fun _ _ _ _ h => h.1) (fun _ _ h => h)
          · simp only [hc, if_false, bind_run, getCheck_run hoj hrj, Option.isSome_some, check_true, obind_ok]
            refine rel_then key fun _ w' _ a' h' => ?_
            obtain ⟨h1, v, h2⟩ := h'
            obtain ⟨o', ho', hr'⟩ := h1.some' h2
            exact ⟨(), w', by rw [getCheck_run ho' hr']; rfl, h1⟩

theorem ctorManual_sim (hP : P.OK) {w : World} {a : AState Val} {i j : Nat} {mv : Bool}
    (hF : (∃ v, a.mem j = some (some v)) → P.FitAt i (P.kind i (.opt j mv)) w.env.tick) (h : R P w a) :
    Out.Rel (fun _ w' _ a' => R P w' a') (fun w' a' => R P w' a')
      (P.ctorManual i j mv w) (Spec.ctorFrom P i j mv a) := by
  simp only [Spec.ctorFrom, ctorManual, bind_run]
  cases hj : a.mem j with
  | none => simp only [bind_run, Spec.get_none hj, obind_ub]; exact rel_ub _
  | some y =>
    obtain ⟨oj, hoj, hrj⟩ := h.some' hj
    simp only [bind_run, Spec.get_run hj, obind_ok]
    cases hi : a.mem i with
    | some x =>
      cases y with
      | none => simp only [Spec.new_some hi]; exact rel_ub _
      | some v => simp only [Spec.createVia, bind_run, Spec.new_some hi, obind_ub]; exact rel_ub _
    | none =>
      obtain ⟨o, h1, h2⟩ := ctorDefault_run hP (h.none' hi)
      have h3 : R P (w.put i o) (a.put i none) := h.put (fun _ _ _ _ h => h) h2
      have hne : j ≠ i := fun e => by subst e; rw [hi] at hj; cases hj
      have hoj' : (w.put i o).mem j = some oj := (upd_other _ _ hne).trans hoj
      simp only [bind_run, h1, obind_ok]
      cases y with
      | none =>
        simp only [Spec.new_run hi, M.onThrow, bind_run, hasValue_run hoj' hrj, obind_ok, Option.isSome_none,
          Bool.false_eq_true, if_false, pure_run]
        exact h3
      | some v =>
        simp only [Spec.createVia, bind_run, Spec.new_run hi, obind_ok]
        refine rel_onThrow (C' := fun w' a' => R P w' a' ∧ a'.mem i = some none) ?_ ?_
        · have key := rel_mono (construct_sim hP (w := w.put i o) (hF ⟨_, hj⟩) (i := i) (src := .opt j mv) h3 trivial)
            (fun _ w' _ a' (h : R P w' a' ∧ _) => h.1)
            (fun w' a' (h : R P w' a' ∧ a'.mem i = (a.put i none).mem i) =>
              (⟨h.1, h.2.trans (upd_same _ _ _)⟩ : R P w' a' ∧ a'.mem i = some none))
          simp only [bind_run, hasValue_run hoj' hrj, obind_ok, Option.isSome_some, if_true]
          by_cases hc : P.cls i = P.cls j
          · simp only [bind_run, hc, if_true, pure_run, obind_ok]; exact key
          · simp only [bind_run, hc, if_false, getCheck_run hoj' hrj, Option.isSome_some, check_true, obind_ok]
            exact key
        · intro w' a' h'
          obtain ⟨o', ho', hr'⟩ := h'.1.some' h'.2
          rw [dtor_run hP ho' hr', Spec.del_run]
          simp only [Option.isSome_none, Bool.false_and, Env.addIf, Bool.false_eq_true, if_false]
          exact h'.1.del (fun _ _ _ _ h => h)

/-! ## Trivial special members copy bytes -/

theorem members_copyCtor : ∀ b1 b2 b3 b4 b5 : Bool,
    ((optionBase b1 b2 b3 b4 b5 false).getD implicitMembers).copyCtor = .default → b1 = true := by decide
theorem members_moveCtor : ∀ b1 b2 b3 b4 b5 : Bool,
    ((optionBase b1 b2 b3 b4 b5 false).getD implicitMembers).moveCtor = .default → b3 = true := by decide
theorem members_copyAssign : ∀ b1 b2 b3 b4 b5 : Bool,
    ((optionBase b1 b2 b3 b4 b5 false).getD implicitMembers).copyAssign = .default →
      b1 = true ∧ b2 = true ∧ b5 = true := by decide
theorem members_moveAssign : ∀ b1 b2 b3 b4 b5 : Bool,
    ((optionBase b1 b2 b3 b4 b5 false).getD implicitMembers).moveAssign = .default →
      b3 = true ∧ b4 = true ∧ b5 = true := by decide

theorem _root_.Opt.ObjR.cast {i j : Nat} (e : P.cls i = P.cls j) {o : Obj} {x : Option Val} (h : ObjR P j o x) :
    ObjR P i o x := by
  have e' : P.elem i = P.elem j := by simp only [elem, e]
  have e2 : P.payload i o = P.payload j o := by simp only [payload, e']
  constructor
  · rw [e']; exact h.len
  · rw [e']; exact h.flag
  · rw [e']; exact h.hv
  · rw [e', e2]; exact h.live
  · rw [e']; exact h.dead

theorem ctorFrom_sim (hP : P.OK) {w : World} {a : AState Val} {i j : Nat} {mv : Bool}
    (hF : (∃ v, a.mem j = some (some v)) → P.FitAt i (P.kind i (.opt j mv)) w.env.tick) (h : R P w a) :
    Out.Rel (fun _ w' _ a' => R P w' a') (fun w' a' => R P w' a')
      (P.ctorFrom i j mv w) (Spec.ctorFrom P i j mv a) := by
  simp only [ctorFrom]
  by_cases hc : P.cls i = P.cls j
  rotate_left
  · simp only [hc, if_false]; exact ctorManual_sim hP hF h
  simp only [hc, if_true]
  by_cases hm : (if mv = true then (P.elem i).members.moveCtor else (P.elem i).members.copyCtor) = .default
  rotate_left
  · simp only [hm, if_false]; exact ctorManual_sim hP hF h
  simp only [hm, if_true]
  have ht : (P.elem i).ctorTriv (P.kind i (.opt j mv)) = true := by
    cases mv
    · simp only [kind, hc, if_true, Bool.false_eq_true, if_false, Elem.ctorTriv] at hm ⊢
      exact members_copyCtor _ _ _ _ _ hm
    · simp only [kind, hc, if_true, Elem.ctorTriv] at hm ⊢
      exact members_moveCtor _ _ _ _ _ hm
  simp only [Spec.ctorFrom, copyBytesNew, bind_run]
  cases hj : a.mem j with
  | none => simp only [bind_run, Spec.get_none hj, obind_ub]; exact rel_ub _
  | some y =>
    obtain ⟨oj, hoj, hrj⟩ := h.some' hj
    simp only [bind_run, Spec.get_run hj, obind_ok, obj_run hoj]
    cases hi : a.mem i with
    | some x =>
      cases y with
      | none => simp only [Spec.new_some hi]; exact rel_ub _
      | some v => simp only [Spec.createVia, bind_run, Spec.new_some hi, obind_ub]; exact rel_ub _
    | none =>
      have hne : j ≠ i := fun e => by subst e; rw [hi] at hj; cases hj
      have h3 : R P (w.put i oj) (a.put i y) := h.put (fun _ _ _ _ h => h) (hrj.cast hc)
      simp only [bind_run, newObj_run (h.none' hi), obind_ok, setObj_run, World.put, upd_upd]
      cases y with
      | none => simp only [Spec.new_run hi]; exact h3
      | some v =>
        have hi' : (a.put i none).mem i = some none := upd_same _ _ _
        have hj' : (a.put i none).mem j = some (some v) := (upd_other _ _ hne).trans hj
        have hself : (Src.opt j mv : Src Val).isSelf i = false := by simpa [Src.isSelf] using hne
        simp only [Spec.createVia, bind_run, Spec.new_run hi, obind_ok, M.onThrow, Spec.init, Spec.initAs, Spec.get_run hi',
          Option.isSome_none, hself, Bool.or_self, Bool.false_and, Bool.false_eq_true, if_false, Spec.value,
          Spec.val_run hj', pure_run, ht, if_true, Spec.put_run, AState.put, upd_upd, convFrom, hc]
        exact h3

theorem assignFrom_sim (hP : P.OK) {w : World} {a : AState Val} {i j : Nat} {mv : Bool}
    (hF : a.mem i = some none → (∃ v, a.mem j = some (some v)) → P.FitAt i (P.kind i (.opt j mv)) w.env.tick) (h : R P w a) :
    Out.Rel (fun _ w' _ a' => R P w' a') (fun w' a' => R P w' a')
      (P.assignFrom i j mv w) (Spec.assignFrom P i j mv a) := by
  simp only [assignFrom]
  by_cases hc : P.cls i = P.cls j
  rotate_left
  · simp only [hc, if_false]; exact assignManual_sim hP hF h
  simp only [hc, if_true]
  by_cases hm : (if mv = true then (P.elem i).members.moveAssign else (P.elem i).members.copyAssign) = .default
  rotate_left
  · simp only [hm, if_false]; exact assignManual_sim hP hF h
  simp only [hm, if_true]
  have ht : (P.elem i).ctorTriv (P.kind i (.opt j mv)) = true ∧ (P.elem i).assignTriv (P.kind i (.opt j mv)) = true ∧
      (P.elem i).trivDtor = true := by
    cases mv
    · simp only [kind, hc, if_true, Bool.false_eq_true, if_false, Elem.ctorTriv, Elem.assignTriv] at hm ⊢
      exact members_copyAssign _ _ _ _ _ hm
    · simp only [kind, hc, if_true, Elem.ctorTriv, Elem.assignTriv] at hm ⊢
      exact members_moveAssign _ _ _ _ _ hm
  obtain ⟨ht1, ht2, ht3⟩ := ht
  simp only [Spec.assignFrom, copyBytes, bind_run]
  cases hi : a.mem i with
  | none => simp only [bind_run, Spec.get_none hi, obind_ub]; exact rel_ub _
  | some x =>
    simp only [bind_run, Spec.get_run hi, obind_ok]
    cases hj : a.mem j with
    | none => simp only [bind_run, Spec.get_none hj, obind_ub]; exact rel_ub _
    | some y =>
      obtain ⟨oi, hoi, hri⟩ := h.some' hi
      obtain ⟨oj, hoj, hrj⟩ := h.some' hj
      have h3 : R P (w.put i oj) (a.put i y) := h.put (fun _ _ _ _ h => h) (hrj.cast hc)
      simp only [bind_run, Spec.get_run hj, obind_ok, obj_run hoj, obj_run hoi, setObj_run]
      cases y with
      | none =>
        simp only [Spec.clear_run hi, ht3, Bool.not_true, Bool.and_false, Env.addIf, Bool.false_eq_true, if_false]
        exact h3
      | some v =>
        simp only [bind_run, Spec.get_run hi, obind_ok]
        cases x with
        | none =>
          have hne : j ≠ i := fun e => by subst e; rw [hi] at hj; cases hj
          have hself : (Src.opt j mv : Src Val).isSelf i = false := by simpa [Src.isSelf] using hne
          simp only [Spec.init, Spec.initAs, bind_run, Spec.get_run hi, obind_ok,
            Option.isSome_none, hself, Bool.or_self, Bool.false_and, Bool.false_eq_true, if_false, Spec.value,
            Spec.val_run hj, pure_run, ht1, if_true, Spec.put_run, convFrom, hc]
          exact h3
        | some u =>
          simp only [Spec.assign, bind_run, Spec.val_run hi, obind_ok, Spec.value, Spec.val_run hj, pure_run, ht2, if_true,
            Spec.put_run, convFrom, hc]
          exact h3

/-! ## Values -/

theorem ctorValue_sim (hP : P.OK) {w : World} {a : AState Val} {i : Nat} {src : Src Val} (h : R P w a)
    (hleg : src.Legal P i) :
    Out.Rel (fun _ w' _ a' => R P w' a') (fun w' a' => R P w' a')
      (P.ctorValue i src w) (Spec.ctorValue P i src a) := by
  refine rel_bind (rel_mono (evalArg_sim h) (fun _ _ _ _ h => h) (fun _ _ (h : False) => h.elim)) ?_
  rintro _ w' _ a' ⟨rfl, rfl⟩
  exact ctorArg_sim hP h hleg

theorem assignValue_sim (hP : P.OK) {w : World} {a : AState Val} {i : Nat} {src : Src Val}
    (hF : a.mem i = some none → P.FitAt i (P.kind i src) w.env.tick) (h : R P w a) (hleg : src.Legal P i) :
    Out.Rel (fun _ w' _ a' => R P w' a') (fun w' a' => R P w' a')
      (P.assignValue i src w) (Spec.assignValue P i src a) := by
  refine rel_bind (rel_mono (evalArg_sim h) (fun _ _ _ _ h => h) (fun _ _ (h : False) => h.elim)) ?_
  rintro _ w' _ a' ⟨rfl, rfl⟩
  have key := fun hF => rel_mono (construct_sim hP hF (i := i) (src := src) h hleg)
    (fun _ w' _ a' (h : R P w' a' ∧ _) => h.1) (fun w' a' (h : R P w' a' ∧ _) => h.1)
  cases hsc : (P.elem i).scalar
  · simp only [Bool.false_eq_true, if_false, bind_run]
    cases hi : a'.mem i with
    | none => simp only [bind_run, Spec.get_none hi, obind_ub]; exact rel_ub _
    | some x =>
      obtain ⟨oi, hoi, hri⟩ := h.some' hi
      simp only [bind_run, Spec.get_run hi, obind_ok, hasValue_run hoi hri, ite_run]
      cases x with
      | none => simp only [Option.isSome_none, Bool.false_eq_true, if_false]; exact key (hF hi)
      | some v =>
        simp only [Option.isSome_some, if_true, bind_run]
        refine rel_then (assignT_sim hP h hleg) fun _ w' _ a' h' => ?_
        obtain ⟨h1, v, h2⟩ := h'
        obtain ⟨o', ho', hr'⟩ := h1.some' h2
        exact ⟨(), w', by rw [getCheck_run ho' hr']; rfl, h1⟩
  · simp only [if_true]; exact key (FitAt.scalar hsc)

theorem emplace_sim (hP : P.OK) {w : World} {a : AState Val} {i : Nat} {src : Src Val}
    (hF : P.FitAt i (P.kind i src) w.env.tick) (h : R P w a) (hleg : src.Legal P i) :
    Out.Rel (fun _ w' _ a' => R P w' a') (fun w' a' => R P w' a')
      (P.emplace i src w) (Spec.emplace P i src a) := by
  refine rel_bind (rel_mono (evalArg_sim h) (fun _ _ _ _ h => h) (fun _ _ (h : False) => h.elim)) ?_
  rintro _ w' _ a' ⟨rfl, rfl⟩
  refine rel_bind (rel_mono (reset_sim' hP h) (fun _ _ _ _ h => h) (fun _ _ (h : False) => h.elim)) ?_
  rintro _ w1 _ a1 ⟨h1, ht⟩
  rw [← ht] at hF
  rw [bind_run]
  refine rel_then (rel_mono (construct_sim hP hF h1 hleg) (fun _ _ _ _ h => h) (fun _ _ h => h.1)) ?_
  rintro _ w2 _ a2 ⟨h2, v, h3⟩
  obtain ⟨o', ho', hr'⟩ := h2.some' h3
  exact ⟨(), w2, by rw [getCheck_run ho' hr']; rfl, h2⟩

theorem tryEmplace_sim (hP : P.OK) {w : World} {a : AState Val} {i : Nat} {src : Src Val}
    (hF : a.mem i = some none → P.FitAt i (P.kind i src) w.env.tick) (h : R P w a) (hleg : src.Legal P i) :
    Out.Rel (fun _ w' _ a' => R P w' a') (fun w' a' => R P w' a')
      (P.tryEmplace i src w) (Spec.tryEmplace P i src a) := by
  refine rel_bind (rel_mono (evalArg_sim h) (fun _ _ _ _ h => h) (fun _ _ (h : False) => h.elim)) ?_
  rintro _ w' _ a' ⟨rfl, rfl⟩
  simp only [bind_run]
  cases hi : a'.mem i with
  | none => simp only [bind_run, Spec.get_none hi, obind_ub]; exact rel_ub _
  | some x =>
    obtain ⟨oi, hoi, hri⟩ := h.some' hi
    simp only [bind_run, Spec.get_run hi, obind_ok, hasValue_run hoi hri, ite_run]
    cases x with
    | some v =>
      simp only [Option.isSome_some, if_true, getCheck_run hoi hri, check_true, pure_run]
      exact h
    | none =>
      simp only [Option.isSome_none, Bool.false_eq_true, if_false, bind_run]
      refine rel_then (rel_mono (construct_sim hP (hF hi) h hleg) (fun _ _ _ _ h => h) (fun _ _ h => h.1)) ?_
      rintro _ w2 _ a2 ⟨h2, v, h3⟩
      obtain ⟨o', ho', hr'⟩ := h2.some' h3
      exact ⟨(), w2, by rw [getCheck_run ho' hr']; rfl, h2⟩

theorem swap_sim (hP : P.OK) {w : World} {a : AState Val} {i j : Nat}
    (hF : a.mem i = some none → (∃ v, a.mem j = some (some v)) → P.FitAt i (P.kind i (.opt j true)) w.env.tick)
    (hF2 : a.mem j = some none → (∃ v, a.mem i = some (some v)) → P.FitAt j (P.kind j (.opt i true)) w.env.tick)
    (h : R P w a) :
    Out.Rel (fun _ w' _ a' => R P w' a') (fun w' a' => R P w' a') (P.swap i j w) (Spec.swap P i j a) := by
  simp only [swap, Spec.swap, bind_run]
  cases hi : a.mem i with
  | none => simp only [bind_run, Spec.get_none hi, obind_ub]; exact rel_ub _
  | some x =>
    simp only [bind_run, Spec.get_run hi, obind_ok]
    cases hj : a.mem j with
    | none => simp only [bind_run, Spec.get_none hj, obind_ub]; exact rel_ub _
    | some y =>
      obtain ⟨oi, hoi, hri⟩ := h.some' hi
      obtain ⟨oj, hoj, hrj⟩ := h.some' hj
      simp only [bind_run, Spec.get_run hj, obind_ok, hasValue_run hoi hri, hasValue_run hoj hrj]
      cases x with
      | none =>
        cases y with
        | none =>
          simp only [Option.isSome_none, Bool.not_false, Bool.and_self, if_true, pure_run]; exact h
        | some vj =>
          simp only [Option.isSome_none, Option.isSome_some, Bool.not_false, Bool.not_true, Bool.and_false,
            Bool.false_and, Bool.false_eq_true, if_false, bind_run, getCheck_run hoj hrj, check_true, obind_ok]
          rw [← bind_run, ← bind_run]
          refine rel_bind (rel_mono (construct_sim hP (hF hi ⟨_, hj⟩) h trivial) (fun _ _ _ _ h => h) (fun _ _ h => h.1)) ?_
          intro _ w1 _ a1 h1
          exact rel_mono (reset_sim hP h1.1) (fun _ _ _ _ h => h) (fun _ _ (h : False) => h.elim)
      | some vi =>
        cases y with
        | none =>
          simp only [Option.isSome_none, Option.isSome_some, Bool.not_false, Bool.not_true, Bool.and_false,
            Bool.and_true, Bool.false_eq_true, if_false, if_true, bind_run, getCheck_run hoi hri, check_true, obind_ok]
          rw [← bind_run, ← bind_run]
          refine rel_bind (rel_mono (construct_sim hP (hF2 hj ⟨_, hi⟩) h trivial) (fun _ _ _ _ h => h) (fun _ _ h => h.1)) ?_
          intro _ w1 _ a1 h1
          exact rel_mono (reset_sim hP h1.1) (fun _ _ _ _ h => h) (fun _ _ (h : False) => h.elim)
        | some vj =>
          simp only [Option.isSome_some, Bool.not_true, Bool.and_self, Bool.false_eq_true, if_false, if_true,
            swapT, bind_run, readT_run hoi hri, readT_run hoj hrj, obind_ok, userOp_run, Spec.user_run]
          rw [h.env]
          have h2 := h.envs (a.env.use P (.swap i j true) (.swap i j false))
          have engaged : ∀ (a' : AState Val) (z : Val), (a'.mem j = some (some vj)) →
              ∃ u, (a'.put i (some z)).mem j = some (some u) := by
            intro a' z hz
            by_cases e : j = i
            · subst e; exact ⟨z, upd_same _ _ _⟩
            · exact ⟨vj, (upd_other _ _ e).trans hz⟩
          cases hthr : P.throwsAt a.env.tick
          · simp only [Bool.false_eq_true, if_false, bind_run]
            obtain ⟨o1, e1, r1⟩ := writeT_sim hP (i := i) (n := a.env.tick) h2 hi
              (convFrom_dom hP (i := i) (j := j) hrj.dom)
            obtain ⟨u, hu⟩ := engaged _ (P.convFrom i j vj) hj
            obtain ⟨o2, e2, r2⟩ := writeT_sim hP (i := j) (n := a.env.tick) r1 hu
              (convFrom_dom hP (i := j) (j := i) hri.dom)
            simp only [bind_run, e1, e2, obind_ok, Spec.put_run]
            exact r2
          · simp only [if_true, bind_run]
            obtain ⟨o1, e1, r1⟩ := writeT_sim hP (i := i) (n := a.env.tick) h2 hi
              (hP.broken i a.env.tick vi _ hri.dom (convFrom_dom hP (i := i) (j := j) hrj.dom))
            obtain ⟨u, hu⟩ := engaged _ (P.broken i a.env.tick vi (P.convFrom i j vj)) hj
            obtain ⟨o2, e2, r2⟩ := writeT_sim hP (i := j) (n := a.env.tick) r1 hu
              (hP.broken j a.env.tick vj _ hrj.dom (convFrom_dom hP (i := j) (j := i) hri.dom))
            simp only [bind_run, e1, e2, obind_ok, Spec.put_run, raise_run]
            exact r2

theorem take_sim (hP : P.OK) {w : World} {a : AState Val} {i r : Nat}
    (hF : (∃ v, a.mem i = some (some v)) → P.FitAt r (P.kind r (.opt i true)) w.env.tick) (h : R P w a) :
    Out.Rel (fun _ w' _ a' => R P w' a') (fun w' a' => R P w' a') (P.take i r w) (Spec.take P i r a) := by
  refine rel_bind (ctorFrom_sim hP hF h) ?_
  intro _ w1 _ a1 h1
  exact rel_mono (reset_sim hP h1) (fun _ _ _ _ h => h) (fun _ _ (h : False) => h.elim)

theorem callT_sim' (hP : P.OK) {β : Type} {w : World} {a : AState Val} {i : Nat} {f : Fn Val β}
    (h : R P w a) (hf : f.Legal P i) :
    Out.Rel (fun b w' b' a' => b = b' ∧ R P w' a' ∧ w'.env.tick = w.env.tick + 1 ∧
        ∃ v, a.mem i = some (some v) ∧ P.throwsAt w.env.tick = false ∧ b = f.ret v) (fun w' a' => R P w' a')
      (P.callT i f w) (Spec.call P i f a) := by
  refine rel_bind (rel_mono (getCheck_sim h) (fun _ _ _ _ h => h) (fun _ _ (h : False) => h.elim)) ?_
  rintro _ w' _ a' ⟨rfl, rfl, v, hv⟩
  obtain ⟨o, ho, hr⟩ := h.some' hv
  simp only [bind_run, readT_run ho hr, Spec.val_run hv, obind_ok, userOp_run, Spec.user_run]
  rw [h.env]
  have h2 := h.envs (a'.env.use P (.call i true) (.call i false))
  cases hthr : P.throwsAt a'.env.tick
  · obtain ⟨o1, e1, r1⟩ := writeT_sim hP (i := i) (n := a'.env.tick) h2 hv (hf v hr.dom).1
    simp only [Bool.false_eq_true, if_false, bind_run, e1, obind_ok, Spec.put_run, pure_run]
    exact ⟨rfl, r1, rfl, v, hv, trivial, rfl⟩
  · obtain ⟨o1, e1, r1⟩ := writeT_sim hP (i := i) (n := a'.env.tick) h2 hv (hf v hr.dom).2
    simp only [if_true, bind_run, e1, obind_ok, Spec.put_run, raise_run]
    exact r1

theorem callT_sim (hP : P.OK) {β : Type} {w : World} {a : AState Val} {i : Nat} {f : Fn Val β}
    (h : R P w a) (hf : f.Legal P i) :
    Out.Rel (fun b w' b' a' => b = b' ∧ R P w' a') (fun w' a' => R P w' a') (P.callT i f w) (Spec.call P i f a) :=
  rel_mono (callT_sim' hP h hf) (fun _ _ _ _ h => ⟨h.1, h.2.1⟩) (fun _ _ h => h)

theorem takeIf_sim (hP : P.OK) {w : World} {a : AState Val} {i r : Nat}
    {f : Fn Val Bool} (hF : ∀ v, a.mem i = some (some v) → P.throwsAt w.env.tick = false → f.ret v = true →
      P.FitAt r (P.kind r (.opt i true)) (w.env.tick + 1)) (h : R P w a) (hf : f.Legal P i) :
    Out.Rel (fun _ w' _ a' => R P w' a') (fun w' a' => R P w' a') (P.takeIf i r f w) (Spec.takeIf P i r f a) := by
  simp only [takeIf, Spec.takeIf, bind_run]
  have hd := fun {w' : World} {a' : AState Val} (h : R P w' a') =>
    rel_mono (ctorDefault_sim hP (i := r) h) (fun _ _ _ _ h => h) (fun w' a' (h : False) => (h.elim : R P w' a'))
  cases hi : a.mem i with
  | none => simp only [bind_run, Spec.get_none hi, obind_ub]; exact rel_ub _
  | some x =>
    obtain ⟨oi, hoi, hri⟩ := h.some' hi
    simp only [bind_run, Spec.get_run hi, obind_ok, hasValue_run hoi hri, ite_run]
    cases x with
    | none => simp only [Option.isSome_none, Bool.false_eq_true, if_false]; exact hd h
    | some v =>
      simp only [Option.isSome_some, if_true]
      refine rel_bind (callT_sim' hP h hf) ?_
      rintro b w1 b' a1 ⟨rfl, h1, ht, u, hu, hn, hb⟩
      cases b
      · simp only [Bool.false_eq_true, if_false]; exact hd h1
      · simp only [if_true]; exact take_sim hP (fun _ => ht ▸ hF u hu hn hb.symm) h1

end Prog

end Opt
