import Verif.Lemmas.SpecRun
import Verif.Spec.ViewApi

/-!
# Running the specification of observers, monadic operations and operators symbolically
-/

namespace Opt

variable {Val : Type} {P : Prog Val} {m : Nat → Option (Option Val)} {e : Env} {i j r : Nat} {src : Src Val}

namespace Spec

theorem get_eq {x : Option Val} (h : m i = some x) : (get i ⟨m, e⟩ : Out (AState Val) (Option Val)) = .ok x ⟨m, e⟩ :=
  get_run (a := ⟨m, e⟩) h

theorem getOrDie_some {v : Val} (h : m i = some (some v)) : (getOrDie i ⟨m, e⟩ : Out (AState Val) Val) = .ok v ⟨m, e⟩ := by
  simp only [getOrDie, bind_run, get_eq h, obind_ok, pure_run]

theorem getOrDie_none (h : m i = some none) : (getOrDie i ⟨m, e⟩ : Out (AState Val) Val) = .verify := by
  simp only [getOrDie, bind_run, get_eq h, obind_ok]; rfl

theorem getOrThrow_some {v : Val} (h : m i = some (some v)) :
    (getOrThrow i ⟨m, e⟩ : Out (AState Val) Val) = .ok v ⟨m, e⟩ := by
  simp only [getOrThrow, bind_run, get_eq h, obind_ok, pure_run]

theorem getOrThrow_none (h : m i = some none) : (getOrThrow i ⟨m, e⟩ : Out (AState Val) Val) = .throw ⟨m, e⟩ := by
  simp only [getOrThrow, bind_run, get_eq h, obind_ok]; rfl

/-- a returned object -/
theorem give_ok {v : Val} (hv : src.gives P m i = some v)
    (ht : (P.elem i).ctorTriv (P.kind i src) = true ∨ P.throwsAt e.tick = false) :
    give P i src ⟨m, e⟩ = .ok v ⟨P.ctorLeaves i src e.tick m, e.after (P.giveEvs i src)⟩ := by
  simp only [give, bind_run, value_eq hv, obind_ok]
  cases h : (P.elem i).ctorTriv (P.kind i src)
  · have ht : P.throwsAt e.tick = false := by rcases ht with ht | ht
                                              · rw [h] at ht; cases ht
                                              · exact ht
    simp only [Bool.false_eq_true, if_false, bind_run, user_run, obind_ok, ht, movedFrom_eq hv, pure_run,
      Prog.ctorLeaves, Prog.giveEvs, h]
    rw [Env.use_eq rfl rfl, ht]; rfl
  · simp only [if_true, pure_run, Prog.ctorLeaves, Prog.giveEvs, h, Env.after_nil]

theorem give_throw {v : Val} (hv : src.gives P m i = some v)
    (ht : (P.elem i).ctorTriv (P.kind i src) = false) (hn : P.throwsAt e.tick = true) :
    give P i src ⟨m, e⟩ = .throw ⟨src.leaves P true e.tick m, e.after [.tmpCtor (P.kind i src) false]⟩ := by
  simp only [give, bind_run, value_eq hv, obind_ok, ht, Bool.false_eq_true, if_false, user_run, hn, movedFrom_eq hv,
    if_true, raise_run]
  rw [Env.use_eq rfl rfl, hn]; rfl

theorem valueOr_some {v d : Val} {mv : Bool} (hi : m i = some (some v)) (hv : src.gives P m i = some d) :
    valueOr P i mv src ⟨m, e⟩ = give P i (.opt i mv) ⟨m, e⟩ := by
  simp only [valueOr, bind_run, evalArg_eq hv, obind_ok, get_eq hi]

theorem valueOr_none {d : Val} {mv : Bool} (hi : m i = some none) (hv : src.gives P m i = some d) :
    valueOr P i mv src ⟨m, e⟩ = give P i src ⟨m, e⟩ := by
  simp only [valueOr, bind_run, evalArg_eq hv, obind_ok, get_eq hi]

/-- a call without argument -/
theorem call0_eq {β : Type} {b : β} :
    call0 P b ⟨m, e⟩ = if P.throwsAt e.tick then .throw ⟨m, e.after [.call0 false]⟩ else .ok b ⟨m, e.after [.call0 true]⟩ := by
  simp only [call0, bind_run, user_run, obind_ok]
  rw [Env.use_eq rfl rfl]
  cases P.throwsAt e.tick <;> rfl

theorem hasValueAnd_some {v : Val} {f : Prog.Fn Val Bool} (hi : m i = some (some v)) :
    hasValueAnd P i f ⟨m, e⟩ = call P i f ⟨m, e⟩ := by
  simp only [hasValueAnd, bind_run, get_eq hi, obind_ok]

theorem hasValueAnd_none {f : Prog.Fn Val Bool} (hi : m i = some none) :
    hasValueAnd P i f ⟨m, e⟩ = .ok false ⟨m, e⟩ := by
  simp only [hasValueAnd, bind_run, get_eq hi, obind_ok]; rfl

theorem inspect_some {v : Val} {f : Prog.Fn Val Unit} (hi : m i = some (some v)) :
    inspect P i f ⟨m, e⟩ = call P i f ⟨m, e⟩ := by
  simp only [inspect, bind_run, get_eq hi, obind_ok]

theorem inspect_none {f : Prog.Fn Val Unit} (hi : m i = some none) :
    inspect P i f ⟨m, e⟩ = .ok () ⟨m, e⟩ := by
  simp only [inspect, bind_run, get_eq hi, obind_ok]; rfl

theorem mapOr_some {v d : Val} {f : Prog.Fn Val Val} (hi : m i = some (some v)) :
    mapOr P i d f ⟨m, e⟩ = call P i f ⟨m, e⟩ := by
  simp only [mapOr, bind_run, get_eq hi, obind_ok]

theorem mapOr_none {d : Val} {f : Prog.Fn Val Val} (hi : m i = some none) :
    mapOr P i d f ⟨m, e⟩ = if P.throwsAt e.tick then .throw ⟨m, e.after [.tmpCtor .args false]⟩
      else .ok d ⟨m, e.after [.tmpCtor .args true]⟩ := by
  simp only [mapOr, bind_run, get_eq hi, obind_ok, user_run]
  rw [Env.use_eq rfl rfl]
  cases P.throwsAt e.tick <;> rfl

theorem mapOrElse_some {v d : Val} {f : Prog.Fn Val Val} (hi : m i = some (some v)) :
    mapOrElse P i d f ⟨m, e⟩ = call P i f ⟨m, e⟩ := by
  simp only [mapOrElse, bind_run, get_eq hi, obind_ok]

theorem mapOrElse_none {d : Val} {f : Prog.Fn Val Val} (hi : m i = some none) :
    mapOrElse P i d f ⟨m, e⟩ = call0 P d ⟨m, e⟩ := by
  simp only [mapOrElse, bind_run, get_eq hi, obind_ok]

theorem call_ok {β : Type} {v : Val} {f : Prog.Fn Val β} (hi : m i = some (some v)) (ht : P.throwsAt e.tick = false) :
    call P i f ⟨m, e⟩ = .ok (f.ret v) ⟨upd m i (some (some (f.after v))), e.after [.call i true]⟩ := by
  rw [call_eq hi, ht]; rfl

theorem call_throw {β : Type} {v : Val} {f : Prog.Fn Val β} (hi : m i = some (some v)) (ht : P.throwsAt e.tick = true) :
    call P i f ⟨m, e⟩ = .throw ⟨upd m i (some (some (f.afterThrow v))), e.after [.call i false]⟩ := by
  rw [call_eq hi, ht]; rfl

theorem upd_comm {x y : Option (Option Val)} (h : i ≠ j) : upd (upd m i x) j y = upd (upd m j y) i x := by
  funext k; simp only [upd]
  split <;> split <;> first | rfl | (subst_vars; exact absurd rfl h)

theorem args_gives {v : Val} : (Src.args v : Src Val).gives P m i = some v := rfl

theorem args_evs {v : Val} : P.ctorEvs r (.args v : Src Val) = [.ctor r .args] := rfl

/-- `map` when the function and the construction of the result complete -/
theorem map_ok {v : Val} {f : Prog.Fn Val Val} (hr : m r = none) (hi : m i = some (some v))
    (h0 : P.throwsAt e.tick = false) (h1 : P.throwsAt (e.tick + 1) = false) :
    map P i r f ⟨m, e⟩ = .ok () ⟨upd (upd m i (some (some (f.after v)))) r (some (some (f.ret v))),
      e.after [.call i true, .ctor r .args]⟩ := by
  have hne : i ≠ r := fun h => by subst h; rw [hi] at hr; cases hr
  have hi' : upd m r (some none) i = some (some v) := (upd_other _ _ hne).trans hi
  simp only [map, bind_run, get_eq hi, obind_ok, new_eq hr, M.onThrow, call_ok hi' h0]
  have ht : (e.after [.call i true]).tick = e.tick + 1 := Env.after_tick1 rfl
  rw [initAs_ok (x := none) (v := f.ret v) (e := e.after [.call i true]) (by rw [upd_other _ _ (Ne.symm hne), upd_same])
    rfl rfl (by rw [ht]; exact .inr h1), Env.after_after]
  simp only [args_evs, List.cons_append, List.nil_append]
  congr 2
  simp only [Prog.ctorLeaves, Src.leaves, ite_self]
  rw [upd_comm (Ne.symm hne), upd_upd]

theorem map_none {f : Prog.Fn Val Val} (hr : m r = none) (hi : m i = some none) :
    map P i r f ⟨m, e⟩ = .ok () ⟨upd m r (some none), e⟩ := by
  simp only [map, bind_run, get_eq hi, obind_ok, new_eq hr]

/-- the function throws -/
theorem map_throw {v : Val} {f : Prog.Fn Val Val} (hr : m r = none) (hi : m i = some (some v))
    (h0 : P.throwsAt e.tick = true) :
    map P i r f ⟨m, e⟩ = .throw ⟨upd m i (some (some (f.afterThrow v))), e.after [.call i false]⟩ := by
  have hne : i ≠ r := fun h => by subst h; rw [hi] at hr; cases hr
  have hi' : upd m r (some none) i = some (some v) := (upd_other _ _ hne).trans hi
  simp only [map, bind_run, get_eq hi, obind_ok, new_eq hr, M.onThrow, call_throw hi' h0]
  simp only [obind_throw, del_run]
  congr 2
  rw [upd_comm (Ne.symm hne), upd_upd, upd_self]
  rw [upd_other _ _ (Ne.symm hne), hr]

/-- the result's constructor throws -/
theorem map_throw2 {v : Val} {f : Prog.Fn Val Val} (hr : m r = none) (hi : m i = some (some v))
    (h0 : P.throwsAt e.tick = false) (h1 : P.throwsAt (e.tick + 1) = true) :
    map P i r f ⟨m, e⟩ = .throw ⟨upd m i (some (some (f.after v))), e.after [.call i true, .ctorFail r .args]⟩ := by
  have hne : i ≠ r := fun h => by subst h; rw [hi] at hr; cases hr
  have hi' : upd m r (some none) i = some (some v) := (upd_other _ _ hne).trans hi
  simp only [map, bind_run, get_eq hi, obind_ok, new_eq hr, M.onThrow, call_ok hi' h0]
  have ht : (e.after [.call i true]).tick = e.tick + 1 := Env.after_tick1 rfl
  rw [initAs_throw (x := none) (v := f.ret v) (e := e.after [.call i true]) (by rw [upd_other _ _ (Ne.symm hne), upd_same])
    rfl rfl rfl (by rw [ht]; exact h1)]
  simp only [del_run, Env.after_after, Src.leaves]
  congr 2
  rw [upd_comm (Ne.symm hne), upd_upd, upd_self]
  rw [upd_other _ _ (Ne.symm hne), hr]

/-- a new option of a value that user code made -/
theorem make_ok {x : Option Val} (hr : m r = none) (ht : x.isSome = true → P.throwsAt e.tick = false) :
    make P r x ⟨m, e⟩ = .ok () ⟨upd m r (some x), e.after (P.makeEvs r x)⟩ := by
  cases x with
  | none => simp only [make, new_eq hr, Prog.makeEvs, Env.after_nil]
  | some v =>
    simp only [make]
    rw [create_ok hr rfl (.inr (ht rfl))]
    simp only [Prog.ctorLeaves, Src.leaves, ite_self]
    rfl

theorem andThen_ok {v : Val} {f : Prog.Fn Val (Option Val)} (hr : m r = none) (hi : m i = some (some v))
    (h0 : P.throwsAt e.tick = false) (h1 : (f.ret v).isSome = true → P.throwsAt (e.tick + 1) = false) :
    andThen P i r f ⟨m, e⟩ = .ok () ⟨upd (upd m i (some (some (f.after v)))) r (some (f.ret v)),
      e.after (.call i true :: P.makeEvs r (f.ret v))⟩ := by
  have hne : i ≠ r := fun h => by subst h; rw [hi] at hr; cases hr
  have ht : (e.after [.call i true]).tick = e.tick + 1 := Env.after_tick1 rfl
  simp only [andThen, bind_run, get_eq hi, obind_ok, call_ok hi h0]
  rw [make_ok (by rw [upd_other _ _ (Ne.symm hne)]; exact hr) (by rw [ht]; exact h1), Env.after_after]
  rfl

theorem andThen_none {f : Prog.Fn Val (Option Val)} (hr : m r = none) (hi : m i = some none) :
    andThen P i r f ⟨m, e⟩ = .ok () ⟨upd m r (some none), e⟩ := by
  simp only [andThen, bind_run, get_eq hi, obind_ok, new_eq hr]

theorem andThen_throw {v : Val} {f : Prog.Fn Val (Option Val)} (hi : m i = some (some v))
    (h0 : P.throwsAt e.tick = true) :
    andThen P i r f ⟨m, e⟩ = .throw ⟨upd m i (some (some (f.afterThrow v))), e.after [.call i false]⟩ := by
  simp only [andThen, bind_run, get_eq hi, obind_ok, call_throw hi h0, obind_throw]

theorem orElse_some {v : Val} {mv : Bool} {x : Option Val} (hi : m i = some (some v)) :
    orElse P i r mv x ⟨m, e⟩ = createVia P r (.opt i mv) ⟨m, e⟩ := by
  simp only [orElse, bind_run, get_eq hi, obind_ok, ctorFrom_some hi]

theorem orElse_none {mv : Bool} {x : Option Val} (hr : m r = none) (hi : m i = some none)
    (h0 : P.throwsAt e.tick = false) (h1 : x.isSome = true → P.throwsAt (e.tick + 1) = false) :
    orElse P i r mv x ⟨m, e⟩ = .ok () ⟨upd m r (some x), e.after (.call0 true :: P.makeEvs r x)⟩ := by
  have ht : (e.after [.call0 true]).tick = e.tick + 1 := Env.after_tick1 rfl
  simp only [orElse, bind_run, get_eq hi, obind_ok, call0_eq, h0, Bool.false_eq_true, if_false]
  rw [make_ok hr (by rw [ht]; exact h1), Env.after_after]
  rfl

theorem orElse_throw {mv : Bool} {x : Option Val} (hi : m i = some none) (h0 : P.throwsAt e.tick = true) :
    orElse P i r mv x ⟨m, e⟩ = .throw ⟨m, e.after [.call0 false]⟩ := by
  simp only [orElse, bind_run, get_eq hi, obind_ok, call0_eq, h0, if_true, obind_throw]

theorem filter_keep {v : Val} {mv : Bool} {f : Prog.Fn Val Bool} (hr : m r = none) (hi : m i = some (some v))
    (h0 : P.throwsAt e.tick = false) (hf : f.ret v = true) (h1 : P.CtorOK r (.opt i mv) (e.tick + 1)) :
    filter P i r mv f ⟨m, e⟩ = .ok ()
      ⟨upd (P.ctorLeaves r (.opt i mv) (e.tick + 1) (upd m i (some (some (f.after v))))) r
        (some (some (P.convFrom r i (f.after v)))), e.after (.call i true :: P.ctorEvs r (.opt i mv))⟩ := by
  have hne : i ≠ r := fun h => by subst h; rw [hi] at hr; cases hr
  have ht : (e.after [.call i true]).tick = e.tick + 1 := Env.after_tick1 rfl
  simp only [filter, bind_run, get_eq hi, obind_ok, call_ok hi h0, hf, if_true]
  rw [create_ok (v := P.convFrom r i (f.after v)) (by rw [upd_other _ _ (Ne.symm hne)]; exact hr)
    (gives_opt (upd_same _ _ _)) (by rw [ht]; exact h1), Env.after_after, ht]
  rfl

theorem filter_reject {v : Val} {mv : Bool} {f : Prog.Fn Val Bool} (hr : m r = none) (hi : m i = some (some v))
    (h0 : P.throwsAt e.tick = false) (hf : f.ret v = false) :
    filter P i r mv f ⟨m, e⟩ = .ok () ⟨upd (upd m i (some (some (f.after v)))) r (some none), e.after [.call i true]⟩ := by
  have hne : i ≠ r := fun h => by subst h; rw [hi] at hr; cases hr
  simp only [filter, bind_run, get_eq hi, obind_ok, call_ok hi h0, hf, Bool.false_eq_true, if_false]
  rw [new_eq (by rw [upd_other _ _ (Ne.symm hne)]; exact hr)]

theorem filter_none {mv : Bool} {f : Prog.Fn Val Bool} (hr : m r = none) (hi : m i = some none) :
    filter P i r mv f ⟨m, e⟩ = .ok () ⟨upd m r (some none), e⟩ := by
  simp only [filter, bind_run, get_eq hi, obind_ok, new_eq hr]

theorem filter_throw {v : Val} {mv : Bool} {f : Prog.Fn Val Bool} (hi : m i = some (some v))
    (h0 : P.throwsAt e.tick = true) :
    filter P i r mv f ⟨m, e⟩ = .throw ⟨upd m i (some (some (f.afterThrow v))), e.after [.call i false]⟩ := by
  simp only [filter, bind_run, get_eq hi, obind_ok, call_throw hi h0, obind_throw]

theorem takeIf_throw {v : Val} {f : Prog.Fn Val Bool} (hi : m i = some (some v))
    (h0 : P.throwsAt e.tick = true) :
    takeIf P i r f ⟨m, e⟩ = .throw ⟨upd m i (some (some (f.afterThrow v))), e.after [.call i false]⟩ := by
  simp only [takeIf, bind_run, get_eq hi, obind_ok, call_throw hi h0, obind_throw]

/-- construction from an option, any state -/
theorem ctorFrom_ok {x : Option Val} {mv : Bool} (hr : m r = none) (hi : m i = some x)
    (ht : x.isSome = true → P.CtorOK r (.opt i mv) e.tick) :
    ctorFrom P r i mv ⟨m, e⟩ = .ok ()
      ⟨upd (if x.isSome then P.ctorLeaves r (.opt i mv) e.tick m else m) r (some (x.map (P.convFrom r i))),
        e.after (if x.isSome then P.buildEvs r (.opt i mv) else [])⟩ := by
  cases x with
  | none => simp [ctorFrom_none hi, new_eq hr, Env.after_nil]
  | some v => rw [ctorFrom_some hi, createVia_ok hr (gives_opt hi) (ht rfl)]; rfl

theorem ctorFrom_throw {v : Val} {mv : Bool} (hr : m r = none) (hi : m i = some (some v))
    (ht : P.CtorThrows r (.opt i mv) e.tick) :
    ctorFrom P r i mv ⟨m, e⟩ = .throw ⟨(Src.opt i mv).leaves P true e.tick m,
      e.after [P.buildFail r (.opt i mv)]⟩ := by
  rw [ctorFrom_some hi, createVia_throw hr (gives_opt hi) ht.1 ht.2]

theorem orOp_eq {x : Option Val} {mi mj : Bool} (hi : m i = some x) :
    orOp P i j r mi mj ⟨m, e⟩ = if x.isSome then ctorFrom P r i mi ⟨m, e⟩ else ctorFrom P r j mj ⟨m, e⟩ := by
  simp only [orOp, bind_run, get_eq hi, obind_ok]
  cases x <;> rfl

theorem andOp_eq {x : Option Val} {mv : Bool} (hi : m i = some x) :
    andOp P i j r mv ⟨m, e⟩ = if x.isSome then ctorFrom P r j mv ⟨m, e⟩ else new r ⟨m, e⟩ := by
  simp only [andOp, bind_run, get_eq hi, obind_ok]
  cases x <;> rfl

theorem xorOp_eq {x y : Option Val} {mi mj : Bool} (hi : m i = some x) (hj : m j = some y) :
    xorOp P i j r mi mj ⟨m, e⟩ =
      if x.isSome && y.isNone then ctorFrom P r i mi ⟨m, e⟩
      else if x.isNone && y.isSome then ctorFrom P r j mj ⟨m, e⟩ else new r ⟨m, e⟩ := by
  simp only [xorOp, bind_run, get_eq hi, get_eq hj, obind_ok]
  cases x <;> cases y <;> rfl

theorem orAssignValue_some {u v : Val} (hi : m i = some (some u)) (hv : src.gives P m i = some v) :
    orAssignValue P i src ⟨m, e⟩ = .ok () ⟨m, e⟩ := by
  simp only [orAssignValue, bind_run, evalArg_eq hv, obind_ok, get_eq hi]; rfl

theorem orAssignValue_none {v : Val} (hi : m i = some none) (hv : src.gives P m i = some v) :
    orAssignValue P i src ⟨m, e⟩ = init P i src ⟨m, e⟩ := by
  simp only [orAssignValue, bind_run, evalArg_eq hv, obind_ok, get_eq hi]

theorem orAssignFrom_some {u : Val} {mv : Bool} (hi : m i = some (some u)) :
    orAssignFrom P i j mv ⟨m, e⟩ = .ok () ⟨m, e⟩ := by
  simp only [orAssignFrom, bind_run, get_eq hi, obind_ok]; rfl

theorem orAssignFrom_none {y : Option Val} {mv : Bool} (hi : m i = some none) (hj : m j = some y) :
    orAssignFrom P i j mv ⟨m, e⟩ = if y.isSome then init P i (.opt j mv) ⟨m, e⟩ else .ok () ⟨m, e⟩ := by
  simp only [orAssignFrom, bind_run, get_eq hi, get_eq hj, obind_ok]
  cases y <;> rfl

/-! ## zip -/

theorem allHave_true : ∀ {is : List (Nat × Bool)}, (∀ p ∈ is, ∃ v, m p.1 = some (some v)) →
    (allHave is ⟨m, e⟩ : Out (AState Val) Bool) = .ok true ⟨m, e⟩
  | [], _ => rfl
  | (i, _) :: is, h => by
    obtain ⟨v, hv⟩ := h _ (List.mem_cons_self ..)
    simp only [allHave, bind_run, get_eq (i := i) hv, obind_ok]
    exact allHave_true (fun p hp => h p (List.mem_cons_of_mem _ hp))

theorem allHave_false : ∀ {is : List (Nat × Bool)}, (∀ p ∈ is, ∃ x, m p.1 = some x) → (∃ p ∈ is, m p.1 = some none) →
    (allHave is ⟨m, e⟩ : Out (AState Val) Bool) = .ok false ⟨m, e⟩
  | [], _, ⟨_, h, _⟩ => by cases h
  | (i, b) :: is, h, ⟨p, hp, hn⟩ => by
    obtain ⟨x, hx⟩ := h _ (List.mem_cons_self ..)
    simp only [allHave, bind_run, get_eq (i := i) hx, obind_ok]
    cases x with
    | none => rfl
    | some v =>
      refine allHave_false (fun p hp => h p (List.mem_cons_of_mem _ hp)) ?_
      rcases List.mem_cons.1 hp with rfl | hp
      · rw [hx] at hn; cases hn
      · exact ⟨p, hp, hn⟩

/-- reading all values -/
theorem vals_eq : ∀ {is : List Nat} {vs : List Val}, Prog.Holds m is vs →
    (vals is ⟨m, e⟩ : Out (AState Val) (List Val)) = .ok vs ⟨m, e⟩
  | [], [], _ => rfl
  | i :: is, v :: vs, h => by
    simp only [vals, bind_run, val_run (a := ⟨m, e⟩) (i := i) h.1, obind_ok, vals_eq h.2, pure_run]

theorem holds_leaves {mv : Bool} {n : Nat} : ∀ {is : List (Nat × Bool)} {vs : List Val},
    Prog.Holds m (is.map (·.1)) vs → (∀ q ∈ is, mv = true → q.1 ≠ i) →
    Prog.Holds (P.ctorLeaves i (.opt i mv) n m) (is.map (·.1)) vs
  | [], [], _, _ => trivial
  | (j, b) :: is, v :: vs, h, hne => by
    refine ⟨?_, holds_leaves h.2 (fun q hq => hne q (List.mem_cons_of_mem _ hq))⟩
    have := h.1
    cases mv with
    | false => simp only [Prog.ctorLeaves, Src.leaves, ite_self]; exact this
    | true =>
      rw [ctorLeaves_at (isSelf_opt (Ne.symm (hne _ (List.mem_cons_self ..) rfl)))]
      exact this

theorem giveEvs_tick : (e.after (P.giveEvs i src)).tick = e.tick + (P.giveEvs i src).length := by
  simp only [Prog.giveEvs]
  split
  · rfl
  · rfl

theorem giveEvs_le : (P.giveEvs i src).length ≤ 1 := by
  simp only [Prog.giveEvs]
  split <;> simp

theorem zipEvs_tick {is : List (Nat × Bool)} : (e.after (P.zipEvs is)).tick = e.tick + (P.zipEvs is).length := by
  induction is generalizing e with
  | nil => rfl
  | cons p is ih =>
    have : P.zipEvs (p :: is) = P.giveEvs p.1 (.opt p.1 p.2) ++ P.zipEvs is := rfl
    rw [this, ← Env.after_after, ih, giveEvs_tick, List.length_append, Nat.add_assoc]

theorem zipEvs_le {is : List (Nat × Bool)} : (P.zipEvs is).length ≤ is.length := by
  induction is with
  | nil => exact Nat.le_refl _
  | cons p is ih =>
    have : P.zipEvs (p :: is) = P.giveEvs p.1 (.opt p.1 p.2) ++ P.zipEvs is := rfl
    rw [this, List.length_append, List.length_cons]
    have := giveEvs_le (P := P) (i := p.1) (src := .opt p.1 p.2)
    omega

theorem dropTmp_eq {i : Nat} : dropTmp P i ⟨m, e⟩ = .ok () ⟨m, e.after (P.tmpDropEvs [i])⟩ := by
  simp only [dropTmp, Prog.tmpDropEvs, List.flatMap_cons, List.flatMap_nil, List.append_nil]
  split
  · rw [Env.after_nil]; rfl
  · rfl

theorem tmpDropEvs_cons {i : Nat} {is : List Nat} : P.tmpDropEvs (i :: is) = P.tmpDropEvs [i] ++ P.tmpDropEvs is := by
  simp only [Prog.tmpDropEvs, List.flatMap_cons, List.flatMap_nil, List.append_nil]

theorem tmpDropEvs_append {is js : List Nat} : P.tmpDropEvs (is ++ js) = P.tmpDropEvs is ++ P.tmpDropEvs js := by
  simp only [Prog.tmpDropEvs, List.flatMap_append]

theorem dropTmps_eq : ∀ {is : List Nat} {m : Nat → Option (Option Val)} {e : Env},
    dropTmps P is ⟨m, e⟩ = .ok () ⟨m, e.after (P.tmpDropEvs is)⟩
  | [], _, _ => by simp only [dropTmps, Prog.tmpDropEvs, List.flatMap_nil, Env.after_nil]; rfl
  | i :: is, m, e => by
    simp only [dropTmps, bind_run, dropTmp_eq, obind_ok]
    rw [dropTmps_eq, Env.after_after, ← tmpDropEvs_cons]

theorem giveOK {i : Nat} {src : Src Val} {t : Nat}
    (ht : ∀ n, t ≤ n → n < t + (P.giveEvs i src).length → P.throwsAt n = false) :
    (P.elem i).ctorTriv (P.kind i src) = true ∨ P.throwsAt t = false := by
  by_cases hj : (P.elem i).ctorTriv (P.kind i src) = true
  · exact .inl hj
  · refine .inr (ht _ (Nat.le_refl _) ?_)
    simp only [Prog.giveEvs, hj, if_false, List.length_singleton, Bool.false_eq_true]
    omega

theorem zipElems_ok : ∀ {is : List (Nat × Bool)} {vs : List Val} {m : Nat → Option (Option Val)} {e : Env},
    Prog.Holds m (is.map (·.1)) vs → Prog.ZipOK is →
    (∀ n, e.tick ≤ n → n < e.tick + (P.zipEvs is).length → P.throwsAt n = false) →
    zipElems P is ⟨m, e⟩ = .ok vs ⟨P.zipLeaves e.tick m is, e.after (P.zipEvs is)⟩
  | [], [], _, _, _, _, _ => by simp only [zipElems, pure_run, Prog.zipLeaves, Prog.zipEvs, List.flatMap_nil, Env.after_nil]
  | (i, mv) :: is, v :: vs, m, e, h, hp, ht => by
    have hp' := List.pairwise_cons.1 hp
    have hv : (Src.opt i mv : Src Val).gives P m i = some v := by
      rw [gives_opt h.1]; simp only [Prog.convFrom, if_true]
    have hz : P.zipEvs ((i, mv) :: is) = P.giveEvs i (.opt i mv) ++ P.zipEvs is := rfl
    rw [hz, List.length_append] at ht
    simp only [zipElems, bind_run]
    rw [give_ok hv (giveOK fun n h1 h2 => ht n h1 (by omega)), obind_ok, bind_run, M.onThrow]
    have ih := zipElems_ok (e := e.after (P.giveEvs i (.opt i mv)))
      (holds_leaves (P := P) (i := i) (mv := mv) (n := e.tick) h.2 hp'.1) hp'.2 (fun n h1 h2 => ht n
        (by rw [giveEvs_tick] at h1; omega)
        (by rw [giveEvs_tick] at h2; omega))
    rw [ih]
    simp only [obind_ok, pure_run, Env.after_after, giveEvs_tick]
    rfl

/-- the constructor of one element throws -/
theorem zipElems_throw {i : Nat} {mv : Bool} {post : List (Nat × Bool)} (hc : (P.elem i).ctorTriv (P.kind i (.opt i mv)) = false) :
    ∀ {pre : List (Nat × Bool)} {vs : List Val} {m : Nat → Option (Option Val)} {e : Env},
    Prog.Holds m ((pre ++ (i, mv) :: post).map (·.1)) vs → Prog.ZipOK (pre ++ (i, mv) :: post) →
    (∀ n, e.tick ≤ n → n < e.tick + (P.zipEvs pre).length → P.throwsAt n = false) →
    P.throwsAt (e.tick + (P.zipEvs pre).length) = true →
    zipElems P (pre ++ (i, mv) :: post) ⟨m, e⟩ =
      .throw ⟨(Src.opt i mv).leaves P true (e.tick + (P.zipEvs pre).length) (P.zipLeaves e.tick m pre),
        e.after (P.zipEvs pre ++ .tmpCtor (P.kind i (.opt i mv)) false :: P.tmpDropEvs (pre.map (·.1)).reverse)⟩
  | [], v :: vs, m, e, h, _, _, hn => by
    have hv : (Src.opt i mv : Src Val).gives P m i = some v := by
      rw [gives_opt h.1]; simp only [Prog.convFrom, if_true]
    simp only [List.nil_append, zipElems, bind_run]
    rw [give_throw hv hc hn]
    rfl
  | (j, mj) :: pre, v :: vs, m, e, h, hp, ht, hn => by
    have hp' := List.pairwise_cons.1 hp
    have hv : (Src.opt j mj : Src Val).gives P m j = some v := by
      rw [gives_opt h.1]; simp only [Prog.convFrom, if_true]
    have hz : P.zipEvs ((j, mj) :: pre) = P.giveEvs j (.opt j mj) ++ P.zipEvs pre := rfl
    rw [hz, List.length_append] at ht hn
    simp only [List.cons_append, zipElems, bind_run]
    rw [give_ok hv (giveOK fun n h1 h2 => ht n h1 (by omega)), obind_ok, bind_run, M.onThrow]
    have ih := zipElems_throw (post := post) hc (e := e.after (P.giveEvs j (.opt j mj)))
      (holds_leaves (P := P) (i := j) (mv := mj) (n := e.tick) h.2 hp'.1) hp'.2 (fun n h1 h2 => ht n
        (by rw [giveEvs_tick] at h1; omega)
        (by rw [giveEvs_tick] at h2; omega))
      (by rw [giveEvs_tick, Nat.add_assoc]; exact hn)
    rw [ih]
    simp only [dropTmp_eq, obind_throw, Env.after_after, giveEvs_tick]
    rw [hz, List.length_append, Nat.add_assoc]
    simp only [Prog.zipLeaves, List.map_cons, List.reverse_cons, tmpDropEvs_append, List.append_assoc, List.cons_append]

theorem holds_mem : ∀ {is : List Nat} {vs : List Val}, Prog.Holds m is vs → ∀ i ∈ is, ∃ v, m i = some (some v)
  | _ :: _, v :: _, h, _, hi => by
    rcases List.mem_cons.1 hi with rfl | hi
    · exact ⟨v, h.1⟩
    · exact holds_mem h.2 _ hi

theorem zipLeaves_at {r : Nat} : ∀ {is : List (Nat × Bool)} {n : Nat} {m : Nat → Option (Option Val)},
    (∀ p ∈ is, p.1 ≠ r) → P.zipLeaves n m is r = m r
  | [], _, _, _ => rfl
  | (i, mv) :: is, n, m, h => by
    simp only [Prog.zipLeaves]
    rw [zipLeaves_at (fun p hp => h p (List.mem_cons_of_mem _ hp)),
      ctorLeaves_at (isSelf_opt (h _ (List.mem_cons_self ..)))]

theorem holds_ne {is : List (Nat × Bool)} {vs : List Val} (h : Prog.Holds m (is.map (·.1)) vs) (hr : m r = none) :
    ∀ p ∈ is, p.1 ≠ r := by
  rintro p hp rfl
  obtain ⟨v, hv⟩ := holds_mem h p.1 (List.mem_map_of_mem hp)
  rw [hr] at hv; cases hv

theorem zip_ok {is : List (Nat × Bool)} {vs : List Val} {g : List Val → Val} (hr : m r = none)
    (h : Prog.Holds m (is.map (·.1)) vs) (hp : Prog.ZipOK is)
    (ht : ∀ n, e.tick ≤ n → n ≤ e.tick + is.length → P.throwsAt n = false) :
    zip P is r g ⟨m, e⟩ = .ok () ⟨upd (P.zipLeaves e.tick m is) r (some (some (g vs))),
      e.after (P.zipEvs is ++ P.ctorEvs r (.move (g vs)) ++ P.tmpDropEvs (is.map (·.1)).reverse)⟩ := by
  simp only [zip, bind_run]
  rw [allHave_true (fun p hp => holds_mem h p.1 (List.mem_map_of_mem hp)), obind_ok, if_pos rfl]
  simp only [bind_run]
  have hz := zipEvs_le (P := P) (is := is)
  rw [zipElems_ok h hp (fun n h1 h2 => ht n h1 (by omega)), obind_ok, bind_run, M.onThrow]
  rw [create_ok (v := g vs) ((zipLeaves_at (holds_ne h hr)).trans hr) rfl
    (.inr (by rw [zipEvs_tick]; exact ht _ (by omega) (by omega))), Env.after_after]
  simp only [obind_ok, dropTmps_eq, Env.after_after, Prog.ctorLeaves, Src.leaves, ite_self]

theorem zip_throw {is : List (Nat × Bool)} {x : List Val → Val} {a' : AState Val}
    (h : ∀ p ∈ is, ∃ v, m p.1 = some (some v)) (hz : zipElems P is ⟨m, e⟩ = .throw a') : zip P is r x ⟨m, e⟩ = .throw a' := by
  simp only [zip, bind_run]
  rw [allHave_true h, obind_ok, if_pos rfl]
  simp only [bind_run]
  rw [hz, obind_throw]

theorem zip_move_throw {is : List (Nat × Bool)} {vs : List Val} {g : List Val → Val} (hr : m r = none)
    (h : Prog.Holds m (is.map (·.1)) vs) (hp : Prog.ZipOK is)
    (ht : ∀ n, e.tick ≤ n → n < e.tick + (P.zipEvs is).length → P.throwsAt n = false)
    (hc : (P.elem r).ctorTriv .move = false) (hn : P.throwsAt (e.tick + (P.zipEvs is).length) = true) :
    zip P is r g ⟨m, e⟩ = .throw ⟨P.zipLeaves e.tick m is,
      e.after (P.zipEvs is ++ .ctorFail r .move :: P.tmpDropEvs (is.map (·.1)).reverse)⟩ := by
  simp only [zip, bind_run]
  rw [allHave_true (fun p hp => holds_mem h p.1 (List.mem_map_of_mem hp)), obind_ok, if_pos rfl]
  simp only [bind_run]
  rw [zipElems_ok h hp ht, obind_ok, bind_run, M.onThrow]
  rw [create_throw (v := g vs) ((zipLeaves_at (holds_ne h hr)).trans hr) rfl hc (by rw [zipEvs_tick]; exact hn), Env.after_after]
  simp only [obind_throw, dropTmps_eq, Env.after_after, Src.leaves, Prog.kind, List.append_assoc, List.cons_append, List.nil_append]

theorem zip_none {is : List (Nat × Bool)} {g : List Val → Val} (hr : m r = none)
    (h1 : ∀ p ∈ is, ∃ x, m p.1 = some x) (h2 : ∃ p ∈ is, m p.1 = some none) :
    zip P is r g ⟨m, e⟩ = .ok () ⟨upd m r (some none), e⟩ := by
  simp only [zip, bind_run]
  rw [allHave_false h1 h2, obind_ok, if_neg Bool.false_ne_true, new_eq hr]

theorem zipWith_ok {is : List Nat} {vs : List Val} {g : List Val → Val} (hr : m r = none)
    (h : Prog.Holds m is vs) (h0 : P.throwsAt e.tick = false) (h1 : P.throwsAt (e.tick + 1) = false) :
    zipWith P is r g ⟨m, e⟩ = .ok () ⟨upd m r (some (some (g vs))),
      e.after (.call0 true :: P.ctorEvs r (.move (g vs)) ++ P.tmpDropEvs [r])⟩ := by
  simp only [zipWith, bind_run]
  rw [allHave_true (fun p hp => ?_), obind_ok, if_pos rfl]
  · simp only [bind_run, vals_eq h, obind_ok, call0_eq, h0, Bool.false_eq_true, if_false]
    have ht : (e.after [.call0 true]).tick = e.tick + 1 := Env.after_tick1 rfl
    rw [M.onThrow, create_ok hr rfl (.inr (by rw [ht]; exact h1)), Env.after_after]
    simp only [obind_ok, dropTmp_eq, Env.after_after, Prog.ctorLeaves, Src.leaves, ite_self]
    rfl
  · obtain ⟨q, hq, rfl⟩ := List.mem_map.1 hp
    exact holds_mem h q hq

theorem zipWith_move_throw {is : List Nat} {vs : List Val} {g : List Val → Val} (hr : m r = none)
    (h : Prog.Holds m is vs) (h0 : P.throwsAt e.tick = false) (hc : (P.elem r).ctorTriv .move = false)
    (h1 : P.throwsAt (e.tick + 1) = true) :
    zipWith P is r g ⟨m, e⟩ = .throw ⟨m, e.after (.call0 true :: .ctorFail r .move :: P.tmpDropEvs [r])⟩ := by
  simp only [zipWith, bind_run]
  rw [allHave_true (fun p hp => ?_), obind_ok, if_pos rfl]
  · simp only [bind_run, vals_eq h, obind_ok, call0_eq, h0, Bool.false_eq_true, if_false]
    have ht : (e.after [.call0 true]).tick = e.tick + 1 := Env.after_tick1 rfl
    rw [M.onThrow, create_throw (v := g vs) hr rfl hc (by rw [ht]; exact h1), Env.after_after]
    simp only [obind_throw, dropTmp_eq, Env.after_after, Src.leaves, Prog.kind]
    rfl
  · obtain ⟨q, hq, rfl⟩ := List.mem_map.1 hp
    exact holds_mem h q hq

theorem zipWithVoid_ok {is : List Nat} {vs : List Val} (h : Prog.Holds m is vs) :
    zipWithVoid P is ⟨m, e⟩ = if P.throwsAt e.tick then .throw ⟨m, e.after [.call0 false]⟩
      else .ok (some vs) ⟨m, e.after [.call0 true]⟩ := by
  simp only [zipWithVoid, bind_run]
  rw [allHave_true (fun p hp => ?_), obind_ok, if_pos rfl]
  · simp only [bind_run, vals_eq h, obind_ok, call0_eq]
  · obtain ⟨q, hq, rfl⟩ := List.mem_map.1 hp
    exact holds_mem h q hq

theorem zipWithVoid_none {is : List Nat} (h1 : ∀ i ∈ is, ∃ x, m i = some x) (h2 : ∃ i ∈ is, m i = some none) :
    zipWithVoid P is ⟨m, e⟩ = .ok none ⟨m, e⟩ := by
  simp only [zipWithVoid, bind_run]
  rw [allHave_false, obind_ok, if_neg Bool.false_ne_true, pure_run]
  · intro p hp
    obtain ⟨q, hq, rfl⟩ := List.mem_map.1 hp
    exact h1 q hq
  · obtain ⟨q, hq, hn⟩ := h2
    exact ⟨(q, false), List.mem_map.2 ⟨q, hq, rfl⟩, hn⟩

theorem zipWith_none {is : List Nat} {g : List Val → Val} (hr : m r = none)
    (h1 : ∀ i ∈ is, ∃ x, m i = some x) (h2 : ∃ i ∈ is, m i = some none) :
    zipWith P is r g ⟨m, e⟩ = .ok () ⟨upd m r (some none), e⟩ := by
  simp only [zipWith, bind_run]
  rw [allHave_false, obind_ok, if_neg Bool.false_ne_true, new_eq hr]
  · intro p hp
    obtain ⟨q, hq, rfl⟩ := List.mem_map.1 hp
    exact h1 q hq
  · obtain ⟨q, hq, hn⟩ := h2
    exact ⟨(q, false), List.mem_map.2 ⟨q, hq, rfl⟩, hn⟩

theorem zipWith_throw {is : List Nat} {vs : List Val} {g : List Val → Val}
    (h : Prog.Holds m is vs) (h0 : P.throwsAt e.tick = true) :
    zipWith P is r g ⟨m, e⟩ = .throw ⟨m, e.after [.call0 false]⟩ := by
  simp only [zipWith, bind_run]
  rw [allHave_true (fun p hp => ?_), obind_ok, if_pos rfl]
  · simp only [bind_run, vals_eq h, obind_ok, call0_eq, h0, if_true, obind_throw]
  · obtain ⟨q, hq, rfl⟩ := List.mem_map.1 hp
    exact holds_mem h q hq

/-! ## io -/

theorem ioWrite_eq {x : Option Val} {d : Option Val} (hi : m i = some x) :
    ioWrite P i d ⟨m, e⟩ = match x, d with
      | some v, _ => call0 P (some v) ⟨m, e⟩
      | none, some d => call0 P (some d) ⟨m, e⟩
      | none, none => .ok none ⟨m, e⟩ := by
  simp only [ioWrite, bind_run, get_eq hi, obind_ok]
  cases x <;> cases d <;> rfl

theorem ioRead_some {u d v : Val} (hi : m i = some (some u)) :
    ioRead P i d v ⟨m, e⟩ = if P.throwsAt e.tick then .throw ⟨upd m i (some (some u)), e.after [.call i false]⟩
      else .ok d ⟨upd m i (some (some v)), e.after [.call i true]⟩ := by
  simp only [ioRead, bind_run, get_eq hi, obind_ok, user_run]
  rw [Env.use_eq rfl rfl]
  cases P.throwsAt e.tick <;> rfl

theorem ioRead_none {d v : Val} (hi : m i = some none) : ioRead P i d v ⟨m, e⟩ = call0 P v ⟨m, e⟩ := by
  simp only [ioRead, bind_run, get_eq hi, obind_ok]

end Spec

end Opt
