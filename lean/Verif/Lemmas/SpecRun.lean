import Verif.Lemmas.View

/-!
# Running the specification symbolically
-/

namespace Opt

variable {Val : Type} {P : Prog Val} {m : Nat → Option (Option Val)} {e : Env} {i j r : Nat} {src : Src Val}

theorem Env.after_nil (e : Env) : e.after [] = e := by
  cases e; simp [Env.after]

theorem Env.after_after (e : Env) (xs ys : List Event) : (e.after xs).after ys = e.after (xs ++ ys) := by
  simp only [Env.after, List.filter_append, List.length_append, List.append_assoc, Nat.add_assoc]

theorem Env.use_eq {P : Prog Val} {e : Env} {x y : Event} (hx : x.numbered = true) (hy : y.numbered = true) :
    e.use P x y = e.after [if P.throwsAt e.tick then y else x] := by
  simp only [Env.use, Env.after]
  cases P.throwsAt e.tick <;> simp [hx, hy]

theorem Env.dtor_eq {P : Prog Val} {e : Env} {x : Option Val} {i : Nat} :
    e.addIf (x.isSome && !(P.elem i).trivDtor) (.dtor i) = e.after (P.dtorEvs i x) := by
  have : (x.isSome && !(P.elem i).trivDtor) = (x.isSome && P.tracked i) := rfl
  rw [this]
  simp only [Env.addIf, Prog.dtorEvs]
  cases (x.isSome && P.tracked i)
  · exact (Env.after_nil e).symm
  · rfl

theorem Env.after_tick1 {e : Env} {x : Event} (h : x.numbered = true) : (e.after [x]).tick = e.tick + 1 := by
  simp [Env.after, h]

theorem Env.after_tick0 {e : Env} {x : Option Val} {i : Nat} : (e.after (P.dtorEvs i x)).tick = e.tick := by
  simp only [Prog.dtorEvs]
  split <;> simp [Env.after, Event.numbered]

theorem Src.gives_upd {x : Option (Option Val)} {k : Nat} (h : src.isSelf i = false) :
    src.gives P (upd m i x) k = src.gives P m k := by
  cases src with
  | opt j mv =>
    simp only [Src.isSelf, beq_eq_false_iff_ne] at h
    simp only [Src.gives, upd_other _ _ h]
  | _ => rfl

theorem Src.leaves_upd {x : Option (Option Val)} {f : Bool} {n : Nat} (h : src.isSelf i = false) :
    src.leaves P f n (upd m i x) = upd (src.leaves P f n m) i x := by
  cases src with
  | opt j mv =>
    simp only [Src.isSelf, beq_eq_false_iff_ne] at h
    cases mv with
    | false => rfl
    | true =>
      simp only [Src.leaves, upd_other _ _ h]
      funext k; simp only [upd]
      split <;> split <;> first | rfl | (subst_vars; exact absurd rfl h)
  | _ => rfl

theorem Src.leaves_at {f : Bool} {n : Nat} (h : src.isSelf i = false) : src.leaves P f n m i = m i := by
  cases src with
  | opt j mv =>
    simp only [Src.isSelf, beq_eq_false_iff_ne] at h
    cases mv with
    | false => rfl
    | true => simp only [Src.leaves]; exact upd_other _ _ (Ne.symm h)
  | _ => rfl

theorem Src.notSelf_of_none {v : Val} {k : Nat} (h : m i = none) (hg : src.gives P m k = some v) :
    src.isSelf i = false := by
  cases src with
  | opt j mv =>
    simp only [Src.isSelf, beq_eq_false_iff_ne]
    rintro rfl
    simp only [Src.gives, h] at hg; cases hg
  | _ => rfl

theorem Src.notSelf_of_empty {v : Val} {k : Nat} (h : m i = some none) (hg : src.gives P m k = some v) :
    src.isSelf i = false := by
  cases src with
  | opt j mv =>
    simp only [Src.isSelf, beq_eq_false_iff_ne]
    rintro rfl
    simp only [Src.gives, h] at hg; cases hg
  | _ => rfl

theorem ctorLeaves_upd {x : Option (Option Val)} {n : Nat} {k : Nat} (h : src.isSelf i = false) :
    P.ctorLeaves k src n (upd m i x) = upd (P.ctorLeaves k src n m) i x := by
  simp only [Prog.ctorLeaves]
  split
  · rfl
  · exact Src.leaves_upd h

theorem ctorLeaves_at {n : Nat} {k : Nat} (h : src.isSelf i = false) : P.ctorLeaves k src n m i = m i := by
  simp only [Prog.ctorLeaves]
  split
  · rfl
  · exact Src.leaves_at h

theorem join_some {x : Option (Option Val)} {v : Val} : x.join = some v ↔ x = some (some v) := by
  cases x with
  | none => simp
  | some y => cases y <;> simp

namespace Spec

theorem value_eq {v : Val} (h : src.gives P m i = some v) : value P i src ⟨m, e⟩ = .ok v ⟨m, e⟩ := by
  cases src with
  | opt j mv =>
    simp only [Src.gives, Option.map_eq_some_iff] at h
    obtain ⟨u, h1, h2⟩ := h
    have h1 := join_some.1 h1
    simp only [value, bind_run, val_run (a := ⟨m, e⟩) h1, obind_ok, pure_run, h2]
  | args v => cases h; rfl
  | copy v => cases h; rfl
  | move v => cases h; rfl

theorem movedFrom_eq {v : Val} {f : Bool} {n : Nat} (h : src.gives P m i = some v) :
    movedFrom P f n src ⟨m, e⟩ = .ok () ⟨src.leaves P f n m, e⟩ := by
  cases src with
  | opt j mv =>
    simp only [Src.gives, Option.map_eq_some_iff] at h
    obtain ⟨u, h1, h2⟩ := h
    have h1 := join_some.1 h1
    cases mv with
    | false => rfl
    | true => simp only [movedFrom, bind_run, val_run (a := ⟨m, e⟩) h1, obind_ok, put_run, Src.leaves, h1, Option.map_some,
        AState.put]
  | _ => rfl

/-- the calls of `initAs` -/
def madeEvs (P : Prog Val) (t : Bool) (i : Nat) (src : Src Val) : List Event :=
  if (P.elem i).ctorTriv (P.kind i src) then []
  else if t then [.tmpCtor (P.kind i src) true, .tmpDtor] else [.ctor i (P.kind i src)]

theorem madeEvs_false : madeEvs P false i src = P.ctorEvs i src := rfl
theorem madeEvs_via : madeEvs P (P.viaTemp i) i src = P.buildEvs i src := rfl
theorem unmade_via : Event.unmade (P.viaTemp i) i (P.kind i src) = P.buildFail i src := rfl

theorem initAs_ok {t : Bool} {x : Option Val} {v : Val} (hx : m i = some x)
    (hc : ((x.isSome || src.isSelf i) && !(P.elem i).scalar) = false) (hv : src.gives P m i = some v)
    (ht : (P.elem i).ctorTriv (P.kind i src) = true ∨ P.throwsAt e.tick = false) :
    initAs P t i src ⟨m, e⟩ = .ok () ⟨upd (P.ctorLeaves i src e.tick m) i (some (some v)), e.after (madeEvs P t i src)⟩ := by
  simp only [initAs, bind_run, get_run (a := ⟨m, e⟩) hx, obind_ok, hc, Bool.false_eq_true, if_false, value_eq hv]
  cases h : (P.elem i).ctorTriv (P.kind i src)
  · have ht : P.throwsAt e.tick = false := by rcases ht with ht | ht
                                              · rw [h] at ht; cases ht
                                              · exact ht
    cases t
    · simp only [Bool.false_eq_true, if_false, bind_run, user_run, obind_ok, ht, movedFrom_eq hv, put_run, AState.put,
        Prog.ctorLeaves, madeEvs, h, Event.made, Event.unmade, pure_run]
      rw [Env.use_eq rfl rfl, ht]; rfl
    · simp only [Bool.false_eq_true, if_false, bind_run, user_run, obind_ok, ht, movedFrom_eq hv, put_run, AState.put,
        Prog.ctorLeaves, madeEvs, h, Event.made, Event.unmade, note_run, if_true]
      rw [Env.use_eq rfl rfl, ht]
      simp only [Env.after, Env.addIf, Bool.false_eq_true, if_false, if_true, List.append_assoc]
      rfl
  · simp only [if_true, put_run, AState.put, Prog.ctorLeaves, madeEvs, h, Env.after_nil]

theorem initAs_throw {t : Bool} {x : Option Val} {v : Val} (hx : m i = some x)
    (hc : ((x.isSome || src.isSelf i) && !(P.elem i).scalar) = false) (hv : src.gives P m i = some v)
    (ht : (P.elem i).ctorTriv (P.kind i src) = false) (hn : P.throwsAt e.tick = true) :
    initAs P t i src ⟨m, e⟩ = .throw ⟨src.leaves P true e.tick m, e.after [.unmade t i (P.kind i src)]⟩ := by
  simp only [initAs, bind_run, get_run (a := ⟨m, e⟩) hx, obind_ok, hc, Bool.false_eq_true, if_false, value_eq hv, ht,
    user_run, hn, movedFrom_eq hv, if_true, raise_run]
  cases t <;> (rw [Env.use_eq rfl rfl, hn]; rfl)

/-- a constructor call that completes -/
theorem init_ok {x : Option Val} {v : Val} (hx : m i = some x)
    (hc : ((x.isSome || src.isSelf i) && !(P.elem i).scalar) = false) (hv : src.gives P m i = some v)
    (ht : (P.elem i).ctorTriv (P.kind i src) = true ∨ P.throwsAt e.tick = false) :
    init P i src ⟨m, e⟩ = .ok () ⟨upd (P.ctorLeaves i src e.tick m) i (some (some v)), e.after (P.buildEvs i src)⟩ :=
  initAs_ok hx hc hv ht

/-- a constructor call that throws -/
theorem init_throw {x : Option Val} {v : Val} (hx : m i = some x)
    (hc : ((x.isSome || src.isSelf i) && !(P.elem i).scalar) = false) (hv : src.gives P m i = some v)
    (ht : (P.elem i).ctorTriv (P.kind i src) = false) (hn : P.throwsAt e.tick = true) :
    init P i src ⟨m, e⟩ = .throw ⟨src.leaves P true e.tick m, e.after [P.buildFail i src]⟩ :=
  initAs_throw hx hc hv ht hn

/-- an assignment that completes -/
theorem assign_ok {u v : Val} (hx : m i = some (some u)) (hs : src.isSelf i = false) (hv : src.gives P m i = some v)
    (ht : (P.elem i).assignTriv (P.kind i src) = true ∨ P.throwsAt e.tick = false) :
    assign P i src ⟨m, e⟩ =
      .ok () ⟨upd (P.assignLeaves i src e.tick m) i (some (some v)), e.after (P.assignEvs i src)⟩ := by
  simp only [assign, bind_run, val_run (a := ⟨m, e⟩) hx, obind_ok, value_eq hv]
  cases h : (P.elem i).assignTriv (P.kind i src)
  · have ht : P.throwsAt e.tick = false := by rcases ht with ht | ht
                                              · rw [h] at ht; cases ht
                                              · exact ht
    simp only [Bool.false_eq_true, if_false, bind_run, user_run, obind_ok, ht, hs, movedFrom_eq hv, put_run, AState.put,
      Prog.assignLeaves, Prog.assignEvs, h]
    rw [Env.use_eq rfl rfl, ht]; rfl
  · simp only [if_true, put_run, AState.put, Prog.assignLeaves, Prog.assignEvs, h, Env.after_nil]

/-- an assignment that throws -/
theorem assign_throw {u v : Val} (hx : m i = some (some u)) (hv : src.gives P m i = some v)
    (ht : (P.elem i).assignTriv (P.kind i src) = false) (hn : P.throwsAt e.tick = true) :
    assign P i src ⟨m, e⟩ = .throw ⟨upd (src.leaves P true e.tick m) i (some (some (P.broken i e.tick u v))),
      e.after [.assign i (P.kind i src) false]⟩ := by
  simp only [assign, bind_run, val_run (a := ⟨m, e⟩) hx, obind_ok, value_eq hv, ht, Bool.false_eq_true, if_false,
    user_run, hn, if_true, movedFrom_eq hv, put_run, AState.put, raise_run]
  rw [Env.use_eq rfl rfl, hn]; rfl

/-- self-assignment -/
theorem assign_self {u : Val} {mv : Bool} (hx : m i = some (some u))
    (ht : (P.elem i).assignTriv (P.kind i (.opt i mv)) = true ∨ P.throwsAt e.tick = false) :
    assign P i (.opt i mv) ⟨m, e⟩ = .ok ()
      ⟨upd m i (some (some (if (P.elem i).assignTriv (P.kind i (.opt i mv)) || !mv then u else P.selfMoved i e.tick u))),
        e.after (P.assignEvs i (.opt i mv))⟩ := by
  have hv : (Src.opt i mv : Src Val).gives P m i = some u := by
    simp only [Src.gives, hx, Option.join_some, Option.map_some, Prog.convFrom, if_true]
  simp only [assign, bind_run, val_run (a := ⟨m, e⟩) hx, obind_ok, value_eq hv]
  cases h : (P.elem i).assignTriv (P.kind i (.opt i mv))
  · have ht : P.throwsAt e.tick = false := by rcases ht with ht | ht
                                              · rw [h] at ht; cases ht
                                              · exact ht
    have hs : (Src.opt i mv : Src Val).isSelf i = true := by simp [Src.isSelf]
    simp only [Bool.false_eq_true, if_false, bind_run, user_run, obind_ok, ht, hs, if_true, Prog.assignEvs, h, Bool.false_or]
    rw [Env.use_eq rfl rfl, ht]
    cases mv <;> rfl
  · simp only [if_true, put_run, AState.put, Prog.assignEvs, h, Env.after_nil, Bool.true_or]

theorem clear_eq {x : Option Val} (hx : m i = some x) :
    clear P i ⟨m, e⟩ = .ok () ⟨upd m i (some none), e.after (P.dtorEvs i x)⟩ := by
  rw [clear_run (a := ⟨m, e⟩) hx, Env.dtor_eq]

theorem destroy_eq {x : Option Val} (hx : m i = some x) :
    destroy P i ⟨m, e⟩ = .ok () ⟨upd m i none, e.after (P.dtorEvs i x)⟩ := by
  rw [destroy_run (a := ⟨m, e⟩) hx, Env.dtor_eq]

theorem create_ok {v : Val} (hx : m i = none) (hv : src.gives P m i = some v)
    (ht : (P.elem i).ctorTriv (P.kind i src) = true ∨ P.throwsAt e.tick = false) :
    create P i src ⟨m, e⟩ = .ok () ⟨upd (P.ctorLeaves i src e.tick m) i (some (some v)), e.after (P.ctorEvs i src)⟩ := by
  have hs := Src.notSelf_of_none hx hv
  simp only [create, bind_run, new_run (a := ⟨m, e⟩) hx, obind_ok, M.onThrow, AState.put]
  rw [initAs_ok (x := none) (v := v) (upd_same _ _ _) (by rw [hs]; rfl) (by rw [Src.gives_upd hs]; exact hv) ht]
  simp only [ctorLeaves_upd hs, upd_upd, madeEvs_false]

theorem create_throw {v : Val} (hx : m i = none) (hv : src.gives P m i = some v)
    (ht : (P.elem i).ctorTriv (P.kind i src) = false) (hn : P.throwsAt e.tick = true) :
    create P i src ⟨m, e⟩ = .throw ⟨src.leaves P true e.tick m, e.after [.ctorFail i (P.kind i src)]⟩ := by
  have hs := Src.notSelf_of_none hx hv
  simp only [create, bind_run, new_run (a := ⟨m, e⟩) hx, obind_ok, M.onThrow, AState.put]
  rw [initAs_throw (x := none) (v := v) (upd_same _ _ _) (by rw [hs]; rfl) (by rw [Src.gives_upd hs]; exact hv) ht hn]
  simp only [Event.unmade, Bool.false_eq_true, if_false, del_run, Src.leaves_upd hs, upd_upd]
  rw [upd_self]
  rw [Src.leaves_at hs, hx]

theorem createVia_ok {v : Val} (hx : m i = none) (hv : src.gives P m i = some v)
    (ht : (P.elem i).ctorTriv (P.kind i src) = true ∨ P.throwsAt e.tick = false) :
    createVia P i src ⟨m, e⟩ = .ok () ⟨upd (P.ctorLeaves i src e.tick m) i (some (some v)), e.after (P.buildEvs i src)⟩ := by
  have hs := Src.notSelf_of_none hx hv
  simp only [createVia, bind_run, new_run (a := ⟨m, e⟩) hx, obind_ok, M.onThrow, AState.put]
  rw [init_ok (x := none) (v := v) (upd_same _ _ _) (by rw [hs]; rfl) (by rw [Src.gives_upd hs]; exact hv) ht]
  simp only [ctorLeaves_upd hs, upd_upd]

theorem createVia_throw {v : Val} (hx : m i = none) (hv : src.gives P m i = some v)
    (ht : (P.elem i).ctorTriv (P.kind i src) = false) (hn : P.throwsAt e.tick = true) :
    createVia P i src ⟨m, e⟩ = .throw ⟨src.leaves P true e.tick m, e.after [P.buildFail i src]⟩ := by
  have hs := Src.notSelf_of_none hx hv
  simp only [createVia, bind_run, new_run (a := ⟨m, e⟩) hx, obind_ok, M.onThrow, AState.put]
  rw [init_throw (x := none) (v := v) (upd_same _ _ _) (by rw [hs]; rfl) (by rw [Src.gives_upd hs]; exact hv) ht hn]
  simp only [del_run, Src.leaves_upd hs, upd_upd]
  rw [upd_self]
  rw [Src.leaves_at hs, hx]

/-! ## Modifiers -/

/-- a legal argument expression passes the check of `operator*` -/
theorem evalArg_eq {v : Val} {k : Nat} (h : src.gives P m k = some v) : evalArg src ⟨m, e⟩ = .ok () ⟨m, e⟩ := by
  cases src with
  | opt j mv =>
    simp only [Src.gives, Option.map_eq_some_iff] at h
    obtain ⟨u, h1, h2⟩ := h
    have h1 := join_some.1 h1
    simp only [evalArg, checked_run (a := ⟨m, e⟩) h1, Option.isSome_some, check_true]
  | _ => rfl

theorem gives_opt {v : Val} {mv : Bool} (h : m j = some (some v)) :
    (Src.opt j mv : Src Val).gives P m i = some (P.convFrom i j v) := by
  simp only [Src.gives, h, Option.join_some, Option.map_some]

theorem isSelf_opt {mv : Bool} (h : j ≠ i) : (Src.opt j mv : Src Val).isSelf i = false := by
  simpa [Src.isSelf] using h

theorem emplace_ok {x : Option Val} {v : Val} (hx : m i = some x) (hs : src.isSelf i = false)
    (hv : src.gives P m i = some v)
    (ht : (P.elem i).ctorTriv (P.kind i src) = true ∨ P.throwsAt e.tick = false) :
    emplace P i src ⟨m, e⟩ = .ok () ⟨upd (P.ctorLeaves i src e.tick m) i (some (some v)),
      e.after (P.dtorEvs i x ++ P.buildEvs i src)⟩ := by
  simp only [emplace, bind_run, evalArg_eq hv, obind_ok, clear_eq hx]
  rw [init_ok (x := none) (v := v) (upd_same _ _ _) (by rw [hs]; rfl) (by rw [Src.gives_upd hs]; exact hv)
    (by rw [Env.after_tick0]; exact ht), Env.after_tick0, Env.after_after, ctorLeaves_upd hs, upd_upd]

theorem emplace_throw {x : Option Val} {v : Val} (hx : m i = some x) (hs : src.isSelf i = false)
    (hv : src.gives P m i = some v)
    (ht : (P.elem i).ctorTriv (P.kind i src) = false) (hn : P.throwsAt e.tick = true) :
    emplace P i src ⟨m, e⟩ = .throw ⟨upd (src.leaves P true e.tick m) i (some none),
      e.after (P.dtorEvs i x ++ [P.buildFail i src])⟩ := by
  simp only [emplace, bind_run, evalArg_eq hv, obind_ok, clear_eq hx]
  rw [init_throw (x := none) (v := v) (upd_same _ _ _) (by rw [hs]; rfl) (by rw [Src.gives_upd hs]; exact hv)
    ht (by rw [Env.after_tick0]; exact hn), Env.after_tick0, Env.after_after, Src.leaves_upd hs]

theorem assignFrom_eq {x y : Option Val} {mv : Bool} (hx : m i = some x) (hy : m j = some y) :
    assignFrom P i j mv ⟨m, e⟩ =
      match y, x with
      | some _, some _ => assign P i (.opt j mv) ⟨m, e⟩
      | some _, none => init P i (.opt j mv) ⟨m, e⟩
      | none, _ => clear P i ⟨m, e⟩ := by
  simp only [assignFrom, bind_run, get_run (a := ⟨m, e⟩) hx, get_run (a := ⟨m, e⟩) hy, obind_ok]
  cases y with
  | none => rfl
  | some v =>
    simp only [bind_run, get_run (a := ⟨m, e⟩) hx, obind_ok]
    cases x <;> rfl

theorem ctorFrom_some {u : Val} {mv : Bool} (hj : m j = some (some u)) :
    ctorFrom P i j mv ⟨m, e⟩ = createVia P i (.opt j mv) ⟨m, e⟩ := by
  simp only [ctorFrom, bind_run, get_run (a := ⟨m, e⟩) hj, obind_ok]

theorem ctorFrom_none {mv : Bool} (hj : m j = some none) :
    ctorFrom P i j mv ⟨m, e⟩ = (new i ⟨m, e⟩ : Out (AState Val) Unit) := by
  simp only [ctorFrom, bind_run, get_run (a := ⟨m, e⟩) hj, obind_ok]

theorem new_eq (hi : m i = none) : (new i ⟨m, e⟩ : Out (AState Val) Unit) = .ok () ⟨upd m i (some none), e⟩ :=
  new_run (a := ⟨m, e⟩) hi

theorem assignValue_eq {x : Option Val} {v : Val} (hx : m i = some x) (hv : src.gives P m i = some v) :
    assignValue P i src ⟨m, e⟩ =
      if (P.elem i).scalar then init P i src ⟨m, e⟩
      else match x with
        | some _ => assign P i src ⟨m, e⟩
        | none => init P i src ⟨m, e⟩ := by
  simp only [assignValue, bind_run, evalArg_eq hv, obind_ok]
  split
  · rfl
  · simp only [bind_run, get_run (a := ⟨m, e⟩) hx, obind_ok]
    cases x <;> rfl

theorem tryEmplace_eq {x : Option Val} {v : Val} (hx : m i = some x) (hv : src.gives P m i = some v) :
    tryEmplace P i src ⟨m, e⟩ =
      match x with
        | some _ => .ok () ⟨m, e⟩
        | none => init P i src ⟨m, e⟩ := by
  simp only [tryEmplace, bind_run, evalArg_eq hv, obind_ok, get_run (a := ⟨m, e⟩) hx]
  cases x <;> rfl

/-- a move into an empty option, followed by `reset` of the source -/
theorem shift_ok {v : Val} (hj : m j = some none) (hi : m i = some (some v))
    (ht : (P.elem j).ctorTriv (P.kind j (.opt i true)) = true ∨ P.throwsAt e.tick = false) :
    (init P j (.opt i true) >>= fun _ => clear P i) ⟨m, e⟩ = .ok ()
      ⟨upd (upd m j (some (some (P.convFrom j i v)))) i (some none),
        e.after (P.buildEvs j (.opt i true) ++ P.dtorEvs i (some v))⟩ := by
  have hne : i ≠ j := fun h => by subst h; rw [hi] at hj; cases hj
  have hs : (Src.opt i true : Src Val).isSelf j = false := isSelf_opt hne
  have hv := gives_opt (P := P) (i := j) (mv := true) hi
  simp only [bind_run]
  rw [init_ok hj (by rw [hs]; rfl) hv ht, obind_ok]
  have hi' : ∃ u, upd (P.ctorLeaves j (.opt i true) e.tick m) j (some (some (P.convFrom j i v))) i = some (some u) := by
    rw [upd_other _ _ hne]
    simp only [Prog.ctorLeaves]
    split
    · exact ⟨v, hi⟩
    · simp only [Src.leaves, upd_same, hi, Option.map_some]; exact ⟨_, rfl⟩
  obtain ⟨u, hi'⟩ := hi'
  rw [clear_eq hi', Env.after_after]
  have : P.dtorEvs i (some u) = P.dtorEvs i (some v) := rfl
  rw [this]
  congr 2
  funext k
  simp only [upd, Prog.ctorLeaves, Src.leaves]
  split
  · rfl
  · split
    · rfl
    · split
      · rfl
      · rename_i h _ _
        simp only [upd, h, if_false]

theorem shift_throw {v : Val} (hj : m j = some none) (hi : m i = some (some v))
    (ht : (P.elem j).ctorTriv (P.kind j (.opt i true)) = false) (hn : P.throwsAt e.tick = true) :
    (init P j (.opt i true) >>= fun _ => clear P i) ⟨m, e⟩ = .throw
      ⟨upd m i (some (some (P.moved true i e.tick v))), e.after [P.buildFail j (.opt i true)]⟩ := by
  have hne : i ≠ j := fun h => by subst h; rw [hi] at hj; cases hj
  have hs : (Src.opt i true : Src Val).isSelf j = false := isSelf_opt hne
  have hv := gives_opt (P := P) (i := j) (mv := true) hi
  simp only [bind_run]
  rw [init_throw hj (by rw [hs]; rfl) hv ht hn]
  simp only [Src.leaves, hi, Option.map_some]; rfl

theorem swap_eq {x y : Option Val} (hi : m i = some x) (hj : m j = some y) :
    swap P i j ⟨m, e⟩ = match x, y with
      | none, none => .ok () ⟨m, e⟩
      | some vi, some vj =>
        if P.throwsAt e.tick then .throw ⟨upd (upd m i (some (some (P.broken i e.tick vi (P.convFrom i j vj))))) j
          (some (some (P.broken j e.tick vj (P.convFrom j i vi)))), e.after [.swap i j false]⟩
        else .ok () ⟨upd (upd m i (some (some (P.convFrom i j vj)))) j (some (some (P.convFrom j i vi))),
          e.after [.swap i j true]⟩
      | some _, none => (init P j (.opt i true) >>= fun _ => clear P i) ⟨m, e⟩
      | none, some _ => (init P i (.opt j true) >>= fun _ => clear P j) ⟨m, e⟩ := by
  simp only [swap, bind_run, get_run (a := ⟨m, e⟩) hi, get_run (a := ⟨m, e⟩) hj, obind_ok]
  cases x with
  | none => cases y <;> rfl
  | some vi =>
    cases y with
    | none => rfl
    | some vj =>
      simp only [bind_run, user_run, obind_ok]
      rw [Env.use_eq rfl rfl]
      cases P.throwsAt e.tick <;> rfl

theorem take_some {v : Val} (hr : m r = none) (hi : m i = some (some v))
    (ht : (P.elem r).ctorTriv (P.kind r (.opt i true)) = true ∨ P.throwsAt e.tick = false) :
    take P i r ⟨m, e⟩ = .ok () ⟨upd (upd m r (some (some (P.convFrom r i v)))) i (some none),
      e.after (P.buildEvs r (.opt i true) ++ P.dtorEvs i (some v))⟩ := by
  have hne : i ≠ r := fun h => by subst h; rw [hi] at hr; cases hr
  have hv := gives_opt (P := P) (i := r) (mv := true) hi
  simp only [take, bind_run, ctorFrom_some hi, createVia_ok hr hv ht, obind_ok]
  have hi' : ∃ u, upd (P.ctorLeaves r (.opt i true) e.tick m) r (some (some (P.convFrom r i v))) i = some (some u) := by
    rw [upd_other _ _ hne]
    simp only [Prog.ctorLeaves]
    split
    · exact ⟨v, hi⟩
    · simp only [Src.leaves, upd_same, hi, Option.map_some]; exact ⟨_, rfl⟩
  obtain ⟨u, hi'⟩ := hi'
  rw [clear_eq hi', Env.after_after]
  have : P.dtorEvs i (some u) = P.dtorEvs i (some v) := rfl
  rw [this]
  congr 2
  funext k
  simp only [upd, Prog.ctorLeaves, Src.leaves]
  split
  · rfl
  · split
    · rfl
    · split
      · rfl
      · rename_i h _ _
        simp only [upd, h, if_false]

theorem take_throw {v : Val} (hr : m r = none) (hi : m i = some (some v))
    (ht : (P.elem r).ctorTriv (P.kind r (.opt i true)) = false) (hn : P.throwsAt e.tick = true) :
    take P i r ⟨m, e⟩ = .throw ⟨upd m i (some (some (P.moved true i e.tick v))),
      e.after [P.buildFail r (.opt i true)]⟩ := by
  have hv := gives_opt (P := P) (i := r) (mv := true) hi
  simp only [take, bind_run, ctorFrom_some hi, createVia_throw hr hv ht hn]
  simp only [Src.leaves, hi, Option.map_some]; rfl

theorem take_none (hr : m r = none) (hi : m i = some none) :
    take P i r ⟨m, e⟩ = .ok () ⟨upd m r (some none), e⟩ := by
  have hne : i ≠ r := fun h => by subst h; rw [hi] at hr; cases hr
  simp only [take, bind_run, ctorFrom_none hi, new_eq hr, obind_ok]
  rw [clear_eq (x := none) (by rw [upd_other _ _ hne]; exact hi)]
  rw [upd_self (by rw [upd_other _ _ hne]; exact hi)]
  have : P.dtorEvs i (none : Option Val) = [] := rfl
  rw [this, Env.after_nil]

/-- a callable -/
theorem call_eq {β : Type} {v : Val} {f : Prog.Fn Val β} (hi : m i = some (some v)) :
    call P i f ⟨m, e⟩ = if P.throwsAt e.tick then .throw ⟨upd m i (some (some (f.afterThrow v))), e.after [.call i false]⟩
      else .ok (f.ret v) ⟨upd m i (some (some (f.after v))), e.after [.call i true]⟩ := by
  simp only [call, bind_run, checked_run (a := ⟨m, e⟩) hi, Option.isSome_some, check_true, obind_ok,
    val_run (a := ⟨m, e⟩) hi, user_run]
  rw [Env.use_eq rfl rfl]
  cases P.throwsAt e.tick <;> rfl

end Spec

end Opt
