import Verif.Lemmas.UnzipList
import Verif.Props.Machine

/-!
# C49: `o.emplace(*o)`, an option given its own value
-/

namespace Opt

variable {Val : Type} {P : Prog Val} {w : World} {i : Nat} {mv : Bool}

namespace Prog

/-- `emplace(*o)` works on this type: `reset` leaves the old value readable (trivial destructor, flag) and the new one
is not built over the old one while that is being read (a scalar, or the temporary of the C++17 `construct_at`) -/
def SelfSafe (P : Prog Val) (i : Nat) : Bool :=
  (P.elem i).trivDtor && !(P.elem i).sent P.pw && ((P.elem i).scalar || (!P.cxx20 && (P.elem i).trivMoveAssign))

theorem construct_self_dead {o : Obj} (h : w.mem i = some o) (ha : o.alive = false) :
    P.construct i (.opt i mv) w = .ub := by
  have hr : P.readT i w = .ub := by simp [readT, bind_run, obj_run h, obind_ok, ha, bad_run]
  simp only [construct, bind_run, constructAt]
  cases (P.cxx20 || !(P.elem i).trivMoveAssign)
  · simp [constructByAssign, bind_run, obj_run h, obind_ok, srcVal, hr, obind_ub]
  · cases (P.elem i).scalar <;>
      simp [constructInPlace, bind_run, obj_run h, obind_ok, srcVal, hr, obind_ub, ha, Src.isSelf, ite_run, bad_run]

theorem construct_self_over {o : Obj} (h : w.mem i = some o) (hs : (P.elem i).scalar = false)
    (hp : (P.cxx20 || !(P.elem i).trivMoveAssign) = true) : P.construct i (.opt i mv) w = .ub := by
  simp only [construct, bind_run, constructAt, hp, if_true]
  cases o.alive <;> cases (P.elem i).trivDtor <;>
    simp [constructInPlace, bind_run, obj_run h, obind_ok, Src.isSelf, hs, bad_run, ite_run, obind_ub]

/-- `reset` of an engaged option kills the object, unless it only clears a flag -/
theorem reset_dead (hP : P.OK) {o : Obj} {v : Val} (h : w.mem i = some o) (hr : ObjR P i o (some v))
    (hd : (P.elem i).trivDtor = false ∨ (P.elem i).sent P.pw = true) :
    ∃ o' w', P.reset i w = .ok () w' ∧ w'.mem i = some o' ∧ o'.alive = false := by
  cases ht : (P.elem i).trivDtor
  · obtain ⟨o', h1, h2⟩ := reset_run hP h hr
    exact ⟨o', _, h1, upd_same _ _ _, h2.dead rfl ht⟩
  · have hs := hd.resolve_left (by simp [ht])
    obtain ⟨b, h1, h2, h3⟩ := setLevel0_sent hP.pw (hP.wfi i) (sent_iff.1 hs) hr.len
    have hR : ObjR P i ⟨b, false⟩ none := ObjR.empty h3 hs h2
    refine ⟨⟨b, false⟩, w.put i ⟨b, false⟩, ?_, upd_same _ _ _, rfl⟩
    have hset : P.setLevel0 i w = .ok () (w.put i ⟨b, false⟩) := by
      simp only [setLevel0, bind_run, obj_run h, obind_ok, h1, setObj_run]
    simp only [reset, ht, hs, if_true, bind_run, hset, obind_ok, hasValue_run (w := w.put i ⟨b, false⟩) (upd_same _ _ _) hR,
      Option.isSome_none,
      Bool.not_false, check_true]

end Prog

open Prog

/-- **C49.** `o.emplace(*o)` (and `o.emplace(std::move(*o))`) on an option that holds a value is undefined behaviour for
every element type but the few in `SelfSafe`: it reads the object it has just destroyed, or builds over it. -/
theorem C49_emplace_self_ub (hP : P.OK) (hw : P.Inv w) {v : Val} (hi : P.view w i = some (some v))
    (hs : P.SelfSafe i = false) : P.emplace i (.opt i mv) w = .ub := by
  obtain ⟨o, ho, hr⟩ := (view_R hw).some' hi
  simp only [emplace, bind_run, evalArg, getCheck, hasValue_run ho hr, obind_ok, Option.isSome_some, check_true]
  by_cases hd : (P.elem i).trivDtor = false ∨ (P.elem i).sent P.pw = true
  · obtain ⟨o', w', h1, h2, h3⟩ := reset_dead hP ho hr hd
    simp only [h1, obind_ok, bind_run, construct_self_dead h2 h3, obind_ub]
  · obtain ⟨o', h1, _⟩ := reset_run hP ho hr
    have hd' : (P.elem i).trivDtor = true ∧ (P.elem i).sent P.pw = false := by
      cases h : (P.elem i).trivDtor <;> cases h' : (P.elem i).sent P.pw <;> simp_all
    have hp : (P.elem i).scalar = false ∧ (P.cxx20 || !(P.elem i).trivMoveAssign) = true := by
      simp only [SelfSafe, hd'.1, hd'.2] at hs
      cases h : (P.elem i).scalar <;> cases h' : P.cxx20 <;> cases h'' : (P.elem i).trivMoveAssign <;> simp_all
    simp only [h1, obind_ok, bind_run]
    rw [construct_self_over (o := o') (by exact upd_same _ _ _) hp.1 hp.2, obind_ub]

/- the polymorphic class (levels) and the handle (not trivially destructible) -/
example : Demo.calm.emplace 1 (.opt 1 false) Demo.world = .ub :=
  C49_emplace_self_ub Demo.ok_tidy Demo.inv Demo.view1 (by decide +kernel)
example : Demo.calm.emplace 0 (.opt 0 true) Demo.world = .ub :=
  C49_emplace_self_ub Demo.ok_tidy Demo.inv Demo.view0 (by decide +kernel)

/-- **C49.** For the types in `SelfSafe`, `o.emplace(*o)` keeps the value, with one constructor call unless that is
trivial. -/
theorem C49_emplace_self_ok (hP : P.OK) (hw : P.Inv w) {v : Val} (hi : P.view w i = some (some v))
    (hs : P.SelfSafe i = true) (ht : P.CtorOK i (.opt i mv) w.env.tick) :
    P.Ends w (P.emplace i (.opt i mv) w) () (P.ctorEvs i (.opt i mv)) (P.view w) := by
  obtain ⟨o, ho, hr⟩ := (view_R hw).some' hi
  obtain ⟨ha, hv, hdec⟩ := hr.live v rfl
  simp only [SelfSafe, Bool.and_eq_true, Bool.not_eq_true'] at hs
  obtain ⟨⟨htd, hsent⟩, hsafe⟩ := hs
  have hns := sent_false_iff.1 hsent
  -- the object after `reset`
  let o1 : Obj := ⟨st 8 o.bytes ((P.elem i).T.size P.pw) 0, true⟩
  have hreset : P.reset i w = .ok () (w.put i o1) := by
    simp only [reset, htd, hsent, if_true, Bool.false_eq_true, if_false, setFlag_run ho, ha, o1]
  have hp1 : P.payload i o1 = P.payload i o := payload_st (hP.wfi i) hns hr.len 0
  have hl1 : o1.bytes.length = (Ty.option (P.elem i).T).size P.pw := st_len (hP.wfi i) hns hr.len 0
  have hread : P.readT i (w.put i o1) = .ok v (w.put i o1) := by
    simp only [readT, bind_run, obj_run (w := w.put i o1) (upd_same _ _ _), obind_ok, o1, if_true, pure_run]
    have : P.payload i ⟨st 8 o.bytes ((P.elem i).T.size P.pw) 0, true⟩ = P.payload i o := hp1
    rw [this, hdec]
  have hplen : (P.payload i o).length = (P.elem i).T.size P.pw := hr.payload_len hP
  have hsrc : P.srcVal i (.opt i mv) (w.put i o1) = .ok v (w.put i o1) := by
    simp only [srcVal, bind_run, hread, obind_ok, pure_run, convFrom, if_true]
  -- what is left to do once the object is rebuilt
  have finish : ∀ (w2 : World) (o2 : Obj), w2.mem = upd w.mem i (some o2) → MidR P i o2 (some v) →
      w2.env = w.env.after (P.ctorEvs i (.opt i mv)) → P.constructAt i (.opt i mv) (w.put i o1) = .ok () w2 →
      P.Ends w (P.emplace i (.opt i mv) w) () (P.ctorEvs i (.opt i mv)) (P.view w) := by
    intro w2 o2 hm hmid henv hc
    have hR := hmid.setFlag hP hsent
    have h2 : w2.mem i = some o2 := by rw [hm]; exact upd_same _ _ _
    refine ends_R (w' := w2.put i { o2 with bytes := st 8 o2.bytes ((P.elem i).T.size P.pw) 1 }) ?_ ⟨henv, fun k => ?_⟩
    · simp only [emplace, bind_run, evalArg, getCheck, hasValue_run ho hr, obind_ok, Option.isSome_some, check_true, hreset,
        construct, hc, hsent, Bool.false_eq_true, if_false, setFlag_run h2, if_true]
      rw [hasValue_run (w := w2.put i _) (upd_same _ _ _) hR]
      simp only [obind_ok, Option.isSome_some, check_true]
    · simp only [World.put, hm, upd_upd]
      by_cases hk : k = i
      · subst hk
        rw [upd_same]
        rw [hi]
        exact hR
      · rw [upd_other _ _ hk]
        exact (view_R hw).cell k
  have hobj1 : obj i (w.put i o1) = .ok o1 (w.put i o1) := obj_run (upd_same _ _ _)
  by_cases hinp : (P.cxx20 || !(P.elem i).trivMoveAssign) = true
  · have hsc : (P.elem i).scalar = true := by
      cases h : P.cxx20 <;> cases h' : (P.elem i).trivMoveAssign <;> simp_all
    have htriv : (P.elem i).ctorTriv (P.kind i (.opt i mv)) = true := by
      have := hP.scalar (P.cls i) hsc
      simp only [kind, if_true]
      cases mv
      · exact this.2.1
      · exact this.2.2.2.1
    refine finish ((w.put i o1).put i ⟨wr o1.bytes 0 (P.payload i o1), true⟩) ⟨wr o1.bytes 0 (P.payload i o1), true⟩
      (by simp only [World.put, upd_upd]) (MidR.mk' hP hl1 (by rw [hp1]; exact hv) (by rw [hp1]; exact hdec)) ?_ ?_
    · simp [ctorEvs, htriv, Env.after]
    · simp only [constructAt, hinp, if_true, constructInPlace, bind_run, hobj1, obind_ok, htd, hsc, Bool.not_true,
        Bool.and_false, Bool.false_eq_true, if_false, hsrc, htriv, srcBytes, pure_run]
      exact setPayload_run (w := w.put i o1) (upd_same _ _ _) _ _
  · cases htriv : (P.elem i).ctorTriv (P.kind i (.opt i mv))
    · have hthr : P.throwsAt w.env.tick = false := by
        rcases ht with h | h
        · rw [htriv] at h; cases h
        · exact h
      have hb := hP.build i w.env.tick v (P.payload i o1) ⟨_, hv, hdec⟩ (by rw [hp1]; exact hplen)
      -- a moved-from object is written and then overwritten
      let e1 : Env := ⟨w.env.tick + 1, w.env.log ++ [.ctor i (P.kind i (.opt i mv))]⟩
      have huse : (w.put i o1).env.use P (.ctor i (P.kind i (.opt i mv))) (.ctorFail i (P.kind i (.opt i mv))) = e1 := by
        simp only [Env.use, World.put, hthr, Bool.false_eq_true, if_false, e1]
      have hafter : ∃ o3, P.srcAfter false w.env.tick (.opt i mv) { w.put i o1 with env := e1 } =
          .ok () ⟨upd w.mem i (some o3), e1⟩ ∧ o3.bytes.length = (Ty.option (P.elem i).T).size P.pw := by
        cases mv
        · exact ⟨o1, rfl, hl1⟩
        · have hread' : P.readT i { w.put i o1 with env := e1 } = .ok v { w.put i o1 with env := e1 } := by
            simp only [readT, bind_run, obj_run (w := { w.put i o1 with env := e1 }) (upd_same _ _ _), obind_ok, o1, if_true,
              pure_run]
            have : P.payload i ⟨st 8 o.bytes ((P.elem i).T.size P.pw) 0, true⟩ = P.payload i o := hp1
            rw [this, hdec]
          have hm := hP.build i w.env.tick (P.moved false i w.env.tick v) (P.payload i o1)
            (hP.moved _ _ _ _ ⟨_, hv, hdec⟩) (by rw [hp1]; exact hplen)
          refine ⟨⟨wr o1.bytes 0 (P.build i w.env.tick (P.moved false i w.env.tick v) (P.payload i o1)), true⟩, ?_, ?_⟩
          · simp only [srcAfter, bind_run, hread', obind_ok]
            rw [writeT_run (w := { w.put i o1 with env := e1 }) (upd_same _ _ _) rfl]
            simp only [World.put, upd_upd]
          · exact wr0_length (hP.wfi i) hl1 (by rw [lenT hP.pw (hP.wfi i) hm.1]; exact Nat.le_refl _)
      obtain ⟨o3, hA, hl3⟩ := hafter
      refine finish ⟨upd w.mem i (some ⟨wr o3.bytes 0 (P.build i w.env.tick v (P.payload i o1)), true⟩), e1⟩
        ⟨wr o3.bytes 0 (P.build i w.env.tick v (P.payload i o1)), true⟩ rfl (MidR.mk' hP hl3 hb.1 hb.2) ?_ ?_
      · simp [ctorEvs, htriv, Env.after, e1, Event.numbered, List.filter]
      · simp only [constructAt, hinp, Bool.false_eq_true, if_false, constructByAssign, bind_run, hobj1, obind_ok, hsrc, htriv,
          htd, if_true, userOp_run, huse]
        simp only [World.put] at hA ⊢
        rw [hthr, hA]
        simp only [obind_ok, Bool.false_eq_true, if_false]
        rw [setPayload_run (upd_same _ _ _)]
        simp only [World.put, upd_upd]
    · refine finish ((w.put i o1).put i ⟨wr o1.bytes 0 (P.payload i o1), true⟩) ⟨wr o1.bytes 0 (P.payload i o1), true⟩
        (by simp only [World.put, upd_upd]) (MidR.mk' hP hl1 (by rw [hp1]; exact hv) (by rw [hp1]; exact hdec)) ?_ ?_
      · simp [ctorEvs, htriv, Env.after]
      · simp only [constructAt, hinp, Bool.false_eq_true, if_false, constructByAssign, bind_run, hobj1, obind_ok, hsrc, htriv,
          if_true, srcBytes, pure_run]
        exact setPayload_run (w := w.put i o1) (upd_same _ _ _) _ _

/- an `unsigned char` with a flag -/
example : Demo.angry.Ends Demo.world (Demo.angry.emplace 2 (.opt 2 false) Demo.world) () []
    (Demo.angry.view Demo.world) :=
  C49_emplace_self_ok Demo.ok_tidy Demo.inv Demo.view2 (by decide +kernel) (.inl rfl)

/-- **C49.** `try_emplace(*o)`, in contrast, is always fine: it does nothing. -/
theorem C49_try_emplace_self (hw : P.Inv w) {v : Val} (hi : P.view w i = some (some v)) :
    P.Ends w (P.tryEmplace i (.opt i mv) w) () [] (P.view w) := by
  obtain ⟨o, ho, hr⟩ := (view_R hw).some' hi
  refine ends_R (w' := w) ?_ (by rw [Env.after_nil]; exact view_R hw)
  simp only [tryEmplace, bind_run, evalArg, getCheck, hasValue_run ho hr, obind_ok, Option.isSome_some, check_true, if_true]

example : Demo.angry.Ends Demo.world (Demo.angry.tryEmplace 1 (.opt 1 true) Demo.world) () []
    (Demo.angry.view Demo.world) := C49_try_emplace_self Demo.inv Demo.view1

end Opt
