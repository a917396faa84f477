import Verif.Lemmas.Sim

/-!
# Running machine and specification symbolically
-/

namespace Opt

/-- continue after an outcome -/
def Out.bind {σ α β : Type} (x : Out σ α) (f : α → M σ β) : Out σ β :=
  match x with
  | .ok a s => f a s
  | .throw s => .throw s
  | .verify => .verify
  | .ub => .ub

section
variable {σ α β : Type}

theorem bind_run (x : M σ α) (f : α → M σ β) (s : σ) : (x >>= f) s = (x s).bind f := by
  simp only [bind, M.seq]
  cases x s <;> rfl

theorem obind_ok (a : α) (s : σ) (f : α → M σ β) : (Out.ok a s).bind f = f a s := rfl
theorem obind_throw (s : σ) (f : α → M σ β) : (Out.throw s : Out σ α).bind f = .throw s := rfl
theorem obind_verify (f : α → M σ β) : (Out.verify : Out σ α).bind f = .verify := rfl
theorem obind_ub (f : α → M σ β) : (Out.ub : Out σ α).bind f = .ub := rfl

theorem pure_run (a : α) (s : σ) : (pure a : M σ α) s = .ok a s := rfl
theorem raise_run (s : σ) : (M.raise : M σ α) s = .throw s := rfl
theorem bad_run (s : σ) : (M.bad : M σ α) s = .ub := rfl
theorem check_true (s : σ) : M.check true s = .ok () s := rfl
theorem check_false (s : σ) : M.check false s = .verify := rfl
theorem ite_run (c : Prop) [Decidable c] (x y : M σ α) (s : σ) : (if c then x else y) s = if c then x s else y s := by
  split <;> rfl

end

variable {Val : Type} {P : Prog Val}

theorem upd_self {α : Type} {f : Nat → α} {i : Nat} {x : α} (h : f i = x) : upd f i x = f := by
  funext k; simp only [upd]; split
  · subst_vars; rfl
  · rfl

/-- replace the object at an address -/
abbrev World.put (w : World) (i : Nat) (o : Obj) : World := { w with mem := upd w.mem i (some o) }

/-- replace the value of a variable -/
abbrev AState.put (a : AState Val) (i : Nat) (x : Option Val) : AState Val := { a with mem := upd a.mem i (some x) }

/-- record an event if `c` -/
def Env.addIf (e : Env) (c : Bool) (ev : Event) : Env := if c then { e with log := e.log ++ [ev] } else e

/-- the environment after a call of user code -/
def Env.use (P : Prog Val) (e : Env) (okEv failEv : Event) : Env :=
  ⟨e.tick + 1, e.log ++ [if P.throwsAt e.tick then failEv else okEv]⟩

namespace Prog

theorem obj_run {w : World} {i : Nat} {o : Obj} (h : w.mem i = some o) : obj i w = .ok o w := by simp only [obj, h]
theorem setObj_run (w : World) (i : Nat) (o : Obj) : setObj i o w = .ok () (w.put i o) := rfl
theorem delObj_run (w : World) (i : Nat) : delObj i w = .ok () { w with mem := upd w.mem i none } := rfl
theorem userOp_run (w : World) (e f : Event) :
    P.userOp e f w = .ok (w.env.tick, P.throwsAt w.env.tick) { w with env := w.env.use P e f } := rfl
theorem note_run (w : World) (e : Event) : note e w = .ok () { w with env := w.env.addIf true e } := rfl
theorem now_run (w : World) : now w = .ok w.env.tick w := rfl
theorem newObj_run {w : World} {i : Nat} (h : w.mem i = none) :
    P.newObj i w = .ok () (w.put i ⟨P.garbage i w.env.tick, false⟩) := by simp only [newObj, h]

theorem setPayload_run {w : World} {i : Nat} {o : Obj} (h : w.mem i = some o) (b : Bytes) (al : Bool) :
    setPayload i b al w = .ok () (w.put i ⟨wr o.bytes 0 b, al⟩) := by
  simp only [setPayload, bind_run, obj_run h, obind_ok, setObj_run]

theorem setFlag_run {w : World} {i : Nat} {o : Obj} (h : w.mem i = some o) (b : Bool) :
    P.setFlag i b w = .ok () (w.put i
      { o with bytes := st 8 o.bytes ((P.elem i).T.size P.pw) (if b then 1 else 0) }) := by
  simp only [setFlag, bind_run, obj_run h, obind_ok, setObj_run]

theorem readT_run {w : World} {i : Nat} {o : Obj} {v : Val} (h : w.mem i = some o) (hr : ObjR P i o (some v)) :
    P.readT i w = .ok v w := by
  obtain ⟨h1, _, h3⟩ := hr.live v rfl
  simp only [readT, bind_run, obj_run h, obind_ok, h1, if_true, h3, pure_run]

theorem writeT_run {w : World} {i : Nat} {o : Obj} (h : w.mem i = some o) (ha : o.alive = true) (n : Nat) (v : Val) :
    P.writeT i n v w = .ok () (w.put i ⟨wr o.bytes 0 (P.build i n v (P.payload i o)), true⟩) := by
  simp only [writeT, bind_run, obj_run h, obind_ok, ha, if_true, setPayload_run h]

theorem hasValue_run {w : World} {i : Nat} {o : Obj} {x : Option Val} (h : w.mem i = some o) (hr : ObjR P i o x) :
    P.hasValue i w = .ok x.isSome w := by
  simp only [hasValue, bind_run, obj_run h, obind_ok]
  rw [if_neg, hr.hv, pure_run]
  intro hc
  simp only [Bool.and_eq_true, Bool.not_eq_true', bne_iff_ne] at hc
  rcases hr.flag hc.1.1 with h | h
  · exact hc.1.2 h
  · exact hc.2 h

/-- the part of `reset` and the default constructor that makes the storage empty -/
theorem emptied_run (hP : P.OK) {w : World} {i : Nat} {o : Obj} (h : w.mem i = some o)
    (hl : o.bytes.length = (Ty.option (P.elem i).T).size P.pw)
    (ha : (P.elem i).trivDtor = false → o.alive = false) :
    ∃ o', (if (P.elem i).sent P.pw then do
        P.setLevel0 i
        let h ← P.hasValue i
        M.check (!h)
      else P.setFlag i false : M World Unit) w = .ok () (w.put i o') ∧ ObjR P i o' none := by
  cases hs : (P.elem i).sent P.pw
  · simp only [Bool.false_eq_true, if_false, setFlag_run h]
    exact ⟨_, rfl, ObjR.clearFlag hP hl hs ha⟩
  · obtain ⟨b, h1, h2, h3⟩ := setLevel0_sent hP.pw (hP.wfi i) (sent_iff.1 hs) hl
    have hr := ObjR.empty (P := P) h3 hs h2
    refine ⟨_, ?_, hr⟩
    simp only [if_true, bind_run, setLevel0, obj_run h, obind_ok, h1, setObj_run]
    rw [hasValue_run (upd_same _ _ _) hr]
    rfl

theorem destroyT_run (hP : P.OK) {w : World} {i : Nat} {o : Obj} {v : Val} (h : w.mem i = some o)
    (hr : ObjR P i o (some v)) :
    ∃ o', P.destroyT i w = .ok () ⟨upd w.mem i (some o'), w.env.addIf true (.dtor i)⟩ ∧
      o'.bytes.length = (Ty.option (P.elem i).T).size P.pw ∧ o'.alive = false := by
  obtain ⟨h1, _, _⟩ := hr.live v rfl
  simp only [destroyT, bind_run, obj_run h, obind_ok, h1, if_true, note_run, now_run]
  rw [setPayload_run (w := { w with env := w.env.addIf true (.dtor i) }) h]
  refine ⟨_, rfl, ?_, rfl⟩
  exact wr0_length (hP.wfi i) hr.len (by rw [hP.dead i _ _ (hr.payload_len hP)]; exact Nat.le_refl _)

/-- `reset` empties the option; it destroys the value when there is one with a non-trivial destructor -/
theorem reset_run (hP : P.OK) {w : World} {i : Nat} {o : Obj} {x : Option Val} (h : w.mem i = some o)
    (hr : ObjR P i o x) :
    ∃ o', P.reset i w = .ok () ⟨upd w.mem i (some o'), w.env.addIf (x.isSome && !(P.elem i).trivDtor) (.dtor i)⟩ ∧
      ObjR P i o' none := by
  cases ht : (P.elem i).trivDtor
  · cases x with
    | none =>
      refine ⟨o, ?_, hr⟩
      simp only [reset, ht, Bool.false_eq_true, if_false, bind_run, hasValue_run h hr, obind_ok, Option.isSome_none,
        pure_run, Bool.false_and, Env.addIf, upd_self h]
    | some v =>
      obtain ⟨o1, h1, h2, h3⟩ := destroyT_run hP h hr
      obtain ⟨o2, h4, h5⟩ := emptied_run hP (w := ⟨upd w.mem i (some o1), w.env.addIf true (.dtor i)⟩)
        (upd_same _ _ _) h2 (fun _ => h3)
      refine ⟨o2, ?_, h5⟩
      simp only [reset, ht, Bool.false_eq_true, if_false, bind_run, hasValue_run h hr, obind_ok, Option.isSome_some,
        if_true, h1, Bool.not_false, Bool.and_self]
      simp only [World.put, upd_upd] at h4
      exact h4
  · obtain ⟨o2, h4, h5⟩ := emptied_run hP h hr.len (fun h => (by rw [h] at ht; cases ht))
    refine ⟨o2, ?_, h5⟩
    simp only [reset, ht, if_true, Bool.not_true, Bool.and_false, Env.addIf, Bool.false_eq_true, if_false]
    exact h4

/-- the destructor of the option destroys the value when there is one with a non-trivial destructor -/
theorem dtor_run (hP : P.OK) {w : World} {i : Nat} {o : Obj} {x : Option Val} (h : w.mem i = some o)
    (hr : ObjR P i o x) :
    P.dtor i w = .ok () ⟨upd w.mem i none, w.env.addIf (x.isSome && !(P.elem i).trivDtor) (.dtor i)⟩ := by
  cases ht : (P.elem i).trivDtor
  · cases x with
    | none =>
      simp only [dtor, ht, Bool.false_eq_true, if_false, bind_run, hasValue_run h hr, obind_ok, Option.isSome_none,
        Bool.false_and, Env.addIf, delObj_run]
    | some v =>
      obtain ⟨o1, h1, h2, h3⟩ := destroyT_run hP h hr
      simp only [dtor, ht, Bool.false_eq_true, if_false, bind_run, hasValue_run h hr, obind_ok, Option.isSome_some,
        if_true, h1, Bool.not_false, Bool.and_self, delObj_run, upd_upd]
  · simp only [dtor, ht, if_true, Bool.not_true, Bool.and_false, Env.addIf, Bool.false_eq_true, if_false, bind_run,
      obj_run h, obind_ok, delObj_run]

theorem ctorDefault_run (hP : P.OK) {w : World} {i : Nat} (h : w.mem i = none) :
    ∃ o, P.ctorDefault i w = .ok () (w.put i o) ∧ ObjR P i o none := by
  have hg := hP.garbage i w.env.tick
  cases hs : (P.elem i).sent P.pw
  · obtain ⟨o, h1, h2⟩ := emptied_run hP (w := w.put i ⟨P.garbage i w.env.tick, false⟩) (upd_same _ _ _) hg (fun _ => rfl)
    refine ⟨o, ?_, h2⟩
    simp only [hs, Bool.false_eq_true, if_false, World.put, upd_upd] at h1
    simp only [ctorDefault, bind_run, newObj_run h, obind_ok, hs, Bool.false_eq_true, if_false]
    exact h1
  · have hlen : (wr (P.garbage i w.env.tick) 0 [0]).length = (Ty.option (P.elem i).T).size P.pw :=
      wr0_length (hP.wfi i) hg (hP.size _)
    obtain ⟨o, h1, h2⟩ := emptied_run hP (w := w.put i ⟨wr (P.garbage i w.env.tick) 0 [0], false⟩) (upd_same _ _ _)
      hlen (fun _ => rfl)
    refine ⟨o, ?_, h2⟩
    simp only [hs, if_true, World.put, upd_upd] at h1
    simp only [ctorDefault, bind_run, newObj_run h, obind_ok, hs, if_true]
    rw [setPayload_run (w := w.put i ⟨P.garbage i w.env.tick, false⟩) (upd_same _ _ _)]
    simp only [obind_ok, World.put, upd_upd]
    simp only [bind_run] at h1
    exact h1

end Prog

namespace Spec

theorem get_run {a : AState Val} {i : Nat} {x : Option Val} (h : a.mem i = some x) : get i a = .ok x a := by
  simp only [get, h]
theorem get_none {a : AState Val} {i : Nat} (h : a.mem i = none) : get i a = .ub := by
  simp only [get, h]
theorem put_run (a : AState Val) (i : Nat) (x : Option Val) : put i x a = .ok () (a.put i x) := rfl
theorem del_run (a : AState Val) (i : Nat) : del i a = .ok () { a with mem := upd a.mem i none } := rfl
theorem new_run {a : AState Val} {i : Nat} (h : a.mem i = none) : new i a = .ok () (a.put i none) := by
  simp only [new, h]
theorem new_some {a : AState Val} {i : Nat} {x : Option Val} (h : a.mem i = some x) : new i a = .ub := by
  simp only [new, h]
theorem user_run (a : AState Val) (e f : Event) :
    user P e f a = .ok (a.env.tick, P.throwsAt a.env.tick) { a with env := a.env.use P e f } := rfl
theorem note_run (a : AState Val) (e : Event) : note e a = .ok () { a with env := a.env.addIf true e } := rfl
theorem val_run {a : AState Val} {i : Nat} {v : Val} (h : a.mem i = some (some v)) : val i a = .ok v a := by
  simp only [val, bind_run, get_run h, obind_ok, pure_run]
theorem val_none {a : AState Val} {i : Nat} (h : a.mem i = some none) : val i a = .ub := by
  simp only [val, bind_run, get_run h, obind_ok, bad_run]
theorem val_no {a : AState Val} {i : Nat} (h : a.mem i = none) : val i a = .ub := by
  simp only [val, bind_run, get_none h, obind_ub]
theorem checked_run {a : AState Val} {i : Nat} {x : Option Val} (h : a.mem i = some x) :
    checked i a = M.check x.isSome a := by
  simp only [checked, bind_run, get_run h, obind_ok]

theorem clear_run {a : AState Val} {i : Nat} {x : Option Val} (h : a.mem i = some x) :
    clear P i a = .ok () ⟨upd a.mem i (some none), a.env.addIf (x.isSome && !(P.elem i).trivDtor) (.dtor i)⟩ := by
  cases x with
  | none =>
    simp only [clear, bind_run, get_run h, obind_ok, pure_run, Option.isSome_none, Bool.false_and, Env.addIf,
      Bool.false_eq_true, if_false, upd_self h]
  | some v =>
    simp only [clear, bind_run, get_run h, obind_ok, Option.isSome_some, Bool.true_and]
    cases ht : (P.elem i).trivDtor
    · simp only [Bool.false_eq_true, if_false, bind_run, note_run, obind_ok, put_run, AState.put, Bool.not_false]
    · simp only [if_true, pure_bind, put_run, AState.put, Bool.not_true, Env.addIf, Bool.false_eq_true,
        if_false]

theorem destroy_run {a : AState Val} {i : Nat} {x : Option Val} (h : a.mem i = some x) :
    destroy P i a = .ok () ⟨upd a.mem i none, a.env.addIf (x.isSome && !(P.elem i).trivDtor) (.dtor i)⟩ := by
  simp only [destroy, bind_run, clear_run h, obind_ok, del_run, upd_upd]

end Spec

end Opt
