import Verif.Lemmas.MachineRun

/-!
# Each operation of the machine implements the operation of the specification
-/

namespace Opt

variable {Val : Type} {P : Prog Val}

/-- after corresponding outcomes the machine may take further steps on its own -/
theorem rel_then {σ τ α α' β : Type} {B : α → σ → β → τ → Prop} {B' : α' → σ → β → τ → Prop} {C : σ → τ → Prop}
    {x : Out σ α} {y : Out τ β} {f : α → M σ α'} (h : Out.Rel B C x y)
    (hf : ∀ a s b t, B a s b t → ∃ c s', f a s = .ok c s' ∧ B' c s' b t) : Out.Rel B' C (x.bind f) y := by
  cases y with
  | ub => exact rel_ub _
  | ok b t' =>
    cases x with
    | ok c s' =>
      obtain ⟨d, s'', h1, h2⟩ := hf _ _ _ _ h
      rw [obind_ok, h1]; exact h2
    | throw _ => exact h.elim
    | verify => exact h.elim
    | ub => exact h.elim
  | throw t' =>
    cases x with
    | throw s' => exact h
    | ok _ _ => exact h.elim
    | verify => exact h.elim
    | ub => exact h.elim
  | verify =>
    cases x with
    | verify => exact trivial
    | ok _ _ => exact h.elim
    | throw _ => exact h.elim
    | ub => exact h.elim

/-- storage in which a construction may start -/
structure PreR (P : Prog Val) (i : Nat) (o : Obj) (x : Option Val) : Prop where
  len : o.bytes.length = (Ty.option (P.elem i).T).size P.pw
  some : ∀ v, x = some v → ObjR P i o x
  none : x = none → (P.elem i).trivDtor = false → o.alive = false

/-- engaged objects satisfy the invariant, and may be modified in place -/
structure Good (P : Prog Val) (X : Nat → Obj → Option Val → Prop) : Prop where
  out : ∀ k o v, X k o (some v) → ObjR P k o (some v)
  back : ∀ k o v o' u, X k o (some v) → ObjR P k o' (some u) → X k o' (some u)

theorem Good.obj : Good P (ObjR P) := ⟨fun _ _ _ h => h, fun _ _ _ _ _ _ h => h⟩

theorem Good.exc {i : Nat} : Good P (exc P i (PreR P i)) := by
  refine ⟨fun k o v h => ?_, fun k o v o' u h h' => ?_⟩
  · by_cases e : k = i
    · subst e; simp only [upd_same] at h; exact h.some v rfl
    · simpa only [upd_other _ _ e] using h
  · by_cases e : k = i
    · subst e; simp only [upd_same] at h ⊢
      exact ⟨h'.len, fun _ _ => h', fun h => (by cases h)⟩
    · simpa only [upd_other _ _ e] using h'

theorem ObjR.pre {i : Nat} {o : Obj} {x : Option Val} (h : ObjR P i o x) : PreR P i o x :=
  ⟨h.len, fun _ _ => h, h.dead⟩

theorem RX.pre {w : World} {a : AState Val} (h : R P w a) (i : Nat) : RX (exc P i (PreR P i)) w a :=
  h.mono fun k o x _ _ hk => by
    by_cases e : k = i
    · subst e; simp only [upd_same]; exact hk.pre
    · simpa only [upd_other _ _ e] using hk

/-- set both sides at one address -/
theorem RX.set {Q : Obj → Option Val → Prop} {w : World} {a : AState Val} {i : Nat} {o : Obj} {x : Option Val}
    (h : RX (exc P i Q) w a) (hi : ObjR P i o x) : R P (w.put i o) (a.put i x) :=
  h.put (fun k e o x hk => by simpa only [upd_other _ _ e] using hk) hi

theorem RX.set' {Q Q' : Obj → Option Val → Prop} {w : World} {a : AState Val} {i : Nat} {o : Obj} {x : Option Val}
    (h : RX (exc P i Q) w a) (hi : Q' o x) : RX (exc P i Q') (w.put i o) (a.put i x) :=
  h.put (fun k e o x hk => by simpa only [upd_other _ _ e] using hk) (by simpa only [upd_same] using hi)

theorem RX.envs {X : Nat → Obj → Option Val → Prop} {w : World} {a : AState Val} (h : RX X w a) (e : Env) :
    RX X { w with env := e } { a with env := e } := ⟨rfl, h.cell⟩

namespace Prog

theorem kind_triv_ctor {i j : Nat} {mv : Bool} (h : (P.elem i).ctorTriv (P.kind i (.opt j mv)) = true) :
    P.cls i = P.cls j := by
  by_cases e : P.cls i = P.cls j
  · exact e
  · simp [kind, e, Elem.ctorTriv] at h

theorem kind_triv_assign {i j : Nat} {mv : Bool} (h : (P.elem i).assignTriv (P.kind i (.opt j mv)) = true) :
    P.cls i = P.cls j := by
  by_cases e : P.cls i = P.cls j
  · exact e
  · simp [kind, e, Elem.assignTriv] at h

/-- reading a source -/
theorem srcVal_run (hP : P.OK) {X : Nat → Obj → Option Val → Prop} (hX : Good P X) {w : World} {a : AState Val}
    (h : RX X w a) {i : Nat} {src : Src Val} (hleg : src.Legal P i) :
    Spec.value P i src a = .ub ∨
      ∃ v, Spec.value P i src a = .ok v a ∧ P.srcVal i src w = .ok v w ∧ (P.elem i).Dom P.pw v := by
  cases src with
  | args v => exact .inr ⟨v, rfl, rfl, hleg⟩
  | copy v => exact .inr ⟨v, rfl, rfl, hleg⟩
  | move v => exact .inr ⟨v, rfl, rfl, hleg⟩
  | opt j mv =>
    simp only [Spec.value, srcVal, bind_run]
    cases hj : a.mem j with
    | none => simp only [Spec.val_no hj, obind_ub, true_or]
    | some x =>
      cases x with
      | none => simp only [Spec.val_none hj, obind_ub, true_or]
      | some v =>
        right
        obtain ⟨o, ho, hr⟩ := h.some' hj
        have hr' := hX.out _ _ _ hr
        refine ⟨P.convFrom i j v, ?_, ?_, ?_⟩
        · simp only [Spec.val_run hj, obind_ok, pure_run]
        · simp only [readT_run ho hr', obind_ok, pure_run]
        · simp only [convFrom]
          split
          · rename_i e
            simp only [elem, e]; exact hr'.dom
          · exact hP.conv _ _ _ hr'.dom

/-- the bytes of a source that is copied bitwise -/
theorem srcBytes_run (hP : P.OK) {X : Nat → Obj → Option Val → Prop} (hX : Good P X) {w : World} {a : AState Val}
    (h : RX X w a) {i : Nat} {src : Src Val} {v : Val} {old : Bytes} (hv : Spec.value P i src a = .ok v a)
    (hd : (P.elem i).Dom P.pw v) (hk : ∀ j mv, src = .opt j mv → P.cls i = P.cls j)
    (hl : old.length = (P.elem i).T.size P.pw) :
    ∃ b, P.srcBytes i v old src w = .ok b w ∧ (P.elem i).T.Valid P.pw b ∧ (P.elem i).decode b = v := by
  have hb := fun n => hP.build i n v old hd hl
  cases src with
  | args v' => exact ⟨_, rfl, (hb _).1, (hb _).2⟩
  | copy v' => exact ⟨_, rfl, (hb _).1, (hb _).2⟩
  | move v' => exact ⟨_, rfl, (hb _).1, (hb _).2⟩
  | opt j mv =>
    have e := hk j mv rfl
    simp only [Spec.value, bind_run] at hv
    cases hj : a.mem j with
    | none => simp only [Spec.val_no hj, obind_ub] at hv; cases hv
    | some x =>
      cases x with
      | none => simp only [Spec.val_none hj, obind_ub] at hv; cases hv
      | some u =>
        obtain ⟨o, ho, hr⟩ := h.some' hj
        obtain ⟨_, h2, h3⟩ := (hX.out _ _ _ hr).live u rfl
        simp only [Spec.val_run hj, obind_ok, pure_run, convFrom, e, if_true, Out.ok.injEq, and_true] at hv
        subst hv
        refine ⟨P.payload j o, ?_, ?_, ?_⟩
        · simp only [srcBytes, bind_run, obj_run ho, obind_ok, pure_run]
        · simp only [elem, e] at h2 ⊢; exact h2
        · simp only [elem, e] at h3 ⊢; exact h3

/-- moving from a source -/
theorem srcAfter_run (hP : P.OK) {X : Nat → Obj → Option Val → Prop} (hX : Good P X) {w : World} {a : AState Val}
    (h : RX X w a) {i : Nat} {src : Src Val} {v : Val} {a0 : AState Val} (hv : Spec.value P i src a0 = .ok v a0)
    (hm : a0.mem = a.mem) (fail : Bool) (n : Nat) :
    ∃ w' a', Spec.movedFrom P fail n src a = .ok () a' ∧ P.srcAfter fail n src w = .ok () w' ∧ RX X w' a' ∧
      (src.isSelf i = false → w'.mem i = w.mem i ∧ a'.mem i = a.mem i) ∧ (∀ k u, a.mem k = some (some u) → ∃ u', a'.mem k = some (some u')) := by
  cases src with
  | args v' => exact ⟨w, a, rfl, rfl, h, fun _ => ⟨rfl, rfl⟩, fun _ u h => ⟨u, h⟩⟩
  | copy v' => exact ⟨w, a, rfl, rfl, h, fun _ => ⟨rfl, rfl⟩, fun _ u h => ⟨u, h⟩⟩
  | move v' => exact ⟨w, a, rfl, rfl, h, fun _ => ⟨rfl, rfl⟩, fun _ u h => ⟨u, h⟩⟩
  | opt j mv =>
    cases mv with
    | false => exact ⟨w, a, rfl, rfl, h, fun _ => ⟨rfl, rfl⟩, fun _ u h => ⟨u, h⟩⟩
    | true =>
      simp only [Spec.value, bind_run] at hv
      cases hj : a.mem j with
      | none => simp only [Spec.val_no (a := a0) (by rw [hm]; exact hj), obind_ub] at hv; cases hv
      | some x =>
        cases x with
        | none => simp only [Spec.val_none (a := a0) (by rw [hm]; exact hj), obind_ub] at hv; cases hv
        | some u =>
          obtain ⟨o, ho, hr⟩ := h.some' hj
          have hr' := hX.out _ _ _ hr
          obtain ⟨h1, _, _⟩ := hr'.live u rfl
          have hb := hP.build j n (P.moved fail j n u) (P.payload j o) (hP.moved fail j n u hr'.dom) (hr'.payload_len hP)
          refine ⟨w.put j ⟨wr o.bytes 0 (P.build j n (P.moved fail j n u) (P.payload j o)), true⟩,
            a.put j (some (P.moved fail j n u)), ?_, ?_, ?_, ?_, ?_⟩
          · simp only [Spec.movedFrom, bind_run, Spec.val_run hj, obind_ok, Spec.put_run]
          · simp only [srcAfter, bind_run, readT_run ho hr', obind_ok, writeT_run ho h1]
          · refine RX.put (i := j) (x := some (P.moved fail j n u)) h (fun _ _ _ _ h => h) ?_
            exact hX.back _ _ _ _ _ hr (hr'.write hP hb.1 hb.2)
          · intro hs
            simp only [Src.isSelf, beq_eq_false_iff_ne] at hs
            exact ⟨upd_other _ _ (fun e => hs e.symm), upd_other _ _ (fun e => hs e.symm)⟩
          · intro k u hk
            by_cases e : k = j
            · subst e; exact ⟨_, upd_same _ _ _⟩
            · exact ⟨u, (upd_other _ _ e).trans hk⟩

theorem FitAt.of (hT : P.ThrowSafe) (i : Nat) (k : Kind) (n : Nat) : P.FitAt i k n :=
  ⟨fun _ => hT i k n⟩

/-- nothing is required of storage when the constructor does not throw -/
theorem FitAt.nothrow {i n : Nat} {k : Kind}
    (ht : (P.elem i).ctorTriv k = true ∨ P.throwsAt n = false) : P.FitAt i k n :=
  ⟨fun hk _ _ _ _ h => by
    rcases ht with ht | ht
    · rw [hk] at ht; cases ht
    · rw [ht] at h; cases h⟩

theorem FitAt.scalar {i n : Nat} {k : Kind} (hs : (P.elem i).scalar = true) : P.FitAt i k n :=
  ⟨fun _ _ _ _ h => by rw [hs] at h; cases h⟩

/-- nothing is required of storage when there is a flag -/
theorem FitAt.flag {i n : Nat} {k : Kind} (hs : (P.elem i).sent P.pw = false) : P.FitAt i k n :=
  ⟨fun _ _ h => by rw [hs] at h; cases h⟩

/-- what a constructor that threw leaves behind: nothing changed, or bytes written by the constructor in the storage
of the empty option -/
def FailR (P : Prog Val) (i : Nat) (k : Kind) (n : Nat) (o : Obj) (x : Option Val) (o' : Obj) (x' : Option Val) : Prop :=
  x' = x ∧ (o' = o ∨ (x = none ∧ (P.elem i).ctorTriv k = false ∧ (P.elem i).scalar = false ∧ P.throwsAt n = true ∧
    o' = ⟨wr o.bytes 0 (P.partial_ i k n (P.payload i o)), false⟩))

theorem constructInPlace_sim (hP : P.OK) {w : World} {a : AState Val} {i : Nat} {src : Src Val} {o : Obj}
    {x : Option Val} (h : RX (exc P i (PreR P i)) w a) (ho : w.mem i = some o) (hx : a.mem i = some x)
    (hleg : src.Legal P i) :
    Out.Rel (fun _ w' _ a' => RX (exc P i (MidR P i)) w' a' ∧ (a'.mem i).isSome = true)
      (fun w' a' => RX (exc P i (FailR P i (P.kind i src) a.env.tick o x)) w' a' ∧ (a'.mem i).isSome = true)
      (P.constructInPlace i src w) (Spec.initAs P false i src a) := by
  obtain ⟨o', ho', hpre⟩ := h.some' hx
  rw [ho] at ho'; cases ho'
  simp only [upd_same] at hpre
  have hpl : (P.payload i o).length = (P.elem i).T.size P.pw := payload_length (hP.wfi i) hpre.len
  simp only [constructInPlace, Spec.initAs, Event.made, Event.unmade, bind_run, obj_run ho, Spec.get_run hx, obind_ok]
  by_cases hc : ((x.isSome || src.isSelf i) && !(P.elem i).scalar) = true
  · simp only [hc, if_true]; exact rel_ub _
  simp only [hc, if_false]
  have c1 : ¬ (o.alive && !(P.elem i).trivDtor) = true := by
    intro h1
    simp only [Bool.and_eq_true, Bool.not_eq_true'] at h1
    cases hsc : (P.elem i).scalar
    · rw [hsc] at hc
      cases x with
      | none => rw [hpre.none rfl h1.2] at h1; cases h1.1
      | some v => simp at hc
    · have := h1.2.symm.trans (hP.scalar _ hsc).1; cases this
  have c2 : ¬ (src.isSelf i && !(P.elem i).scalar) = true := by
    intro h1
    apply hc
    simp only [Bool.and_eq_true] at h1 ⊢
    exact ⟨by rw [h1.1]; simp, h1.2⟩
  simp only [c1, c2, if_false, Bool.false_eq_true, bind_run]
  rcases srcVal_run hP Good.exc h hleg with hv | ⟨v, hv, hv', hd⟩
  · rw [hv]; exact rel_ub _
  simp only [hv, hv', obind_ok]
  by_cases ht : (P.elem i).ctorTriv (P.kind i src) = true
  · obtain ⟨b, hb1, hb2, hb3⟩ := srcBytes_run hP Good.exc h (old := P.payload i o) hv hd
      (fun j mv e => by subst e; exact kind_triv_ctor ht) hpl
    simp only [ht, if_true, bind_run, hb1, obind_ok, setPayload_run ho, Spec.put_run]
    exact ⟨h.set' (MidR.mk' hP hpre.len hb2 hb3), by simp [upd_same]⟩
  simp only [ht, if_false, bind_run, userOp_run, Spec.user_run, obind_ok, Bool.false_eq_true]
  have hself : src.isSelf i = false := by
    cases hs : src.isSelf i
    · rfl
    · exfalso
      cases src with
      | opt j mv =>
        have hsc : (P.elem i).scalar = true := by
          cases hsc : (P.elem i).scalar
          · rw [hs, hsc] at c2; exact absurd rfl c2
          · rfl
        simp only [Src.isSelf, beq_iff_eq] at hs
        subst hs
        obtain ⟨_, hcc, _, hmc, _⟩ := hP.scalar _ hsc
        apply ht
        cases mv
        · simp only [kind, if_true, Elem.ctorTriv, Bool.false_eq_true, if_false]; exact hcc
        · simp only [kind, if_true, Elem.ctorTriv]; exact hmc
      | _ => cases hs
  have henv := h.env
  rw [henv]
  have h2 : RX (exc P i (PreR P i)) { w with env := a.env.use P (.ctor i (P.kind i src)) (.ctorFail i (P.kind i src)) }
    { a with env := a.env.use P (.ctor i (P.kind i src)) (.ctorFail i (P.kind i src)) } := h.envs _
  cases hthr : P.throwsAt a.env.tick
  · obtain ⟨w', a', e1, e2, e3, e4, e5⟩ := srcAfter_run hP Good.exc h2 (i := i) hv rfl false a.env.tick
    obtain ⟨e4, e4'⟩ := e4 hself
    simp only [Bool.false_eq_true, if_false, bind_run, e1, e2, obind_ok, setPayload_run (e4.trans ho), Spec.put_run, pure_run]
    have hb := hP.build i a.env.tick v (P.payload i o) hd hpl
    exact ⟨e3.set' (MidR.mk' hP hpre.len hb.1 hb.2), by simp [upd_same]⟩
  · obtain ⟨w', a', e1, e2, e3, e4, e5⟩ := srcAfter_run hP Good.exc h2 (i := i) hv rfl true a.env.tick
    obtain ⟨e4, e4'⟩ := e4 hself
    simp only [if_true, bind_run, e1, e2, obind_ok, raise_run, ite_run]
    have hxm : ∀ o'' : Obj, FailR P i (P.kind i src) a.env.tick o x o'' x → RX (exc P i (FailR P i (P.kind i src) a.env.tick o x)) (w'.put i o'') (a'.put i x) :=
      fun o'' hq => e3.set' hq
    cases hsc : (P.elem i).scalar
    · simp only [Bool.false_eq_true, if_false, setPayload_run (e4.trans ho), obind_ok]
      have : x = none := by
        cases x with
        | none => rfl
        | some u => rw [hsc] at hc; simp at hc
      have := hxm _ ⟨rfl, .inr ⟨this, Bool.not_eq_true _ ▸ ht, hsc, hthr, rfl⟩⟩
      simp only [AState.put, upd_self (e4'.trans hx)] at this
      exact ⟨this, by rw [e4', hx]; rfl⟩
    · simp only [if_true]
      have := hxm o ⟨rfl, .inl rfl⟩
      simp only [AState.put, upd_self (e4'.trans hx), World.put, upd_self (e4.trans ho)] at this
      exact ⟨this, by rw [e4', hx]; rfl⟩

theorem constructByAssign_sim (hP : P.OK) {w : World} {a : AState Val} {i : Nat} {src : Src Val} {o : Obj}
    {x : Option Val} (h : RX (exc P i (PreR P i)) w a) (ho : w.mem i = some o) (hx : a.mem i = some x)
    (hleg : src.Legal P i) :
    Out.Rel (fun _ w' _ a' => RX (exc P i (MidR P i)) w' a' ∧ (a'.mem i).isSome = true)
      (fun w' a' => RX (exc P i (fun o' x' => o' = o ∧ x' = x)) w' a' ∧ (a'.mem i).isSome = true)
      (P.constructByAssign i src w) (Spec.initAs P (!(P.elem i).trivDtor) i src a) := by
  obtain ⟨o', ho', hpre⟩ := h.some' hx
  rw [ho] at ho'; cases ho'
  simp only [upd_same] at hpre
  have hpl : (P.payload i o).length = (P.elem i).T.size P.pw := payload_length (hP.wfi i) hpre.len
  simp only [constructByAssign, Spec.initAs, bind_run, obj_run ho, Spec.get_run hx, obind_ok]
  by_cases hc : ((x.isSome || src.isSelf i) && !(P.elem i).scalar) = true
  · simp only [hc, if_true]; exact rel_ub _
  have c2 : ¬ (src.isSelf i && !(P.elem i).scalar) = true := by
    intro h1
    apply hc
    simp only [Bool.and_eq_true] at h1 ⊢
    exact ⟨by rw [h1.1]; simp, h1.2⟩
  simp only [hc, if_false, bind_run, Bool.false_eq_true]
  rcases srcVal_run hP Good.exc h hleg with hv | ⟨v, hv, hv', hd⟩
  · rw [hv]; exact rel_ub _
  simp only [hv, hv', obind_ok]
  by_cases ht : (P.elem i).ctorTriv (P.kind i src) = true
  · obtain ⟨b, hb1, hb2, hb3⟩ := srcBytes_run hP Good.exc h (old := P.payload i o) hv hd
      (fun j mv e => by subst e; exact kind_triv_ctor ht) hpl
    simp only [ht, if_true, bind_run, hb1, obind_ok, setPayload_run ho, Spec.put_run]
    exact ⟨h.set' (MidR.mk' hP hpre.len hb2 hb3), by simp [upd_same]⟩
  have hself : src.isSelf i = false := by
    cases hs : src.isSelf i
    · rfl
    · exfalso
      cases src with
      | opt j mv =>
        have hsc : (P.elem i).scalar = true := by
          cases hsc : (P.elem i).scalar
          · rw [hs, hsc] at c2; exact absurd rfl c2
          · rfl
        simp only [Src.isSelf, beq_iff_eq] at hs
        subst hs
        obtain ⟨_, hcc, _, hmc, _⟩ := hP.scalar _ hsc
        apply ht
        cases mv
        · simp only [kind, if_true, Elem.ctorTriv, Bool.false_eq_true, if_false]; exact hcc
        · simp only [kind, if_true, Elem.ctorTriv]; exact hmc
      | _ => cases hs
  have henv := h.env
  have h2 : ∀ e, RX (exc P i (PreR P i)) { w with env := e } { a with env := e } := h.envs
  cases htd : (P.elem i).trivDtor
  · simp only [ht, if_false, if_true, Bool.not_false, Event.made, Event.unmade, bind_run, userOp_run, Spec.user_run, obind_ok,
      Bool.false_eq_true]
    rw [henv]
    obtain ⟨w', a', e1, e2, e3, e4, e5⟩ := srcAfter_run hP Good.exc (h2 (a.env.use P (.tmpCtor (P.kind i src) true)
      (.tmpCtor (P.kind i src) false))) (i := i) hv rfl (P.throwsAt a.env.tick) a.env.tick
    obtain ⟨e4, e4'⟩ := e4 hself
    simp only [e1, e2, obind_ok]
    cases hthr : P.throwsAt a.env.tick
    · simp only [Bool.false_eq_true, if_false, bind_run, setPayload_run (e4.trans ho), Spec.put_run, obind_ok, note_run,
        Spec.note_run]
      have hb := hP.build i a.env.tick v (P.payload i o) hd hpl
      have e6 := e3.set' (MidR.mk' hP hpre.len hb.1 hb.2)
      have e7 : (w'.put i ⟨wr o.bytes 0 (P.build i a.env.tick v (P.payload i o)), true⟩).env = (a'.put i (some v)).env := e6.env
      rw [e7]
      exact ⟨e6.envs _, by simp [upd_same]⟩
    · simp only [if_true, raise_run]
      have : RX (exc P i (fun o' x' => o' = o ∧ x' = x)) (w'.put i o) (a'.put i x) := e3.set' ⟨rfl, rfl⟩
      simp only [AState.put, upd_self (e4'.trans hx), World.put, upd_self (e4.trans ho)] at this
      exact ⟨this, by rw [e4', hx]; rfl⟩
  · simp only [ht, if_false, if_true, Bool.not_true, Event.made, Event.unmade, bind_run, userOp_run, Spec.user_run, obind_ok,
      Bool.false_eq_true]
    rw [henv]
    obtain ⟨w', a', e1, e2, e3, e4, e5⟩ := srcAfter_run hP Good.exc (h2 (a.env.use P (.ctor i (P.kind i src))
      (.ctorFail i (P.kind i src)))) (i := i) hv rfl (P.throwsAt a.env.tick) a.env.tick
    obtain ⟨e4, e4'⟩ := e4 hself
    simp only [e1, e2, obind_ok]
    cases hthr : P.throwsAt a.env.tick
    · simp only [Bool.false_eq_true, if_false, bind_run, setPayload_run (e4.trans ho), Spec.put_run, obind_ok, pure_run]
      have hb := hP.build i a.env.tick v (P.payload i o) hd hpl
      exact ⟨e3.set' (MidR.mk' hP hpre.len hb.1 hb.2), by simp [upd_same]⟩
    · simp only [if_true, raise_run]
      have : RX (exc P i (fun o' x' => o' = o ∧ x' = x)) (w'.put i o) (a'.put i x) := e3.set' ⟨rfl, rfl⟩
      simp only [AState.put, upd_self (e4'.trans hx), World.put, upd_self (e4.trans ho)] at this
      exact ⟨this, by rw [e4', hx]; rfl⟩

/-- the end of `construct` and of the value constructors: check, or set the flag -/
theorem finish_run (hP : P.OK) {w : World} {a : AState Val} {i : Nat} (h : RX (exc P i (MidR P i)) w a)
    (hp : (a.mem i).isSome = true) :
    ∃ w', (if (P.elem i).sent P.pw then do
        let h ← P.hasValue i
        M.check h
      else P.setFlag i true : M World Unit) w = .ok () w' ∧ R P w' a := by
  obtain ⟨x, hx⟩ := Option.isSome_iff_exists.1 hp
  obtain ⟨o, ho, hm⟩ := h.some' hx
  simp only [upd_same] at hm
  cases hs : (P.elem i).sent P.pw
  · simp only [Bool.false_eq_true, if_false, setFlag_run ho, if_true]
    refine ⟨_, rfl, ?_⟩
    have := h.set (hm.setFlag hP hs)
    simp only [AState.put, upd_self hx] at this
    exact this
  · have hr := hm.sent hP hs
    refine ⟨w, ?_, ?_⟩
    · simp only [if_true, bind_run, hasValue_run ho hr, obind_ok]
      obtain ⟨_, _, v, rfl, _⟩ := hm
      rfl
    · have := h.set hr
      simp only [AState.put, upd_self hx, World.put, upd_self ho] at this
      exact this

/-- what a throwing constructor leaves is still an empty option when the sentinel survives -/
theorem FailR.obj (hP : P.OK) {i n : Nat} {k : Kind} (hT : (P.elem i).ctorTriv k = false → P.ThrowSafeAt i k n) {o o' : Obj} {x x' : Option Val}
    (hc : (P.cxx20 || !(P.elem i).trivMoveAssign) = true) (hr : ObjR P i o x) (h : FailR P i k n o x o' x') :
    ObjR P i o' x' := by
  obtain ⟨rfl, h⟩ := h
  rcases h with rfl | ⟨rfl, hk, hsc, hn, rfl⟩
  · exact hr
  · have hpl := hP.partial_ i k n _ (hr.payload_len hP)
    have hl := wr0_length (hP.wfi i) hr.len (Nat.le_of_eq hpl)
    cases hs : (P.elem i).sent P.pw
    · have hs' := sent_false_iff.1 hs
      have hf := flag_wr (hP.wfi i) hs' hr.len hpl
      refine ⟨hl, fun _ => by rw [hf]; exact hr.flag hs, ?_, fun v hv => (by cases hv), fun _ _ => rfl⟩
      have := hr.hv
      rw [hasValue_flag hs'] at this ⊢
      rw [hf, this]
    · have hs' := sent_iff.1 hs
      refine ObjR.empty hl hs ?_
      rw [wr_sent hs' hr.len hpl]
      refine hT hk _ hs hc hsc hn (hr.payload_len hP) ?_
      rw [payload, payload_sent hs' hr.len]
      exact hr.hv

theorem _root_.Opt.RX.engaged {w : World} {a : AState Val} {i : Nat} (h : RX (exc P i (MidR P i)) w a)
    (hp : (a.mem i).isSome = true) : ∃ v, a.mem i = some (some v) := by
  obtain ⟨x', hx'⟩ := Option.isSome_iff_exists.1 hp
  obtain ⟨_, _, hf⟩ := h.some' hx'
  simp only [upd_same] at hf
  obtain ⟨_, _, v, rfl, _⟩ := hf
  exact ⟨v, hx'⟩

/-- `construct` gives an empty option a value -/
theorem construct_sim (hP : P.OK) {w : World} {a : AState Val} {i : Nat} {src : Src Val}
    (hF : P.FitAt i (P.kind i src) w.env.tick) (h : R P w a) (hleg : src.Legal P i) :
    Out.Rel (fun _ w' _ a' => R P w' a' ∧ ∃ v, a'.mem i = some (some v))
      (fun w' a' => R P w' a' ∧ a'.mem i = a.mem i)
      (P.construct i src w) (Spec.init P i src a) := by
  cases hx : a.mem i with
  | none => simp only [Spec.init, Spec.initAs, bind_run, Spec.get_none hx, obind_ub]; exact rel_ub _
  | some x =>
    obtain ⟨o, ho, hr⟩ := h.some' hx
    have key : Out.Rel (fun _ w' _ a' => RX (exc P i (MidR P i)) w' a' ∧ (a'.mem i).isSome = true)
        (fun w' a' => R P w' a' ∧ a'.mem i = some x)
        (P.constructAt i src w) (Spec.init P i src a) := by
      simp only [constructAt, ite_run]
      by_cases hc : (P.cxx20 || !(P.elem i).trivMoveAssign) = true
      · have hvt : P.viaTemp i = false := by
          simp only [viaTemp]
          cases h1 : P.cxx20 <;> cases h2 : (P.elem i).trivMoveAssign <;> simp_all
        simp only [hc, if_true, Spec.init, hvt]
        refine rel_mono (constructInPlace_sim hP (h.pre i) ho hx hleg) (fun _ _ _ _ h => h) (fun w' a' h' => ⟨?_, ?_⟩)
        rotate_left
        · obtain ⟨x', hx'⟩ := Option.isSome_iff_exists.1 h'.2
          obtain ⟨_, _, hf⟩ := h'.1.some' hx'
          simp only [upd_same] at hf
          rw [hx', hf.1]
        refine h'.1.mono fun k o' x' _ _ hk => ?_
        by_cases e : k = i
        · subst e; simp only [upd_same] at hk; exact FailR.obj hP (h.env ▸ hF.safe) hc hr hk
        · simpa only [upd_other _ _ e] using hk
      · have hvt : P.viaTemp i = !(P.elem i).trivDtor := by
          simp only [viaTemp]
          cases h1 : P.cxx20 <;> cases h2 : (P.elem i).trivMoveAssign <;> simp_all
        simp only [hc, if_false, Spec.init, hvt, Bool.false_eq_true]
        refine rel_mono (constructByAssign_sim hP (h.pre i) ho hx hleg) (fun _ _ _ _ h => h)
          (fun w' a' h' => ⟨?_, ?_⟩)
        rotate_left
        · obtain ⟨x', hx'⟩ := Option.isSome_iff_exists.1 h'.2
          obtain ⟨_, _, hf⟩ := h'.1.some' hx'
          simp only [upd_same] at hf
          rw [hx', hf.2]
        refine h'.1.mono fun k o' x' _ _ hk => ?_
        by_cases e : k = i
        · subst e; simp only [upd_same] at hk; rw [hk.1, hk.2]; exact hr
        · simpa only [upd_other _ _ e] using hk
    rw [construct, bind_run]
    exact rel_then key fun _ w' _ a' h' =>
      let ⟨w'', h1, h2⟩ := finish_run hP h'.1 h'.2
      ⟨(), w'', h1, h2, h'.1.engaged h'.2⟩

/-- value constructors -/
theorem ctorArg_sim (hP : P.OK) {w : World} {a : AState Val} {i : Nat} {src : Src Val} (h : R P w a)
    (hleg : src.Legal P i) :
    Out.Rel (fun _ w' _ a' => R P w' a') (fun w' a' => R P w' a')
      (P.ctorArg i src w) (Spec.create P i src a) := by
  cases hx : a.mem i with
  | some x => simp only [Spec.create, bind_run, Spec.new_some hx, obind_ub]; exact rel_ub _
  | none =>
    simp only [ctorArg, Spec.create, bind_run, Spec.new_run hx, newObj_run (h.none' hx), obind_ok]
    have h1 : RX (exc P i (PreR P i)) (w.put i ⟨P.garbage i w.env.tick, false⟩) (a.put i none) :=
      (h.pre i).set' ⟨hP.garbage _ _, fun _ h => (by cases h), fun _ _ => rfl⟩
    refine rel_then (rel_onThrow (constructInPlace_sim hP h1 (upd_same _ _ _) (upd_same _ _ _) hleg) ?_) ?_
    · intro w' a' h'
      exact h'.1.del fun k e o x hk => by simpa only [upd_other _ _ e] using hk
    · exact fun _ w' _ a' h' =>
        let ⟨w'', h1, h2⟩ := finish_run hP h'.1 h'.2
        ⟨(), w'', h1, h2⟩

theorem ctorDefault_sim (hP : P.OK) {w : World} {a : AState Val} {i : Nat} (h : R P w a) :
    Out.Rel (fun _ w' _ a' => R P w' a') (fun _ _ => False) (P.ctorDefault i w) (Spec.new i a) := by
  cases hx : a.mem i with
  | some x => rw [Spec.new_some hx]; exact rel_ub _
  | none =>
    obtain ⟨o, h1, h2⟩ := ctorDefault_run hP (h.none' hx)
    rw [h1, Spec.new_run hx]
    exact h.put (fun _ _ _ _ h => h) h2

theorem addIf_tick (e : Env) (c : Bool) (ev : Event) : (e.addIf c ev).tick = e.tick := by
  cases c <;> rfl

theorem reset_sim' (hP : P.OK) {w : World} {a : AState Val} {i : Nat} (h : R P w a) :
    Out.Rel (fun _ w' _ a' => R P w' a' ∧ w'.env.tick = w.env.tick) (fun _ _ => False) (P.reset i w)
      (Spec.clear P i a) := by
  cases hx : a.mem i with
  | none => simp only [Spec.clear, bind_run, Spec.get_none hx, obind_ub]; exact rel_ub _
  | some x =>
    obtain ⟨o, ho, hr⟩ := h.some' hx
    obtain ⟨o', h1, h2⟩ := reset_run hP ho hr
    rw [h1, Spec.clear_run hx, h.env]
    exact ⟨(h.put (fun _ _ _ _ h => h) h2).envs _, (addIf_tick _ _ _).trans rfl⟩

theorem reset_sim (hP : P.OK) {w : World} {a : AState Val} {i : Nat} (h : R P w a) :
    Out.Rel (fun _ w' _ a' => R P w' a') (fun _ _ => False) (P.reset i w) (Spec.clear P i a) :=
  rel_mono (reset_sim' hP h) (fun _ _ _ _ h => h.1) (fun _ _ h => h)

theorem dtor_sim (hP : P.OK) {w : World} {a : AState Val} {i : Nat} (h : R P w a) :
    Out.Rel (fun _ w' _ a' => R P w' a') (fun _ _ => False) (P.dtor i w) (Spec.destroy P i a) := by
  cases hx : a.mem i with
  | none => simp only [Spec.destroy, Spec.clear, bind_run, Spec.get_none hx, obind_ub]; exact rel_ub _
  | some x =>
    obtain ⟨o, ho, hr⟩ := h.some' hx
    rw [dtor_run hP ho hr, Spec.destroy_run hx, h.env]
    exact (h.del (fun _ _ _ _ h => h)).envs _

theorem getCheck_run {w : World} {i : Nat} {o : Obj} {x : Option Val} (h : w.mem i = some o) (hr : ObjR P i o x) :
    P.getCheck i w = M.check x.isSome w := by
  simp only [getCheck, bind_run, hasValue_run h hr, obind_ok]

theorem getCheck_sim {w : World} {a : AState Val} {i : Nat} (h : R P w a) :
    Out.Rel (fun _ w' _ a' => w' = w ∧ a' = a ∧ ∃ v, a.mem i = some (some v)) (fun _ _ => False)
      (P.getCheck i w) (Spec.checked i a) := by
  cases hx : a.mem i with
  | none => simp only [Spec.checked, bind_run, Spec.get_none hx, obind_ub]; exact rel_ub _
  | some x =>
    obtain ⟨o, ho, hr⟩ := h.some' hx
    rw [getCheck_run ho hr, Spec.checked_run hx]
    cases x with
    | none => exact trivial
    | some v => exact ⟨rfl, rfl, v, rfl⟩

theorem evalArg_sim {w : World} {a : AState Val} {src : Src Val} (h : R P w a) :
    Out.Rel (fun _ w' _ a' => w' = w ∧ a' = a) (fun _ _ => False) (P.evalArg src w) (Spec.evalArg src a) := by
  cases src with
  | opt j mv => exact rel_mono (getCheck_sim h) (fun _ _ _ _ h => ⟨h.1, h.2.1⟩) (fun _ _ h => h)
  | _ => exact ⟨rfl, rfl⟩

/-- writing the contained object -/
theorem writeT_sim (hP : P.OK) {w : World} {a : AState Val} {i n : Nat} {u v : Val} (h : R P w a)
    (hx : a.mem i = some (some u)) (hd : (P.elem i).Dom P.pw v) :
    ∃ o, P.writeT i n v w = .ok () (w.put i o) ∧ R P (w.put i o) (a.put i (some v)) := by
  obtain ⟨o, ho, hr⟩ := h.some' hx
  obtain ⟨h1, _, _⟩ := hr.live u rfl
  have hb := hP.build i n v (P.payload i o) hd (hr.payload_len hP)
  exact ⟨_, writeT_run ho h1 n v, h.put (fun _ _ _ _ h => h) (hr.write hP hb.1 hb.2)⟩

end Prog

end Opt
