import Verif.Spec.StdOptional
import Verif.Lemmas.SpecRun

/-!
# The two specifications agree: ideal optional values and `std::optional`
-/

namespace Opt.Std

variable {Val : Type} {P : Prog Val}

/-- the object of an optional value -/
def rep (x : Option Val) : Obj Val := ⟨x.isSome, x⟩

/-- no temporaries, no scalars: the logs agree exactly -/
def Direct (P : Prog Val) : Prop := ∀ i, P.viaTemp i = false ∧ (P.elem i).scalar = false

/-- the same calls of user code -/
structure ER (P : Prog Val) (e e' : Env) : Prop where
  tick : e.tick = e'.tick
  plain : e.log.filterMap (Std.plain P) = e'.log.filterMap (Std.plain P)
  exact : Direct P → e.log = e'.log

/-- the states correspond -/
structure SR (P : Prog Val) (a : AState Val) (s : State Val) : Prop where
  obj : ∀ k, s.obj k = (a.mem k).map rep
  env : ER P a.env s.env

/-- the same while the storage of `i` is filled but the flag is not yet set -/
structure Half (P : Prog Val) (i : Nat) (a : AState Val) (s : State Val) : Prop where
  obj : ∀ k, k ≠ i → s.obj k = (a.mem k).map rep
  here : ∃ v, a.mem i = some (some v) ∧ s.obj i = some ⟨false, some v⟩
  env : ER P a.env s.env

variable {a : AState Val} {s : State Val} {i j : Nat}

theorem ER.next {e e' : Env} {x y : List Event} (h : ER P e e') (hp : x.filterMap (Std.plain P) = y.filterMap (Std.plain P))
    (hx : Direct P → x = y) {n m : Nat} (hn : n = m) : ER P ⟨n, e.log ++ x⟩ ⟨m, e'.log ++ y⟩ :=
  ⟨hn, by simp [h.plain, hp], fun d => by simp [h.exact d, hx d]⟩

theorem obj_rel (h : SR P a s) {C : AState Val → State Val → Prop} :
    Out.Rel (fun x a' o s' => a' = a ∧ s' = s ∧ a.mem i = some x ∧ o = rep x) C (Spec.get i a) (obj i s) := by
  simp only [Spec.get, Std.obj, h.obj i]
  cases hm : a.mem i with
  | none => exact trivial
  | some x => exact ⟨rfl, rfl, rfl, rfl⟩

theorem deref_rel (h : SR P a s) {C : AState Val → State Val → Prop} :
    Out.Rel (fun v a' v' s' => a' = a ∧ s' = s ∧ v = v' ∧ a.mem i = some (some v)) C (Spec.val i a) (deref i s) := by
  unfold Spec.val deref
  refine rel_bind (obj_rel h) ?_
  rintro x _ o _ ⟨rfl, rfl, hm, rfl⟩
  cases x with
  | none => exact rel_bad _ _
  | some v => exact ⟨rfl, rfl, rfl, hm⟩

theorem operand_rel (h : SR P a s) (src : Src Val) {C : AState Val → State Val → Prop} :
    Out.Rel (fun v a' v' s' => a' = a ∧ s' = s ∧ v = v' ∧ (src.isSelf i = true → ∃ u, a.mem i = some (some u))) C
      (Spec.value P i src a) (operand P i src s) := by
  cases src with
  | args v => exact ⟨rfl, rfl, rfl, by simp [Src.isSelf]⟩
  | copy v => exact ⟨rfl, rfl, rfl, by simp [Src.isSelf]⟩
  | move v => exact ⟨rfl, rfl, rfl, by simp [Src.isSelf]⟩
  | opt j mv =>
    unfold Spec.value operand
    refine rel_bind (deref_rel h) ?_
    rintro v _ _ _ ⟨rfl, rfl, rfl, hm⟩
    exact ⟨rfl, rfl, rfl, fun hs => ⟨v, by simp only [Src.isSelf, beq_iff_eq] at hs; rw [← hs]; exact hm⟩⟩

theorem user_rel (h : SR P a s) {e1 e2 f1 f2 : Event} (h1 : plain P e1 = plain P f1) (h2 : plain P e2 = plain P f2)
    (d1 : Direct P → e1 = f1) (d2 : Direct P → e2 = f2) {C : AState Val → State Val → Prop} :
    Out.Rel (fun p a' q s' => p = q ∧ a'.mem = a.mem ∧ SR P a' s') C (Spec.user P e1 e2 a) (user P f1 f2 s) := by
  have ht := h.env.tick
  simp only [Spec.user, user, Out.Rel, ← ht]
  refine ⟨trivial, trivial, h.obj, ?_⟩
  rw [ht]
  refine h.env.next ?_ ?_ rfl
  · cases P.throwsAt s.env.tick
    · simp [List.filterMap_cons, h1]
    · simp [List.filterMap_cons, h2]
  · intro d
    cases P.throwsAt s.env.tick
    · simp [d1 d]
    · simp [d2 d]

theorem write_rel (h : SR P a s) {u : Val} (hi : a.mem i = some (some u)) (v : Val) {C : AState Val → State Val → Prop} :
    Out.Rel (fun _ a' _ s' => SR P a' s' ∧ a'.mem = upd a.mem i (some (some v))) C (Spec.put i (some v) a) (write i v s) := by
  have hb : (write i v s : Out (State Val) Unit) = .ok () { s with obj := upd s.obj i (some ⟨true, some v⟩) } := by
    simp only [write, bind, M.seq, Std.obj, h.obj i, hi, Option.map, store, rep, Option.isSome]
  rw [hb]
  refine ⟨⟨fun k => ?_, h.env⟩, rfl⟩
  simp only [upd]
  split
  · rfl
  · exact h.obj k

theorem fill_rel (h : SR P a s) (hi : a.mem i = some none) (v : Val) {C : AState Val → State Val → Prop} :
    Out.Rel (fun _ a' _ s' => Half P i a' s') C (Spec.put i (some v) a) (write i v s) := by
  have hb : (write i v s : Out (State Val) Unit) = .ok () { s with obj := upd s.obj i (some ⟨false, some v⟩) } := by
    simp only [write, bind, M.seq, Std.obj, h.obj i, hi, Option.map, store, rep, Option.isSome]
  rw [hb]
  refine ⟨fun k hk => ?_, ⟨v, by simp [upd], by simp [upd]⟩, h.env⟩
  simp only [upd, hk, if_false]
  exact h.obj k

theorem flag_on (h : Half P i a s) : ∃ s', flag i true s = .ok () s' ∧ SR P a s' := by
  obtain ⟨v, h1, h2⟩ := h.here
  refine ⟨{ s with obj := upd s.obj i (some ⟨true, some v⟩) }, ?_, fun k => ?_, h.env⟩
  · simp only [flag, bind, M.seq, Std.obj, h2, store]
  · simp only [upd]
    split
    · rename_i hk
      rw [hk, h1]
      rfl
    · rename_i hk
      exact h.obj k hk

theorem drained_rel (h : SR P a s) (f : Bool) (n : Nat) (src : Src Val) {C : AState Val → State Val → Prop} :
    Out.Rel (fun _ a' _ s' => SR P a' s' ∧ (∀ k, (a.mem k).map Option.isSome = (a'.mem k).map Option.isSome) ∧
      (src.isSelf i = false → a'.mem i = a.mem i)) C
      (Spec.movedFrom P f n src a) (drained P f n src s) := by
  have same : ∀ {x : AState Val} {y : State Val}, SR P x y →
      SR P x y ∧ (∀ k, (x.mem k).map Option.isSome = (x.mem k).map Option.isSome) ∧
        (src.isSelf i = false → x.mem i = x.mem i) := fun hh => ⟨hh, fun _ => rfl, fun _ => rfl⟩
  cases src with
  | args v => exact same h
  | copy v => exact same h
  | move v => exact same h
  | opt j mv =>
    cases mv with
    | false => exact same h
    | true =>
      unfold Spec.movedFrom drained
      refine rel_bind (deref_rel h) ?_
      rintro v _ _ _ ⟨rfl, rfl, rfl, hm⟩
      refine rel_mono (write_rel h hm _) ?_ (fun _ _ => id)
      rintro _ a' _ s' ⟨hr, ha⟩
      refine ⟨hr, fun k => ?_, fun hs => ?_⟩
      · rw [ha]
        simp only [upd]
        split
        · rename_i hk
          rw [hk, hm]
          rfl
        · rfl
      · simp only [Src.isSelf, beq_eq_false_iff_ne] at hs
        rw [ha]
        simp [upd, Ne.symm hs]

/-! ## The operations of `T` -/

theorem plain_made (t : Bool) (i : Nat) (k : Kind) : plain P (.made t i k) = plain P (.ctor i k) := by
  cases t <;> rfl

theorem plain_unmade (t : Bool) (i : Nat) (k : Kind) : plain P (.unmade t i k) = plain P (.ctorFail i k) := by
  cases t <;> rfl

theorem tmpDtor_rel {x : Half P i a s} {t : Bool} (ht : t = true → P.viaTemp i = true) :
    ∃ a', (if t then Spec.note .tmpDtor else pure () : M (AState Val) Unit) a = .ok () a' ∧ Half P i a' s := by
  cases t with
  | false => exact ⟨a, rfl, x⟩
  | true =>
    refine ⟨_, rfl, x.obj, x.here, x.env.tick, ?_, fun d => ?_⟩
    · simp [x.env.plain, plain, List.filterMap_cons]
    · have := (d i).1
      rw [ht rfl] at this
      cases this

/-- a value for an empty optional -/
theorem construct_rel (h : SR P a s) (hi : a.mem i = some none) (src : Src Val) {t : Bool}
    (ht : t = true → P.viaTemp i = true) :
    Out.Rel (fun _ a' _ s' => SR P a' s') (SR P) (Spec.initAs P t i src a) ((do construct P i src; flag i true) s) := by
  have step : Out.Rel (fun _ a' _ s' => Half P i a' s') (SR P) (Spec.initAs P t i src a) (construct P i src s) := by
    unfold Spec.initAs construct
    refine rel_bind (obj_rel h) ?_
    rintro x a o s ⟨rfl, rfl, hx, rfl⟩
    rw [hi] at hx
    cases hx
    have e1 : (rep (none : Option Val)).val.isSome = false := rfl
    have e2 : (none : Option Val).isSome = false := rfl
    simp only [e1, e2, Bool.false_or, Bool.false_eq_true, if_false]
    by_cases hself : src.isSelf i = true
    · have : ∀ f : Val → M (State Val) Unit, ((operand P i src >>= f) s : Out (State Val) Unit) = .ub := by
        intro f
        cases src with
        | opt j mv =>
          simp only [Src.isSelf, beq_iff_eq] at hself
          subst hself
          simp only [operand, deref, bind, M.seq, Std.obj, h.obj j, hi, Option.map, rep, M.bad]
        | _ => simp [Src.isSelf] at hself
      rw [this]
      exact rel_ub _
    · simp only [Bool.not_eq_true] at hself
      simp only [hself, Bool.false_and, Bool.false_eq_true, if_false]
      refine rel_bind (operand_rel (i := i) h src) ?_
      rintro v _ _ _ ⟨rfl, rfl, rfl, _⟩
      split
      · exact fill_rel h hi v
      · refine rel_bind (user_rel h (plain_made t i _) (plain_unmade t i _) (fun d => ?_) (fun d => ?_)) ?_
        · cases t with
          | false => rfl
          | true => exact absurd (ht rfl) (by simp [(d i).1])
        · cases t with
          | false => rfl
          | true => exact absurd (ht rfl) (by simp [(d i).1])
        rintro ⟨n, thr⟩ a1 _ s1 ⟨rfl, hm, h1⟩
        refine rel_bind (drained_rel (i := i) h1 thr n src) ?_
        rintro _ a2 _ s2 ⟨h2, _, hk⟩
        have hi2 : a2.mem i = some none := by rw [hk hself, hm, hi]
        cases thr with
        | true => exact rel_raise h2
        | false =>
          simp only [Bool.false_eq_true, if_false]
          have hw := fill_rel (C := SR P) h2 hi2 v
          revert hw
          simp only [bind, M.seq, Spec.put]
          intro hw
          cases hs : write i v s2 with
          | ub => exact rel_ub _
          | verify => rw [hs] at hw; exact hw.elim
          | throw _ => rw [hs] at hw; exact hw.elim
          | ok _ s3 =>
            rw [hs] at hw
            obtain ⟨a3, e3, h3⟩ := tmpDtor_rel (x := hw) ht
            rw [e3]
            exact h3
  have hb := rel_bind (f := fun _ => (pure () : M (AState Val) Unit)) (g := fun _ => flag i true)
    (B' := fun _ a' _ s' => SR P a' s') step ?_
  · refine (?_ : Spec.initAs P t i src a = (Spec.initAs P t i src >>= fun _ => pure ()) a) ▸ hb
    simp only [bind, M.seq]
    cases Spec.initAs P t i src a <;> rfl
  · rintro _ a' _ s' hh
    obtain ⟨s'', e, hs⟩ := flag_on hh
    simp only [e]
    exact hs

/-- destroying the value -/
theorem destroy_rel (h : SR P a s) {C : AState Val → State Val → Prop} :
    Out.Rel (fun _ a' _ s' => SR P a' s' ∧ a'.mem = upd a.mem i (some none)) C (Spec.clear P i a)
      ((do destroyT P i; flag i false) s) := by
  obtain ⟨v, hi⟩ | hi : (∃ v, a.mem i = some (some v)) ∨ ∀ v, a.mem i ≠ some (some v) := by
    by_cases hh : ∃ v, a.mem i = some (some v)
    · exact .inl hh
    · exact .inr fun v hv => hh ⟨v, hv⟩
  case inr =>
    have : ((do destroyT P i; flag i false) s : Out (State Val) Unit) = .ub := by
      simp only [destroyT, deref, bind_run, Std.obj, h.obj i]
      cases hm : a.mem i with
      | none => simp only [Option.map, obind_ub]
      | some x =>
        cases x with
        | none => simp only [Option.map, rep, obind_ok, bad_run, obind_ub]
        | some v => exact absurd hm (hi v)
    rw [this]
    exact rel_ub _
  have hput : ∀ (e e' : Env), ER P e e' →
      SR P ⟨upd a.mem i (some none), e⟩ ⟨upd s.obj i (some ⟨false, none⟩), e'⟩ := by
    intro e e' he
    refine ⟨fun k => ?_, he⟩
    simp only [upd]
    split
    · rfl
    · exact h.obj k
  have ho : s.obj i = some ⟨true, some v⟩ := by rw [h.obj i, hi]; rfl
  simp only [Spec.clear, destroyT, deref, flag, bind_run, Spec.get, hi, obind_ok, Std.obj, ho, pure_run]
  cases (P.elem i).trivDtor with
  | true =>
    simp only [if_true, bind_run, obind_ok, Std.obj, ho, store, upd_same, Spec.put, upd_upd]
    exact ⟨hput _ _ h.env, rfl⟩
  | false =>
    simp only [Bool.false_eq_true, if_false, bind_run, obind_ok, Std.obj, ho, store, upd_same, Spec.put, Spec.note, upd_upd]
    exact ⟨hput _ _ (h.env.next rfl (fun _ => rfl) h.env.tick), rfl⟩

/-- after a call the value is replaced -/
theorem write_keep (h : SR P a s) (hi : (a.mem i).map Option.isSome = some true) (v : Val) {C : AState Val → State Val → Prop} :
    Out.Rel (fun _ a' _ s' => SR P a' s') C (Spec.put i (some v) a) (write i v s) := by
  cases hm : a.mem i with
  | none => rw [hm] at hi; cases hi
  | some x =>
    cases x with
    | none => rw [hm] at hi; cases hi
    | some u => exact rel_mono (write_rel h hm v) (fun _ _ _ _ hh => hh.1) (fun _ _ => id)

/-- assigning to the value -/
theorem assign_rel (h : SR P a s) (src : Src Val) :
    Out.Rel (fun _ a' _ s' => SR P a' s') (SR P) (Spec.assign P i src a) (assignT P i src s) := by
  unfold Spec.assign assignT
  refine rel_bind (deref_rel (i := i) h) ?_
  rintro old a _ s ⟨rfl, rfl, rfl, hi⟩
  refine rel_bind (operand_rel (i := i) h src) ?_
  rintro v a _ s ⟨rfl, rfl, rfl, _⟩
  have hs : (a.mem i).map Option.isSome = some true := by rw [hi]; rfl
  split
  · exact write_keep h hs v
  · refine rel_bind (user_rel h rfl rfl (fun _ => rfl) (fun _ => rfl)) ?_
    rintro ⟨n, thr⟩ a1 _ s1 ⟨rfl, hm, h1⟩
    have hs1 : (a1.mem i).map Option.isSome = some true := by rw [hm]; exact hs
    cases thr with
    | true =>
      refine rel_bind (drained_rel (i := i) h1 true n src) ?_
      rintro _ a2 _ s2 ⟨h2, hk, _⟩
      refine rel_bind (write_keep h2 (by rw [← hk]; exact hs1) _) ?_
      rintro _ a3 _ s3 h3
      exact rel_raise h3
    | false =>
      simp only [Bool.false_eq_true, if_false]
      split
      · cases src with
        | opt j mv => cases mv <;> exact write_keep h1 hs1 _
        | _ => exact write_keep h1 hs1 _
      · refine rel_bind (drained_rel (i := i) h1 false n src) ?_
        rintro _ a2 _ s2 ⟨h2, hk, _⟩
        exact write_keep h2 (by rw [← hk]; exact hs1) _

/-- a scalar: giving it a value anew is assigning to it -/
theorem scalar_rel (hP : P.OK) (hB : P.ScalarsKeep) (hsc : (P.elem i).scalar = true) (h : SR P a s) {u : Val}
    (hi : a.mem i = some (some u)) (src : Src Val) :
    Out.Rel (fun _ a' _ s' => SR P a' s') (SR P) (Spec.init P i src a) (assignT P i src s) := by
  obtain ⟨t1, t2, t3, t4, t5⟩ := hP.scalar (P.cls i) hsc
  have hsc' : (P.elemOf (P.cls i)).scalar = true := hsc
  have hv : P.viaTemp i = false := by simp [Prog.viaTemp, Prog.elem, t1]
  have hs : (a.mem i).map Option.isSome = some true := by rw [hi]; rfl
  have htriv : (P.elem i).ctorTriv (P.kind i src) = (P.elem i).assignTriv (P.kind i src) := by
    cases P.kind i src <;> simp [Elem.ctorTriv, Elem.assignTriv, Prog.elem, t2, t3, t4, t5]
  have hself : src.isSelf i = true → (P.elem i).assignTriv (P.kind i src) = true := by
    intro hh
    cases src with
    | opt j mv =>
      simp only [Src.isSelf, beq_iff_eq] at hh
      subst hh
      cases mv <;> simp [Prog.kind, Elem.assignTriv, Prog.elem, t3, t5]
    | _ => simp [Src.isSelf] at hh
  unfold Spec.init Spec.initAs assignT
  rw [hv]
  have hd := deref_rel (i := i) h (C := SR P)
  refine rel_bind (B := fun x a' v s' => a' = a ∧ s' = s ∧ x = some v ∧ v = u) ?_ ?_
  · simp only [Spec.get, hi, deref, bind_run, Std.obj, h.obj i, Option.map, rep, obind_ok]
    exact ⟨rfl, rfl, rfl, rfl⟩
  · rintro x a u s ⟨rfl, rfl, rfl, rfl⟩
    simp only [hsc, Bool.not_true, Bool.and_false, Bool.false_eq_true, if_false]
    refine rel_bind (operand_rel (i := i) h src) ?_
    rintro v a _ s ⟨rfl, rfl, rfl, _⟩
    rw [htriv]
    split
    · exact write_keep h hs v
    · rename_i hnt
      have hns : src.isSelf i = false := by
        cases hh : src.isSelf i with
        | false => rfl
        | true => exact absurd (hself hh) hnt
      refine rel_bind (user_rel h (f1 := .assign i (P.kind i src) true) (f2 := .assign i (P.kind i src) false) ?_ ?_
        (fun d => ?_) (fun d => ?_)) ?_
      · simp [Event.made, plain, hsc]
      · simp [Event.unmade, plain, hsc]
      · rw [(d i).2] at hsc; cases hsc
      · rw [(d i).2] at hsc; cases hsc
      rintro ⟨n, thr⟩ a1 _ s1 ⟨rfl, hm, h1⟩
      have hi1 : a1.mem i = some (some u) := by rw [hm]; exact hi
      cases thr with
      | true =>
        simp only [if_true]
        have hdr := drained_rel (i := i) h1 true n src (C := SR P)
        simp only [bind_run]
        revert hdr
        cases drained P true n src s1 with
        | ub => intro _; exact rel_ub _
        | verify =>
          cases Spec.movedFrom P true n src a1 <;> intro hdr <;> first | exact hdr.elim | exact trivial
        | throw _ =>
          cases Spec.movedFrom P true n src a1 <;> intro hdr <;> first | exact hdr.elim | exact hdr
        | ok _ s2 =>
          cases Spec.movedFrom P true n src a1 with
          | ub => exact fun hh => hh.elim
          | verify => exact fun hh => hh.elim
          | throw _ => exact fun hh => hh.elim
          | ok _ a2 =>
            rintro ⟨h2, _, hk⟩
            have hi2 : s2.obj i = some ⟨true, some u⟩ := by rw [h2.obj i, hk hns, hi1]; rfl
            simp only [obind_ok, write, bind_run, Std.obj, hi2, store, hB i n u v hsc, M.raise]
            refine ⟨fun k => ?_, h2.env⟩
            simp only [upd]
            split
            · rename_i hkk
              rw [hkk, hk hns, hi1]
              rfl
            · exact h2.obj k
      | false =>
        simp only [Bool.false_eq_true, if_false, hns]
        refine rel_bind (drained_rel (i := i) h1 false n src) ?_
        rintro _ a2 _ s2 ⟨h2, hk, hk'⟩
        have hw := write_keep (C := SR P) h2 (i := i) (by rw [hk' hns, hi1]; rfl) v
        revert hw
        simp only [bind_run, Spec.put, obind_ok, pure_run]
        exact id

/-! ## The members -/

/-- a new empty object -/
theorem new_rel (h : SR P a s) (hi : a.mem i = none) {C : AState Val → State Val → Prop} :
    Out.Rel (fun _ a' _ s' => SR P a' s' ∧ a'.mem = upd a.mem i (some none)) C (Spec.new i a) (ctorNull i s) := by
  simp only [Spec.new, hi, ctorNull, store]
  refine ⟨⟨fun k => ?_, h.env⟩, rfl⟩
  simp only [upd]
  split
  · rfl
  · exact h.obj k

/-- the object ends -/
theorem free_rel (h : SR P a s) {C : AState Val → State Val → Prop} :
    Out.Rel (fun _ a' _ s' => SR P a' s') C (Spec.del i a) (free i s) := by
  refine ⟨fun k => ?_, h.env⟩
  simp only [upd]
  split
  · rfl
  · exact h.obj k

theorem onThrow_flag (x : M (State Val) Unit) (i : Nat) (k : M (State Val) Unit) (s : State Val) :
    (M.onThrow x k >>= fun _ => flag i true) s = M.onThrow (x >>= fun _ => flag i true) k s := by
  simp only [bind_run, M.onThrow]
  cases x s with
  | ok r s' =>
    simp only [obind_ok, flag, bind_run, Std.obj]
    cases s'.obj i <;> simp only [obind_ok, obind_ub, store]
  | throw s' =>
    simp only [obind_throw]
    cases k s' <;> simp only [obind_throw, obind_ub, obind_verify]
  | verify => simp only [obind_verify]
  | ub => simp only [obind_ub]

/-- a new object with a value -/
theorem create_rel (h : SR P a s) (hi : a.mem i = none) (src : Src Val) {t : Bool} (ht : t = true → P.viaTemp i = true) :
    Out.Rel (fun _ a' _ s' => SR P a' s') (SR P)
      ((do Spec.new i; M.onThrow (Spec.initAs P t i src) (Spec.del i) : M (AState Val) Unit) a) (ctorValue P i src s) := by
  unfold ctorValue
  refine rel_bind (new_rel h hi) ?_
  rintro _ a' _ s' ⟨h', hm⟩
  rw [onThrow_flag]
  exact rel_onThrow (construct_rel h' (by rw [hm]; simp [upd]) src ht) (fun _ _ hh => free_rel hh)

/-- copying or moving an optional into a new one -/
theorem ctorFrom_rel (h : SR P a s) (hi : a.mem i = none) (mv : Bool) :
    Out.Rel (fun _ a' _ s' => SR P a' s') (SR P) (Spec.ctorFrom P i j mv a) (ctorFrom P i j mv s) := by
  unfold Spec.ctorFrom ctorFrom
  refine rel_bind (obj_rel h) ?_
  rintro x a o s ⟨rfl, rfl, _, rfl⟩
  cases x with
  | none => exact rel_mono (new_rel h hi) (fun _ _ _ _ hh => hh.1) (fun _ _ => id)
  | some v => exact create_rel h hi _ id

/-- emptying -/
theorem reset_rel (h : SR P a s) {C : AState Val → State Val → Prop} :
    Out.Rel (fun _ a' _ s' => SR P a' s' ∧ a'.mem i = some none) C (Spec.clear P i a) (reset P i s) := by
  cases hm : a.mem i with
  | none =>
    have : reset P i s = .ub := by simp only [reset, bind_run, Std.obj, h.obj i, hm, Option.map, obind_ub]
    rw [this]
    exact rel_ub _
  | some x =>
    have ho : s.obj i = some (rep x) := by rw [h.obj i, hm]; rfl
    have hr : reset P i s = if x.isSome then (destroyT P i >>= fun _ => flag i false) s else flag i false s := by
      simp only [reset]
      rw [bind_run]
      simp only [Std.obj, ho, obind_ok, rep]
      cases x.isSome <;> rfl
    rw [hr]
    cases x with
    | none =>
      simp only [Option.isSome, Bool.false_eq_true, if_false, Spec.clear, bind_run, Spec.get, hm, obind_ok, pure_run, flag,
        Std.obj, ho, store, rep]
      refine ⟨⟨fun k => ?_, h.env⟩, hm⟩
      simp only [upd]
      split
      · rename_i hk
        rw [hk, hm]
        rfl
      · exact h.obj k
    | some v =>
      exact rel_mono (destroy_rel h) (fun _ _ _ _ hh => ⟨hh.1, by rw [hh.2]; simp [upd]⟩) (fun _ _ => id)

/-- the end of an object -/
theorem dtor_rel (h : SR P a s) {C : AState Val → State Val → Prop} :
    Out.Rel (fun _ a' _ s' => SR P a' s') C (Spec.destroy P i a) (dtor P i s) := by
  have hs : dtor P i s = (reset P i >>= fun _ => free i) s := by
    simp only [dtor, reset, bind_run]
    cases ho : s.obj i with
    | none => simp only [Std.obj, ho, obind_ub]
    | some o =>
      simp only [Std.obj, ho, obind_ok]
      have hf : ∀ t : State Val, (∃ o, t.obj i = some o) → (flag i false t).bind (fun _ => free i) = free i t := by
        rintro t ⟨o, ho⟩
        simp only [flag, bind_run, Std.obj, ho, obind_ok, store, free, upd_upd]
      cases o.engaged with
      | false => simp only [Bool.false_eq_true, if_false]; exact (hf s ⟨o, ho⟩).symm
      | true =>
        simp only [if_true, bind_run]
        have hd : ∀ t, destroyT P i s = .ok () t → ∃ o, t.obj i = some o := by
          intro t ht
          simp only [destroyT, deref, bind_run, Std.obj, ho, obind_ok] at ht
          cases hv : o.val with
          | none => rw [hv] at ht; cases ht
          | some v =>
            rw [hv] at ht
            cases hb : (P.elem i).trivDtor <;>
              · simp [hb, bind_run, pure_run, obind_ok, Std.obj, ho, store] at ht
                exact ⟨⟨o.engaged, none⟩, by rw [← ht]; simp [upd]⟩
        cases hds : destroyT P i s with
        | ok _ t => simp only [obind_ok]; exact (hf t (hd t hds)).symm
        | throw t => rfl
        | verify => rfl
        | ub => rfl
  rw [hs]
  unfold Spec.destroy
  refine rel_bind (reset_rel h) ?_
  rintro _ a' _ s' ⟨h', _⟩
  exact free_rel h'

theorem assignFrom_rel (h : SR P a s) (mv : Bool) :
    Out.Rel (fun _ a' _ s' => SR P a' s') (SR P) (Spec.assignFrom P i j mv a) (assignFrom P i j mv s) := by
  unfold Spec.assignFrom assignFrom
  refine rel_bind (obj_rel (i := i) h) ?_
  rintro x a o s ⟨rfl, rfl, hx, rfl⟩
  refine rel_bind (obj_rel (i := j) h) ?_
  rintro y a o s ⟨rfl, rfl, hy, rfl⟩
  cases y with
  | none => exact rel_mono (reset_rel h) (fun _ _ _ _ hh => hh.1) (fun _ _ => id)
  | some u =>
    simp only [bind_run, Spec.get, hx, obind_ok, rep, Option.isSome]
    cases x with
    | none => exact construct_rel h hx _ id
    | some v => exact assign_rel h _

theorem starred_rel (h : SR P a s) (src : Src Val) {C : AState Val → State Val → Prop} :
    Out.Rel (fun _ a' _ s' => a' = a ∧ s' = s) C (Spec.evalArg src a) (starred src s) := by
  cases src with
  | opt j mv =>
    simp only [Spec.evalArg, Spec.checked, starred, star, bind_run]
    cases hm : a.mem j with
    | none =>
      simp only [Std.obj, h.obj j, hm, Option.map, obind_ub]
      exact rel_ub _
    | some x =>
      cases x with
      | none =>
        simp only [Std.obj, h.obj j, hm, Option.map, obind_ok, rep, Option.isSome, Bool.false_eq_true, if_false, bad_run,
          obind_ub]
        exact rel_ub _
      | some v =>
        simp only [Std.obj, h.obj j, hm, Option.map, obind_ok, rep, Option.isSome, if_true, deref, bind_run, Spec.get,
          M.check, pure_run]
        exact ⟨rfl, rfl⟩
  | _ => exact ⟨rfl, rfl⟩

theorem assignValue_rel (hP : P.OK) (hB : P.ScalarsKeep) (h : SR P a s) (src : Src Val) :
    Out.Rel (fun _ a' _ s' => SR P a' s') (SR P) (Spec.assignValue P i src a)
      ((do starred src; assignValue P i src) s) := by
  unfold Spec.assignValue
  refine rel_bind (starred_rel h src) ?_
  rintro _ a _ s ⟨rfl, rfl⟩
  unfold assignValue
  cases hm : a.mem i with
  | none =>
    simp only [bind_run, Std.obj, h.obj i, hm, Option.map, obind_ub]
    exact rel_ub _
  | some x =>
    cases x with
    | none =>
      have hc := construct_rel h hm src (t := P.viaTemp i) id
      simp only [bind_run, Std.obj, h.obj i, hm, Option.map, obind_ok, rep, Option.isSome, Bool.false_eq_true, if_false]
      split
      · exact hc
      · simp only [bind_run, Spec.get, hm, obind_ok]
        exact hc
    | some v =>
      simp only [bind_run, Std.obj, h.obj i, hm, Option.map, obind_ok, rep, Option.isSome, if_true]
      split
      · rename_i hsc
        exact scalar_rel hP hB hsc h hm src
      · simp only [bind_run, Spec.get, hm, obind_ok]
        exact assign_rel h src

theorem emplace_rel (h : SR P a s) (src : Src Val) :
    Out.Rel (fun _ a' _ s' => SR P a' s') (SR P) (Spec.emplace P i src a)
      ((do starred src; emplace P i src) s) := by
  unfold Spec.emplace
  refine rel_bind (starred_rel h src) ?_
  rintro _ a _ s ⟨rfl, rfl⟩
  unfold emplace
  refine rel_bind (reset_rel (i := i) h) ?_
  rintro _ a' _ s' ⟨h', hm⟩
  exact construct_rel h' hm src id

theorem swap_rel (h : SR P a s) :
    Out.Rel (fun _ a' _ s' => SR P a' s') (SR P) (Spec.swap P i j a) (swap P i j s) := by
  unfold Spec.swap swap
  refine rel_bind (obj_rel (i := i) h) ?_
  rintro x a o s ⟨rfl, rfl, hx, rfl⟩
  refine rel_bind (obj_rel (i := j) h) ?_
  rintro y a o s ⟨rfl, rfl, hy, rfl⟩
  have move : ∀ {k l : Nat}, a.mem k = some none →
      Out.Rel (fun _ a' _ s' => SR P a' s') (SR P)
        ((do Spec.init P k (.opt l true); Spec.clear P l : M (AState Val) Unit) a)
        ((do construct P k (.opt l true); flag k true; destroyT P l; flag l false) s) := by
    intro k l hk
    have e : ((do construct P k (.opt l true); flag k true; destroyT P l; flag l false) s : Out (State Val) Unit) =
        ((do construct P k (.opt l true); flag k true) >>= fun _ => (do destroyT P l; flag l false)) s := by
      simp only [bind_run]
      cases construct P k (.opt l true) s <;> simp only [obind_ok, obind_throw, obind_ub, obind_verify, bind_run]
    rw [e]
    refine rel_bind (construct_rel h hk _ id) ?_
    rintro _ a' _ s' h'
    exact rel_mono (destroy_rel h') (fun _ _ _ _ hh => hh.1) (fun _ _ => id)
  cases x with
  | none =>
    cases y with
    | none => exact h
    | some v => exact move hx
  | some u =>
    cases y with
    | none => exact move hy
    | some v =>
      have e : swapT P i j s = (user P (.swap i j true) (.swap i j false) >>= fun p =>
          if p.2 then do
            write i (P.broken i p.1 u (P.convFrom i j v))
            write j (P.broken j p.1 v (P.convFrom j i u))
            M.raise
          else do
            write i (P.convFrom i j v)
            write j (P.convFrom j i u)) s := by
        simp only [swapT, deref, bind_run, Std.obj, h.obj i, h.obj j, hx, hy, Option.map, rep, obind_ok, pure_run]
      refine (?_ : Out.Rel _ _ _ (swapT P i j s))
      rw [e]
      refine rel_bind (user_rel h (e1 := .swap i j true) (e2 := .swap i j false) rfl rfl (fun _ => rfl) (fun _ => rfl)) ?_
      rintro ⟨n, thr⟩ a1 _ s1 ⟨rfl, hm, h1⟩
      have w1 : ∀ p : Val, Out.Rel (fun _ a' _ s' => SR P a' s' ∧ (a'.mem j).map Option.isSome = some true) (SR P)
          (Spec.put i (some p) a1) (write i p s1) := by
        intro p
        refine rel_mono (write_rel h1 (by rw [hm]; exact hx) p) ?_ (fun _ _ => id)
        rintro _ a2 _ s2 ⟨h2, hm2⟩
        refine ⟨h2, ?_⟩
        rw [hm2]
        simp only [upd]
        split
        · rfl
        · rw [hm, hy]; rfl
      cases thr with
      | false => exact rel_bind (w1 _) fun _ a2 _ s2 h2 => write_keep h2.1 h2.2 _
      | true =>
        refine rel_bind (w1 _) fun _ a2 _ s2 h2 => ?_
        refine rel_bind (write_keep h2.1 h2.2 _) fun _ a3 _ s3 h3 => ?_
        exact rel_raise h3

/-- calling `f` with the value -/
theorem invoke_rel {β : Type} (h : SR P a s) (f : Prog.Fn Val β) :
    Out.Rel (fun b a' b' s' => b = b' ∧ SR P a' s' ∧ ∃ v, a'.mem = upd a.mem i (some (some v))) (SR P)
      (Spec.call P i f a) (invoke P i f s) := by
  unfold Spec.call Spec.checked invoke
  cases hm : a.mem i with
  | none =>
    have : ∀ g : Val → M (State Val) β, (deref i >>= g) s = .ub := fun g => by
      simp only [deref, bind_run, Std.obj, h.obj i, hm, Option.map, obind_ub]
    rw [this]
    exact rel_ub _
  | some x =>
    cases x with
    | none =>
      have : ∀ g : Val → M (State Val) β, (deref i >>= g) s = .ub := fun g => by
        simp only [deref, bind_run, Std.obj, h.obj i, hm, Option.map, rep, obind_ok, bad_run, obind_ub]
      rw [this]
      exact rel_ub _
    | some v =>
      have e : ∀ g : Unit → M (AState Val) β,
          ((do let x ← Spec.get i; M.check x.isSome) >>= g) a = g () a := fun g => by
        simp only [bind_run, Spec.get, hm, obind_ok, M.check, Option.isSome, if_true]
      rw [e]
      refine rel_bind (deref_rel (i := i) h) ?_
      rintro v a _ s ⟨rfl, rfl, rfl, hm⟩
      refine rel_bind (user_rel h rfl rfl (fun _ => rfl) (fun _ => rfl)) ?_
      rintro ⟨n, thr⟩ a1 _ s1 ⟨rfl, hm1, h1⟩
      have hi1 : a1.mem i = some (some v) := by rw [hm1]; exact hm
      cases thr with
      | true =>
        refine rel_bind (write_rel h1 hi1 _) ?_
        rintro _ a2 _ s2 ⟨h2, _⟩
        exact rel_raise h2
      | false =>
        refine rel_bind (write_rel h1 hi1 _) ?_
        rintro _ a2 _ s2 ⟨h2, hm2⟩
        exact ⟨rfl, h2, _, by rw [hm2, hm1]⟩

theorem invoke0_rel {β : Type} (h : SR P a s) (b : β) :
    Out.Rel (fun x a' y s' => x = y ∧ SR P a' s' ∧ a'.mem = a.mem) (SR P) (Spec.call0 P b a) (invoke0 P b s) := by
  unfold Spec.call0 invoke0
  refine rel_bind (user_rel h rfl rfl (fun _ => rfl) (fun _ => rfl)) ?_
  rintro ⟨n, thr⟩ a1 _ s1 ⟨rfl, hm, h1⟩
  cases thr with
  | true => exact rel_raise h1
  | false => exact ⟨rfl, h1, hm⟩

theorem return_rel (h : SR P a s) (src : Src Val) :
    Out.Rel (fun x a' y s' => x = y ∧ SR P a' s') (SR P) (Spec.give P i src a) (returnT P i src s) := by
  unfold Spec.give returnT
  refine rel_bind (operand_rel (i := i) h src) ?_
  rintro v a _ s ⟨rfl, rfl, rfl, _⟩
  split
  · exact ⟨rfl, h⟩
  · refine rel_bind (user_rel h rfl rfl (fun _ => rfl) (fun _ => rfl)) ?_
    rintro ⟨n, thr⟩ a1 _ s1 ⟨rfl, _, h1⟩
    refine rel_bind (drained_rel (i := i) h1 thr n src) ?_
    rintro _ a2 _ s2 ⟨h2, _⟩
    cases thr with
    | true => exact rel_raise h2
    | false => exact ⟨rfl, h2⟩

theorem make_rel (h : SR P a s) (hi : a.mem i = none) (x : Option Val) :
    Out.Rel (fun _ a' _ s' => SR P a' s') (SR P) (Spec.make P i x a) (returnOpt P i x s) := by
  cases x with
  | none => exact rel_mono (new_rel h hi) (fun _ _ _ _ hh => hh.1) (fun _ _ => id)
  | some v => exact create_rel (t := false) h hi _ (fun hh => nomatch hh)

theorem andThen_rel {r : Nat} (h : SR P a s) (hr : a.mem r = none) (f : Prog.Fn Val (Option Val)) :
    Out.Rel (fun _ a' _ s' => SR P a' s') (SR P) (Spec.andThen P i r f a) (andThen P i r f s) := by
  unfold Spec.andThen andThen
  refine rel_bind (obj_rel (i := i) h) ?_
  rintro x a o s ⟨rfl, rfl, hx, rfl⟩
  cases x with
  | none => exact rel_mono (new_rel h hr) (fun _ _ _ _ hh => hh.1) (fun _ _ => id)
  | some v =>
    refine rel_bind (invoke_rel h f) ?_
    rintro y a1 _ s1 ⟨rfl, h1, u, hm⟩
    refine make_rel h1 ?_ y
    rw [hm]
    simp only [upd]
    split
    · rename_i hk
      rw [hk, hx] at hr
      cases hr
    · exact hr

theorem orElse_rel {r : Nat} (h : SR P a s) (hr : a.mem r = none) (mv : Bool) (x : Option Val) :
    Out.Rel (fun _ a' _ s' => SR P a' s') (SR P) (Spec.orElse P i r mv x a) (orElse P i r mv x s) := by
  unfold Spec.orElse orElse
  refine rel_bind (obj_rel (i := i) h) ?_
  rintro y a o s ⟨rfl, rfl, _, rfl⟩
  cases y with
  | some v => exact ctorFrom_rel h hr mv
  | none =>
    refine rel_bind (invoke0_rel h x) ?_
    rintro z a1 _ s1 ⟨rfl, h1, hm⟩
    exact make_rel h1 (by rw [hm]; exact hr) z

theorem map_rel {r : Nat} (h : SR P a s) (hr : a.mem r = none) (f : Prog.Fn Val Val) :
    Out.Rel (fun _ a' _ s' => SR P a' s') (SR P) (Spec.map P i r f a) (transform P i r f s) := by
  unfold Spec.map transform
  refine rel_bind (obj_rel (i := i) h) ?_
  rintro x a o s ⟨rfl, rfl, hx, rfl⟩
  cases x with
  | none => exact rel_mono (new_rel h hr) (fun _ _ _ _ hh => hh.1) (fun _ _ => id)
  | some v =>
    have hne : i ≠ r := by
      intro hk
      rw [hk, hr] at hx
      cases hx
    have ho : s.obj i = some ⟨true, some v⟩ := by rw [h.obj i, hx]; rfl
    have hor : s.obj r = none := by rw [h.obj r, hr]; rfl
    refine (?_ : Out.Rel _ _ _ ((do let v ← invoke P i f; ctorValue P r (.args v)) s))
    simp only [Option.isSome, if_true, bind_run, Spec.new, hr, obind_ok, M.onThrow, Spec.call, Spec.checked, Spec.get,
      upd_other _ _ hne, hx, M.check, Spec.val, pure_run, Spec.user, invoke, deref, Std.obj, ho, user, ← h.env.tick]
    cases ht : P.throwsAt a.env.tick with
    | true =>
      simp only [if_true, bind_run, Spec.put, obind_ok, raise_run, obind_throw, Spec.del, write, Std.obj, ho, store]
      refine ⟨fun k => ?_, ?_⟩
      · simp only [upd]
        by_cases hk : k = r
        · subst hk
          simp [Ne.symm hne, hor]
        · simp only [hk, if_false]
          split
          · rfl
          · exact h.obj k
      · exact h.env.next rfl (fun _ => rfl) rfl
    | false =>
      simp only [Bool.false_eq_true, if_false, bind_run, Spec.put, obind_ok, pure_run, write, Std.obj, ho, store, ctorValue,
        ctorNull]
      have h1 : SR P ⟨upd (upd a.mem r (some none)) i (some (some (f.after v))),
            ⟨a.env.tick + 1, a.env.log ++ [.call i true]⟩⟩
          ⟨upd (upd s.obj i (some ⟨true, some (f.after v)⟩)) r (some ⟨false, none⟩),
            ⟨a.env.tick + 1, s.env.log ++ [.call i true]⟩⟩ := by
        refine ⟨fun k => ?_, h.env.next rfl (fun _ => rfl) rfl⟩
        simp only [upd]
        by_cases hk : k = r
        · subst hk
          simp [Ne.symm hne, rep]
        · simp only [hk, if_false]
          split
          · rfl
          · exact h.obj k
      have hc := construct_rel (t := false) h1 (i := r) (by simp [upd, Ne.symm hne]) (.args (f.ret v)) (fun hh => nomatch hh)
      have := rel_onThrow (C := SR P) hc (fun _ _ hh => free_rel (i := r) hh)
      rw [← onThrow_flag] at this
      simpa only [bind_run, M.onThrow] using this

theorem compare_rel (h : SR P a s) (o : CmpOp) (rel : CmpOp → Val → Val → Bool) :
    Out.Rel (fun x a' y s' => x = y ∧ SR P a' s') (SR P) (Spec.compare P o rel i j a) (compare P o rel i j s) := by
  have both : ∀ {u v : Val}, a.mem i = some (some u) → a.mem j = some (some v) →
      Out.Rel (fun x a' y s' => x = y ∧ SR P a' s') (SR P) (Spec.call0 P (rel o u v) a)
        ((do let x ← deref i; let y ← deref j; invoke0 P (rel o x y)) s) := by
    intro u v hi hj
    simp only [bind_run, deref, Std.obj, h.obj i, h.obj j, hi, hj, Option.map, rep, obind_ok, pure_run]
    exact rel_mono (invoke0_rel h _) (fun _ _ _ _ hh => ⟨hh.1, hh.2.1⟩) (fun _ _ => id)
  unfold Spec.compare compare
  refine rel_bind (obj_rel (i := i) h) ?_
  rintro x a _ s ⟨rfl, rfl, hx, rfl⟩
  refine rel_bind (obj_rel (i := j) h) ?_
  rintro y a _ s ⟨rfl, rfl, hy, rfl⟩
  cases x with
  | none =>
    cases y with
    | none => cases o <;> exact ⟨rfl, h⟩
    | some v => cases o <;> exact ⟨rfl, h⟩
  | some u =>
    cases y with
    | none => cases o <;> exact ⟨rfl, h⟩
    | some v => cases o <;> exact both hx hy

/-! ## One operation, and histories -/

theorem asRet_rel {α β : Type} {f : α → Ret Val} {g : β → Ret Val} {x : M (AState Val) α} {y : M (State Val) β}
    (h : Out.Rel (fun u a' v s' => f u = g v ∧ SR P a' s') (SR P) (x a) (y s)) :
    Out.Rel (fun u a' v s' => u = v ∧ SR P a' s') (SR P) (Prog.asRet f x a) (Prog.asRet g y s) := by
  unfold Prog.asRet
  exact rel_bind h fun _ _ _ _ hh => hh

theorem asRet_unit_rel {x : M (AState Val) Unit} {y : M (State Val) Unit}
    (h : Out.Rel (fun _ a' _ s' => SR P a' s') (SR P) (x a) (y s)) :
    Out.Rel (fun u a' v s' => u = v ∧ SR P a' s') (SR P) (Prog.asRet (fun _ => (Ret.unit : Ret Val)) x a)
      (Prog.asRet (fun _ => .unit) y s) :=
  asRet_rel (rel_mono h (fun _ _ _ _ hh => ⟨rfl, hh⟩) (fun _ _ => id))

theorem asRet_same_rel {α : Type} {f : α → Ret Val} {x : M (AState Val) α} {y : M (State Val) α}
    (h : Out.Rel (fun u a' v s' => u = v ∧ SR P a' s') (SR P) (x a) (y s)) :
    Out.Rel (fun u a' v s' => u = v ∧ SR P a' s') (SR P) (Prog.asRet f x a) (Prog.asRet f y s) :=
  asRet_rel (rel_mono h (fun _ _ _ _ hh => ⟨congrArg f hh.1, hh.2⟩) (fun _ _ => id))

/-- one operation, if the operands exist -/
theorem body_rel (hP : P.OK) (hB : P.ScalarsKeep) (h : SR P a s) (op : Op Val) (hp : Present op s = true) :
    Out.Rel (fun u a' v s' => u = v ∧ SR P a' s') (SR P) (Spec.runOp P op a) (body P 0 op s) := by
  have fresh : ∀ {r : Nat}, r ∈ op.makes → a.mem r = none := by
    intro r hr
    simp only [Present, Bool.and_eq_true, List.all_eq_true] at hp
    have := hp.2 r hr
    rw [h.obj r] at this
    cases hm : a.mem r with
    | none => rfl
    | some x => rw [hm] at this; cases this
  cases op with
  | ctorDefault i =>
    exact asRet_unit_rel (rel_mono (new_rel h (fresh (by simp [Op.makes]))) (fun _ _ _ _ hh => hh.1) (fun _ _ => id))
  | ctorValue i src =>
    refine asRet_unit_rel ?_
    unfold Spec.ctorValue
    refine rel_bind (starred_rel h src) ?_
    rintro _ a' _ s' ⟨rfl, rfl⟩
    exact create_rel (t := false) h (fresh (by simp [Op.makes])) src (fun hh => nomatch hh)
  | ctorFrom i j mv => exact asRet_unit_rel (ctorFrom_rel h (fresh (by simp [Op.makes])) mv)
  | dtor i => exact asRet_unit_rel (dtor_rel h)
  | reset i => exact asRet_unit_rel (rel_mono (reset_rel h) (fun _ _ _ _ hh => hh.1) (fun _ _ => id))
  | assignFrom i j mv => exact asRet_unit_rel (assignFrom_rel h mv)
  | assignValue i src => exact asRet_unit_rel (assignValue_rel hP hB h src)
  | emplace i src => exact asRet_unit_rel (emplace_rel h src)
  | swap i j => exact asRet_unit_rel (swap_rel h)
  | hasValue i =>
    refine asRet_same_rel ?_
    unfold Spec.engaged hasValue
    refine rel_bind (obj_rel (i := i) h) ?_
    rintro x a o s ⟨rfl, rfl, _, rfl⟩
    exact ⟨rfl, h⟩
  | get i =>
    refine asRet_same_rel ?_
    unfold Spec.getOrDie star
    refine rel_bind (obj_rel (i := i) h) ?_
    rintro x a o s ⟨rfl, rfl, hx, rfl⟩
    cases x with
    | none => exact rel_ub _
    | some v =>
      refine (?_ : Out.Rel _ _ _ (deref i s))
      simp only [deref, bind_run, Std.obj, h.obj i, hx, Option.map, rep, obind_ok]
      exact ⟨rfl, h⟩
  | valueOrThrow i =>
    refine asRet_same_rel ?_
    unfold Spec.getOrThrow value
    refine rel_bind (obj_rel (i := i) h) ?_
    rintro x a o s ⟨rfl, rfl, hx, rfl⟩
    cases x with
    | none => exact rel_raise h
    | some v =>
      refine (?_ : Out.Rel _ _ _ (deref i s))
      simp only [deref, bind_run, Std.obj, h.obj i, hx, Option.map, rep, obind_ok]
      exact ⟨rfl, h⟩
  | valueOr i mv d =>
    refine asRet_same_rel ?_
    unfold Spec.valueOr
    refine rel_bind (starred_rel h d) ?_
    rintro _ a _ s ⟨rfl, rfl⟩
    unfold valueOr
    refine rel_bind (obj_rel (i := i) h) ?_
    rintro x a o s ⟨rfl, rfl, hx, rfl⟩
    cases x with
    | none => exact return_rel h d
    | some v => exact return_rel h _
  | map i r f => exact asRet_unit_rel (map_rel h (fresh (by simp [Op.makes])) f)
  | andThen i r f => exact asRet_unit_rel (andThen_rel h (fresh (by simp [Op.makes])) f)
  | orElse i r mv x => exact asRet_unit_rel (orElse_rel h (fresh (by simp [Op.makes])) mv x)
  | cmp o rel i j => exact asRet_same_rel (compare_rel h o rel)
  | cmpNone o i =>
    refine asRet_same_rel ?_
    unfold Spec.compareNone compareNull
    refine rel_bind (obj_rel (i := i) h) ?_
    rintro x a _ s ⟨rfl, rfl, _, rfl⟩
    cases x <;> cases o <;> exact ⟨rfl, h⟩
  | noneCmp o i =>
    refine asRet_same_rel ?_
    unfold Spec.noneCompare nullCompare
    refine rel_bind (obj_rel (i := i) h) ?_
    rintro x a _ s ⟨rfl, rfl, _, rfl⟩
    cases x <;> cases o <;> exact ⟨rfl, h⟩
  | cmpVal o rel i v =>
    refine asRet_same_rel ?_
    unfold Spec.compareVal compareVal
    refine rel_bind (obj_rel (i := i) h) ?_
    rintro x a _ s ⟨rfl, rfl, hx, rfl⟩
    cases x with
    | none => cases o <;> exact ⟨rfl, h⟩
    | some u =>
      refine (?_ : Out.Rel _ _ _ ((do let x ← deref i; invoke0 P (rel o x v)) s))
      simp only [bind_run, deref, Std.obj, h.obj i, hx, Option.map, rep, obind_ok, pure_run]
      exact rel_mono (invoke0_rel h _) (fun _ _ _ _ hh => ⟨hh.1, hh.2.1⟩) (fun _ _ => id)
  | valCmp o rel v i =>
    refine asRet_same_rel ?_
    unfold Spec.valCompare valCompare
    refine rel_bind (obj_rel (i := i) h) ?_
    rintro x a _ s ⟨rfl, rfl, hx, rfl⟩
    cases x with
    | none => cases o <;> exact ⟨rfl, h⟩
    | some u =>
      refine (?_ : Out.Rel _ _ _ ((do let x ← deref i; invoke0 P (rel o v x)) s))
      simp only [bind_run, deref, Std.obj, h.obj i, hx, Option.map, rep, obind_ok, pure_run]
      exact rel_mono (invoke0_rel h _) (fun _ _ _ _ hh => ⟨hh.1, hh.2.1⟩) (fun _ _ => id)
  | hash i f =>
    refine asRet_same_rel ?_
    unfold Spec.hash hash
    refine rel_bind (obj_rel (i := i) h) ?_
    rintro x a _ s ⟨rfl, rfl, hx, rfl⟩
    cases x with
    | none => exact ⟨rfl, h⟩
    | some u =>
      refine (?_ : Out.Rel _ _ _ ((do let x ← deref i; invoke0 P (f x)) s))
      simp only [bind_run, deref, Std.obj, h.obj i, hx, Option.map, rep, obind_ok, pure_run]
      exact rel_mono (invoke0_rel h _) (fun _ _ _ _ hh => ⟨hh.1, hh.2.1⟩) (fun _ _ => id)
  | forEach i f =>
    refine asRet_unit_rel ?_
    unfold Spec.inspect forEach
    refine rel_bind (obj_rel (i := i) h) ?_
    rintro x a _ s ⟨rfl, rfl, hx, rfl⟩
    cases x with
    | none => exact h
    | some u => exact rel_mono (invoke_rel h f) (fun _ _ _ _ hh => hh.2.1) (fun _ _ => id)
  | _ => exact rel_ub _

/-- one operation -/
theorem runOp_rel (hP : P.OK) (hB : P.ScalarsKeep) (h : SR P a s) (op : Op Val) :
    Out.Rel (fun u a' v s' => u = v ∧ SR P a' s') (SR P) (Spec.runOp P op a) (runOp P 0 op s) := by
  unfold runOp
  split
  · rename_i hp
    exact body_rel hP hB h op hp
  · exact rel_ub _

/-- a history -/
theorem run_rel (hP : P.OK) (hB : P.ScalarsKeep) : ∀ (ops : List (Op Val)) {a : AState Val} {s : State Val}, SR P a s →
    Out.Rel (fun u a' v s' => u = v ∧ SR P a' s') (fun _ _ => False) (Spec.run P ops a) (run P 0 ops s)
  | [], _, _, h => ⟨rfl, h⟩
  | op :: ops, a, s, h => by
    unfold Spec.run run
    refine rel_bind (B := fun u a' v s' => u = v ∧ SR P a' s') ?_ ?_
    · have ho := runOp_rel hP hB h op
      revert ho
      simp only [Prog.catch_]
      cases runOp P 0 op s with
      | ub => intro _; exact rel_ub _
      | ok v s' => cases Spec.runOp P op a <;> intro ho <;> first | exact ho | exact ho.elim
      | throw s' =>
        cases Spec.runOp P op a <;> intro ho <;> first | exact ⟨rfl, ho⟩ | exact ho.elim
      | verify => cases Spec.runOp P op a <;> intro ho <;> first | exact ho | exact ho.elim
    · rintro r a1 _ s1 ⟨rfl, h1⟩
      refine rel_bind (run_rel hP hB ops h1) ?_
      rintro rs a2 _ s2 ⟨rfl, h2⟩
      exact ⟨rfl, h2⟩

end Opt.Std
