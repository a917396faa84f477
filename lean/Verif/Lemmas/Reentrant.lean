import Verif.Spec.Reentrant
import Verif.Lemmas.History
import Verif.Lemmas.Decide

/-!
# The machine and the specification run client code alike
-/

namespace Opt

variable {Val : Type} {P : Prog Val}

namespace Prog

theorem enter_run {w : World} {a : AState Val} {i : Nat} {v : Val} (h : R P w a) (hi : a.mem i = some (some v)) :
    ∃ w', P.enter i w = .ok v w' ∧ Spec.enter P i a = .ok () (Spec.inside i a) ∧ R P w' (Spec.inside i a) := by
  obtain ⟨oi, hoi, hri⟩ := h.some' hi
  refine ⟨{ w with env := ⟨a.env.tick + 1, a.env.log ++ [.call i true]⟩ }, ?_, ?_, h.envs _⟩
  · simp only [enter, bind_run, getCheck_run hoi hri, Option.isSome_some, check_true, obind_ok, readT_run hoi hri,
      userOp_run, pure_run, Env.use, ite_self, h.env]
  · simp only [Spec.enter, bind_run, Spec.user_run, obind_ok, pure_run, Env.use, ite_self, Spec.inside]

theorem enter0_run {w : World} {a : AState Val} (h : R P w a) :
    ∃ w', P.enter0 w = .ok () w' ∧ Spec.enter0 P a = .ok () (Spec.inside0 a) ∧ R P w' (Spec.inside0 a) := by
  refine ⟨{ w with env := ⟨a.env.tick + 1, a.env.log ++ [.call0 true]⟩ }, ?_, ?_, h.envs _⟩
  · simp only [enter0, bind_run, obind_ok, userOp_run, pure_run, Env.use, ite_self, h.env]
  · simp only [Spec.enter0, bind_run, Spec.user_run, obind_ok, pure_run, Env.use, ite_self, Spec.inside0]

/-- if there is a value, the callable is called with it -/
theorem branch_sim {α : Type} {B : α → World → α → AState Val → Prop} {w : World} {a : AState Val} {i : Nat}
    {x : Val → M World α} {y : M World α} {x' : Val → M (AState Val) α} {y' : M (AState Val) α} (h : R P w a)
    (hx : ∀ v, a.mem i = some (some v) → ∀ w', R P w' (Spec.inside i a) →
      Out.Rel B (R P) (x v w') (x' v (Spec.inside i a)))
    (hy : a.mem i = some none → Out.Rel B (R P) (y w) (y' a)) :
    Out.Rel B (R P)
      ((do
        let h ← P.hasValue i
        if h then do
          let v ← P.enter i
          x v
        else y) w)
      ((do
        match ← Spec.get i with
        | some v => do
          Spec.enter P i
          x' v
        | none => y') a) := by
  simp only [bind_run]
  cases hi : a.mem i with
  | none => simp only [Spec.get_none hi, obind_ub]; exact rel_ub _
  | some z =>
    obtain ⟨oi, hoi, hri⟩ := h.some' hi
    simp only [Spec.get_run hi, obind_ok, hasValue_run hoi hri]
    cases z with
    | none => exact hy hi
    | some v =>
      obtain ⟨w', e1, e2, h'⟩ := enter_run h hi
      simp only [Option.isSome_some, if_true, bind_run, e1, e2, obind_ok]
      exact hx v hi w' h'

/-- the loop over an option is `inspect` -/
theorem forEachBy_eq {w : World} {a : AState Val} {i : Nat} {f : Val → M World Unit} {x : Option Val} (h : R P w a)
    (hi : a.mem i = some x) : P.forEachBy i f w = P.inspectBy i f w := by
  obtain ⟨oi, hoi, hri⟩ := h.some' hi
  cases x with
  | none =>
    simp only [forEachBy, inspectBy, begin_, end_, bind_run, hasValue_run hoi hri, obind_ok, Option.isSome_none,
      Bool.false_eq_true, if_false, pure_run]
    rfl
  | some v =>
    simp only [forEachBy, inspectBy, begin_, end_, bind_run, hasValue_run hoi hri, obind_ok, Option.isSome_some, if_true,
      getCheck_run hoi hri, check_true, pure_run, enter]
    have e1 : Iter.ptrAdd single i 0 1 = .ok (.elem i 1) := rfl
    have e2 : Iter.deref single (.elem i 0) = .ok (i, 0) := rfl
    have e3 : Iter.inc single (.elem i 0) = .ok (.elem i 1) := rfl
    have e4 : Iter.ne (.elem i 0) (.elem i 1) = true := by simp [Iter.ne]
    have e5 : Iter.ne (.elem i 1) (.elem i 1) = false := by simp [Iter.ne]
    simp only [forLoopBy, e1, e2, e3, e4, e5, liftRes, pure_run, obind_ok, if_true, bind_run, Bool.false_eq_true, if_false,
      readT_run hoi hri, userOp_run]
    cases f v { w with env := w.env.use P (.call i true) (.call i true) } with
    | ok u w1 =>
      simp only [obind_ok, bind_run, pure_run, e5, Bool.false_eq_true, if_false]
    | throw _ => rfl
    | verify => rfl
    | ub => rfl

theorem vals_mem : ∀ {is : List Nat} {a : AState Val} {vs : List Val} {a' : AState Val}, Spec.vals is a = .ok vs a' →
    a' = a ∧ Spec.values a is = some vs
  | [], _, _, _, h => by cases h; exact ⟨rfl, rfl⟩
  | i :: is, a, vs, a', h => by
    simp only [Spec.vals, bind_run] at h
    cases hi : a.mem i with
    | none => simp only [Spec.val_no hi, obind_ub] at h; cases h
    | some x =>
      cases x with
      | none => simp only [Spec.val_none hi, obind_ub] at h; cases h
      | some v =>
        simp only [Spec.val_run hi, obind_ok, bind_run] at h
        cases hr : Spec.vals is a with
        | ok us a1 =>
          obtain ⟨rfl, e⟩ := vals_mem hr
          simp only [hr, obind_ok, pure_run] at h
          cases h
          exact ⟨rfl, by simp only [Spec.values, hi, e]⟩
        | throw _ => simp only [hr, obind_throw] at h; cases h
        | verify => simp only [hr, obind_verify] at h; cases h
        | ub => simp only [hr, obind_ub] at h; cases h

/-- the result of a related run satisfies what holds of every result of the specification -/
theorem rel_then_spec {α : Type} {x : Out World α} {y : Out (AState Val) α} {p : α → AState Val → Prop}
    {B : α → World → α → AState Val → Prop} {C : World → AState Val → Prop} (h : Out.Rel B C x y) (hp : Spec.Then y p) :
    Out.Rel (fun b w' b' a' => B b w' b' a' ∧ p b' a') C x y := by
  cases y with
  | ub => exact rel_ub _
  | ok b a =>
    cases x with
    | ok _ _ => exact ⟨h, hp⟩
    | _ => exact h.elim
  | throw _ => cases x <;> exact h
  | verify => cases x <;> exact h

mutual
theorem code_sim (hP : P.OK) (hT : P.ThrowSafe) : ∀ {t : Want} (c : Code Val t) {w : World} {a : AState Val},
    R P w a → c.Typed P a →
    Out.Rel (fun b w' b' a' => b = b' ∧ R P w' a') (R P) (P.runCode c w) (Spec.runCode P c a)
  | _, .ret x, w, a, h, _ => by
    simp only [runCode, Spec.runCode]; exact ⟨rfl, h⟩
  | _, .fail, w, a, h, _ => by
    simp only [runCode, Spec.runCode]; exact h
  | _, .op o k, w, a, h, ht => by
    simp only [runCode, Spec.runCode]
    simp only [Code.Typed] at ht
    refine rel_bind (rel_nothrow (rel_then_spec (catch_sim (runOp_sim hP hT h ht.1)) ht.2)) ?_
    rintro r w1 _ a1 ⟨⟨rfl, h1⟩, ht1⟩
    exact code_sim hP hT (k r) h1 ht1
  | _, .call c k, w, a, h, ht => by
    simp only [runCode, Spec.runCode]
    simp only [Code.Typed] at ht
    refine rel_bind (rel_nothrow (rel_then_spec (catch_sim (cop_sim hP hT c h ht.1)) ht.2)) ?_
    rintro r w1 _ a1 ⟨⟨rfl, h1⟩, ht1⟩
    exact code_sim hP hT (k r) h1 ht1
  | _, .look i k, w, a, h, ht => by
    simp only [runCode, Spec.runCode, bind_run]
    simp only [Code.Typed] at ht
    cases hi : a.mem i with
    | none => simp only [Spec.val_no hi, obind_ub]; exact rel_ub _
    | some x =>
      cases x with
      | none => simp only [Spec.val_none hi, obind_ub]; exact rel_ub _
      | some v =>
        obtain ⟨oi, hoi, hri⟩ := h.some' hi
        simp only [Spec.val_run hi, readT_run hoi hri, obind_ok]
        exact code_sim hP hT (k v) h (ht v hi)
  | _, .write i v k, w, a, h, ht => by
    simp only [runCode, Spec.runCode, bind_run]
    simp only [Code.Typed] at ht
    cases hi : a.mem i with
    | none => simp only [Spec.val_no hi, obind_ub]; exact rel_ub _
    | some x =>
      cases x with
      | none => simp only [Spec.val_none hi, obind_ub]; exact rel_ub _
      | some u =>
        obtain ⟨o1, e1, r1⟩ := writeT_sim hP (i := i) (n := w.env.tick) h hi ht.1
        simp only [Spec.val_run hi, now_run, obind_ok, bind_run, e1, Spec.put_run]
        exact code_sim hP hT k r1 ht.2
theorem cop_sim (hP : P.OK) (hT : P.ThrowSafe) : ∀ (c : COp Val) {w : World} {a : AState Val},
    R P w a → c.Typed P a →
    Out.Rel (fun b w' b' a' => b = b' ∧ R P w' a') (R P) (P.runCOp c w) (Spec.runCOp P c a)
  | .takeIf i r f, w, a, h, ht => by
    simp only [runCOp, Spec.runCOp]
    simp only [COp.Typed] at ht
    refine asRet_unit (branch_sim h (fun v hi w1 h1 => ?_) fun _ => rel_nothrow (ctorDefault_sim hP h))
    refine rel_bind (code_sim hP hT (f v) h1 (ht v hi)) ?_
    rintro b w2 _ a2 ⟨rfl, h2⟩
    cases b
    · exact rel_nothrow (ctorDefault_sim hP h2)
    · exact take_sim hP (fun _ => .of hT _ _ _) h2
  | .hasValueAnd i f, w, a, h, ht => by
    simp only [runCOp, Spec.runCOp]
    simp only [COp.Typed] at ht
    exact asRet_val (branch_sim h (fun v hi w1 h1 => code_sim hP hT (f v) h1 (ht v hi)) fun _ => ⟨rfl, h⟩)
  | .inspect i f, w, a, h, ht => by
    simp only [runCOp, Spec.runCOp]
    simp only [COp.Typed] at ht
    exact asRet_val (branch_sim h (fun v hi w1 h1 => code_sim hP hT (f v) h1 (ht v hi)) fun _ => ⟨rfl, h⟩)
  | .forEach i f, w, a, h, ht => by
    simp only [runCOp, Spec.runCOp]
    simp only [COp.Typed] at ht
    cases hi : a.mem i with
    | none => simp only [asRet, bind_run, Spec.get_none hi, obind_ub]; exact rel_ub _
    | some x =>
      have e : asRet (fun _ => Ret.unit) (P.forEachBy i fun v => P.runCode (f v)) w
          = asRet (fun _ => (Ret.unit : Ret Val)) (P.inspectBy i fun v => P.runCode (f v)) w := by
        simp only [asRet, bind_run, forEachBy_eq h hi]
      rw [e]
      exact asRet_val (branch_sim h (fun v hi w1 h1 => code_sim hP hT (f v) h1 (ht v hi)) fun _ => ⟨rfl, h⟩)
  | .mapOr i d f, w, a, h, ht => by
    simp only [runCOp, Spec.runCOp]
    simp only [COp.Typed] at ht
    refine asRet_val (branch_sim h (fun v hi w1 h1 => code_sim hP hT (f v) h1 (ht v hi)) fun _ => ?_)
    simp only [bind_run, userOp_run, Spec.user_run, obind_ok]
    rw [h.env]
    have h2 := h.envs (a.env.use P (.tmpCtor .args true) (.tmpCtor .args false))
    cases P.throwsAt a.env.tick
    · exact ⟨rfl, h2⟩
    · exact h2
  | .mapOrElse i d f, w, a, h, ht => by
    simp only [runCOp, Spec.runCOp]
    simp only [COp.Typed] at ht
    refine asRet_val (branch_sim h (fun v hi w1 h1 => code_sim hP hT (f v) h1 (ht.1 v hi)) fun hi => ?_)
    obtain ⟨w', e1, e2, h'⟩ := enter0_run (P := P) h
    simp only [bind_run, e1, e2, obind_ok]
    exact code_sim hP hT d h' (ht.2 hi)
  | .map i r f, w, a, h, ht => by
    simp only [runCOp, Spec.runCOp]
    simp only [COp.Typed] at ht
    refine asRet_unit (branch_sim h (fun v hi w1 h1 => ?_) fun _ => rel_nothrow (ctorDefault_sim hP h))
    refine rel_bind (rel_then_spec (code_sim hP hT (f v) h1 (ht v hi).1) (ht v hi).2) ?_
    rintro b w2 _ a2 ⟨⟨rfl, h2⟩, hd⟩
    exact ctorValue_sim (i := r) (src := .args b) hP h2 hd
  | .andThen i r f, w, a, h, ht => by
    simp only [runCOp, Spec.runCOp]
    simp only [COp.Typed] at ht
    refine asRet_unit (branch_sim h (fun v hi w1 h1 => ?_) fun _ => rel_nothrow (ctorDefault_sim hP h))
    refine rel_bind (rel_then_spec (code_sim hP hT (f v) h1 (ht v hi).1) (ht v hi).2) ?_
    rintro b w2 _ a2 ⟨⟨rfl, h2⟩, hd⟩
    exact makeOption_sim hP h2 hd
  | .orElse i r mv d, w, a, h, ht => by
    simp only [runCOp, Spec.runCOp]
    simp only [COp.Typed] at ht
    refine asRet_unit ?_
    simp only [orElseBy, bind_run]
    cases hi : a.mem i with
    | none => simp only [Spec.get_none hi, obind_ub]; exact rel_ub _
    | some z =>
      obtain ⟨oi, hoi, hri⟩ := h.some' hi
      simp only [Spec.get_run hi, obind_ok, hasValue_run hoi hri]
      cases z with
      | some v => exact ctorFrom_sim hP (fun _ => .of hT _ _ _) h
      | none =>
        obtain ⟨w', e1, e2, h'⟩ := enter0_run (P := P) h
        simp only [Option.isSome_none, Bool.false_eq_true, if_false, bind_run, e1, e2, obind_ok]
        refine rel_bind (rel_then_spec (code_sim hP hT d h' (ht hi).1) (ht hi).2) ?_
        rintro b w2 _ a2 ⟨⟨rfl, h2⟩, hd⟩
        exact makeOption_sim hP h2 hd
  | .filter i r mv f, w, a, h, ht => by
    simp only [runCOp, Spec.runCOp]
    simp only [COp.Typed] at ht
    refine asRet_unit (branch_sim h (fun v hi w1 h1 => ?_) fun _ => rel_nothrow (ctorDefault_sim hP h))
    refine rel_bind (code_sim hP hT (f v) h1 (ht v hi)) ?_
    rintro b w2 _ a2 ⟨rfl, h2⟩
    cases b
    · exact rel_nothrow (ctorDefault_sim hP h2)
    · exact ctorValue_sim (i := r) (src := .opt i mv) hP h2 trivial
  | .zipWith is r f, w, a, h, ht => by
    simp only [runCOp, Spec.runCOp]
    simp only [COp.Typed] at ht
    refine asRet_unit (rel_bind (rel_nothrow (allHave_sim h _)) ?_)
    rintro b w' b' a' ⟨rfl, rfl, rfl, hb⟩
    cases b
    · exact rel_nothrow (ctorDefault_sim hP h)
    · have hall : ∀ i ∈ is, ∃ v, a'.mem i = some (some v) :=
        fun i hi => hb rfl (i, false) (List.mem_map.2 ⟨i, hi, rfl⟩)
      refine rel_bind (rel_nothrow (rel_then_spec (p := fun vs _ => Spec.values a' is = some vs)
        (zipArgs_sim is h hall) ?_)) ?_
      · simp only [Spec.Then]
        split
        · rename_i vs a2 e
          exact (vals_mem e).2
        · trivial
      · rintro vs w2 _ a2 ⟨⟨rfl, rfl, rfl, _⟩, hm⟩
        obtain ⟨w', e1, e2, h'⟩ := enter0_run (P := P) h
        simp only [bind_run, e1, e2, obind_ok]
        refine rel_bind (rel_then_spec (code_sim hP hT (f vs) h' (ht vs hm).1) (ht vs hm).2) ?_
        rintro b w3 _ a3 ⟨⟨rfl, h3⟩, hd⟩
        exact rel_bind (rel_onThrow (ctorArg_sim hP h3 hd) fun _ _ h => dropTmp_sim h)
          fun _ _ _ _ h => rel_nothrow (dropTmp_sim h)
end

end Prog

namespace Spec

variable {B : Base} {a : AState Val}

theorem safe_then {α : Type} {p : α → AState Val → Prop} {x : Out (AState Val) α} {G : α → AState Val → Prop}
    {T : AState Val → Prop} (h : Out.Safe G T x) (hp : Then x p) : Out.Safe (fun b a' => G b a' ∧ p b a') T x := by
  cases x with
  | ok b a => exact ⟨h, hp⟩
  | throw _ => exact h
  | verify => exact h
  | ub => exact h

theorem allHave_stop : ∀ {is : List (Nat × Bool)} {a : AState Val}, Then (allHave is a) fun b _ => b = false →
    ∃ p ∈ is, a.mem p.1 = some none
  | [], _ => fun h => by cases h
  | (i, mv) :: is, a => by
    simp only [allHave, bind_run]
    cases hi : a.mem i with
    | none => simp only [get_none hi, obind_ub, Then]
    | some x =>
      simp only [get_run hi, obind_ok]
      cases x with
      | none => exact fun _ => ⟨_, List.mem_cons_self, hi⟩
      | some v =>
        have ih := @allHave_stop is a
        simp only [Then] at ih ⊢
        revert ih
        cases allHave is a with
        | ok b a' =>
          intro ih hb
          obtain ⟨p, hp, e⟩ := ih hb
          exact ⟨p, List.mem_cons_of_mem _ hp, e⟩
        | _ => exact fun h => h

theorem inside_st {s : Nat → Option Bool} (h : St B P s a) {i : Nat} {v : Val} (hi : a.mem i = some (some v)) :
    St B P s (inside i a) := h.event (step_call (h.of_mem hi) _)

theorem inside0_st {s : Nat → Option Bool} (h : St B P s a) : St B P s (inside0 a) := h.event rfl

theorem enter_run (a : AState Val) (i : Nat) : enter P i a = .ok () (inside i a) := by
  simp only [enter, bind_run, user_run, obind_ok, pure_run, Env.use, ite_self, inside]

theorem enter0_run (a : AState Val) : enter0 P a = .ok () (inside0 a) := by
  simp only [enter0, bind_run, user_run, obind_ok, pure_run, Env.use, ite_self, inside0]

/-- if there is a value, the callable is called with it -/
theorem branch_good {α : Type} {i : Nat} {x : Val → M (AState Val) α} {y : M (AState Val) α} (h : Fine B P a)
    (he : a.mem i ≠ none)
    (hx : ∀ v, a.mem i = some (some v) → Fine B P (inside i a) → Good B P (x v (inside i a)))
    (hy : a.mem i = some none → Good B P (y a)) :
    Good B P
      ((do
        match ← Spec.get i with
        | some v => do
          Spec.enter P i
          x v
        | none => y) a) := by
  obtain ⟨z, hi⟩ := Option.ne_none_iff_exists'.1 he
  obtain ⟨s, hs⟩ := h
  simp only [bind_run, get_run hi, obind_ok]
  cases z with
  | none => exact hy hi
  | some v =>
    simp only [bind_run, enter_run, obind_ok]
    exact hx v hi ⟨s, inside_st hs hi⟩

theorem new_good (h : Fine B P a) {r : Nat} (hr : a.mem r = none) : Good B P (new r a) :=
  let ⟨_, hs⟩ := h
  good_of' (new_safe hs (hs.of_none hr))

theorem ctorValue_good (hP : P.OK) (h : Fine B P a) {r : Nat} {src : Src Val} (hr : a.mem r = none)
    (hu : ∀ j ∈ Op.srcUses src, a.mem j ≠ none) : Good B P (ctorValue P r src a) := by
  obtain ⟨s, hs⟩ := h
  refine safe_bind (safe_nothrow (evalArg_safe hs hu)) ?_
  rintro _ a' ⟨rfl, ho⟩
  exact good_of (create_safe hP hs (hs.of_none hr) ho)

theorem make_good (hP : P.OK) (h : Fine B P a) {r : Nat} {x : Option Val} (hr : a.mem r = none) :
    Good B P (make P r x a) :=
  let ⟨_, hs⟩ := h
  make_safe hP hs (hs.of_none hr) x

mutual
theorem code_good (hP : P.OK) : ∀ {t : Want} (c : Code Val t) {a : AState Val}, Fine B P a → c.Allowed P a →
    Good B P (runCode P c a)
  | _, .ret x, a, h, _ => by
    simp only [runCode]; exact h
  | _, .fail, a, h, _ => by
    simp only [runCode]; exact h
  | _, .op o k, a, h, ht => by
    simp only [runCode]
    simp only [Code.Allowed] at ht
    obtain ⟨s, hs⟩ := h
    refine safe_bind (safe_nothrow (safe_then (catch_good (runOp_good hP hs ht.1)) ht.2)) ?_
    rintro r a1 ⟨h1, h2⟩
    exact code_good hP (k r) h1 h2
  | _, .call c k, a, h, ht => by
    simp only [runCode]
    simp only [Code.Allowed] at ht
    refine safe_bind (safe_nothrow (safe_then (catch_good (cop_good hP c h ht.1)) ht.2)) ?_
    rintro r a1 ⟨h1, h2⟩
    exact code_good hP (k r) h1 h2
  | _, .look i k, a, h, ht => by
    simp only [runCode, bind_run]
    simp only [Code.Allowed] at ht
    obtain ⟨v, hi, ht⟩ := ht
    simp only [val_run hi, obind_ok]
    exact code_good hP (k v) h ht
  | _, .write i v k, a, h, ht => by
    simp only [runCode, bind_run]
    simp only [Code.Allowed] at ht
    obtain ⟨⟨u, hi⟩, ht⟩ := ht
    obtain ⟨s, hs⟩ := h
    simp only [val_run hi, obind_ok, bind_run, put_run]
    exact code_good hP k ⟨s, hs.put (hs.of_mem hi)⟩ ht
theorem cop_good (hP : P.OK) : ∀ (c : COp Val) {a : AState Val}, Fine B P a → c.Allowed P a → Good B P (runCOp P c a)
  | .takeIf i r f, a, h, ht => by
    simp only [runCOp]
    simp only [COp.Allowed] at ht
    obtain ⟨he, hn, hv⟩ := ht
    refine asRet_good (branch_good h he (fun v hi h1 => ?_) fun hi => new_good h (hn hi))
    refine safe_bind (safe_then (code_good hP (f v) h1 (hv v hi).1) (hv v hi).2) ?_
    rintro b a2 ⟨h2, hr, hb⟩
    cases b
    · exact new_good h2 hr
    · obtain ⟨s, hs⟩ := h2
      exact take_good hP hs (hs.of_none hr) (hb rfl)
  | .hasValueAnd i f, a, h, ht => by
    simp only [runCOp]
    simp only [COp.Allowed] at ht
    exact asRet_good (branch_good h ht.1 (fun v hi h1 => code_good hP (f v) h1 (ht.2 v hi)) fun _ => h)
  | .inspect i f, a, h, ht => by
    simp only [runCOp]
    simp only [COp.Allowed] at ht
    exact asRet_good (branch_good h ht.1 (fun v hi h1 => code_good hP (f v) h1 (ht.2 v hi)) fun _ => h)
  | .forEach i f, a, h, ht => by
    simp only [runCOp]
    simp only [COp.Allowed] at ht
    exact asRet_good (branch_good h ht.1 (fun v hi h1 => code_good hP (f v) h1 (ht.2 v hi)) fun _ => h)
  | .mapOr i d f, a, h, ht => by
    simp only [runCOp]
    simp only [COp.Allowed] at ht
    refine asRet_good (branch_good h ht.1 (fun v hi h1 => code_good hP (f v) h1 (ht.2 v hi)) fun _ => ?_)
    obtain ⟨s, hs⟩ := h
    simp only [bind_run, user_run, obind_ok]
    have h1 : ∀ b, St B P s { a with env := ⟨a.env.tick + 1, a.env.log ++ [.tmpCtor .args b]⟩ } := fun b => hs.event rfl
    cases hthr : P.throwsAt a.env.tick
    · exact ⟨s, by simpa [Env.use, hthr] using h1 true⟩
    · exact ⟨s, by simpa [Env.use, hthr] using h1 false⟩
  | .mapOrElse i d f, a, h, ht => by
    simp only [runCOp]
    simp only [COp.Allowed] at ht
    refine asRet_good (branch_good h ht.1 (fun v hi h1 => code_good hP (f v) h1 (ht.2.1 v hi)) fun hi => ?_)
    obtain ⟨s, hs⟩ := h
    simp only [bind_run, enter0_run, obind_ok]
    exact code_good hP d ⟨s, inside0_st hs⟩ (ht.2.2 hi)
  | .map i r f, a, h, ht => by
    simp only [runCOp]
    simp only [COp.Allowed] at ht
    obtain ⟨he, hn, hv⟩ := ht
    refine asRet_good (branch_good h he (fun v hi h1 => ?_) fun hi => new_good h (hn hi))
    refine safe_bind (safe_then (code_good hP (f v) h1 (hv v hi).1) (hv v hi).2) ?_
    rintro b a2 ⟨h2, hr⟩
    exact ctorValue_good hP h2 hr (by simp [Op.srcUses])
  | .andThen i r f, a, h, ht => by
    simp only [runCOp]
    simp only [COp.Allowed] at ht
    obtain ⟨he, hn, hv⟩ := ht
    refine asRet_good (branch_good h he (fun v hi h1 => ?_) fun hi => new_good h (hn hi))
    refine safe_bind (safe_then (code_good hP (f v) h1 (hv v hi).1) (hv v hi).2) ?_
    rintro b a2 ⟨h2, hr⟩
    exact make_good hP h2 hr
  | .orElse i r mv d, a, h, ht => by
    simp only [runCOp]
    simp only [COp.Allowed] at ht
    obtain ⟨he, hv, hn⟩ := ht
    obtain ⟨z, hi⟩ := Option.ne_none_iff_exists'.1 he
    obtain ⟨s, hs⟩ := h
    refine asRet_good ?_
    simp only [bind_run, get_run hi, obind_ok]
    cases z with
    | some v =>
      exact safe_mono (ctorFrom_safe hP hs (hs.of_none (hv v hi)) he) (fun _ _ ⟨_, h⟩ => ⟨_, h⟩) (fun _ h => ⟨_, h⟩)
    | none =>
      simp only [bind_run, enter0_run, obind_ok]
      refine safe_bind (safe_then (code_good hP d ⟨s, inside0_st hs⟩ (hn hi).1) (hn hi).2) ?_
      rintro b a2 ⟨h2, hr⟩
      exact make_good hP h2 hr
  | .filter i r mv f, a, h, ht => by
    simp only [runCOp]
    simp only [COp.Allowed] at ht
    obtain ⟨he, hn, hv⟩ := ht
    refine asRet_good (branch_good h he (fun v hi h1 => ?_) fun hi => new_good h (hn hi))
    refine safe_bind (safe_then (code_good hP (f v) h1 (hv v hi).1) (hv v hi).2) ?_
    rintro b a2 ⟨h2, hr, hb⟩
    cases b
    · exact new_good h2 hr
    · exact ctorValue_good hP h2 hr (by simpa [Op.srcUses] using hb rfl)
  | .zipWith is r f, a, h, ht => by
    simp only [runCOp]
    simp only [COp.Allowed] at ht
    obtain ⟨he, hn, hv⟩ := ht
    obtain ⟨s, hs⟩ := h
    refine asRet_good (safe_bind (safe_nothrow (safe_then (p := fun b _ => b = false → ∃ i ∈ is, a.mem i = some none)
      (allHave_safe hs ?_) ?_)) ?_)
    · intro p hp
      obtain ⟨i, hi, rfl⟩ := List.mem_map.1 hp
      exact he i hi
    · have := allHave_stop (is := is.map (·, false)) (a := a)
      simp only [Then] at this ⊢
      revert this
      cases allHave (is.map (·, false)) a with
      | ok b a' =>
        intro ih hb
        obtain ⟨p, hp, e⟩ := ih hb
        obtain ⟨i, hi, rfl⟩ := List.mem_map.1 hp
        exact ⟨i, hi, e⟩
      | _ => exact fun h => h
    · rintro b a' ⟨⟨rfl, hb⟩, hf⟩
      cases b
      · exact new_good ⟨s, hs⟩ (hn (hf rfl))
      · refine safe_bind (safe_nothrow (safe_then (p := fun vs _ => Spec.values a' is = some vs)
          (vals_safe hs fun i hi => hb rfl (i, false) (List.mem_map.2 ⟨i, hi, rfl⟩)) ?_)) ?_
        · simp only [Then]
          split
          · rename_i vs a2 e
            exact (Prog.vals_mem e).2
          · trivial
        · rintro vs _ ⟨rfl, hm⟩
          simp only [bind_run, enter0_run, obind_ok]
          refine safe_bind (safe_then (code_good hP (f vs) ⟨s, inside0_st hs⟩ (hv vs hm).1) (hv vs hm).2) ?_
          rintro b a3 ⟨⟨s3, h3⟩, hr⟩
          exact safe_bind (safe_mono (safe_onThrow (create_safe hP h3 (h3.of_none hr) trivial) fun _ h => dropTmp_safe h r)
            (fun _ _ h => h) (fun _ h => ⟨_, h⟩)) fun _ _ h => good_of' (dropTmp_safe h r)
end

end Spec

/-! ## Conditions on programs that do not mention runs -/

mutual
/-- whatever the operations it uses give, the code puts only values of their types into options, and what it returns satisfies `Q` -/
def Code.Fits (P : Prog Val) : {t : Want} → Code Val t → (t.Res Val → Prop) → Prop
  | _, .ret x, Q => Q x
  | _, .fail, _ => True
  | _, .op o k, Q => o.Legal P ∧ ∀ r, Code.Fits P (k r) Q
  | _, .call c k, Q => COp.Fits P c ∧ ∀ r, Code.Fits P (k r) Q
  | _, .look _ k, Q => ∀ v, Code.Fits P (k v) Q
  | _, .write i v k, Q => (P.elem i).Dom P.pw v ∧ Code.Fits P k Q
/-- the same for the callable of an operation -/
def COp.Fits (P : Prog Val) : COp Val → Prop
  | .takeIf _ _ f => ∀ v, Code.Fits P (f v) fun _ => True
  | .hasValueAnd _ f => ∀ v, Code.Fits P (f v) fun _ => True
  | .inspect _ f => ∀ v, Code.Fits P (f v) fun _ => True
  | .forEach _ f => ∀ v, Code.Fits P (f v) fun _ => True
  | .mapOr _ _ f => ∀ v, Code.Fits P (f v) fun _ => True
  | .mapOrElse _ d f => (∀ v, Code.Fits P (f v) fun _ => True) ∧ Code.Fits P d fun _ => True
  | .map _ r f => ∀ v, Code.Fits P (f v) fun b => (P.elem r).Dom P.pw b
  | .andThen _ r f => ∀ v, Code.Fits P (f v) fun x => ∀ u, x = some u → (P.elem r).Dom P.pw u
  | .orElse _ r _ d => Code.Fits P d fun x => ∀ u, x = some u → (P.elem r).Dom P.pw u
  | .filter _ _ _ f => ∀ v, Code.Fits P (f v) fun _ => True
  | .zipWith _ r f => ∀ vs, Code.Fits P (f vs) fun b => (P.elem r).Dom P.pw b
end

namespace Spec

theorem then_mono {α : Type} {x : Out (AState Val) α} {p q : α → AState Val → Prop} (h : Then x p)
    (hp : ∀ b a, p b a → q b a) : Then x q := by
  cases x with
  | ok b a => exact hp b a h
  | _ => trivial

theorem then_all {α : Type} {x : Out (AState Val) α} {p : α → AState Val → Prop} (h : ∀ b a, p b a) : Then x p := by
  cases x with
  | ok b a => exact h b a
  | _ => trivial

theorem then_bind {α β : Type} {x : M (AState Val) α} {f : α → M (AState Val) β} {p : β → AState Val → Prop}
    {a : AState Val} (h : ∀ b a', Then (f b a') p) : Then ((x >>= f) a) p := by
  simp only [bind_run]
  cases x a with
  | ok b a' => exact h b a'
  | _ => trivial

theorem fits_result : ∀ {t : Want} (c : Code Val t) {Q : t.Res Val → Prop}, c.Fits P Q → ∀ a,
    Then (runCode P c a) fun x _ => Q x
  | _, .ret x, Q, h, a => by
    simp only [Code.Fits] at h
    simp only [runCode]; exact h
  | _, .fail, Q, _, a => by
    simp only [runCode]; trivial
  | _, .op o k, Q, h, a => by
    simp only [Code.Fits] at h
    simp only [runCode]
    exact then_bind fun r a' => fits_result (k r) (h.2 r) a'
  | _, .call c k, Q, h, a => by
    simp only [Code.Fits] at h
    simp only [runCode]
    exact then_bind fun r a' => fits_result (k r) (h.2 r) a'
  | _, .look i k, Q, h, a => by
    simp only [Code.Fits] at h
    simp only [runCode]
    exact then_bind fun v a' => fits_result (k v) (h v) a'
  | _, .write i v k, Q, h, a => by
    simp only [Code.Fits] at h
    simp only [runCode]
    exact then_bind fun _ a' => then_bind fun _ a' => fits_result k h.2 a'

mutual
theorem fits_typed : ∀ {t : Want} (c : Code Val t) {Q : t.Res Val → Prop}, c.Fits P Q → ∀ a, c.Typed P a
  | _, .ret x, Q, h, a => by simp only [Code.Typed]
  | _, .fail, Q, _, a => by simp only [Code.Typed]
  | _, .op o k, Q, h, a => by
    simp only [Code.Fits] at h
    simp only [Code.Typed]
    exact ⟨h.1, then_all fun r a' => fits_typed (k r) (h.2 r) a'⟩
  | _, .call c k, Q, h, a => by
    simp only [Code.Fits] at h
    simp only [Code.Typed]
    exact ⟨fits_cop c h.1 a, then_all fun r a' => fits_typed (k r) (h.2 r) a'⟩
  | _, .look i k, Q, h, a => by
    simp only [Code.Fits] at h
    simp only [Code.Typed]
    exact fun v _ => fits_typed (k v) (h v) a
  | _, .write i v k, Q, h, a => by
    simp only [Code.Fits] at h
    simp only [Code.Typed]
    exact ⟨h.1, fits_typed k h.2 _⟩
theorem fits_cop : ∀ (c : COp Val), c.Fits P → ∀ a, c.Typed P a
  | .takeIf i r f, h, a => by
    simp only [COp.Fits] at h
    simp only [COp.Typed]
    exact fun v _ => fits_typed (f v) (h v) _
  | .hasValueAnd i f, h, a => by
    simp only [COp.Fits] at h
    simp only [COp.Typed]
    exact fun v _ => fits_typed (f v) (h v) _
  | .inspect i f, h, a => by
    simp only [COp.Fits] at h
    simp only [COp.Typed]
    exact fun v _ => fits_typed (f v) (h v) _
  | .forEach i f, h, a => by
    simp only [COp.Fits] at h
    simp only [COp.Typed]
    exact fun v _ => fits_typed (f v) (h v) _
  | .mapOr i d f, h, a => by
    simp only [COp.Fits] at h
    simp only [COp.Typed]
    exact fun v _ => fits_typed (f v) (h v) _
  | .mapOrElse i d f, h, a => by
    simp only [COp.Fits] at h
    simp only [COp.Typed]
    exact ⟨fun v _ => fits_typed (f v) (h.1 v) _, fun _ => fits_typed d h.2 _⟩
  | .map i r f, h, a => by
    simp only [COp.Fits] at h
    simp only [COp.Typed]
    exact fun v _ => ⟨fits_typed (f v) (h v) _, fits_result (f v) (h v) _⟩
  | .andThen i r f, h, a => by
    simp only [COp.Fits] at h
    simp only [COp.Typed]
    exact fun v _ => ⟨fits_typed (f v) (h v) _, fits_result (f v) (h v) _⟩
  | .orElse i r mv d, h, a => by
    simp only [COp.Fits] at h
    simp only [COp.Typed]
    exact fun _ => ⟨fits_typed d h _, fits_result d h _⟩
  | .filter i r mv f, h, a => by
    simp only [COp.Fits] at h
    simp only [COp.Typed]
    exact fun v _ => fits_typed (f v) (h v) _
  | .zipWith is r f, h, a => by
    simp only [COp.Fits] at h
    simp only [COp.Typed]
    exact fun vs _ => ⟨fits_typed (f vs) (h vs) _, fits_result (f vs) (h vs) _⟩
end

instance {α : Type} {x : Out (AState Val) α} {p : α → AState Val → Prop} [∀ b a, Decidable (p b a)] :
    Decidable (Then x p) :=
  match x with
  | .ok b a => inferInstanceAs (Decidable (p b a))
  | .throw _ => isTrue trivial
  | .verify => isTrue trivial
  | .ub => isTrue trivial

instance decAllVal {m : Option (Option Val)} {p : Val → Prop} [∀ v, Decidable (p v)] :
    Decidable (∀ v, m = some (some v) → p v) :=
  match m with
  | some (some v) => decidable_of_iff (p v) ⟨fun h _ e => by cases e; exact h, fun h => h v rfl⟩
  | some none => isTrue fun _ h => by cases h
  | none => isTrue fun _ h => by cases h

instance decExVal {m : Option (Option Val)} {p : Val → Prop} [∀ v, Decidable (p v)] :
    Decidable (∃ v, m = some (some v) ∧ p v) :=
  match m with
  | some (some v) => decidable_of_iff (p v) ⟨fun h => ⟨v, rfl, h⟩, fun ⟨_, e, h⟩ => by cases e; exact h⟩
  | some none => isFalse fun ⟨_, h, _⟩ => by cases h
  | none => isFalse fun ⟨_, h, _⟩ => by cases h

instance decSomeVal {m : Option (Option Val)} : Decidable (∃ v, m = some (some v)) :=
  match m with
  | some (some v) => isTrue ⟨v, rfl⟩
  | some none => isFalse fun ⟨_, h⟩ => by cases h
  | none => isFalse fun ⟨_, h⟩ => by cases h

instance decAllVals {m : Option (List Val)} {p : List Val → Prop} [∀ v, Decidable (p v)] :
    Decidable (∀ v, m = some v → p v) :=
  match m with
  | some v => decidable_of_iff (p v) ⟨fun h _ e => by cases e; exact h, fun h => h v rfl⟩
  | none => isTrue fun _ h => by cases h

instance decEmpty {m : Option (Option Val)} {p : Prop} [Decidable p] : Decidable (m = some none → p) :=
  match m with
  | some (some _) => isTrue fun h => by cases h
  | some none => decidable_of_iff p ⟨fun h _ => h, fun h => h rfl⟩
  | none => isTrue fun h => by cases h

instance decNo {m : Option (Option Val)} : Decidable (m = none) :=
  match m with
  | some _ => isFalse fun h => by cases h
  | none => isTrue rfl

instance decIsEmpty {m : Option (Option Val)} : Decidable (m = some none) :=
  match m with
  | some (some _) => isFalse fun h => by cases h
  | some none => isTrue rfl
  | none => isFalse fun h => by cases h

end Spec

mutual
/-- what a client must respect can be checked by running the specification -/
def Code.decAllowed [DecidableEq Val] (P : Prog Val) : {t : Want} → (c : Code Val t) → (a : AState Val) → Decidable (c.Allowed P a)
  | _, .ret _, _ => isTrue (by simp only [Code.Allowed])
  | _, .fail, _ => isTrue (by simp only [Code.Allowed])
  | _, .op _ k, _ =>
    have : ∀ r a', Decidable ((k r).Allowed P a') := fun r a' => Code.decAllowed P (k r) a'
    decidable_of_iff _ (by rw [Code.Allowed])
  | _, .call c k, a =>
    have : ∀ r a', Decidable ((k r).Allowed P a') := fun r a' => Code.decAllowed P (k r) a'
    have : Decidable (c.Allowed P a) := COp.decAllowed P c a
    decidable_of_iff _ (by rw [Code.Allowed])
  | _, .look _ k, a =>
    have : ∀ v, Decidable ((k v).Allowed P a) := fun v => Code.decAllowed P (k v) a
    decidable_of_iff _ (by rw [Code.Allowed])
  | _, .write _ _ k, _ =>
    have : ∀ a', Decidable (k.Allowed P a') := fun a' => Code.decAllowed P k a'
    decidable_of_iff _ (by rw [Code.Allowed])
/-- the same for operations with callables -/
def COp.decAllowed [DecidableEq Val] (P : Prog Val) : (c : COp Val) → (a : AState Val) → Decidable (c.Allowed P a)
  | .takeIf _ _ f, _ =>
    have : ∀ v a', Decidable ((f v).Allowed P a') := fun v a' => Code.decAllowed P (f v) a'
    decidable_of_iff _ (by rw [COp.Allowed])
  | .hasValueAnd _ f, _ =>
    have : ∀ v a', Decidable ((f v).Allowed P a') := fun v a' => Code.decAllowed P (f v) a'
    decidable_of_iff _ (by rw [COp.Allowed])
  | .inspect _ f, _ =>
    have : ∀ v a', Decidable ((f v).Allowed P a') := fun v a' => Code.decAllowed P (f v) a'
    decidable_of_iff _ (by rw [COp.Allowed])
  | .forEach _ f, _ =>
    have : ∀ v a', Decidable ((f v).Allowed P a') := fun v a' => Code.decAllowed P (f v) a'
    decidable_of_iff _ (by rw [COp.Allowed])
  | .mapOr _ _ f, _ =>
    have : ∀ v a', Decidable ((f v).Allowed P a') := fun v a' => Code.decAllowed P (f v) a'
    decidable_of_iff _ (by rw [COp.Allowed])
  | .mapOrElse _ d f, _ =>
    have : ∀ v a', Decidable ((f v).Allowed P a') := fun v a' => Code.decAllowed P (f v) a'
    have : ∀ a', Decidable (d.Allowed P a') := fun a' => Code.decAllowed P d a'
    decidable_of_iff _ (by rw [COp.Allowed])
  | .map _ _ f, _ =>
    have : ∀ v a', Decidable ((f v).Allowed P a') := fun v a' => Code.decAllowed P (f v) a'
    decidable_of_iff _ (by rw [COp.Allowed])
  | .andThen _ _ f, _ =>
    have : ∀ v a', Decidable ((f v).Allowed P a') := fun v a' => Code.decAllowed P (f v) a'
    decidable_of_iff _ (by rw [COp.Allowed])
  | .orElse _ _ _ d, _ =>
    have : ∀ a', Decidable (d.Allowed P a') := fun a' => Code.decAllowed P d a'
    decidable_of_iff _ (by rw [COp.Allowed])
  | .filter _ _ _ f, _ =>
    have : ∀ v a', Decidable ((f v).Allowed P a') := fun v a' => Code.decAllowed P (f v) a'
    decidable_of_iff _ (by rw [COp.Allowed])
  | .zipWith _ _ f, _ =>
    have : ∀ v a', Decidable ((f v).Allowed P a') := fun v a' => Code.decAllowed P (f v) a'
    decidable_of_iff _ (by rw [COp.Allowed])
end

instance [DecidableEq Val] {t : Want} {c : Code Val t} {a : AState Val} : Decidable (c.Allowed P a) := c.decAllowed P a

end Opt
