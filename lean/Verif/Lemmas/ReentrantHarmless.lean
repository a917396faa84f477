import Verif.Lemmas.Reentrant
import Verif.Lemmas.Harmless

/-!
# Client programs whose failing constructor calls are harmless
-/

namespace Opt

variable {Val : Type} {P : Prog Val}

theorem Spec.Then.and {α : Type} {x : Out (AState Val) α} {p q : α → AState Val → Prop} (hp : Then x p) (hq : Then x q) :
    Then x fun b a => p b a ∧ q b a := by
  cases x with
  | ok b a => exact ⟨hp, hq⟩
  | _ => trivial

namespace Prog

/-- what holds of an operation holds of the function it calls -/
theorem of_asRet {w : World} {a : AState Val} {x : M World Unit} {y : M (AState Val) Unit}
    (h : Out.Rel (fun r w' r' a' => r = r' ∧ R P w' a') (R P)
      (asRet (fun _ => (Ret.unit : Ret Val)) x w) (asRet (fun _ => (Ret.unit : Ret Val)) y a)) :
    Out.Rel (fun _ w' _ a' => R P w' a') (R P) (x w) (y a) := by
  revert h
  simp only [asRet, bind_run]
  cases y a with
  | ub => intro _; exact rel_ub _
  | ok u a' => cases x w <;> intro h <;> first | exact h.2 | exact h.elim
  | throw a' => cases x w <;> intro h <;> first | exact h | exact h.elim
  | verify => cases x w <;> intro h <;> first | exact h | exact h.elim

theorem take_allowed {m : Nat → Option (Option Val)} {i r : Nat} (hi : m i ≠ none) (hr : m r = none) :
    (Op.take i r : Op Val).Allowed m :=
  ⟨by simpa [Op.uses] using hi, by simpa [Op.makes] using hr, by simp [Op.makes], trivial⟩

theorem ctorFrom_allowed {m : Nat → Option (Option Val)} {i r : Nat} {mv : Bool} (hi : m i ≠ none) (hr : m r = none) :
    (Op.ctorFrom r i mv : Op Val).Allowed m :=
  ⟨by simpa [Op.uses] using hi, by simpa [Op.makes] using hr, by simp [Op.makes], trivial⟩

mutual
theorem code_simH (hP : P.OK) : ∀ {t : Want} (c : Code Val t) {w : World} {a : AState Val},
    R P w a → c.Typed P a → c.Allowed P a → c.Each P (fun o a => o.Harmless P a) a →
    Out.Rel (fun b w' b' a' => b = b' ∧ R P w' a') (R P) (P.runCode c w) (Spec.runCode P c a)
  | _, .ret x, w, a, h, _, ha, hh => by
    simp only [runCode, Spec.runCode]; exact ⟨rfl, h⟩
  | _, .fail, w, a, h, _, ha, hh => by
    simp only [runCode, Spec.runCode]; exact h
  | _, .op o k, w, a, h, ht, ha, hh => by
    simp only [runCode, Spec.runCode]
    simp only [Code.Typed] at ht
    simp only [Code.Allowed] at ha
    simp only [Code.Each] at hh
    refine rel_bind (rel_nothrow (rel_then_spec (catch_sim (runOp_sim_harmless hP h ht.1 ha.1 hh.1)) (ht.2.and (ha.2.and hh.2)))) ?_
    rintro r w1 _ a1 ⟨⟨rfl, h1⟩, ht1, ha1, hh1⟩
    exact code_simH hP (k r) h1 ht1 ha1 hh1
  | _, .call c k, w, a, h, ht, ha, hh => by
    simp only [runCode, Spec.runCode]
    simp only [Code.Typed] at ht
    simp only [Code.Allowed] at ha
    simp only [Code.Each] at hh
    refine rel_bind (rel_nothrow (rel_then_spec (catch_sim (cop_simH hP c h ht.1 ha.1 hh.1)) (ht.2.and (ha.2.and hh.2)))) ?_
    rintro r w1 _ a1 ⟨⟨rfl, h1⟩, ht1, ha1, hh1⟩
    exact code_simH hP (k r) h1 ht1 ha1 hh1
  | _, .look i k, w, a, h, ht, ha, hh => by
    simp only [runCode, Spec.runCode, bind_run]
    simp only [Code.Typed] at ht
    simp only [Code.Allowed] at ha
    simp only [Code.Each] at hh
    cases hi : a.mem i with
    | none => simp only [Spec.val_no hi, obind_ub]; exact rel_ub _
    | some x =>
      cases x with
      | none => simp only [Spec.val_none hi, obind_ub]; exact rel_ub _
      | some v =>
        obtain ⟨oi, hoi, hri⟩ := h.some' hi
        simp only [Spec.val_run hi, readT_run hoi hri, obind_ok]
        obtain ⟨u, hu, ha⟩ := ha
        rw [hi] at hu
        cases hu
        exact code_simH hP (k v) h (ht v hi) ha (hh v hi)
  | _, .write i v k, w, a, h, ht, ha, hh => by
    simp only [runCode, Spec.runCode, bind_run]
    simp only [Code.Typed] at ht
    simp only [Code.Allowed] at ha
    simp only [Code.Each] at hh
    cases hi : a.mem i with
    | none => simp only [Spec.val_no hi, obind_ub]; exact rel_ub _
    | some x =>
      cases x with
      | none => simp only [Spec.val_none hi, obind_ub]; exact rel_ub _
      | some u =>
        obtain ⟨o1, e1, r1⟩ := writeT_sim hP (i := i) (n := w.env.tick) h hi ht.1
        simp only [Spec.val_run hi, now_run, obind_ok, bind_run, e1, Spec.put_run]
        exact code_simH hP k r1 ht.2 ha.2 hh
theorem cop_simH (hP : P.OK) : ∀ (c : COp Val) {w : World} {a : AState Val},
    R P w a → c.Typed P a → c.Allowed P a → c.Each P (fun o a => o.Harmless P a) a →
    Out.Rel (fun b w' b' a' => b = b' ∧ R P w' a') (R P) (P.runCOp c w) (Spec.runCOp P c a)
  | .takeIf i r f, w, a, h, ht, ha, hh => by
    simp only [runCOp, Spec.runCOp]
    simp only [COp.Typed] at ht
    simp only [COp.Allowed] at ha
    simp only [COp.Each] at hh
    refine asRet_unit (branch_sim h (fun v hi w1 h1 => ?_) fun _ => rel_nothrow (ctorDefault_sim hP h))
    refine rel_bind (rel_then_spec (code_simH hP (f v) h1 (ht v hi) (ha.2.2 v hi).1 (hh v hi).1)
      ((ha.2.2 v hi).2.and (hh v hi).2)) ?_
    rintro b w2 _ a2 ⟨⟨rfl, h2⟩, hal, hhl⟩
    cases b
    · exact rel_nothrow (ctorDefault_sim hP h2)
    · exact of_asRet (runOp_sim_harmless (op := .take i r) hP h2 trivial (take_allowed (hal.2 rfl) hal.1) (hhl rfl))
  | .hasValueAnd i f, w, a, h, ht, ha, hh => by
    simp only [runCOp, Spec.runCOp]
    simp only [COp.Typed] at ht
    simp only [COp.Allowed] at ha
    simp only [COp.Each] at hh
    exact asRet_val (branch_sim h (fun v hi w1 h1 => code_simH hP (f v) h1 (ht v hi) (ha.2 v hi) (hh v hi)) fun _ => ⟨rfl, h⟩)
  | .inspect i f, w, a, h, ht, ha, hh => by
    simp only [runCOp, Spec.runCOp]
    simp only [COp.Typed] at ht
    simp only [COp.Allowed] at ha
    simp only [COp.Each] at hh
    exact asRet_val (branch_sim h (fun v hi w1 h1 => code_simH hP (f v) h1 (ht v hi) (ha.2 v hi) (hh v hi)) fun _ => ⟨rfl, h⟩)
  | .forEach i f, w, a, h, ht, ha, hh => by
    simp only [runCOp, Spec.runCOp]
    simp only [COp.Typed] at ht
    simp only [COp.Allowed] at ha
    simp only [COp.Each] at hh
    cases hi : a.mem i with
    | none => simp only [asRet, bind_run, Spec.get_none hi, obind_ub]; exact rel_ub _
    | some x =>
      have e : asRet (fun _ => Ret.unit) (P.forEachBy i fun v => P.runCode (f v)) w
          = asRet (fun _ => (Ret.unit : Ret Val)) (P.inspectBy i fun v => P.runCode (f v)) w := by
        simp only [asRet, bind_run, forEachBy_eq h hi]
      rw [e]
      exact asRet_val (branch_sim h (fun v hi w1 h1 => code_simH hP (f v) h1 (ht v hi) (ha.2 v hi) (hh v hi)) fun _ => ⟨rfl, h⟩)
  | .mapOr i d f, w, a, h, ht, ha, hh => by
    simp only [runCOp, Spec.runCOp]
    simp only [COp.Typed] at ht
    simp only [COp.Allowed] at ha
    simp only [COp.Each] at hh
    refine asRet_val (branch_sim h (fun v hi w1 h1 => code_simH hP (f v) h1 (ht v hi) (ha.2 v hi) (hh v hi)) fun _ => ?_)
    simp only [bind_run, userOp_run, Spec.user_run, obind_ok]
    rw [h.env]
    have h2 := h.envs (a.env.use P (.tmpCtor .args true) (.tmpCtor .args false))
    cases P.throwsAt a.env.tick
    · exact ⟨rfl, h2⟩
    · exact h2
  | .mapOrElse i d f, w, a, h, ht, ha, hh => by
    simp only [runCOp, Spec.runCOp]
    simp only [COp.Typed] at ht
    simp only [COp.Allowed] at ha
    simp only [COp.Each] at hh
    refine asRet_val (branch_sim h (fun v hi w1 h1 => code_simH hP (f v) h1 (ht.1 v hi) (ha.2.1 v hi) (hh.1 v hi)) fun hi => ?_)
    obtain ⟨w', e1, e2, h'⟩ := enter0_run (P := P) h
    simp only [bind_run, e1, e2, obind_ok]
    exact code_simH hP d h' (ht.2 hi) (ha.2.2 hi) (hh.2 hi)
  | .map i r f, w, a, h, ht, ha, hh => by
    simp only [runCOp, Spec.runCOp]
    simp only [COp.Typed] at ht
    simp only [COp.Allowed] at ha
    simp only [COp.Each] at hh
    refine asRet_unit (branch_sim h (fun v hi w1 h1 => ?_) fun _ => rel_nothrow (ctorDefault_sim hP h))
    refine rel_bind (rel_then_spec (code_simH hP (f v) h1 (ht v hi).1 (ha.2.2 v hi).1 (hh v hi)) (ht v hi).2) ?_
    rintro b w2 _ a2 ⟨⟨rfl, h2⟩, hd⟩
    exact ctorValue_sim (i := r) (src := .args b) hP h2 hd
  | .andThen i r f, w, a, h, ht, ha, hh => by
    simp only [runCOp, Spec.runCOp]
    simp only [COp.Typed] at ht
    simp only [COp.Allowed] at ha
    simp only [COp.Each] at hh
    refine asRet_unit (branch_sim h (fun v hi w1 h1 => ?_) fun _ => rel_nothrow (ctorDefault_sim hP h))
    refine rel_bind (rel_then_spec (code_simH hP (f v) h1 (ht v hi).1 (ha.2.2 v hi).1 (hh v hi)) (ht v hi).2) ?_
    rintro b w2 _ a2 ⟨⟨rfl, h2⟩, hd⟩
    exact makeOption_sim hP h2 hd
  | .orElse i r mv d, w, a, h, ht, ha, hh => by
    simp only [runCOp, Spec.runCOp]
    simp only [COp.Typed] at ht
    simp only [COp.Allowed] at ha
    simp only [COp.Each] at hh
    refine asRet_unit ?_
    simp only [orElseBy, bind_run]
    cases hi : a.mem i with
    | none => simp only [Spec.get_none hi, obind_ub]; exact rel_ub _
    | some z =>
      obtain ⟨oi, hoi, hri⟩ := h.some' hi
      simp only [Spec.get_run hi, obind_ok, hasValue_run hoi hri]
      cases z with
      | some v => exact of_asRet (runOp_sim_harmless (op := .ctorFrom r i mv) hP h trivial (ctorFrom_allowed ha.1 (ha.2.1 v hi)) (hh.1 v hi))
      | none =>
        obtain ⟨w', e1, e2, h'⟩ := enter0_run (P := P) h
        simp only [Option.isSome_none, Bool.false_eq_true, if_false, bind_run, e1, e2, obind_ok]
        refine rel_bind (rel_then_spec (code_simH hP d h' (ht hi).1 (ha.2.2 hi).1 (hh.2 hi)) (ht hi).2) ?_
        rintro b w2 _ a2 ⟨⟨rfl, h2⟩, hd⟩
        exact makeOption_sim hP h2 hd
  | .filter i r mv f, w, a, h, ht, ha, hh => by
    simp only [runCOp, Spec.runCOp]
    simp only [COp.Typed] at ht
    simp only [COp.Allowed] at ha
    simp only [COp.Each] at hh
    refine asRet_unit (branch_sim h (fun v hi w1 h1 => ?_) fun _ => rel_nothrow (ctorDefault_sim hP h))
    refine rel_bind (code_simH hP (f v) h1 (ht v hi) (ha.2.2 v hi).1 (hh v hi)) ?_
    rintro b w2 _ a2 ⟨rfl, h2⟩
    cases b
    · exact rel_nothrow (ctorDefault_sim hP h2)
    · exact ctorValue_sim (i := r) (src := .opt i mv) hP h2 trivial
  | .zipWith is r f, w, a, h, ht, ha, hh => by
    simp only [runCOp, Spec.runCOp]
    simp only [COp.Typed] at ht
    simp only [COp.Allowed] at ha
    simp only [COp.Each] at hh
    refine asRet_unit (rel_bind (rel_nothrow (allHave_sim h _)) ?_)
    rintro b w' b' a' ⟨rfl, rfl, rfl, hb⟩
    cases b
    · exact rel_nothrow (ctorDefault_sim hP h)
    · have hall : ∀ i ∈ is, ∃ v, a'.mem i = some (some v) :=
        fun i hi => hb rfl (i, false) (List.mem_map.2 ⟨i, hi, rfl⟩)
      refine rel_bind (rel_nothrow (rel_then_spec (p := fun vs _ => Spec.values a' is = some vs)
        (zipArgs_sim is h hall) ?_)) ?_
      · simp only [Spec.Then]
        split
        · rename_i vs a2 e
          exact (vals_mem e).2
        · trivial
      · rintro vs w2 _ a2 ⟨⟨rfl, rfl, rfl, _⟩, hm⟩
        obtain ⟨w', e1, e2, h'⟩ := enter0_run (P := P) h
        simp only [bind_run, e1, e2, obind_ok]
        refine rel_bind (rel_then_spec (code_simH hP (f vs) h' (ht vs hm).1 (ha.2.2 vs hm).1 (hh vs hm)) (ht vs hm).2) ?_
        rintro b w3 _ a3 ⟨⟨rfl, h3⟩, hd⟩
        exact rel_bind (rel_onThrow (ctorArg_sim hP h3 hd) fun _ _ h => dropTmp_sim h)
          fun _ _ _ _ h => rel_nothrow (dropTmp_sim h)
end

end Prog

mutual
theorem Code.Each.mono {H K : Op Val → AState Val → Prop} (hk : ∀ o a, H o a → K o a) : ∀ {t : Want} (c : Code Val t)
    {a : AState Val}, c.Each P H a → c.Each P K a
  | _, .ret _, _, _ => by simp only [Code.Each]
  | _, .fail, _, _ => by simp only [Code.Each]
  | _, .op o k, a, h => by
    simp only [Code.Each] at h ⊢
    exact ⟨hk _ _ h.1, Spec.then_mono h.2 fun r a' => Code.Each.mono hk (k r)⟩
  | _, .call c k, a, h => by
    simp only [Code.Each] at h ⊢
    exact ⟨COp.Each.mono hk c h.1, Spec.then_mono h.2 fun r a' => Code.Each.mono hk (k r)⟩
  | _, .look i k, a, h => by
    simp only [Code.Each] at h ⊢
    exact fun v hv => Code.Each.mono hk (k v) (h v hv)
  | _, .write i v k, a, h => by
    simp only [Code.Each] at h ⊢
    exact Code.Each.mono hk k h
theorem COp.Each.mono {H K : Op Val → AState Val → Prop} (hk : ∀ o a, H o a → K o a) : ∀ (c : COp Val)
    {a : AState Val}, c.Each P H a → c.Each P K a
  | .takeIf i r f, a, h => by
    simp only [COp.Each] at h ⊢
    exact fun v hv => ⟨Code.Each.mono hk (f v) (h v hv).1, Spec.then_mono (h v hv).2 fun _ _ hb e => hk _ _ (hb e)⟩
  | .hasValueAnd i f, a, h => by
    simp only [COp.Each] at h ⊢
    exact fun v hv => Code.Each.mono hk (f v) (h v hv)
  | .inspect i f, a, h => by
    simp only [COp.Each] at h ⊢
    exact fun v hv => Code.Each.mono hk (f v) (h v hv)
  | .forEach i f, a, h => by
    simp only [COp.Each] at h ⊢
    exact fun v hv => Code.Each.mono hk (f v) (h v hv)
  | .mapOr i d f, a, h => by
    simp only [COp.Each] at h ⊢
    exact fun v hv => Code.Each.mono hk (f v) (h v hv)
  | .mapOrElse i d f, a, h => by
    simp only [COp.Each] at h ⊢
    exact ⟨fun v hv => Code.Each.mono hk (f v) (h.1 v hv), fun hn => Code.Each.mono hk d (h.2 hn)⟩
  | .map i r f, a, h => by
    simp only [COp.Each] at h ⊢
    exact fun v hv => Code.Each.mono hk (f v) (h v hv)
  | .andThen i r f, a, h => by
    simp only [COp.Each] at h ⊢
    exact fun v hv => Code.Each.mono hk (f v) (h v hv)
  | .orElse i r mv d, a, h => by
    simp only [COp.Each] at h ⊢
    exact ⟨fun v hv => hk _ _ (h.1 v hv), fun hn => Code.Each.mono hk d (h.2 hn)⟩
  | .filter i r mv f, a, h => by
    simp only [COp.Each] at h ⊢
    exact fun v hv => Code.Each.mono hk (f v) (h v hv)
  | .zipWith is r f, a, h => by
    simp only [COp.Each] at h ⊢
    exact fun v hv => Code.Each.mono hk (f v) (h v hv)
end

mutual
/-- a condition on the operations along a run can be checked by running the specification -/
def Code.decEach (P : Prog Val) (H : Op Val → AState Val → Prop) [∀ o a, Decidable (H o a)] : {t : Want} → (c : Code Val t) → (a : AState Val) → Decidable (c.Each P H a)
  | _, .ret _, _ => isTrue (by simp only [Code.Each])
  | _, .fail, _ => isTrue (by simp only [Code.Each])
  | _, .op _ k, _ =>
    have : ∀ r a', Decidable ((k r).Each P H a') := fun r a' => Code.decEach P H (k r) a'
    decidable_of_iff _ (by rw [Code.Each])
  | _, .call c k, a =>
    have : ∀ r a', Decidable ((k r).Each P H a') := fun r a' => Code.decEach P H (k r) a'
    have : Decidable (c.Each P H a) := COp.decEach P H c a
    decidable_of_iff _ (by rw [Code.Each])
  | _, .look _ k, a =>
    have : ∀ v, Decidable ((k v).Each P H a) := fun v => Code.decEach P H (k v) a
    decidable_of_iff _ (by rw [Code.Each])
  | _, .write _ _ k, _ =>
    have : ∀ a', Decidable (k.Each P H a') := fun a' => Code.decEach P H k a'
    decidable_of_iff _ (by rw [Code.Each])
/-- the same for operations with callables -/
def COp.decEach (P : Prog Val) (H : Op Val → AState Val → Prop) [∀ o a, Decidable (H o a)] : (c : COp Val) → (a : AState Val) → Decidable (c.Each P H a)
  | .takeIf _ _ f, _ =>
    have : ∀ v a', Decidable ((f v).Each P H a') := fun v a' => Code.decEach P H (f v) a'
    decidable_of_iff _ (by rw [COp.Each])
  | .hasValueAnd _ f, _ =>
    have : ∀ v a', Decidable ((f v).Each P H a') := fun v a' => Code.decEach P H (f v) a'
    decidable_of_iff _ (by rw [COp.Each])
  | .inspect _ f, _ =>
    have : ∀ v a', Decidable ((f v).Each P H a') := fun v a' => Code.decEach P H (f v) a'
    decidable_of_iff _ (by rw [COp.Each])
  | .forEach _ f, _ =>
    have : ∀ v a', Decidable ((f v).Each P H a') := fun v a' => Code.decEach P H (f v) a'
    decidable_of_iff _ (by rw [COp.Each])
  | .mapOr _ _ f, _ =>
    have : ∀ v a', Decidable ((f v).Each P H a') := fun v a' => Code.decEach P H (f v) a'
    decidable_of_iff _ (by rw [COp.Each])
  | .mapOrElse _ d f, _ =>
    have : ∀ v a', Decidable ((f v).Each P H a') := fun v a' => Code.decEach P H (f v) a'
    have : ∀ a', Decidable (d.Each P H a') := fun a' => Code.decEach P H d a'
    decidable_of_iff _ (by rw [COp.Each])
  | .map _ _ f, _ =>
    have : ∀ v a', Decidable ((f v).Each P H a') := fun v a' => Code.decEach P H (f v) a'
    decidable_of_iff _ (by rw [COp.Each])
  | .andThen _ _ f, _ =>
    have : ∀ v a', Decidable ((f v).Each P H a') := fun v a' => Code.decEach P H (f v) a'
    decidable_of_iff _ (by rw [COp.Each])
  | .orElse _ _ _ d, _ =>
    have : ∀ a', Decidable (d.Each P H a') := fun a' => Code.decEach P H d a'
    decidable_of_iff _ (by rw [COp.Each])
  | .filter _ _ _ f, _ =>
    have : ∀ v a', Decidable ((f v).Each P H a') := fun v a' => Code.decEach P H (f v) a'
    decidable_of_iff _ (by rw [COp.Each])
  | .zipWith _ _ f, _ =>
    have : ∀ v a', Decidable ((f v).Each P H a') := fun v a' => Code.decEach P H (f v) a'
    decidable_of_iff _ (by rw [COp.Each])
end

instance (H : Op Val → AState Val → Prop) [∀ o a, Decidable (H o a)] {t : Want} {c : Code Val t} {a : AState Val} :
    Decidable (c.Each P H a) := c.decEach P H a

/-- a checker for examples -/
theorem Code.harmless_of_noneFails {t : Want} {c : Code Val t} {a : AState Val}
    (h : c.Each P (fun o a => Op.noneFails P [o] a = true) a) : c.Harmless P a :=
  Code.Each.mono (fun o a h => (Op.allHarmless_of_noneFails (ops := [o]) (a := a) h : Op.AllHarmless P [o] a).1) c h

end Opt
