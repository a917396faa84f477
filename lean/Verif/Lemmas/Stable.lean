import Verif.Spec.Stable
import Verif.Lemmas.SpecRun
import Verif.Lemmas.UnzipSim

/-!
# Operations of the specification that leave a contained object in place
-/

namespace Opt

variable {α β Val : Type} {P : Prog Val} {i : Nat}

theorem Prog.Untouched.nil : P.Untouched i [] := ⟨by simp, fun _ _ => ⟨by simp, by simp⟩⟩

theorem Prog.Untouched.append {xs ys : List Event} (h : P.Untouched i xs) (h' : P.Untouched i ys) : P.Untouched i (xs ++ ys) := by
  refine ⟨?_, fun hs k => ⟨?_, ?_⟩⟩ <;> rw [List.mem_append, not_or]
  · exact ⟨h.1, h'.1⟩
  · exact ⟨(h.2 hs k).1, (h'.2 hs k).1⟩
  · exact ⟨(h.2 hs k).2, (h'.2 hs k).2⟩

/-- the option is engaged -/
def Has (i : Nat) (a : AState Val) : Prop := ∃ v, a.mem i = some (some v)

/-- from state `a` to state `a'` -/
def Kept (P : Prog Val) (i : Nat) (a a' : AState Val) : Prop :=
  Has i a' ∧ ∃ evs, a'.env.log = a.env.log ++ evs ∧ P.Untouched i evs

/-- however it ends -/
def KeptBy (P : Prog Val) (i : Nat) (a : AState Val) : Out (AState Val) α → Prop
  | .ok _ a' => Kept P i a a'
  | .throw a' => Kept P i a a'
  | _ => True

/-- in every state in which the option is engaged -/
def Spares (P : Prog Val) (i : Nat) (x : M (AState Val) α) : Prop := ∀ a, Has i a → KeptBy P i a (x a)

theorem Kept.refl {a : AState Val} (h : Has i a) : Kept P i a a := ⟨h, [], (List.append_nil _).symm, .nil⟩

theorem Kept.trans {a b c : AState Val} (h : Kept P i a b) (h' : Kept P i b c) : Kept P i a c := by
  obtain ⟨_, xs, e1, u1⟩ := h
  obtain ⟨hc, ys, e2, u2⟩ := h'
  exact ⟨hc, xs ++ ys, by rw [e2, e1, List.append_assoc], u1.append u2⟩

theorem KeptBy.trans {a b : AState Val} {o : Out (AState Val) α} (h : Kept P i a b) (h' : KeptBy P i b o) : KeptBy P i a o := by
  cases o with
  | ok _ _ => exact Kept.trans h h'
  | throw _ => exact Kept.trans h h'
  | verify => trivial
  | ub => trivial

theorem Spares.pure (b : α) : Spares P i (pure b : M (AState Val) α) := fun _ h => Kept.refl h
theorem Spares.bad : Spares P i (M.bad : M (AState Val) α) := fun _ _ => trivial
theorem Spares.raise : Spares P i (M.raise : M (AState Val) α) := fun _ h => Kept.refl h
theorem Spares.check (b : Bool) : Spares P i (M.check b : M (AState Val) Unit) := by
  intro a h
  cases b
  · trivial
  · exact Kept.refl h

theorem Spares.bind {x : M (AState Val) α} {f : α → M (AState Val) β} (h : Spares P i x) (hf : ∀ b, Spares P i (f b)) :
    Spares P i (x >>= f) := by
  intro a ha
  have h1 := h a ha
  rw [bind_run]
  cases hx : x a with
  | ok b a' => rw [hx] at h1; exact KeptBy.trans h1 (hf b a' h1.1)
  | throw a' => rw [hx] at h1; exact h1
  | verify => trivial
  | ub => trivial

theorem Spares.ite {c : Prop} [Decidable c] {x y : M (AState Val) α} (hx : Spares P i x) (hy : Spares P i y) :
    Spares P i (if c then x else y) := by
  split
  · exact hx
  · exact hy

theorem Spares.onThrow {x : M (AState Val) α} {h : M (AState Val) Unit} (hx : Spares P i x) (hh : Spares P i h) :
    Spares P i (M.onThrow x h) := by
  intro a ha
  have h1 := hx a ha
  unfold M.onThrow
  cases hw : x a with
  | ok _ _ => rw [hw] at h1; exact h1
  | throw a' =>
    rw [hw] at h1
    have h2 := hh a' h1.1
    dsimp only
    cases hc : h a' with
    | ok _ _ => rw [hc] at h2; exact Kept.trans h1 h2
    | throw _ => trivial
    | verify => trivial
    | ub => trivial
  | verify => trivial
  | ub => trivial

theorem Has.put {a : AState Val} (h : Has i a) (k : Nat) (v : Val) : Has i ⟨upd a.mem k (some (some v)), a.env⟩ := by
  by_cases hk : i = k
  · exact ⟨v, by simp only [hk, upd_same]⟩
  · obtain ⟨u, hu⟩ := h; exact ⟨u, by simp only [upd_other _ _ hk, hu]⟩

theorem Has.other {a : AState Val} (h : Has i a) {k : Nat} (hk : i ≠ k) (x : Option (Option Val)) : Has i ⟨upd a.mem k x, a.env⟩ := by
  obtain ⟨u, hu⟩ := h; exact ⟨u, by simp only [upd_other _ _ hk, hu]⟩

/-- a step without calls of user code -/
theorem Kept.mem {a a' : AState Val} (h : Has i a') (he : a'.env = a.env) : Kept P i a a' :=
  ⟨h, [], by rw [he, List.append_nil], .nil⟩

namespace Spec

theorem spares_get (j : Nat) : Spares P i (get j) := by
  intro a h
  unfold get
  cases a.mem j with
  | none => trivial
  | some _ => exact Kept.refl h

theorem Spares.get_bind {j : Nat} {f : Option Val → M (AState Val) β} (h0 : j ≠ i → Spares P i (f none)) (h1 : ∀ v, Spares P i (f (some v))) :
    Spares P i (get j >>= f) := by
  intro a h
  rw [bind_run, get]
  cases hj : a.mem j with
  | none => trivial
  | some x =>
    rw [obind_ok]
    cases x with
    | none => exact h0 (fun e => by obtain ⟨v, hv⟩ := h; rw [e, hv] at hj; cases hj) a h
    | some v => exact h1 v a h

theorem spares_put (j : Nat) (v : Val) : Spares P i (put j (some v)) := fun _ h => Kept.mem (h.put j v) rfl

theorem spares_del {j : Nat} (hj : i ≠ j) : Spares P i (del j) := fun _ h => Kept.mem (h.other hj _) rfl

/-- a call of user code that is not the destructor of the contained object and not a constructor in its place -/
theorem spares_user {x y : Event} (hx : P.Untouched i [x]) (hy : P.Untouched i [y]) : Spares P i (user P x y) := by
  intro a h
  refine ⟨h, _, rfl, ?_⟩
  split
  · exact hy
  · exact hx

theorem spares_note {x : Event} (hx : P.Untouched i [x]) : Spares P i (note x) := fun _ h => ⟨h, _, rfl, hx⟩
theorem spares_clock : Spares P i (clock : M (AState Val) _) := fun _ h => Kept.refl h

theorem spares_val (j : Nat) : Spares P i (val j) :=
  Spares.get_bind (fun _ => Spares.bad) fun _ => Spares.pure _

theorem spares_checked (j : Nat) : Spares P i (checked j) := (spares_get j).bind fun _ => Spares.check _

theorem spares_value (j : Nat) (src : Src Val) : Spares P i (value P j src) := by
  cases src
  case opt k mv => exact (spares_val k).bind fun _ => Spares.pure _
  all_goals exact Spares.pure _

theorem spares_evalArg (src : Src Val) : Spares P i (evalArg src) := by
  cases src
  case opt j mv => exact spares_checked j
  all_goals exact Spares.pure _

theorem spares_movedFrom (b : Bool) (n : Nat) (src : Src Val) : Spares P i (movedFrom P b n src) := by
  cases src
  case opt j mv =>
    cases mv
    · exact Spares.pure _
    · exact (spares_val j).bind fun _ => spares_put _ _
  all_goals exact Spares.pure _

theorem untouched_other {e : Event} (h1 : e ≠ .dtor i) (h2 : ∀ k, e ≠ .ctor i k) (h3 : ∀ k, e ≠ .ctorFail i k) : P.Untouched i [e] :=
  ⟨by simpa using h1.symm, fun _ k => ⟨by simpa using (h2 k).symm, by simpa using (h3 k).symm⟩⟩

theorem untouched_made {t : Bool} {j : Nat} {k : Kind} (h : i ≠ j ∨ (P.elem i).scalar = true) : P.Untouched i [.made t j k] := by
  unfold Event.made
  rcases h with h | h
  · cases t
    · exact untouched_other (by simp) (by intro k; simp; exact fun e => absurd e.symm h) (by simp)
    · exact untouched_other (by simp) (by simp) (by simp)
  · cases t
    · exact ⟨by simp, fun h' => by rw [h] at h'; cases h'⟩
    · exact untouched_other (by simp) (by simp) (by simp)

theorem untouched_unmade {t : Bool} {j : Nat} {k : Kind} (h : i ≠ j ∨ (P.elem i).scalar = true) : P.Untouched i [.unmade t j k] := by
  unfold Event.unmade
  rcases h with h | h
  · cases t
    · exact untouched_other (by simp) (by simp) (by intro k; simp; exact fun e => absurd e.symm h)
    · exact untouched_other (by simp) (by simp) (by simp)
  · cases t
    · exact ⟨by simp, fun h' => by rw [h] at h'; cases h'⟩
    · exact untouched_other (by simp) (by simp) (by simp)

theorem spares_initAs (t : Bool) (j : Nat) (src : Src Val) : Spares P i (initAs P t j src) := by
  intro a ha
  by_cases h : i = j ∧ (P.elem i).scalar = false
  · obtain ⟨rfl, hs⟩ := h
    obtain ⟨v, hv⟩ := ha
    simp only [initAs, bind_run, get, hv, obind_ok, Option.isSome_some, Bool.true_or, hs, Bool.not_false, Bool.and_self, if_true, bad_run]
    trivial
  · have h' : i ≠ j ∨ (P.elem i).scalar = true := by
      by_cases hij : i = j
      · right
        cases hs : (P.elem i).scalar with
        | true => rfl
        | false => exact absurd ⟨hij, hs⟩ h
      · exact .inl hij
    refine Spares.bind (spares_get j) (fun x => Spares.ite Spares.bad ((spares_value j src).bind fun v => Spares.ite (spares_put _ _) ?_)) a ha
    exact (spares_user (untouched_made h') (untouched_unmade h')).bind fun p => (spares_movedFrom _ _ _).bind fun _ =>
      Spares.ite Spares.raise ((spares_put _ _).bind fun _ => Spares.ite (spares_note (untouched_other (by simp) (by simp) (by simp)))
        (Spares.pure _))

theorem spares_init (j : Nat) (src : Src Val) : Spares P i (init P j src) := spares_initAs _ _ _

theorem spares_clear {j : Nat} (hj : i ≠ j) : Spares P i (clear P j) := by
  refine Spares.get_bind (fun _ => Spares.pure _) fun v => ?_
  have hp : Spares P i (put j none) := fun _ h => Kept.mem (h.other hj _) rfl
  dsimp only
  split
  · exact (Spares.pure ()).bind fun _ => hp
  · exact (spares_note (untouched_other (by simp; exact fun e => absurd e.symm hj) (by simp) (by simp))).bind fun _ => hp

theorem spares_destroy {j : Nat} (hj : i ≠ j) : Spares P i (destroy P j) := (spares_clear hj).bind fun _ => spares_del hj

theorem spares_new {j : Nat} (hj : i ≠ j) : Spares P i (new j) := by
  intro a h
  unfold new
  cases a.mem j with
  | none => exact Kept.mem (h.other hj _) rfl
  | some _ => trivial

theorem spares_create {j : Nat} (hj : i ≠ j) (src : Src Val) : Spares P i (create P j src) :=
  (spares_new hj).bind fun _ => (spares_initAs _ _ _).onThrow (spares_del hj)

theorem spares_ctorFrom {j : Nat} (hj : i ≠ j) (k : Nat) (mv : Bool) : Spares P i (ctorFrom P j k mv) :=
  Spares.get_bind (fun _ => spares_new hj) fun _ => (spares_new hj).bind fun _ => (spares_initAs _ _ _).onThrow (spares_del hj)

theorem spares_assign (j : Nat) (src : Src Val) : Spares P i (assign P j src) := by
  refine (spares_val j).bind fun old => (spares_value j src).bind fun v => Spares.ite (spares_put _ _) ?_
  refine (spares_user (untouched_other (by simp) (by simp) (by simp)) (untouched_other (by simp) (by simp) (by simp))).bind fun p => ?_
  refine Spares.ite ((spares_movedFrom _ _ _).bind fun _ => (spares_put _ _).bind fun _ => Spares.raise) (Spares.ite ?_ ?_)
  · split <;> exact spares_put _ _
  · exact (spares_movedFrom _ _ _).bind fun _ => spares_put _ _

theorem spares_call (j : Nat) (f : Prog.Fn Val β) : Spares P i (call P j f) :=
  (spares_checked j).bind fun _ => (spares_val j).bind fun _ =>
    (spares_user (untouched_other (by simp) (by simp) (by simp)) (untouched_other (by simp) (by simp) (by simp))).bind fun _ =>
      Spares.ite ((spares_put _ _).bind fun _ => Spares.raise) ((spares_put _ _).bind fun _ => Spares.pure _)

theorem spares_tmp {x y : Event} {b : β} (hx : P.Untouched i [x]) (hy : P.Untouched i [y]) :
    Spares P i (user P x y >>= fun p => if p.2 then M.raise else pure b) :=
  (spares_user hx hy).bind fun _ => Spares.ite Spares.raise (Spares.pure _)

theorem spares_call0 (b : β) : Spares P i (call0 P b) :=
  spares_tmp (untouched_other (by simp) (by simp) (by simp)) (untouched_other (by simp) (by simp) (by simp))

theorem spares_give (j : Nat) (src : Src Val) : Spares P i (give P j src) :=
  (spares_value j src).bind fun _ => Spares.ite (Spares.pure _)
    ((spares_user (untouched_other (by simp) (by simp) (by simp)) (untouched_other (by simp) (by simp) (by simp))).bind fun _ =>
      (spares_movedFrom _ _ _).bind fun _ => Spares.ite Spares.raise (Spares.pure _))

theorem spares_make {r : Nat} (hr : i ≠ r) (x : Option Val) : Spares P i (make P r x) := by
  cases x
  · exact spares_new hr
  · exact spares_create hr _

theorem spares_allHave (is : List (Nat × Bool)) : Spares P i (allHave is : M (AState Val) Bool) := by
  induction is with
  | nil => exact Spares.pure _
  | cons p is ih => exact Spares.get_bind (fun _ => Spares.pure _) fun _ => ih

theorem spares_dropTmp (j : Nat) : Spares P i (dropTmp P j) :=
  Spares.ite (Spares.pure _) (spares_note (untouched_other (by simp) (by simp) (by simp)))

theorem spares_dropTmps (is : List Nat) : Spares P i (dropTmps P is) := by
  induction is with
  | nil => exact Spares.pure _
  | cons j is ih => exact (spares_dropTmp j).bind fun _ => ih

theorem spares_zipElems (is : List (Nat × Bool)) : Spares P i (zipElems P is) := by
  induction is with
  | nil => exact Spares.pure _
  | cons p is ih => exact (spares_give _ _).bind fun _ => (ih.onThrow (spares_dropTmp _)).bind fun _ => Spares.pure _

theorem spares_vals (is : List Nat) : Spares P i (vals is : M (AState Val) (List Val)) := by
  induction is with
  | nil => exact Spares.pure _
  | cons j is ih => exact (spares_val j).bind fun _ => ih.bind fun _ => Spares.pure _

theorem spares_unzipParts (q : Parts Val) (j : Nat) (mv : Bool) : ∀ {ps : List (Nat × Nat)}, (∀ p ∈ ps, i ≠ p.2) →
    Spares P i (unzipParts P q j mv ps)
  | [], _ => Spares.pure _
  | (k, r) :: ps, h => by
    have hr : i ≠ r := h (k, r) (List.mem_cons_self ..)
    refine Spares.bind ?_ fun _ => (spares_unzipParts q j mv fun p hp => h p (List.mem_cons_of_mem _ hp)).onThrow (spares_destroy hr)
    exact (spares_val j).bind fun _ => spares_clock.bind fun _ => ((spares_create hr _).onThrow (spares_put _ _)).bind fun _ => spares_put _ _

theorem spares_newAll : ∀ {rs : List Nat}, (∀ r ∈ rs, i ≠ r) → Spares P i (newAll rs : M (AState Val) Unit)
  | [], _ => Spares.pure _
  | r :: rs, h => (spares_new (h r (List.mem_cons_self ..))).bind fun _ => spares_newAll fun r hr => h r (List.mem_cons_of_mem _ hr)

theorem spares_unzipNew (q : Parts Val) (j : Nat) (mv : Bool) {rs : List Nat} (h : ∀ r ∈ rs, i ≠ r) :
    Spares P i (unzipNew P q j mv rs) :=
  Spares.get_bind (fun _ => spares_newAll h) fun _ => spares_unzipParts q j mv fun p hp =>
    h _ (List.of_mem_zip (a := p.1) (b := p.2) hp).2

theorem spares_moveAll : ∀ {ms : List (Nat × Nat)}, (∀ p ∈ ms, i ≠ p.1) → Spares P i (moveAll P ms)
  | [], _ => Spares.pure _
  | (r, t) :: ms, h => by
    have h1 : i ≠ r := h (r, t) (List.mem_cons_self ..)
    exact (spares_ctorFrom h1 _ _).bind fun _ =>
      (spares_moveAll fun p hp => h p (List.mem_cons_of_mem _ hp)).onThrow (spares_destroy h1)

theorem spares_destroyAll : ∀ {ts : List Nat}, (∀ t ∈ ts, i ≠ t) → Spares P i (destroyAll P ts)
  | [], _ => Spares.pure _
  | t :: ts, h => (spares_destroy (h t (List.mem_cons_self ..))).bind fun _ =>
    spares_destroyAll fun t ht => h t (List.mem_cons_of_mem _ ht)

theorem spares_asRet {x : M (AState Val) α} (f : α → Ret Val) {a : AState Val} (h : KeptBy P i a (x a)) : KeptBy P i a (Prog.asRet f x a) := by
  unfold Prog.asRet
  rw [bind_run]
  cases hx : x a with
  | ok b a' => rw [hx] at h; exact h
  | throw a' => rw [hx] at h; exact h
  | verify => trivial
  | ub => trivial

theorem spares_take {j r : Nat} (hj : i ≠ j) (hr : i ≠ r) : Spares P i (take P j r) :=
  (spares_ctorFrom hr _ _).bind fun _ => spares_clear hj

theorem spares_emplace {j : Nat} (hj : i ≠ j) (src : Src Val) : Spares P i (emplace P j src) :=
  (spares_evalArg src).bind fun _ => (spares_clear hj).bind fun _ => spares_init _ _

/-- assignment from an option that has a value, or to another option -/
theorem kept_assignFrom {j k : Nat} {mv : Bool} {a : AState Val} (ha : Has i a) (h : i = j → ∀ y, a.mem k = some y → y ≠ none) :
    KeptBy P i a (assignFrom P j k mv a) := by
  by_cases hij : i = j
  · subst hij
    obtain ⟨v, hv⟩ := ha
    cases hk : a.mem k with
    | none => simp only [assignFrom, bind_run, get, hv, hk, obind_ok, obind_ub]; trivial
    | some y =>
      cases y with
      | none => exact absurd rfl (h rfl _ hk)
      | some u =>
        simp only [assignFrom, bind_run, get, hv, hk, obind_ok]
        exact spares_assign _ _ a ⟨v, hv⟩
  · exact Spares.bind (spares_get j) (fun _ => Spares.get_bind (fun _ => spares_clear hij) fun _ =>
      Spares.get_bind (fun _ => spares_init _ _) fun _ => spares_assign _ _) a ha

theorem kept_swap {j k : Nat} {a : AState Val} (ha : Has i a) (h1 : i = j → ∀ y, a.mem k = some y → y ≠ none)
    (h2 : i = k → ∀ y, a.mem j = some y → y ≠ none) : KeptBy P i a (swap P j k a) := by
  obtain ⟨v, hv⟩ := ha
  cases hj : a.mem j with
  | none => simp only [swap, bind_run, get, hj, obind_ub]; trivial
  | some x =>
    cases hk : a.mem k with
    | none => simp only [swap, bind_run, get, hj, hk, obind_ok, obind_ub]; trivial
    | some y =>
      cases x with
      | none =>
        cases y with
        | none => simp only [swap, bind_run, get, hj, hk, obind_ok]; exact Kept.refl ⟨v, hv⟩
        | some u =>
          simp only [swap, bind_run, get, hj, hk, obind_ok]
          have hik : i ≠ k := fun e => h2 e _ hj rfl
          exact Spares.bind (spares_init _ _) (fun _ => spares_clear hik) a ⟨v, hv⟩
      | some u =>
        cases y with
        | none =>
          simp only [swap, bind_run, get, hj, hk, obind_ok]
          have hij : i ≠ j := fun e => h1 e _ hk rfl
          exact Spares.bind (spares_init _ _) (fun _ => spares_clear hij) a ⟨v, hv⟩
        | some u' =>
          simp only [swap, bind_run, get, hj, hk, obind_ok]
          exact Spares.bind (spares_user (untouched_other (by simp) (by simp) (by simp)) (untouched_other (by simp) (by simp) (by simp)))
            (fun p => Spares.ite ((spares_put _ _).bind fun _ => (spares_put _ _).bind fun _ => Spares.raise)
              ((spares_put _ _).bind fun _ => spares_put _ _)) a ⟨v, hv⟩

theorem kept_takeIf {j r : Nat} {f : Prog.Fn Val Bool} {a : AState Val} (ha : Has i a) (hr : i ≠ r)
    (h : i = j → ∀ v, a.mem j = some (some v) → f.ret v = false) : KeptBy P i a (takeIf P j r f a) := by
  by_cases hij : i = j
  · subst hij
    obtain ⟨v, hv⟩ := ha
    have hf := h rfl v hv
    simp only [takeIf, bind_run, get, hv, obind_ok]
    have hc := spares_call (P := P) (i := i) i f a ⟨v, hv⟩
    have hret : ∀ b a', call P i f a = .ok b a' → b = false := by
      intro b a' hb
      have e : checked i a = .ok () a := by simp only [checked, bind_run, get, hv, obind_ok, Option.isSome_some]; rfl
      have e' : val i a = .ok v a := by simp only [val, bind_run, get, hv, obind_ok, pure_run]
      simp only [call, bind_run, e, e', user, obind_ok] at hb
      by_cases ht : P.throwsAt a.env.tick = true
      · rw [if_pos ht] at hb; cases hb
      · rw [if_neg ht] at hb; cases hb; exact hf
    cases hx : call P i f a with
    | ok b a' =>
      rw [hx] at hc
      cases hret b a' hx
      rw [obind_ok]
      exact KeptBy.trans hc (spares_new hr a' hc.1)
    | throw a' => rw [hx] at hc; exact hc
    | verify => trivial
    | ub => trivial
  · exact Spares.get_bind (fun _ => spares_new hr) (fun _ => (spares_call j f).bind fun _ => Spares.ite (spares_take hij hr) (spares_new hr)) a ha

theorem spares_ret {x : M (AState Val) α} (f : α → Ret Val) {a : AState Val} (ha : Has i a) (h : Spares P i x) :
    KeptBy P i a (Prog.asRet f x a) := spares_asRet f (h a ha)

/-- one operation -/
theorem kept_runOp {op : Op Val} {a : AState Val} (ha : Has i a) (hm : i ∉ op.makes) (he : i ∉ op.ends a.mem) :
    KeptBy P i a (runOp P op a) := by
  have one : ∀ {r : Nat}, i ∉ [r] → i ≠ r := fun h e => h (by simp [e])
  cases op with
  | ctorDefault j => exact spares_ret _ ha (spares_new (one hm))
  | ctorValue j src => exact spares_ret _ ha (((spares_evalArg src).bind fun _ => spares_create (one hm) _))
  | ctorFrom j k mv => exact spares_ret _ ha (spares_ctorFrom (one hm) _ _)
  | dtor j => exact spares_ret _ ha (spares_destroy (one he))
  | reset j => exact spares_ret _ ha (spares_clear (one he))
  | assignFrom j k mv =>
    refine spares_asRet _ (kept_assignFrom ha ?_)
    rintro rfl y hy rfl
    simp [Op.ends, hy] at he
  | assignValue j src =>
    exact spares_ret _ ha (((spares_evalArg src).bind fun _ => Spares.ite (spares_init _ _)
      (Spares.get_bind (fun _ => spares_init _ _) fun _ => spares_assign _ _)))
  | emplace j src => exact spares_ret _ ha (spares_emplace (one he) src)
  | tryEmplace j src =>
    exact spares_ret _ ha (((spares_evalArg src).bind fun _ => Spares.get_bind (fun _ => spares_init _ _) fun _ => Spares.pure _))
  | swap j k =>
    refine spares_asRet _ (kept_swap ha ?_ ?_)
    · rintro rfl y hy rfl
      simp [Op.ends, hy] at he
    · rintro rfl y hy rfl
      simp [Op.ends, hy] at he
  | take j r => exact spares_ret _ ha (spares_take (one he) (one hm))
  | takeIf j r f =>
    refine spares_asRet _ (kept_takeIf ha (one hm) ?_)
    rintro rfl v hv
    simpa [Op.ends, hv] using he
  | hasValue j => exact spares_ret _ ha (((spares_get j).bind fun _ => Spares.pure _))
  | get j => exact spares_ret _ ha (Spares.get_bind (fun _ => (Spares.check false).bind fun _ => Spares.bad) (fun _ => Spares.pure _))
  | getUnchecked j => exact spares_ret _ ha (spares_val j)
  | valueOrThrow j => exact spares_ret _ ha (Spares.get_bind (fun _ => Spares.raise) (fun _ => Spares.pure _))
  | ptrOrNull j => exact spares_ret _ ha (spares_get j)
  | valueOr j mv d =>
    exact spares_ret _ ha (((spares_evalArg d).bind fun _ => Spares.get_bind (fun _ => spares_give _ _) fun _ => spares_give _ _))
  | hasValueAnd j f => exact spares_ret _ ha (Spares.get_bind (fun _ => Spares.pure _) (fun _ => spares_call j f))
  | inspect j f => exact spares_ret _ ha (Spares.get_bind (fun _ => Spares.pure _) (fun _ => spares_call j f))
  | mapOr j d f =>
    exact spares_ret _ ha (Spares.get_bind (fun _ => spares_tmp (untouched_other (by simp) (by simp) (by simp))
      (untouched_other (by simp) (by simp) (by simp))) (fun _ => spares_call j f))
  | mapOrElse j d f => exact spares_ret _ ha (Spares.get_bind (fun _ => spares_call0 d) (fun _ => spares_call j f))
  | map j r f =>
    exact spares_ret _ ha (Spares.get_bind (fun _ => spares_new (one hm)) (fun _ => (spares_new (one hm)).bind fun _ =>
      ((spares_call j f).bind fun _ => spares_initAs _ _ _).onThrow (spares_del (one hm))))
  | andThen j r f =>
    exact spares_ret _ ha (Spares.get_bind (fun _ => spares_new (one hm)) (fun _ => (spares_call j f).bind fun _ => spares_make (one hm) _))
  | orElse j r mv x =>
    exact spares_ret _ ha (Spares.get_bind (fun _ => (spares_call0 x).bind fun _ => spares_make (one hm) _)
      (fun _ => spares_ctorFrom (one hm) _ _))
  | filter j r mv f =>
    exact spares_ret _ ha (Spares.get_bind (fun _ => spares_new (one hm)) (fun _ => (spares_call j f).bind fun _ =>
      Spares.ite (spares_create (one hm) _) (spares_new (one hm))))
  | orOp j k r mi mj =>
    exact spares_ret _ ha (Spares.get_bind (fun _ => spares_ctorFrom (one hm) _ _) (fun _ => spares_ctorFrom (one hm) _ _))
  | orAssignValue j src =>
    exact spares_ret _ ha (((spares_evalArg src).bind fun _ => Spares.get_bind (fun _ => spares_init _ _) fun _ => Spares.pure _))
  | orAssignFrom j k mv =>
    exact spares_ret _ ha (Spares.get_bind (fun _ => Spares.get_bind (fun _ => Spares.pure _) fun _ => spares_init _ _)
      (fun _ => Spares.pure _))
  | andOp j k r mv => exact spares_ret _ ha (Spares.get_bind (fun _ => spares_new (one hm)) (fun _ => spares_ctorFrom (one hm) _ _))
  | xorOp j k r mi mj =>
    exact spares_ret _ ha (Spares.get_bind (fun _ => Spares.get_bind (fun _ => spares_new (one hm)) fun _ => spares_ctorFrom (one hm) _ _)
      (fun _ => Spares.get_bind (fun _ => spares_ctorFrom (one hm) _ _) fun _ => spares_new (one hm)))
  | zip is r g =>
    exact spares_ret _ ha (((spares_allHave is).bind fun _ => Spares.ite ((spares_zipElems is).bind fun _ =>
      ((spares_create (one hm) _).onThrow (spares_dropTmps _)).bind fun _ => spares_dropTmps _) (spares_new (one hm))))
  | zipWith is r g =>
    exact spares_ret _ ha (((spares_allHave _).bind fun _ => Spares.ite ((spares_vals is).bind fun _ => (spares_call0 _).bind fun _ =>
      ((spares_create (one hm) _).onThrow (spares_dropTmp _)).bind fun _ => spares_dropTmp _) (spares_new (one hm))))
  | ioWrite j d =>
    refine spares_ret _ ha (Spares.get_bind (fun _ => ?_) (fun _ => ?_))
    · cases d
      · exact Spares.pure _
      · exact spares_call0 _
    · cases d <;> exact spares_call0 _
  | ioRead j d v =>
    exact spares_ret _ ha (Spares.get_bind (fun _ => spares_call0 v) (fun u =>
      (spares_user (untouched_other (by simp) (by simp) (by simp)) (untouched_other (by simp) (by simp) (by simp))).bind fun _ =>
      Spares.ite ((spares_put _ _).bind fun _ => Spares.raise) ((spares_put _ _).bind fun _ => Spares.pure _)))
  | cmp o rel j k =>
    exact spares_ret _ ha (Spares.get_bind (fun _ => Spares.get_bind (fun _ => Spares.pure _) fun _ => Spares.pure _) (fun _ =>
      Spares.get_bind (fun _ => Spares.pure _) fun _ => spares_call0 _))
  | cmpNone o j => exact spares_ret _ ha (((spares_get j).bind fun _ => Spares.pure _))
  | noneCmp o j => exact spares_ret _ ha (((spares_get j).bind fun _ => Spares.pure _))
  | cmpVal o rel j v => exact spares_ret _ ha (Spares.get_bind (fun _ => Spares.pure _) (fun _ => spares_call0 _))
  | valCmp o rel v j => exact spares_ret _ ha (Spares.get_bind (fun _ => Spares.pure _) (fun _ => spares_call0 _))
  | hash j h => exact spares_ret _ ha (Spares.get_bind (fun _ => Spares.pure _) (fun _ => spares_call0 _))
  | forEach j f => exact spares_ret _ ha (Spares.get_bind (fun _ => Spares.pure _) (fun _ => spares_call j f))
  | unzipArray q j mv rs => exact spares_ret _ ha (spares_unzipNew q j mv (fun r hr e => hm (e ▸ hr)))
  | unzipTuple q j mv ts ms =>
    have h1 : ∀ t ∈ ts, i ≠ t := fun t h e => hm (List.mem_append_left _ (e ▸ h))
    have h2 : ∀ t ∈ ts.reverse, i ≠ t := fun t h => h1 t (List.mem_reverse.1 h)
    exact spares_ret _ ha (((spares_unzipNew q j mv h1).bind fun _ =>
      ((spares_moveAll fun p hp (e : i = p.1) => hm (List.mem_append_right _ (by rw [e]; exact List.mem_map_of_mem hp))).onThrow (spares_destroyAll h2)).bind fun _ =>
      spares_destroyAll h2))

/-! ## The others -/

/-- in every state in which the option is engaged: if it completes, the destructor of the contained object ran -/
def Drops (P : Prog Val) (i : Nat) (x : M (AState Val) α) : Prop :=
  ∀ a b a', Has i a → x a = .ok b a' → ∃ evs, a'.env.log = a.env.log ++ evs ∧ Event.dtor i ∈ evs

theorem Drops.after {x : M (AState Val) α} {f : α → M (AState Val) β} (hx : Spares P i x) (hf : ∀ b, Drops P i (f b)) :
    Drops P i (x >>= f) := by
  intro a b a' ha h
  have h1 := hx a ha
  rw [bind_run] at h
  cases hxa : x a with
  | ok c a1 =>
    rw [hxa, obind_ok] at h
    rw [hxa] at h1
    obtain ⟨xs, e1, _⟩ := h1.2
    obtain ⟨ys, e2, hm⟩ := hf c a1 b a' h1.1 h
    exact ⟨xs ++ ys, by rw [e2, e1, List.append_assoc], List.mem_append_right _ hm⟩
  | throw _ => rw [hxa] at h; cases h
  | verify => rw [hxa] at h; cases h
  | ub => rw [hxa] at h; cases h

theorem Drops.before {x : M (AState Val) α} {f : α → M (AState Val) β} (hx : Drops P i x) (hf : ∀ b, Grows (f b)) :
    Drops P i (x >>= f) := by
  intro a b a' ha h
  rw [bind_run] at h
  cases hxa : x a with
  | ok c a1 =>
    rw [hxa, obind_ok] at h
    obtain ⟨xs, e1, hm⟩ := hx a c a1 ha hxa
    obtain ⟨ys, e2⟩ := hf c a1 b a' h
    exact ⟨xs ++ ys, by rw [e2, e1, List.append_assoc], List.mem_append_left _ hm⟩
  | throw _ => rw [hxa] at h; cases h
  | verify => rw [hxa] at h; cases h
  | ub => rw [hxa] at h; cases h

theorem drops_clear (ht : P.tracked i = true) : Drops P i (clear P i) := by
  rintro ⟨m, e⟩ b a' ⟨v, hv⟩ h
  rw [clear_eq hv] at h
  cases h
  exact ⟨[.dtor i], by simp [Env.after, Prog.dtorEvs, ht], by simp⟩

theorem drops_take (ht : P.tracked i = true) {r : Nat} (hr : i ≠ r) : Drops P i (take P i r) :=
  Drops.after (spares_ctorFrom hr _ _) fun _ => drops_clear ht

theorem grows_del (j : Nat) : Grows (del j : M (AState Val) _) := fun a _ _ h => by
  cases h; exact ⟨[], (List.append_nil _).symm⟩

/-- one operation that ends the contained object -/
theorem drops_runOp (ht : P.tracked i = true) {op : Op Val} {a a' : AState Val} {b : Ret Val} (ha : Has i a) (hm : i ∉ op.makes)
    (he : i ∈ op.ends a.mem) (h : runOp P op a = .ok b a') : ∃ evs, a'.env.log = a.env.log ++ evs ∧ Event.dtor i ∈ evs := by
  have ret : ∀ {α : Type} {x : M (AState Val) α} (f : α → Ret Val), (∀ b a', x a = .ok b a' →
      ∃ evs, a'.env.log = a.env.log ++ evs ∧ Event.dtor i ∈ evs) → ∀ {b : Ret Val} {a' : AState Val}, Prog.asRet f x a = .ok b a' →
      ∃ evs, a'.env.log = a.env.log ++ evs ∧ Event.dtor i ∈ evs := by
    intro α x f hx b a' h
    unfold Prog.asRet at h
    rw [bind_run] at h
    cases hxa : x a with
    | ok c a1 => rw [hxa, obind_ok, pure_run] at h; cases h; exact hx _ _ hxa
    | throw _ => rw [hxa] at h; cases h
    | verify => rw [hxa] at h; cases h
    | ub => rw [hxa] at h; cases h
  have one : ∀ {r : Nat}, i ∉ [r] → i ≠ r := fun h e => h (by simp [e])
  obtain ⟨v, hv⟩ := ha
  cases op with
  | dtor j =>
    cases List.mem_singleton.1 he
    exact ret _ (fun b a' h => Drops.before (drops_clear ht) (fun _ => grows_del _) a b a' ⟨v, hv⟩ h) h
  | reset j =>
    cases List.mem_singleton.1 he
    exact ret _ (fun b a' h => drops_clear ht a b a' ⟨v, hv⟩ h) h
  | emplace j src =>
    cases List.mem_singleton.1 he
    exact ret _ (fun b a' h => Drops.after (spares_evalArg src) (fun _ => Drops.before (drops_clear ht) fun _ => grows_initAs _ _ _)
      a b a' ⟨v, hv⟩ h) h
  | take j r =>
    cases List.mem_singleton.1 he
    exact ret _ (fun b a' h => drops_take ht (one hm) a b a' ⟨v, hv⟩ h) h
  | takeIf j r f =>
    cases hj : a.mem j with
    | none => simp [Op.ends, hj] at he
    | some x =>
      cases x with
      | none => simp [Op.ends, hj] at he
      | some u =>
        have hf : f.ret u = true ∧ i = j := by
          simp only [Op.ends, hj] at he
          by_cases hf : f.ret u = true
          · rw [if_pos hf] at he; exact ⟨hf, List.mem_singleton.1 he⟩
          · rw [if_neg hf] at he; cases he
        obtain ⟨hf, rfl⟩ := hf
        cases hj.symm.trans hv
        refine ret _ (fun b a' h => ?_) h
        simp only [takeIf, bind_run, get, hv, obind_ok] at h
        have hk := spares_call (P := P) (i := i) i f a ⟨v, hv⟩
        have hret : ∀ b a', call P i f a = .ok b a' → b = true := by
          intro b a' hb
          have e : checked i a = .ok () a := by simp only [checked, bind_run, get, hv, obind_ok, Option.isSome_some]; rfl
          have e' : val i a = .ok v a := by simp only [val, bind_run, get, hv, obind_ok, pure_run]
          simp only [call, bind_run, e, e', user, obind_ok] at hb
          by_cases ht : P.throwsAt a.env.tick = true
          · rw [if_pos ht] at hb; cases hb
          · rw [if_neg ht] at hb; cases hb; exact hf
        cases hx : call P i f a with
        | ok c a1 =>
          rw [hx] at hk h
          cases hret c a1 hx
          rw [obind_ok, if_pos rfl] at h
          obtain ⟨xs, e1, _⟩ := hk.2
          obtain ⟨ys, e2, hm'⟩ := drops_take ht (one hm) a1 b a' hk.1 h
          exact ⟨xs ++ ys, by rw [e2, e1, List.append_assoc], List.mem_append_right _ hm'⟩
        | throw _ => rw [hx] at h; cases h
        | verify => rw [hx] at h; cases h
        | ub => rw [hx] at h; cases h
  | assignFrom j k mv =>
    cases hk : a.mem k with
    | none => simp [Op.ends, hk] at he
    | some x =>
      cases x with
      | some u => simp [Op.ends, hk] at he
      | none =>
        simp only [Op.ends, hk] at he
        cases List.mem_singleton.1 he
        refine ret _ (fun b a' h => ?_) h
        simp only [assignFrom, bind_run, get, hv, hk, obind_ok] at h
        exact drops_clear ht a b a' ⟨v, hv⟩ h
  | swap j k =>
    simp only [Op.ends, List.mem_append] at he
    refine ret _ (fun b a' h => ?_) h
    rcases he with he | he
    · cases hk : a.mem k with
      | none => simp [hk] at he
      | some y =>
        cases y with
        | some u => simp [hk] at he
        | none =>
          simp only [hk] at he
          cases List.mem_singleton.1 he
          simp only [swap, bind_run, get, hv, hk, obind_ok] at h
          exact Drops.after (spares_init _ _) (fun _ => drops_clear ht) a b a' ⟨v, hv⟩ h
    · cases hj : a.mem j with
      | none => simp [hj] at he
      | some y =>
        cases y with
        | some u => simp [hj] at he
        | none =>
          simp only [hj] at he
          cases List.mem_singleton.1 he
          simp only [swap, bind_run, get, hv, hj, obind_ok] at h
          exact Drops.after (spares_init _ _) (fun _ => drops_clear ht) a b a' ⟨v, hv⟩ h
  | _ => cases he

end Spec

end Opt
