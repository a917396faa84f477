import Verif.Spec.Engaged
import Verif.Lemmas.SpecRun

/-!
# Which operations of the specification empty or fill an option
-/

namespace Opt

variable {α β Val : Type} {E F : List Nat}

theorem Stay.refl (m : Nat → Option (Option Val)) : Stay E F m m := ⟨fun _ v _ h => ⟨v, h⟩, fun _ _ h => h⟩

theorem Stay.trans {m1 m2 m3 : Nat → Option (Option Val)} (h : Stay E F m1 m2) (h' : Stay E F m2 m3) : Stay E F m1 m3 :=
  ⟨fun k v hk hv => by obtain ⟨v', h1⟩ := h.1 k v hk hv; exact h'.1 k v' hk h1, fun k hk he => h'.2 k hk (h.2 k hk he)⟩

theorem Stay.put_engaged {m : Nat → Option (Option Val)} {i : Nat} {u v : Val} (h : m i = some (some u)) :
    Stay E F m (upd m i (some (some v))) := by
  refine ⟨fun k w _ hw => ?_, fun k _ he => ?_⟩
  · by_cases hk : k = i
    · exact ⟨v, by rw [hk, upd_same]⟩
    · exact ⟨w, by rw [upd_other _ _ hk, hw]⟩
  · have hk : k ≠ i := fun e => by rw [e, h] at he; cases he
    rw [upd_other _ _ hk, he]

theorem Stay.put_fill {m : Nat → Option (Option Val)} {i : Nat} {v : Val} (h : i ∈ F) : Stay E F m (upd m i (some (some v))) := by
  refine ⟨fun k w _ hw => ?_, fun k hF he => ?_⟩
  · by_cases hk : k = i
    · exact ⟨v, by rw [hk, upd_same]⟩
    · exact ⟨w, by rw [upd_other _ _ hk, hw]⟩
  · have hk : k ≠ i := fun e => hF (e ▸ h)
    rw [upd_other _ _ hk, he]

theorem Stay.put_empty {m : Nat → Option (Option Val)} {i : Nat} (h : i ∈ E) : Stay E F m (upd m i (some none)) := by
  refine ⟨fun k w hE hw => ?_, fun k _ he => ?_⟩
  · have hk : k ≠ i := fun e => hE (e ▸ h)
    exact ⟨w, by rw [upd_other _ _ hk, hw]⟩
  · by_cases hk : k = i
    · rw [hk, upd_same]
    · rw [upd_other _ _ hk, he]

theorem Stay.gone {m : Nat → Option (Option Val)} {i : Nat} (h : i ∈ E) (h' : i ∈ F) : Stay E F m (upd m i none) := by
  refine ⟨fun k w hE hw => ?_, fun k hF he => ?_⟩
  · have hk : k ≠ i := fun e => hE (e ▸ h)
    exact ⟨w, by rw [upd_other _ _ hk, hw]⟩
  · have hk : k ≠ i := fun e => hF (e ▸ h')
    rw [upd_other _ _ hk, he]

theorem Stay.fresh {m : Nat → Option (Option Val)} {i : Nat} {x : Option (Option Val)} (h : m i = none) : Stay E F m (upd m i x) := by
  refine ⟨fun k w _ hw => ?_, fun k _ he => ?_⟩
  · have hk : k ≠ i := fun e => by rw [e, h] at hw; cases hw
    exact ⟨w, by rw [upd_other _ _ hk, hw]⟩
  · have hk : k ≠ i := fun e => by rw [e, h] at he; cases he
    rw [upd_other _ _ hk, he]

/-- however it ends -/
def Stays (E F : List Nat) (a : AState Val) : Out (AState Val) α → Prop
  | .ok _ a' => Stay E F a.mem a'.mem
  | .throw a' => Stay E F a.mem a'.mem
  | _ => True

/-- in every state -/
def Keeps (E F : List Nat) (x : M (AState Val) α) : Prop := ∀ a, Stays E F a (x a)

theorem Stays.trans {a a' : AState Val} {o : Out (AState Val) α} (h : Stay E F a.mem a'.mem) (h' : Stays E F a' o) :
    Stays E F a o := by
  cases o with
  | ok _ _ => exact Stay.trans h h'
  | throw _ => exact Stay.trans h h'
  | verify => trivial
  | ub => trivial

theorem Keeps.pure (a : α) : Keeps E F (pure a : M (AState Val) α) := fun _ => Stay.refl _
theorem Keeps.bad : Keeps E F (M.bad : M (AState Val) α) := fun _ => trivial
theorem Keeps.raise : Keeps E F (M.raise : M (AState Val) α) := fun _ => Stay.refl _
theorem Keeps.check (b : Bool) : Keeps E F (M.check b : M (AState Val) Unit) := by
  intro w
  cases b
  · trivial
  · exact Stay.refl _

theorem Keeps.bind {x : M (AState Val) α} {f : α → M (AState Val) β} (h : Keeps E F x) (hf : ∀ a, Keeps E F (f a)) :
    Keeps E F (x >>= f) := by
  intro a
  have h1 := h a
  rw [bind_run]
  cases hw : x a with
  | ok b a' => rw [hw] at h1; exact Stays.trans h1 (hf b a')
  | throw a' => rw [hw] at h1; exact h1
  | verify => trivial
  | ub => trivial

theorem Keeps.ite {c : Prop} [Decidable c] {x y : M (AState Val) α} (hx : Keeps E F x) (hy : Keeps E F y) :
    Keeps E F (if c then x else y) := by
  split
  · exact hx
  · exact hy

theorem Keeps.onThrow {x : M (AState Val) α} {h : M (AState Val) Unit} (hx : Keeps E F x) (hh : Keeps E F h) :
    Keeps E F (M.onThrow x h) := by
  intro a
  have h1 := hx a
  unfold M.onThrow
  cases hw : x a with
  | ok _ _ => rw [hw] at h1; exact h1
  | throw a' =>
    rw [hw] at h1
    have h2 := hh a'
    dsimp only
    cases hc : h a' with
    | ok _ _ => rw [hc] at h2; exact Stay.trans h1 h2
    | throw _ => trivial
    | verify => trivial
    | ub => trivial
  | verify => trivial
  | ub => trivial

/-- a computation that reads the contents of `i` and goes on, knowing that there were some -/
theorem Keeps.val_bind {i : Nat} {f : Val → M (AState Val) β} (h : ∀ m e v, m i = some (some v) → Stays E F ⟨m, e⟩ (f v ⟨m, e⟩)) :
    Keeps E F (Spec.val i >>= f) := by
  rintro ⟨m, e⟩
  cases hm : m i with
  | none => simp only [bind_run, Spec.val, Spec.get, hm, obind_ub]; trivial
  | some x =>
    cases x with
    | none => simp only [bind_run, Spec.val, Spec.get, hm, obind_ok, bad_run, obind_ub]; trivial
    | some v => simp only [bind_run, Spec.val, Spec.get, hm, obind_ok, pure_run]; exact h m e v hm

namespace Spec

variable (P : Prog Val)

theorem keeps_get (i : Nat) : Keeps E F (get i : M (AState Val) _) := by
  intro a
  unfold get
  cases a.mem i with
  | none => trivial
  | some _ => exact Stay.refl _

theorem keeps_user (x y : Event) : Keeps E F (user P x y) := fun _ => Stay.refl _
theorem keeps_note (x : Event) : Keeps E F (note x : M (AState Val) _) := fun _ => Stay.refl _
theorem keeps_clock : Keeps E F (clock : M (AState Val) _) := fun _ => Stay.refl _

theorem keeps_val (i : Nat) : Keeps E F (val i : M (AState Val) _) := by
  refine (keeps_get i).bind fun x => ?_
  cases x
  · exact Keeps.bad
  · exact Keeps.pure _

theorem keeps_checked (i : Nat) : Keeps E F (checked i : M (AState Val) _) := (keeps_get i).bind fun _ => Keeps.check _

theorem keeps_value (i : Nat) (src : Src Val) : Keeps E F (value P i src) := by
  cases src
  case opt j mv => exact (keeps_val j).bind fun _ => Keeps.pure _
  all_goals exact Keeps.pure _

theorem keeps_evalArg (src : Src Val) : Keeps E F (evalArg src) := by
  cases src
  case opt j mv => exact keeps_checked j
  all_goals exact Keeps.pure _

theorem keeps_movedFrom (b : Bool) (n : Nat) (src : Src Val) : Keeps E F (movedFrom P b n src) := by
  cases src
  case opt j mv =>
    cases mv
    · exact Keeps.pure _
    · exact Keeps.val_bind fun m e v hv => Stay.put_engaged hv
  all_goals exact Keeps.pure _

theorem keeps_put {i : Nat} (hi : i ∈ F) (v : Val) : Keeps E F (put i (some v)) := fun _ => Stay.put_fill hi

theorem keeps_initAs {i : Nat} (hi : i ∈ F) (t : Bool) (src : Src Val) : Keeps E F (initAs P t i src) := by
  refine (keeps_get i).bind fun x => Keeps.ite Keeps.bad ((keeps_value P i src).bind fun v => Keeps.ite (keeps_put hi _) ?_)
  exact (keeps_user P _ _).bind fun p => (keeps_movedFrom P _ _ _).bind fun _ => Keeps.ite Keeps.raise
    ((keeps_put hi _).bind fun _ => Keeps.ite (keeps_note _) (Keeps.pure _))

theorem keeps_clear {i : Nat} (hi : i ∈ E) : Keeps E F (clear P i) := by
  refine (keeps_get i).bind fun x => ?_
  cases x
  · exact Keeps.pure _
  · have hp : Keeps E F (put i none : M (AState Val) _) := fun _ => Stay.put_empty hi
    dsimp only
    split
    · exact (Keeps.pure ()).bind fun _ => hp
    · exact (keeps_note _).bind fun _ => hp

theorem keeps_del {i : Nat} (hi : i ∈ E) (hi' : i ∈ F) : Keeps E F (del i : M (AState Val) _) := fun _ => Stay.gone hi hi'

theorem keeps_destroy {i : Nat} (hi : i ∈ E) (hi' : i ∈ F) : Keeps E F (destroy P i) :=
  (keeps_clear P hi).bind fun _ => keeps_del hi hi'

theorem keeps_new (i : Nat) : Keeps E F (new i : M (AState Val) _) := by
  intro a
  unfold new
  cases h : a.mem i with
  | none => exact Stay.fresh h
  | some _ => trivial

theorem keeps_create {i : Nat} (hi : i ∈ E) (hi' : i ∈ F) (src : Src Val) : Keeps E F (create P i src) :=
  (keeps_new i).bind fun _ => (keeps_initAs P hi' _ _).onThrow (keeps_del hi hi')

theorem keeps_ctorFrom {i : Nat} (hi : i ∈ E) (hi' : i ∈ F) (j : Nat) (mv : Bool) : Keeps E F (ctorFrom P i j mv) := by
  refine (keeps_get j).bind fun x => ?_
  cases x
  · exact keeps_new i
  · exact (keeps_new i).bind fun _ => (keeps_initAs P hi' _ _).onThrow (keeps_del hi hi')

theorem Stays.movedFrom_bind {m : Nat → Option (Option Val)} {e : Env} {i : Nat} {v : Val} {b : Bool} {n : Nat} {src : Src Val}
    {f : Unit → M (AState Val) β} (hv : m i = some (some v))
    (h : ∀ m' v', m' i = some (some v') → Stays E F ⟨m', e⟩ (f () ⟨m', e⟩)) :
    Stays E F ⟨m, e⟩ ((movedFrom P b n src >>= f) ⟨m, e⟩) := by
  rw [bind_run]
  cases src with
  | opt j mv =>
    cases mv with
    | false => exact h m v hv
    | true =>
      have : ∀ y, m j = some y → Stays E F ⟨m, e⟩ (Out.bind (movedFrom P b n (.opt j true) ⟨m, e⟩) f) := by
        intro y hy
        cases y with
        | none => simp only [movedFrom, bind_run, val, get, hy, obind_ok, bad_run, obind_ub]; trivial
        | some u =>
          simp only [movedFrom, bind_run, val, get, hy, obind_ok, pure_run, put]
          refine Stays.trans (a' := ⟨upd m j (some (some (P.moved b j n u))), e⟩) (Stay.put_engaged hy) ?_
          by_cases hij : i = j
          · exact h _ _ (by rw [hij, upd_same])
          · exact h _ v (by rw [upd_other _ _ hij, hv])
      cases hj : m j with
      | none => simp only [movedFrom, bind_run, val, get, hj, obind_ub]; trivial
      | some y => exact this y hj
  | args _ => exact h m v hv
  | copy _ => exact h m v hv
  | move _ => exact h m v hv

theorem keeps_assign (i : Nat) (src : Src Val) : Keeps E F (assign P i src) := by
  refine Keeps.val_bind fun m e u hu => ?_
  rw [bind_run]
  have h1 := keeps_value (E := E) (F := F) P i src ⟨m, e⟩
  have h2 : ∀ v a', value P i src ⟨m, e⟩ = .ok v a' → a' = ⟨m, e⟩ := by
    intro v a' h
    cases src with
    | opt j mv =>
      cases hj : m j with
      | none => simp only [value, bind_run, val, get, hj, obind_ub] at h; cases h
      | some y =>
        cases y with
        | none => simp only [value, bind_run, val, get, hj, obind_ok, bad_run, obind_ub] at h; cases h
        | some u => simp only [value, bind_run, val, get, hj, obind_ok, pure_run] at h; cases h; rfl
    | args _ => cases h; rfl
    | copy _ => cases h; rfl
    | move _ => cases h; rfl
  cases hv : value P i src ⟨m, e⟩ with
  | throw a' => rw [hv] at h1; exact h1
  | verify => trivial
  | ub => trivial
  | ok v a' =>
    cases h2 v a' hv
    rw [obind_ok]
    split
    · exact Stay.put_engaged hu
    · rw [bind_run, user, obind_ok]
      dsimp only
      split
      · refine Stays.trans (Stay.refl _) (Stays.movedFrom_bind P hu fun m' v' hv' => ?_)
        exact Stay.put_engaged hv'
      · split
        · cases src with
          | opt j mv => cases mv <;> exact Stay.put_engaged hu
          | args _ => exact Stay.put_engaged hu
          | copy _ => exact Stay.put_engaged hu
          | move _ => exact Stay.put_engaged hu
        · exact Stays.trans (Stay.refl _) (Stays.movedFrom_bind P hu fun m' v' hv' => Stay.put_engaged hv')

theorem keeps_call (i : Nat) (f : Prog.Fn Val β) : Keeps E F (call P i f) := by
  refine (keeps_checked i).bind fun _ => Keeps.val_bind fun m e v hv => ?_
  rw [bind_run, user, obind_ok]
  dsimp only
  split
  · exact Stay.put_engaged hv
  · exact Stay.put_engaged hv

theorem keeps_call0 (b : β) : Keeps E F (call0 P b) := (keeps_user P _ _).bind fun _ => Keeps.ite Keeps.raise (Keeps.pure _)

theorem keeps_give (i : Nat) (src : Src Val) : Keeps E F (give P i src) :=
  (keeps_value P i src).bind fun _ => Keeps.ite (Keeps.pure _) ((keeps_user P _ _).bind fun _ =>
    (keeps_movedFrom P _ _ _).bind fun _ => Keeps.ite Keeps.raise (Keeps.pure _))

theorem keeps_make {r : Nat} (hr : r ∈ E) (hr' : r ∈ F) (x : Option Val) : Keeps E F (make P r x) := by
  cases x
  · exact keeps_new r
  · exact keeps_create P hr hr' _

/-- a match on whether there is a value -/
theorem Keeps.get_bind {i : Nat} {f : Option Val → M (AState Val) β} (h0 : Keeps E F (f none)) (h1 : ∀ v, Keeps E F (f (some v))) :
    Keeps E F (get i >>= f) := by
  refine (keeps_get i).bind fun x => ?_
  cases x
  · exact h0
  · exact h1 _

theorem keeps_take {i r : Nat} (hi : i ∈ E) (hr : r ∈ E) (hr' : r ∈ F) : Keeps E F (take P i r) :=
  (keeps_ctorFrom P hr hr' _ _).bind fun _ => keeps_clear P hi

theorem keeps_swap {i j : Nat} (hi : i ∈ E) (hi' : i ∈ F) (hj : j ∈ E) (hj' : j ∈ F) : Keeps E F (swap P i j) := by
  refine Keeps.get_bind (Keeps.get_bind (Keeps.pure _) fun v => ?_) fun u => Keeps.get_bind ?_ fun v => ?_
  · exact (keeps_initAs P hi' _ _).bind fun _ => keeps_clear P hj
  · exact (keeps_initAs P hj' _ _).bind fun _ => keeps_clear P hi
  · exact (keeps_user P _ _).bind fun _ => Keeps.ite
      ((keeps_put hi' _).bind fun _ => (keeps_put hj' _).bind fun _ => Keeps.raise)
      ((keeps_put hi' _).bind fun _ => keeps_put hj' _)

theorem keeps_allHave (is : List (Nat × Bool)) : Keeps E F (allHave is : M (AState Val) Bool) := by
  induction is with
  | nil => exact Keeps.pure _
  | cons p is ih => exact Keeps.get_bind (Keeps.pure _) fun _ => ih

theorem keeps_dropTmp (i : Nat) : Keeps E F (dropTmp P i) := Keeps.ite (Keeps.pure _) (keeps_note _)

theorem keeps_dropTmps (is : List Nat) : Keeps E F (dropTmps P is) := by
  induction is with
  | nil => exact Keeps.pure _
  | cons i is ih => exact (keeps_dropTmp P i).bind fun _ => ih

theorem keeps_zipElems (is : List (Nat × Bool)) : Keeps E F (zipElems P is) := by
  induction is with
  | nil => exact Keeps.pure _
  | cons p is ih => exact (keeps_give P _ _).bind fun _ =>
    (ih.onThrow (keeps_dropTmp P _)).bind fun _ => Keeps.pure _

theorem keeps_vals (is : List Nat) : Keeps E F (vals is : M (AState Val) (List Val)) := by
  induction is with
  | nil => exact Keeps.pure _
  | cons i is ih => exact (keeps_val i).bind fun _ => ih.bind fun _ => Keeps.pure _

theorem create_other {m : Nat → Option (Option Val)} {e : Env} {i r : Nat} {v : Val} {src : Src Val} (hv : m i = some (some v)) :
    match create P r src ⟨m, e⟩ with
    | .ok _ a' => ∃ v', a'.mem i = some (some v')
    | .throw a' => ∃ v', a'.mem i = some (some v')
    | _ => True := by
  by_cases h : i = r
  · subst h
    simp only [create, bind_run, new, hv, obind_ub]
  · have := keeps_create (E := [r]) (F := [r]) P (List.mem_cons_self ..) (List.mem_cons_self ..) src ⟨m, e⟩
    revert this
    cases create P r src ⟨m, e⟩ with
    | ok _ a' => exact fun hs => hs.1 i v (by simpa using h) hv
    | throw a' => exact fun hs => hs.1 i v (by simpa using h) hv
    | verify => exact fun _ => trivial
    | ub => exact fun _ => trivial

theorem keeps_unzipParts (q : Parts Val) (i : Nat) (mv : Bool) : ∀ {ps : List (Nat × Nat)}, (∀ p ∈ ps, p.2 ∈ E ∧ p.2 ∈ F) →
    Keeps E F (unzipParts P q i mv ps)
  | [], _ => Keeps.pure _
  | (k, r) :: ps, h => by
    obtain ⟨hr, hr'⟩ := h (k, r) (List.mem_cons_self ..)
    refine Keeps.bind ?_ fun _ => (keeps_unzipParts q i mv fun p hp => h p (List.mem_cons_of_mem _ hp)).onThrow
      (keeps_destroy P hr hr')
    refine Keeps.val_bind fun m e v hv => ?_
    rw [bind_run, clock, obind_ok, bind_run]
    dsimp only
    have h1 := create_other P (r := r) (e := e) (src := Prog.partSrc mv (q.part k v)) hv
    have h2 := keeps_create P hr hr' (Prog.partSrc mv (q.part k v)) ⟨m, e⟩
    unfold M.onThrow
    revert h1 h2
    cases create P r (Prog.partSrc mv (q.part k v)) ⟨m, e⟩ with
    | ok _ a' => exact fun ⟨v', hv'⟩ h2 => Stay.trans h2 (Stay.put_engaged hv')
    | throw a' => exact fun ⟨v', hv'⟩ h2 => Stay.trans h2 (Stay.put_engaged hv')
    | verify => exact fun _ _ => trivial
    | ub => exact fun _ _ => trivial

theorem keeps_newAll : ∀ rs : List Nat, Keeps E F (newAll rs : M (AState Val) Unit)
  | [] => Keeps.pure _
  | r :: rs => (keeps_new r).bind fun _ => keeps_newAll rs

theorem keeps_unzipNew (q : Parts Val) (i : Nat) (mv : Bool) {rs : List Nat} (h : ∀ r ∈ rs, r ∈ E ∧ r ∈ F) :
    Keeps E F (unzipNew P q i mv rs) :=
  Keeps.get_bind (keeps_newAll rs) fun _ => keeps_unzipParts P q i mv fun p hp =>
    h _ (List.of_mem_zip (a := p.1) (b := p.2) hp).2

theorem keeps_moveAll : ∀ {ms : List (Nat × Nat)}, (∀ p ∈ ms, p.1 ∈ E ∧ p.1 ∈ F) → Keeps E F (moveAll P ms)
  | [], _ => Keeps.pure _
  | (r, t) :: ms, h => by
    obtain ⟨h1, h2⟩ := h (r, t) (List.mem_cons_self ..)
    exact (keeps_ctorFrom P h1 h2 _ _).bind fun _ =>
      (keeps_moveAll fun p hp => h p (List.mem_cons_of_mem _ hp)).onThrow (keeps_destroy P h1 h2)

theorem keeps_destroyAll : ∀ {ts : List Nat}, (∀ t ∈ ts, t ∈ E ∧ t ∈ F) → Keeps E F (destroyAll P ts)
  | [], _ => Keeps.pure _
  | t :: ts, h => (keeps_destroy P (h t (List.mem_cons_self ..)).1 (h t (List.mem_cons_self ..)).2).bind fun _ =>
    keeps_destroyAll fun t ht => h t (List.mem_cons_of_mem _ ht)

theorem keeps_runOp (op : Op Val) : Keeps (op.empties ++ op.makes) (op.fills ++ op.makes) (runOp P op) := by
  have wrap : ∀ {E F : List Nat} {α : Type} {x : M (AState Val) α} (f : α → Ret Val), Keeps E F x → Keeps E F (Prog.asRet f x) :=
    fun f h => h.bind fun _ => Keeps.pure _
  have hh : ∀ {a : Nat} {l : List Nat}, a ∈ a :: l := List.mem_cons_self ..
  have ht : ∀ {a b : Nat} {l : List Nat}, a ∈ b :: a :: l := List.mem_cons_of_mem _ (List.mem_cons_self ..)
  cases op with
  | ctorDefault i => exact wrap _ (keeps_new i)
  | ctorValue i src => exact wrap _ ((keeps_evalArg src).bind fun _ => keeps_create P hh hh _)
  | ctorFrom i j mv => exact wrap _ (keeps_ctorFrom P hh hh _ _)
  | dtor i => exact wrap _ (keeps_destroy P hh hh)
  | reset i => exact wrap _ (keeps_clear P hh)
  | assignFrom i j mv =>
    exact wrap _ ((keeps_get i).bind fun _ => Keeps.get_bind (keeps_clear P hh) fun _ => Keeps.get_bind (keeps_initAs P hh _ _)
      fun _ => keeps_assign P _ _)
  | assignValue i src =>
    exact wrap _ ((keeps_evalArg src).bind fun _ => Keeps.ite (keeps_initAs P hh _ _)
      (Keeps.get_bind (keeps_initAs P hh _ _) fun _ => keeps_assign P _ _))
  | emplace i src =>
    exact wrap _ ((keeps_evalArg src).bind fun _ => (keeps_clear P hh).bind fun _ => keeps_initAs P hh _ _)
  | tryEmplace i src =>
    exact wrap _ ((keeps_evalArg src).bind fun _ => Keeps.get_bind (keeps_initAs P hh _ _) fun _ => Keeps.pure _)
  | swap i j => exact wrap _ (keeps_swap P hh hh ht ht)
  | take i r => exact wrap _ (keeps_take P hh ht hh)
  | takeIf i r f =>
    exact wrap _ (Keeps.get_bind (keeps_new r) fun _ => (keeps_call P i f).bind fun _ => Keeps.ite (keeps_take P hh ht hh)
      (keeps_new r))
  | hasValue i => exact wrap _ ((keeps_get i).bind fun _ => Keeps.pure _)
  | get i => exact wrap _ (Keeps.get_bind ((Keeps.check false).bind fun _ => Keeps.bad) fun _ => Keeps.pure _)
  | getUnchecked i => exact wrap _ (keeps_val i)
  | valueOrThrow i => exact wrap _ (Keeps.get_bind Keeps.raise fun _ => Keeps.pure _)
  | ptrOrNull i => exact wrap _ (keeps_get i)
  | valueOr i mv d =>
    exact wrap _ ((keeps_evalArg d).bind fun _ => Keeps.get_bind (keeps_give P _ _) fun _ => keeps_give P _ _)
  | hasValueAnd i f => exact wrap _ (Keeps.get_bind (Keeps.pure _) fun _ => keeps_call P i f)
  | inspect i f => exact wrap _ (Keeps.get_bind (Keeps.pure _) fun _ => keeps_call P i f)
  | mapOr i d f =>
    exact wrap _ (Keeps.get_bind ((keeps_user P _ _).bind fun _ => Keeps.ite Keeps.raise (Keeps.pure _)) fun _ => keeps_call P i f)
  | mapOrElse i d f => exact wrap _ (Keeps.get_bind (keeps_call0 P d) fun _ => keeps_call P i f)
  | map i r f =>
    exact wrap _ (Keeps.get_bind (keeps_new r) fun _ => (keeps_new r).bind fun _ =>
      ((keeps_call P i f).bind fun _ => keeps_initAs P hh _ _).onThrow (keeps_del hh hh))
  | andThen i r f => exact wrap _ (Keeps.get_bind (keeps_new r) fun _ => (keeps_call P i f).bind fun _ => keeps_make P hh hh _)
  | orElse i r mv x =>
    exact wrap _ (Keeps.get_bind ((keeps_call0 P x).bind fun _ => keeps_make P hh hh _) fun _ => keeps_ctorFrom P hh hh _ _)
  | filter i r mv f =>
    exact wrap _ (Keeps.get_bind (keeps_new r) fun _ => (keeps_call P i f).bind fun _ => Keeps.ite (keeps_create P hh hh _)
      (keeps_new r))
  | orOp i j r mi mj => exact wrap _ (Keeps.get_bind (keeps_ctorFrom P hh hh _ _) fun _ => keeps_ctorFrom P hh hh _ _)
  | orAssignValue i src =>
    exact wrap _ ((keeps_evalArg src).bind fun _ => Keeps.get_bind (keeps_initAs P hh _ _) fun _ => Keeps.pure _)
  | orAssignFrom i j mv =>
    exact wrap _ (Keeps.get_bind (Keeps.get_bind (Keeps.pure _) fun _ => keeps_initAs P hh _ _) fun _ => Keeps.pure _)
  | andOp i j r mv => exact wrap _ (Keeps.get_bind (keeps_new r) fun _ => keeps_ctorFrom P hh hh _ _)
  | xorOp i j r mi mj =>
    exact wrap _ (Keeps.get_bind (Keeps.get_bind (keeps_new r) fun _ => keeps_ctorFrom P hh hh _ _) fun _ =>
      Keeps.get_bind (keeps_ctorFrom P hh hh _ _) fun _ => keeps_new r)
  | zip is r g =>
    exact wrap _ ((keeps_allHave is).bind fun _ => Keeps.ite ((keeps_zipElems P is).bind fun _ =>
      ((keeps_create P hh hh _).onThrow (keeps_dropTmps P _)).bind fun _ => keeps_dropTmps P _) (keeps_new r))
  | zipWith is r g =>
    exact wrap _ ((keeps_allHave _).bind fun _ => Keeps.ite ((keeps_vals is).bind fun _ => (keeps_call0 P _).bind fun _ =>
      ((keeps_create P hh hh _).onThrow (keeps_dropTmp P _)).bind fun _ => keeps_dropTmp P _) (keeps_new r))
  | ioWrite i d =>
    refine wrap _ (Keeps.get_bind ?_ fun _ => ?_)
    · cases d
      · exact Keeps.pure _
      · exact keeps_call0 P _
    · cases d <;> exact keeps_call0 P _
  | ioRead i d v =>
    refine wrap _ fun a => ?_
    unfold ioRead
    rw [bind_run, get]
    cases hm : a.mem i with
    | none => trivial
    | some x =>
      cases x with
      | none => exact keeps_call0 P v a
      | some u =>
        rw [obind_ok]
        dsimp only
        rw [bind_run, user, obind_ok]
        dsimp only
        split
        · exact Stay.put_engaged hm
        · exact Stay.put_engaged hm
  | cmp o rel i j =>
    exact wrap _ (Keeps.get_bind (Keeps.get_bind (Keeps.pure _) fun _ => Keeps.pure _) fun _ =>
      Keeps.get_bind (Keeps.pure _) fun _ => keeps_call0 P _)
  | cmpNone o i => exact wrap _ ((keeps_get i).bind fun _ => Keeps.pure _)
  | noneCmp o i => exact wrap _ ((keeps_get i).bind fun _ => Keeps.pure _)
  | cmpVal o rel i v => exact wrap _ (Keeps.get_bind (Keeps.pure _) fun _ => keeps_call0 P _)
  | valCmp o rel v i => exact wrap _ (Keeps.get_bind (Keeps.pure _) fun _ => keeps_call0 P _)
  | hash i h => exact wrap _ (Keeps.get_bind (Keeps.pure _) fun _ => keeps_call0 P _)
  | forEach i f => exact wrap _ (Keeps.get_bind (Keeps.pure _) fun _ => keeps_call P i f)
  | unzipArray q i mv rs => exact wrap _ (keeps_unzipNew P q i mv fun r hr => ⟨hr, hr⟩)
  | unzipTuple q i mv ts ms =>
    have h1 : ∀ t ∈ ts, t ∈ ts ++ ms.map (·.1) := fun t h => List.mem_append_left _ h
    have h2 : ∀ t ∈ ts.reverse, t ∈ ts ++ ms.map (·.1) := fun t h => h1 t (List.mem_reverse.1 h)
    exact wrap _ ((keeps_unzipNew P q i mv fun r hr => ⟨h1 r hr, h1 r hr⟩).bind fun _ =>
      ((keeps_moveAll P fun p hp => by
        have h3 : p.1 ∈ ts ++ ms.map (·.1) := List.mem_append_right _ (List.mem_map_of_mem hp)
        exact ⟨h3, h3⟩).onThrow (keeps_destroyAll P fun t h => ⟨h2 t h, h2 t h⟩)).bind fun _ =>
      keeps_destroyAll P fun t h => ⟨h2 t h, h2 t h⟩)

end Spec

end Opt
