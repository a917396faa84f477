import Verif.Spec.Checks
import Verif.Lemmas.SpecApi

/-!
# Where a check can fail
-/

namespace Opt

variable {α β Val : Type}

/-- no check fails, in whatever state the computation starts -/
def Never (x : M (AState Val) α) : Prop := ∀ a, x a ≠ .verify

theorem Never.pure (a : α) : Never (pure a : M (AState Val) α) := fun _ => nofun
theorem Never.bad : Never (M.bad : M (AState Val) α) := fun _ => nofun
theorem Never.raise : Never (M.raise : M (AState Val) α) := fun _ => nofun

theorem Never.bind {x : M (AState Val) α} {f : α → M (AState Val) β} (h : Never x) (hf : ∀ a, Never (f a)) : Never (x >>= f) := by
  intro a
  have h1 := h a
  rw [bind_run]
  cases hw : x a with
  | ok b a' => exact hf b a'
  | throw a' => nofun
  | verify => exact absurd hw h1
  | ub => nofun

theorem Never.ite {c : Prop} [Decidable c] {x y : M (AState Val) α} (hx : Never x) (hy : Never y) :
    Never (if c then x else y) := by
  split
  · exact hx
  · exact hy

theorem Never.onThrow {x : M (AState Val) α} {h : M (AState Val) Unit} (hx : Never x) (hh : Never h) : Never (M.onThrow x h) := by
  intro a
  have h1 := hx a
  unfold M.onThrow
  cases hw : x a with
  | ok _ _ => nofun
  | throw a' =>
    have h2 := hh a'
    dsimp only
    cases hc : h a' with
    | ok _ _ => nofun
    | throw _ => nofun
    | verify => exact absurd hc h2
    | ub => nofun
  | verify => exact absurd hw h1
  | ub => nofun

namespace Spec

variable (P : Prog Val)

theorem never_get (i : Nat) : Never (get i : M (AState Val) _) := by
  intro a
  unfold get
  cases a.mem i <;> nofun

theorem never_user (x y : Event) : Never (user P x y) := fun _ => nofun
theorem never_note (x : Event) : Never (note x : M (AState Val) _) := fun _ => nofun
theorem never_clock : Never (clock : M (AState Val) _) := fun _ => nofun
theorem never_put (i : Nat) (x : Option Val) : Never (put i x) := fun _ => nofun
theorem never_del (i : Nat) : Never (del i : M (AState Val) _) := fun _ => nofun

theorem never_new (i : Nat) : Never (new i : M (AState Val) _) := by
  intro a
  unfold new
  cases a.mem i <;> nofun

/-- a match on whether there is a value -/
theorem Never.get_bind {i : Nat} {f : Option Val → M (AState Val) β} (h0 : Never (f none)) (h1 : ∀ v, Never (f (some v))) :
    Never (get i >>= f) := by
  refine (never_get i).bind fun x => ?_
  cases x
  · exact h0
  · exact h1 _

theorem never_val (i : Nat) : Never (val i : M (AState Val) _) := Never.get_bind Never.bad fun _ => Never.pure _

theorem never_value (i : Nat) (src : Src Val) : Never (value P i src) := by
  cases src
  case opt j mv => exact (never_val j).bind fun _ => Never.pure _
  all_goals exact Never.pure _

theorem never_movedFrom (b : Bool) (n : Nat) (src : Src Val) : Never (movedFrom P b n src) := by
  cases src
  case opt j mv =>
    cases mv
    · exact Never.pure _
    · exact (never_val j).bind fun _ => never_put _ _
  all_goals exact Never.pure _

theorem never_initAs (i : Nat) (t : Bool) (src : Src Val) : Never (initAs P t i src) := by
  refine (never_get i).bind fun x => Never.ite Never.bad ((never_value P i src).bind fun v => Never.ite (never_put _ _) ?_)
  exact (never_user P _ _).bind fun p => (never_movedFrom P _ _ _).bind fun _ => Never.ite Never.raise
    ((never_put _ _).bind fun _ => Never.ite (never_note _) (Never.pure _))

theorem never_clear (i : Nat) : Never (clear P i) := by
  refine Never.get_bind (Never.pure _) fun x => ?_
  dsimp only
  split
  · exact (Never.pure ()).bind fun _ => never_put _ _
  · exact (never_note _).bind fun _ => never_put _ _

theorem never_destroy (i : Nat) : Never (destroy P i) := (never_clear P i).bind fun _ => never_del i

theorem never_create (i : Nat) (src : Src Val) : Never (create P i src) :=
  (never_new i).bind fun _ => (never_initAs P _ _ _).onThrow (never_del i)

theorem never_ctorFrom (i j : Nat) (mv : Bool) : Never (ctorFrom P i j mv) :=
  Never.get_bind (never_new i) fun _ => (never_new i).bind fun _ => (never_initAs P _ _ _).onThrow (never_del i)

theorem never_assign (i : Nat) (src : Src Val) : Never (assign P i src) := by
  refine (never_val i).bind fun u => (never_value P i src).bind fun v => Never.ite (never_put _ _) ?_
  refine (never_user P _ _).bind fun p => Never.ite ?_ ?_
  · exact (never_movedFrom P _ _ _).bind fun _ => (never_put _ _).bind fun _ => Never.raise
  · split
    · cases src with
      | opt j mv => cases mv <;> exact never_put _ _
      | args _ => exact never_put _ _
      | copy _ => exact never_put _ _
      | move _ => exact never_put _ _
    · exact (never_movedFrom P _ _ _).bind fun _ => never_put _ _

/-- a callable is called with the contained value -/
theorem never_getCall {γ : Type} {i : Nat} (f : Prog.Fn Val γ) {x : M (AState Val) β} {k : γ → M (AState Val) β} (hx : Never x)
    (hk : ∀ c, Never (k c)) :
    Never (get i >>= fun o => match o with | some _ => call P i f >>= k | none => x) := by
  rintro ⟨m, e⟩
  rw [bind_run]
  cases hm : m i with
  | none => rw [get_none (a := ⟨m, e⟩) hm]; nofun
  | some o =>
    rw [get_eq hm, obind_ok]
    cases o with
    | none => exact hx _
    | some v =>
      dsimp only
      rw [bind_run, call]
      rw [bind_run, checked, bind_run, get_eq hm, obind_ok, Option.isSome_some, check_true, obind_ok]
      have : Never (do
        let v ← val i
        let (n, thr) ← user P (.call i true) (.call i false)
        let _ := n
        if thr then do
          put i (some (f.afterThrow v))
          M.raise
        else do
          put i (some (f.after v))
          pure (f.ret v)) := (never_val i).bind fun v => (never_user P _ _).bind fun p => Never.ite
            ((never_put _ _).bind fun _ => Never.raise) ((never_put _ _).bind fun _ => Never.pure _)
      have h2 := this.bind hk ⟨m, e⟩
      rw [bind_run] at h2
      exact h2

theorem never_getCall' {i : Nat} (f : Prog.Fn Val β) {x : M (AState Val) β} (hx : Never x) :
    Never (get i >>= fun o => match o with | some _ => call P i f | none => x) := by
  have h := never_getCall P (i := i) f hx (k := pure) fun c => Never.pure c
  have e : ∀ y : M (AState Val) β, (y >>= pure) = y := by
    intro y
    funext a
    rw [bind_run]
    cases y a <;> rfl
  simp only [e] at h
  exact h

theorem never_tryInit (i : Nat) (src : Src Val) :
    Never (get i >>= fun o => match o with | some _ => pure () | none => init P i src) :=
  Never.get_bind (never_initAs P _ _ _) fun _ => Never.pure _

theorem never_call {m : Nat → Option (Option Val)} {e : Env} {i : Nat} {v : Val} (f : Prog.Fn Val β) (hv : m i = some (some v)) :
    call P i f ⟨m, e⟩ ≠ .verify := by
  have h := never_getCall' P (i := i) f (x := Pure.pure (f.ret v)) (Never.pure _) ⟨m, e⟩
  rw [bind_run, get_eq hv, obind_ok] at h
  exact h

theorem never_map (i r : Nat) (f : Prog.Fn Val Val) : Never (map P i r f) := by
  rintro ⟨m, e⟩
  rw [map, bind_run]
  cases hm : m i with
  | none => rw [get_none (a := ⟨m, e⟩) hm]; nofun
  | some o =>
    rw [get_eq hm, obind_ok]
    cases o with
    | none => exact never_new r _
    | some v =>
      dsimp only
      rw [bind_run]
      cases hr : m r with
      | some _ => rw [new]; simp only [hr]; nofun
      | none =>
        have hir : i ≠ r := by
          rintro rfl
          rw [hm] at hr
          cases hr
        rw [new_eq hr, obind_ok, M.onThrow, bind_run]
        have hc := never_call P (m := upd m r (some none)) (e := e) f (by rw [upd_other _ _ hir]; exact hm)
        cases hx : call P i f ⟨upd m r (some none), e⟩ with
        | ok u a =>
          rw [obind_ok]
          exact (never_initAs P r false (.args u)).onThrow (never_del r) a
        | throw a => rw [obind_throw]; nofun
        | verify => exact absurd hx hc
        | ub => nofun

theorem never_call0 (b : β) : Never (call0 P b) := (never_user P _ _).bind fun _ => Never.ite Never.raise (Never.pure _)

theorem never_give (i : Nat) (src : Src Val) : Never (give P i src) :=
  (never_value P i src).bind fun _ => Never.ite (Never.pure _) ((never_user P _ _).bind fun _ =>
    (never_movedFrom P _ _ _).bind fun _ => Never.ite Never.raise (Never.pure _))

theorem never_make (r : Nat) (x : Option Val) : Never (make P r x) := by
  cases x
  · exact never_new r
  · exact never_create P _ _

theorem never_take (i r : Nat) : Never (take P i r) := (never_ctorFrom P _ _ _).bind fun _ => never_clear P i

theorem never_swap (i j : Nat) : Never (swap P i j) := by
  refine Never.get_bind (Never.get_bind (Never.pure _) fun v => ?_) fun u => Never.get_bind ?_ fun v => ?_
  · exact (never_initAs P _ _ _).bind fun _ => never_clear P j
  · exact (never_initAs P _ _ _).bind fun _ => never_clear P i
  · exact (never_user P _ _).bind fun _ => Never.ite
      ((never_put _ _).bind fun _ => (never_put _ _).bind fun _ => Never.raise)
      ((never_put _ _).bind fun _ => never_put _ _)

theorem never_allHave (is : List (Nat × Bool)) : Never (allHave is : M (AState Val) Bool) := by
  induction is with
  | nil => exact Never.pure _
  | cons p is ih => exact Never.get_bind (Never.pure _) fun _ => ih

theorem never_dropTmp (i : Nat) : Never (dropTmp P i) := Never.ite (Never.pure _) (never_note _)

theorem never_dropTmps (is : List Nat) : Never (dropTmps P is) := by
  induction is with
  | nil => exact Never.pure _
  | cons i is ih => exact (never_dropTmp P i).bind fun _ => ih

theorem never_zipElems (is : List (Nat × Bool)) : Never (zipElems P is) := by
  induction is with
  | nil => exact Never.pure _
  | cons p is ih => exact (never_give P _ _).bind fun _ => (ih.onThrow (never_dropTmp P _)).bind fun _ => Never.pure _

theorem never_vals (is : List Nat) : Never (vals is : M (AState Val) (List Val)) := by
  induction is with
  | nil => exact Never.pure _
  | cons i is ih => exact (never_val i).bind fun _ => ih.bind fun _ => Never.pure _

theorem never_unzipParts (q : Parts Val) (i : Nat) (mv : Bool) (ps : List (Nat × Nat)) : Never (unzipParts P q i mv ps) := by
  induction ps with
  | nil => exact Never.pure _
  | cons p ps ih =>
    exact Never.bind ((never_val i).bind fun v => never_clock.bind fun _ => ((never_create P _ _).onThrow (never_put _ _)).bind
      fun _ => never_put _ _) fun _ => ih.onThrow (never_destroy P _)

theorem never_newAll (rs : List Nat) : Never (newAll rs : M (AState Val) Unit) := by
  induction rs with
  | nil => exact Never.pure _
  | cons r rs ih => exact (never_new r).bind fun _ => ih

theorem never_unzipNew (q : Parts Val) (i : Nat) (mv : Bool) (rs : List Nat) : Never (unzipNew P q i mv rs) :=
  Never.get_bind (never_newAll rs) fun _ => never_unzipParts P q i mv _

theorem never_moveAll (ms : List (Nat × Nat)) : Never (moveAll P ms) := by
  induction ms with
  | nil => exact Never.pure _
  | cons p ms ih => exact (never_ctorFrom P _ _ _).bind fun _ => ih.onThrow (never_destroy P _)

theorem never_destroyAll (ts : List Nat) : Never (destroyAll P ts) := by
  induction ts with
  | nil => exact Never.pure _
  | cons t ts ih => exact (never_destroy P t).bind fun _ => ih

/-- an argument `*oj` is checked, then there are no more checks -/
theorem evalArg_verify {src : Src Val} {k : M (AState Val) β} {f : β → Ret Val} (hk : Never k) {m : Nat → Option (Option Val)}
    {e : Env} (hu : ∀ i ∈ Op.srcUses src, m i ≠ none) :
    Prog.asRet f (evalArg src >>= fun _ => k) ⟨m, e⟩ = .verify ↔ ∃ i ∈ Op.srcUses src, m i = some none := by
  have hk' : ∀ a, Prog.asRet f k a ≠ .verify := hk.bind fun _ => Never.pure _
  have he : Prog.asRet f (evalArg src >>= fun _ => k) ⟨m, e⟩ = Out.bind (evalArg src ⟨m, e⟩) fun _ => Prog.asRet f k := by
    simp only [Prog.asRet, bind_run]
    cases evalArg src ⟨m, e⟩ <;> rfl
  rw [he]
  cases src with
  | opt j mv =>
    cases hj : m j with
    | none => exact absurd hj (hu j (List.mem_singleton.2 rfl))
    | some x =>
      simp only [evalArg, checked, bind_run, get_eq hj, obind_ok, Op.srcUses, List.mem_singleton, exists_eq_left, hj]
      cases x with
      | none => exact ⟨fun _ => rfl, fun _ => rfl⟩
      | some v =>
        simp only [Option.isSome_some, check_true, obind_ok]
        exact ⟨fun h => absurd h (hk' _), fun h => by cases h⟩
  | args v => exact ⟨fun h => absurd h (hk' _), fun ⟨_, h, _⟩ => by cases h⟩
  | copy v => exact ⟨fun h => absurd h (hk' _), fun ⟨_, h, _⟩ => by cases h⟩
  | move v => exact ⟨fun h => absurd h (hk' _), fun ⟨_, h, _⟩ => by cases h⟩

/-- a check fails exactly when an empty option is dereferenced -/
theorem runOp_verify (op : Op Val) {m : Nat → Option (Option Val)} {e : Env} (hu : ∀ i ∈ op.uses, m i ≠ none) :
    runOp P op ⟨m, e⟩ = .verify ↔ ∃ i ∈ op.derefs, m i = some none := by
  have wrap : ∀ {α : Type} {x : M (AState Val) α} (f : α → Ret Val), Never x →
      (Prog.asRet f x ⟨m, e⟩ = .verify ↔ ∃ i ∈ ([] : List Nat), m i = some none) :=
    fun f h => ⟨fun h' => absurd h' ((h.bind fun _ => Never.pure _) _), fun ⟨_, h, _⟩ => by cases h⟩
  have tl : ∀ {i : Nat} {l : List Nat}, (∀ j ∈ i :: l, m j ≠ none) → ∀ j ∈ l, m j ≠ none :=
    fun h j hj => h j (List.mem_cons_of_mem _ hj)
  cases op with
  | ctorDefault i => exact wrap _ (never_new i)
  | ctorValue i src =>
    refine (evalArg_verify (never_create P i src) hu).trans ?_
    cases src <;> exact Iff.rfl
  | ctorFrom i j mv => exact wrap _ (never_ctorFrom P _ _ _)
  | dtor i => exact wrap _ (never_destroy P i)
  | reset i => exact wrap _ (never_clear P i)
  | assignFrom i j mv =>
    exact wrap _ ((never_get i).bind fun _ => Never.get_bind (never_clear P _) fun _ => Never.get_bind (never_initAs P _ _ _)
      fun _ => never_assign P _ _)
  | assignValue i src =>
    refine (evalArg_verify (Never.ite (never_initAs P _ _ _)
      (Never.get_bind (never_initAs P _ _ _) fun _ => never_assign P _ _)) (tl hu)).trans ?_
    cases src <;> exact Iff.rfl
  | emplace i src =>
    refine (evalArg_verify ((never_clear P i).bind fun _ => never_initAs P _ _ _) (tl hu)).trans ?_
    cases src <;> exact Iff.rfl
  | tryEmplace i src =>
    refine (evalArg_verify (never_tryInit P i src) (tl hu)).trans ?_
    cases src <;> exact Iff.rfl
  | swap i j => exact wrap _ (never_swap P i j)
  | take i r => exact wrap _ (never_take P i r)
  | takeIf i r f =>
    exact wrap _ (never_getCall P f (never_new r) fun _ => Never.ite (never_take P i r) (never_new r))
  | hasValue i => exact wrap _ ((never_get i).bind fun _ => Never.pure _)
  | get i =>
    cases hi : m i with
    | none => exact absurd hi (hu i (List.mem_singleton.2 rfl))
    | some x =>
      simp only [runOp, Prog.asRet, getOrDie, bind_run, get_eq hi, obind_ok, Op.derefs, List.mem_singleton, exists_eq_left, hi]
      cases x with
      | none => exact ⟨fun _ => rfl, fun _ => rfl⟩
      | some v => exact ⟨nofun, nofun⟩
  | getUnchecked i => exact wrap _ (never_val i)
  | valueOrThrow i => exact wrap _ (Never.get_bind Never.raise fun _ => Never.pure _)
  | ptrOrNull i => exact wrap _ (never_get i)
  | valueOr i mv d =>
    refine (evalArg_verify (Never.get_bind (never_give P _ _) fun _ => never_give P _ _) (tl hu)).trans ?_
    cases d <;> exact Iff.rfl
  | hasValueAnd i f => exact wrap _ (never_getCall' P f (Never.pure _))
  | inspect i f => exact wrap _ (never_getCall' P f (Never.pure _))
  | mapOr i d f =>
    exact wrap _ (never_getCall' P f ((never_user P _ _).bind fun _ => Never.ite Never.raise (Never.pure _)))
  | mapOrElse i d f => exact wrap _ (never_getCall' P f (never_call0 P d))
  | map i r f => exact wrap _ (never_map P i r f)
  | andThen i r f => exact wrap _ (never_getCall P f (never_new r) fun _ => never_make P _ _)
  | orElse i r mv x =>
    exact wrap _ (Never.get_bind ((never_call0 P x).bind fun _ => never_make P _ _) fun _ => never_ctorFrom P _ _ _)
  | filter i r mv f =>
    exact wrap _ (never_getCall P f (never_new r) fun _ => Never.ite (never_create P _ _) (never_new r))
  | orOp i j r mi mj => exact wrap _ (Never.get_bind (never_ctorFrom P _ _ _) fun _ => never_ctorFrom P _ _ _)
  | orAssignValue i src =>
    refine (evalArg_verify (never_tryInit P i src) (tl hu)).trans ?_
    cases src <;> exact Iff.rfl
  | orAssignFrom i j mv =>
    exact wrap _ (Never.get_bind (Never.get_bind (Never.pure _) fun _ => never_initAs P _ _ _) fun _ => Never.pure _)
  | andOp i j r mv => exact wrap _ (Never.get_bind (never_new r) fun _ => never_ctorFrom P _ _ _)
  | xorOp i j r mi mj =>
    exact wrap _ (Never.get_bind (Never.get_bind (never_new r) fun _ => never_ctorFrom P _ _ _) fun _ =>
      Never.get_bind (never_ctorFrom P _ _ _) fun _ => never_new r)
  | zip is r g =>
    exact wrap _ ((never_allHave is).bind fun _ => Never.ite ((never_zipElems P is).bind fun _ =>
      ((never_create P _ _).onThrow (never_dropTmps P _)).bind fun _ => never_dropTmps P _) (never_new r))
  | zipWith is r g =>
    exact wrap _ ((never_allHave _).bind fun _ => Never.ite ((never_vals is).bind fun _ => (never_call0 P _).bind fun _ =>
      ((never_create P _ _).onThrow (never_dropTmp P _)).bind fun _ => never_dropTmp P _) (never_new r))
  | ioWrite i d =>
    refine wrap _ (Never.get_bind ?_ fun _ => ?_)
    · cases d
      · exact Never.pure _
      · exact never_call0 P _
    · cases d <;> exact never_call0 P _
  | ioRead i d v =>
    exact wrap _ (Never.get_bind (never_call0 P v) fun _ => (never_user P _ _).bind fun _ => Never.ite
      ((never_put _ _).bind fun _ => Never.raise) ((never_put _ _).bind fun _ => Never.pure _))
  | cmp o rel i j =>
    exact wrap _ (Never.get_bind (Never.get_bind (Never.pure _) fun _ => Never.pure _) fun _ =>
      Never.get_bind (Never.pure _) fun _ => never_call0 P _)
  | cmpNone o i => exact wrap _ ((never_get i).bind fun _ => Never.pure _)
  | noneCmp o i => exact wrap _ ((never_get i).bind fun _ => Never.pure _)
  | cmpVal o rel i v => exact wrap _ (Never.get_bind (Never.pure _) fun _ => never_call0 P _)
  | valCmp o rel v i => exact wrap _ (Never.get_bind (Never.pure _) fun _ => never_call0 P _)
  | hash i h => exact wrap _ (Never.get_bind (Never.pure _) fun _ => never_call0 P _)
  | forEach i f => exact wrap _ (never_getCall' P f (Never.pure _))
  | unzipArray q i mv rs => exact wrap _ (never_unzipNew P q i mv _)
  | unzipTuple q i mv ts ms =>
    exact wrap _ ((never_unzipNew P q i mv _).bind fun _ => ((never_moveAll P _).onThrow (never_destroyAll P _)).bind fun _ =>
      never_destroyAll P _)

end Spec

end Opt
