import Verif.Spec.Lifetime
import Verif.Spec.History
import Verif.Lemmas.View

/-!
# The specification never errs on allowed operations, and its log of calls is in order
-/

namespace Opt

/-- completes with `Q`, throws with `T`, or fails a check; never a client error -/
def Out.Safe {σ α : Type} (Q : α → σ → Prop) (T : σ → Prop) : Out σ α → Prop
  | .ok a s => Q a s
  | .throw s => T s
  | .verify => True
  | .ub => False

section
variable {σ α β : Type} {Q : α → σ → Prop} {Q' : β → σ → Prop} {T : σ → Prop}

theorem safe_bind {x : M σ α} {f : α → M σ β} {s : σ} (h : Out.Safe Q T (x s))
    (hf : ∀ a s, Q a s → Out.Safe Q' T (f a s)) : Out.Safe Q' T ((x >>= f) s) := by
  rw [bind_run]
  cases hx : x s with
  | ok a s' => rw [hx] at h; exact hf _ _ h
  | throw s' => rw [hx] at h; exact h
  | verify => exact trivial
  | ub => rw [hx] at h; exact h

theorem safe_mono {P : α → σ → Prop} {U : σ → Prop} {x : Out σ α} (h : Out.Safe P U x) (h1 : ∀ a s, P a s → Q a s)
    (h2 : ∀ s, U s → T s) : Out.Safe Q T x := by
  cases x with
  | ok a s' => exact h1 _ _ h
  | throw s' => exact h2 _ h
  | verify => exact trivial
  | ub => exact h

end

variable {Val : Type} {P : Prog Val}

/-- which options exist and are engaged -/
def shape (m : Nat → Option (Option Val)) (k : Nat) : Option Bool := (m k).map Option.isSome

/-- the contained objects that must be alive -/
def liveSet (P : Prog Val) (s : Nat → Option Bool) (i : Nat) : Bool := P.tracked i && (s i == some true)

/-- the calls before the part of the history under consideration, and what was alive then -/
structure Base where
  pre : List Event
  live : Nat → Bool

/-- the calls since then are in order and lead to live set `l` -/
def Base.Leads (B : Base) (tr : Nat → Bool) (log : List Event) (l : Nat → Bool) : Prop :=
  ∃ evs, log = B.pre ++ evs ∧ Life.runFrom tr B.live evs = some l

/-- the log is in order (unless temporaries replace the construction of contained objects) and leads to the objects that
must be alive in a state of shape `s` -/
structure St (B : Base) (P : Prog Val) (s : Nat → Option Bool) (a : AState Val) : Prop where
  shape : shape a.mem = s
  log : P.Balanced → B.Leads P.tracked a.env.log (liveSet P s)

variable {B : Base}

theorem Base.Leads.snoc {tr : Nat → Bool} {log : List Event} {l l' : Nat → Bool} (h : B.Leads tr log l) {e : Event}
    (he : Life.step tr l e = some l') : B.Leads tr (log ++ [e]) l' := by
  obtain ⟨evs, rfl, h2⟩ := h
  refine ⟨evs ++ [e], by rw [List.append_assoc], ?_⟩
  simp only [Life.runFrom, List.foldl_append, List.foldl_cons, List.foldl_nil] at h2 ⊢
  rw [h2, Option.bind_some, he]

theorem shape_upd (m : Nat → Option (Option Val)) (i : Nat) (x : Option (Option Val)) :
    shape (upd m i x) = upd (shape m) i (x.map Option.isSome) := by
  funext k; simp only [shape, upd]; split <;> rfl

theorem live_upd_true {s : Nat → Option Bool} {i : Nat} (h : P.tracked i = true) :
    liveSet P (upd s i (some true)) = upd (liveSet P s) i true := by
  funext k; simp only [liveSet, upd]; split
  · subst_vars; simp [h]
  · rfl

theorem live_upd_not {s : Nat → Option Bool} {i : Nat} {x : Option Bool} (hx : x ≠ some true) :
    liveSet P (upd s i x) = upd (liveSet P s) i false := by
  funext k; simp only [liveSet, upd]; split
  · subst_vars; simp [hx]
  · rfl

theorem live_upd_untracked {s : Nat → Option Bool} {i : Nat} {x : Option Bool} (h : P.tracked i = false) :
    liveSet P (upd s i x) = liveSet P s := by
  funext k; simp only [liveSet, upd]; split
  · subst_vars; simp [h]
  · rfl

theorem live_not {s : Nat → Option Bool} {i : Nat} (hx : s i ≠ some true) : liveSet P s i = false := by
  simp only [liveSet]; simp [hx]

theorem live_is {s : Nat → Option Bool} {i : Nat} (h : s i = some true) : liveSet P s i = P.tracked i := by
  simp only [liveSet, h]; simp

namespace St

variable {s : Nat → Option Bool} {a : AState Val}

theorem engaged (h : St B P s a) {i : Nat} (hi : s i = some true) : ∃ v, a.mem i = some (some v) := by
  have := congrFun h.shape i
  rw [hi] at this
  simp only [Opt.shape, Option.map_eq_some_iff] at this
  obtain ⟨x, h1, h2⟩ := this
  obtain ⟨v, rfl⟩ := Option.isSome_iff_exists.1 h2
  exact ⟨v, h1⟩

theorem empty (h : St B P s a) {i : Nat} (hi : s i = some false) : a.mem i = some none := by
  have := congrFun h.shape i
  rw [hi] at this
  simp only [Opt.shape, Option.map_eq_some_iff] at this
  obtain ⟨x, h1, h2⟩ := this
  cases x with
  | none => exact h1
  | some v => cases h2

theorem absent (h : St B P s a) {i : Nat} (hi : s i = none) : a.mem i = none := by
  have := congrFun h.shape i
  rw [hi] at this
  simp only [Opt.shape, Option.map_eq_none_iff] at this
  exact this

theorem of_mem (h : St B P s a) {i : Nat} {x : Option Val} (hi : a.mem i = some x) : s i = some x.isSome := by
  rw [← h.shape]; simp only [Opt.shape, hi, Option.map_some]

theorem of_none (h : St B P s a) {i : Nat} (hi : a.mem i = none) : s i = none := by
  rw [← h.shape]; simp only [Opt.shape, hi, Option.map_none]

/-- change a value, keep the shape -/
theorem put (h : St B P s a) {i : Nat} {v : Val} (hi : s i = some true) : St B P s (a.put i (some v)) := by
  refine ⟨?_, h.log⟩
  rw [shape_upd, h.shape, Option.map_some, Option.isSome_some, upd_self hi]

/-- record an event that does not change lifetimes -/
theorem event (h : St B P s a) {n : Nat} {e : Event} (he : Life.step P.tracked (liveSet P s) e = some (liveSet P s)) :
    St B P s { a with env := ⟨n, a.env.log ++ [e]⟩ } := by
  exact ⟨h.shape, fun hB => (h.log hB).snoc he⟩

end St

/-- the options a source mentions are engaged -/
def SrcOK (s : Nat → Option Bool) : Src Val → Prop
  | .opt j _ => s j = some true
  | _ => True

namespace Spec

variable {s : Nat → Option Bool} {a : AState Val}

theorem value_safe (h : St B P s a) {i : Nat} {src : Src Val} (hs : SrcOK s src) :
    Out.Safe (fun _ a' => a' = a) (fun _ => False) (value P i src a) := by
  cases src with
  | opt j mv =>
    obtain ⟨v, hv⟩ := h.engaged hs
    simp only [value, bind_run, val_run hv, obind_ok, pure_run]
    exact rfl
  | _ => exact rfl

theorem movedFrom_safe (h : St B P s a) {f : Bool} {n : Nat} {src : Src Val} (hs : SrcOK s src) :
    Out.Safe (fun _ a' => St B P s a') (fun _ => False) (movedFrom P f n src a) := by
  cases src with
  | opt j mv =>
    cases mv
    · exact h
    · obtain ⟨v, hv⟩ := h.engaged hs
      simp only [movedFrom, bind_run, val_run hv, obind_ok, put_run]
      exact h.put hs
  | _ => exact h

theorem user_eq (a : AState Val) (e f : Event) : user P e f a = .ok (a.env.tick, P.throwsAt a.env.tick)
    { a with env := ⟨a.env.tick + 1, a.env.log ++ [if P.throwsAt a.env.tick then f else e]⟩ } := rfl

/-- the log is one constructor call ahead of the state -/
structure Ahead (B : Base) (P : Prog Val) (s : Nat → Option Bool) (i : Nat) (a : AState Val) : Prop where
  shape : shape a.mem = s
  log : P.Balanced → B.Leads P.tracked a.env.log (liveSet P (upd s i (some true)))

theorem movedFrom_ahead {i : Nat} (h : Ahead B P s i a) {f : Bool} {n : Nat} {src : Src Val}
    (hs : SrcOK s src) : Out.Safe (fun _ a' => Ahead B P s i a') (fun _ => False) (movedFrom P f n src a) := by
  cases src with
  | opt j mv =>
    cases mv
    · exact h
    · have hs' : s j = some true := hs
      have : ∃ v, a.mem j = some (some v) := by
        have := congrFun h.shape j
        rw [hs'] at this
        simp only [Opt.shape, Option.map_eq_some_iff] at this
        obtain ⟨x, h1, h2⟩ := this
        obtain ⟨v, rfl⟩ := Option.isSome_iff_exists.1 h2
        exact ⟨v, h1⟩
      obtain ⟨v, hv⟩ := this
      simp only [movedFrom, bind_run, val_run hv, obind_ok, put_run]
      refine ⟨?_, h.log⟩
      rw [shape_upd, h.shape, Option.map_some, Option.isSome_some, upd_self hs']
  | _ => exact h

theorem via_balanced (hB : P.Balanced) (i : Nat) : P.viaTemp i = false := by
  simp only [Prog.viaTemp, Prog.elem]
  rcases hB (P.cls i) with h | h | h <;> simp [h]

theorem initAs_safe (hP : P.OK) {t : Bool} (hbt : P.Balanced → t = false) (h : St B P s a) {i : Nat} {b : Bool} {src : Src Val} (hi : s i = some b)
    (hb : (b = false ∧ src.isSelf i = false) ∨ (P.elem i).scalar = true) (hs : SrcOK s src) :
    Out.Safe (fun _ a' => St B P (upd s i (some true)) a') (St B P s) (initAs P t i src a) := by
  have hx : ∃ x, a.mem i = some x ∧ x.isSome = b := by
    cases b
    · exact ⟨none, h.empty hi, rfl⟩
    · obtain ⟨v, hv⟩ := h.engaged hi; exact ⟨some v, hv, rfl⟩
  obtain ⟨x, hx, hxb⟩ := hx
  have hc : ¬ ((x.isSome || src.isSelf i) && !(P.elem i).scalar) = true := by
    rw [hxb]
    rcases hb with ⟨rfl, h⟩ | h <;> simp [h]
  simp only [initAs, bind_run, get_run hx, obind_ok, if_neg hc]
  have htr : P.tracked i = true → liveSet P s i = false := by
    intro ht
    rcases hb with ⟨rfl, _⟩ | hsc
    · exact live_not (by rw [hi]; decide)
    · have : (P.elem i).trivDtor = true := (hP.scalar _ hsc).1
      simp only [Prog.tracked, this] at ht; cases ht
  have hv := value_safe (i := i) h hs
  cases hvv : value P i src a with
  | ub => rw [hvv] at hv; exact hv.elim
  | verify => exact trivial
  | throw _ => rw [hvv] at hv; exact hv.elim
  | ok v a' =>
    rw [hvv] at hv
    have hv' : a' = a := hv
    subst hv'
    simp only [obind_ok]
    by_cases ht : (P.elem i).ctorTriv (P.kind i src) = true
    · simp only [ht, if_true, put_run]
      have htd : P.tracked i = false := by
        have : (P.elem i).trivDtor = true := by
          revert ht
          cases P.kind i src with
          | copy => exact hP.tcc_td _
          | move => exact hP.tmc_td _
          | args => intro h; cases h
          | conv => intro h; cases h
        simp only [Prog.tracked, this]; rfl
      refine ⟨by rw [shape_upd, h.shape]; rfl, ?_⟩
      rw [live_upd_untracked htd]; exact h.log
    · simp only [ht, if_false, bind_run, user_eq, obind_ok, Bool.false_eq_true]
      cases hthr : P.throwsAt a'.env.tick
      · have h1 : Ahead B P s i { a' with env := ⟨a'.env.tick + 1, a'.env.log ++ [.made t i (P.kind i src)]⟩ } := by
          refine ⟨h.shape, fun hB => (h.log hB).snoc ?_⟩
          simp only [hbt hB, Event.made, Bool.false_eq_true, if_false, Life.step]
          cases htr' : P.tracked i
          · simp only [Bool.false_eq_true, if_false, live_upd_untracked htr']
          · simp only [if_true, htr htr', Bool.false_eq_true, if_false, live_upd_true htr']
        simp only [Bool.false_eq_true, if_false]
        have h2 := movedFrom_ahead (f := false) (n := a'.env.tick) h1 hs
        revert h2
        cases movedFrom P false a'.env.tick src _ with
        | ub => exact fun h => h
        | verify => exact fun _ => trivial
        | throw _ => exact fun h => h.elim
        | ok _ a2 =>
          intro h2
          simp only [obind_ok, bind_run, put_run]
          cases t
          · exact ⟨by rw [shape_upd, h2.shape]; rfl, h2.log⟩
          · exact ⟨by simp only [AState.put, shape_upd, h2.shape]; rfl, fun hB => by cases hbt hB⟩
      · have h1 : St B P s { a' with env := ⟨a'.env.tick + 1, a'.env.log ++ [.unmade t i (P.kind i src)]⟩ } := by
          refine h.event ?_
          cases t
          · simp only [Event.unmade, Bool.false_eq_true, if_false, Life.step]
            cases htr' : P.tracked i
            · rfl
            · simp only [htr htr']; rfl
          · rfl
        simp only [if_true]
        have h2 := movedFrom_safe (f := true) (n := a'.env.tick) h1 hs
        revert h2
        cases movedFrom P true a'.env.tick src _ with
        | ub => exact fun h => h
        | verify => exact fun _ => trivial
        | throw _ => exact fun h => h.elim
        | ok _ a2 => exact fun h2 => h2

theorem init_safe (hP : P.OK) (h : St B P s a) {i : Nat} {b : Bool} {src : Src Val} (hi : s i = some b)
    (hb : (b = false ∧ src.isSelf i = false) ∨ (P.elem i).scalar = true) (hs : SrcOK s src) :
    Out.Safe (fun _ a' => St B P (upd s i (some true)) a') (St B P s) (init P i src a) :=
  initAs_safe hP (fun hB => via_balanced hB i) h hi hb hs

theorem step_assign {i : Nat} (hi : s i = some true) (k : Kind) (b : Bool) :
    Life.step P.tracked (liveSet P s) (.assign i k b) = some (liveSet P s) := by
  simp only [Life.step, live_is hi]; cases P.tracked i <;> rfl

theorem step_call {i : Nat} (hi : s i = some true) (b : Bool) :
    Life.step P.tracked (liveSet P s) (.call i b) = some (liveSet P s) := by
  simp only [Life.step, live_is hi]; cases P.tracked i <;> rfl

theorem step_swap {i j : Nat} (hi : s i = some true) (hj : s j = some true) (b : Bool) :
    Life.step P.tracked (liveSet P s) (.swap i j b) = some (liveSet P s) := by
  simp only [Life.step, live_is hi, live_is hj]; cases P.tracked i <;> cases P.tracked j <;> rfl

theorem assign_safe (h : St B P s a) {i : Nat} {src : Src Val} (hi : s i = some true) (hs : SrcOK s src) :
    Out.Safe (fun _ a' => St B P s a') (St B P s) (assign P i src a) := by
  obtain ⟨old, ho⟩ := h.engaged hi
  simp only [assign, bind_run, val_run ho, obind_ok]
  have hv := value_safe (i := i) h hs
  cases hvv : value P i src a with
  | ub => rw [hvv] at hv; exact hv.elim
  | verify => exact trivial
  | throw _ => rw [hvv] at hv; exact hv.elim
  | ok v a' =>
    rw [hvv] at hv
    have hv' : a' = a := hv
    subst hv'
    simp only [obind_ok]
    by_cases ht : (P.elem i).assignTriv (P.kind i src) = true
    · simp only [ht, if_true, put_run]; exact h.put hi
    · simp only [ht, if_false, bind_run, user_eq, obind_ok, Bool.false_eq_true]
      have h1 : ∀ b, St B P s { a' with env := ⟨a'.env.tick + 1, a'.env.log ++ [.assign i (P.kind i src) b]⟩ } :=
        fun b => h.event (step_assign hi _ _)
      cases hthr : P.throwsAt a'.env.tick
      · simp only [Bool.false_eq_true, if_false]
        by_cases hself : src.isSelf i = true
        · simp only [hself, if_true]
          cases src with
          | opt j mv => cases mv <;> exact (h1 _).put hi
          | _ => exact (h1 _).put hi
        · simp only [hself, Bool.false_eq_true, if_false, bind_run]
          have h2 := movedFrom_safe (f := false) (n := a'.env.tick) (h1 true) hs
          revert h2
          cases movedFrom P false a'.env.tick src _ with
          | ub => exact fun h => h
          | verify => exact fun _ => trivial
          | throw _ => exact fun h => h.elim
          | ok _ a2 => exact fun h2 => h2.put hi
      · simp only [if_true, bind_run]
        have h2 := movedFrom_safe (f := true) (n := a'.env.tick) (h1 false) hs
        revert h2
        cases movedFrom P true a'.env.tick src _ with
        | ub => exact fun h => h
        | verify => exact fun _ => trivial
        | throw _ => exact fun h => h.elim
        | ok _ a2 => exact fun h2 => h2.put hi

theorem clear_safe (h : St B P s a) {i : Nat} {b : Bool} (hi : s i = some b) :
    Out.Safe (fun _ a' => St B P (upd s i (some false)) a') (fun _ => False) (clear P i a) := by
  cases b
  · have hx := h.empty hi
    simp only [clear, bind_run, get_run hx, obind_ok, pure_run]
    rw [upd_self hi]; exact h
  · obtain ⟨v, hx⟩ := h.engaged hi
    simp only [clear, bind_run, get_run hx, obind_ok]
    by_cases ht : (P.elem i).trivDtor = true
    · simp only [ht, if_true, pure_run, obind_ok, put_run]
      refine ⟨by rw [shape_upd, h.shape]; rfl, ?_⟩
      rw [live_upd_untracked (by simp only [Prog.tracked, ht]; rfl)]; exact h.log
    · have ht' : P.tracked i = true := by simp only [Prog.tracked]; revert ht; cases (P.elem i).trivDtor <;> simp
      simp only [ht, if_false, note_run, obind_ok, put_run, Bool.false_eq_true]
      refine ⟨by rw [shape_upd, h.shape]; rfl, ?_⟩
      simp only [Env.addIf, if_true]
      refine fun hB => (h.log hB).snoc ?_
      rw [live_upd_not (by decide)]
      simp only [Life.step, live_is hi, ht', if_true]

theorem new_safe (h : St B P s a) {i : Nat} (hi : s i = none) :
    Out.Safe (fun _ a' => St B P (upd s i (some false)) a') (fun _ => False) (new i a) := by
  rw [new_run (h.absent hi)]
  refine ⟨by rw [shape_upd, h.shape]; rfl, ?_⟩
  rw [live_upd_not (by decide), upd_self (live_not (by rw [hi]; decide))]
  exact h.log

theorem del_safe (h : St B P s a) {i : Nat} (hi : s i = some false) :
    Out.Safe (fun _ a' => St B P (upd s i none) a') (fun _ => False) (del i a) := by
  rw [del_run]
  refine ⟨by rw [shape_upd, h.shape]; rfl, ?_⟩
  rw [live_upd_not (by decide), upd_self (live_not (by rw [hi]; decide))]
  exact h.log

theorem upd_upd' {f : Nat → Option Bool} {i : Nat} {x y : Option Bool} (h : f i = y) : upd (upd f i x) i y = f := by
  rw [upd_upd, upd_self h]

theorem safe_onThrow {α : Type} {Q : α → AState Val → Prop} {T T' : AState Val → Prop} {x : M (AState Val) α}
    {k : M (AState Val) Unit} (hx : Out.Safe Q T' (x a))
    (hk : ∀ a, T' a → Out.Safe (fun _ a' => T a') (fun _ => False) (k a)) : Out.Safe Q T (M.onThrow x k a) := by
  simp only [M.onThrow]
  cases hxa : x a with
  | ok _ _ => rw [hxa] at hx; exact hx
  | verify => exact trivial
  | ub => rw [hxa] at hx; exact hx
  | throw a' =>
    rw [hxa] at hx
    have := hk a' hx
    simp only
    cases hka : k a' with
    | ok _ _ => rw [hka] at this; exact this
    | throw _ => rw [hka] at this; exact this.elim
    | verify => exact trivial
    | ub => rw [hka] at this; exact this

theorem safe_nothrow {α : Type} {Q : α → AState Val → Prop} {T : AState Val → Prop} {x : Out (AState Val) α}
    (h : Out.Safe Q (fun _ => False) x) : Out.Safe Q T x :=
  safe_mono h (fun _ _ h => h) (fun _ h => h.elim)

theorem _root_.Opt.SrcOK.upd {src : Src Val} {i : Nat} {x : Option Bool} (h : SrcOK s src) (hi : s i ≠ some true) :
    SrcOK (upd s i x) src := by
  cases src with
  | opt j mv =>
    have h' : s j = some true := h
    have : j ≠ i := fun e => hi (e ▸ h')
    exact (upd_other s x this).trans h'
  | _ => exact trivial

theorem _root_.Opt.SrcOK.notSelf {src : Src Val} {i : Nat} (h : SrcOK s src) (hi : s i ≠ some true) : src.isSelf i = false := by
  cases src with
  | opt j mv =>
    have h' : s j = some true := h
    have : j ≠ i := fun e => hi (e ▸ h')
    simpa [Src.isSelf] using this
  | _ => rfl

theorem create_safe (hP : P.OK) (h : St B P s a) {i : Nat} {src : Src Val} (hi : s i = none) (hs : SrcOK s src) :
    Out.Safe (fun _ a' => St B P (upd s i (some true)) a') (St B P s) (create P i src a) := by
  have hne : s i ≠ some true := by rw [hi]; decide
  refine safe_bind (safe_nothrow (new_safe h hi)) ?_
  intro _ a' h'
  refine safe_onThrow (T' := St B P (Opt.upd s i (some false))) ?_ ?_
  · refine safe_mono (initAs_safe hP (fun _ => rfl) h' (upd_same _ _ _) (.inl ⟨rfl, hs.notSelf hne⟩) (hs.upd hne)) ?_ (fun _ h => h)
    intro _ a2 h2
    rwa [upd_upd] at h2
  · intro a2 h2
    refine safe_mono (del_safe h2 (upd_same _ _ _)) ?_ (fun _ h => h)
    intro _ a3 h3
    rwa [upd_upd' hi] at h3

theorem createVia_safe (hP : P.OK) (h : St B P s a) {i : Nat} {src : Src Val} (hi : s i = none) (hs : SrcOK s src) :
    Out.Safe (fun _ a' => St B P (upd s i (some true)) a') (St B P s) (createVia P i src a) := by
  have hne : s i ≠ some true := by rw [hi]; decide
  refine safe_bind (safe_nothrow (new_safe h hi)) ?_
  intro _ a' h'
  refine safe_onThrow (T' := St B P (Opt.upd s i (some false))) ?_ ?_
  · refine safe_mono (init_safe hP h' (upd_same _ _ _) (.inl ⟨rfl, hs.notSelf hne⟩) (hs.upd hne)) ?_ (fun _ h => h)
    intro _ a2 h2
    rwa [upd_upd] at h2
  · intro a2 h2
    refine safe_mono (del_safe h2 (upd_same _ _ _)) ?_ (fun _ h => h)
    intro _ a3 h3
    rwa [upd_upd' hi] at h3

theorem checked_safe (h : St B P s a) {i : Nat} {b : Bool} (hi : s i = some b) :
    Out.Safe (fun _ a' => a' = a ∧ s i = some true) (fun _ => False) (checked i a) := by
  cases b
  · rw [checked_run (h.empty hi)]; exact trivial
  · obtain ⟨v, hv⟩ := h.engaged hi
    rw [checked_run hv]; exact ⟨rfl, hi⟩

theorem evalArg_safe (h : St B P s a) {src : Src Val} (hs : ∀ j ∈ Op.srcUses src, a.mem j ≠ none) :
    Out.Safe (fun _ a' => a' = a ∧ SrcOK s src) (fun _ => False) (evalArg src a) := by
  cases src with
  | opt j mv =>
    have := hs j (List.mem_singleton.2 rfl)
    obtain ⟨x, hx⟩ := Option.ne_none_iff_exists'.1 this
    exact checked_safe h (h.of_mem hx)
  | _ => exact ⟨rfl, trivial⟩

theorem get_safe (h : St B P s a) {i : Nat} (hi : a.mem i ≠ none) :
    Out.Safe (fun x a' => a' = a ∧ a.mem i = some x ∧ s i = some x.isSome) (fun _ => False) (get i a) := by
  obtain ⟨x, hx⟩ := Option.ne_none_iff_exists'.1 hi
  rw [get_run hx]
  exact ⟨rfl, hx, h.of_mem hx⟩

theorem call_safe (h : St B P s a) {β : Type} {i : Nat} {f : Prog.Fn Val β} (hi : s i = some true) :
    Out.Safe (fun _ a' => St B P s a') (St B P s) (call P i f a) := by
  obtain ⟨v, hv⟩ := h.engaged hi
  simp only [call, bind_run, checked_run hv, Option.isSome_some, check_true, obind_ok, val_run hv, user_eq]
  have h1 : ∀ b, St B P s { a with env := ⟨a.env.tick + 1, a.env.log ++ [.call i b]⟩ } :=
    fun b => h.event (step_call hi _)
  cases hthr : P.throwsAt a.env.tick
  · exact (h1 true).put hi
  · exact (h1 false).put hi

theorem call0_safe (h : St B P s a) {β : Type} (b : β) :
    Out.Safe (fun x a' => x = b ∧ St B P s a' ∧ a'.mem = a.mem) (St B P s) (call0 P b a) := by
  simp only [call0, bind_run, user_eq, obind_ok]
  have h1 : ∀ b, St B P s { a with env := ⟨a.env.tick + 1, a.env.log ++ [.call0 b]⟩ } := fun b => h.event rfl
  cases hthr : P.throwsAt a.env.tick
  · exact ⟨rfl, h1 true, rfl⟩
  · exact h1 false

theorem give_safe (h : St B P s a) {i : Nat} {src : Src Val} (hs : SrcOK s src) :
    Out.Safe (fun _ a' => St B P s a') (St B P s) (give P i src a) := by
  simp only [give]
  refine safe_bind (safe_nothrow (value_safe h hs)) ?_
  rintro v a' rfl
  by_cases ht : (P.elem i).ctorTriv (P.kind i src) = true
  · simp only [ht, if_true]; exact h
  · simp only [ht, if_false, bind_run, user_eq, obind_ok, Bool.false_eq_true]
    have h1 : ∀ b, St B P s { a' with env := ⟨a'.env.tick + 1, a'.env.log ++ [.tmpCtor (P.kind i src) b]⟩ } :=
      fun b => h.event rfl
    cases hthr : P.throwsAt a'.env.tick
    · have h2 := movedFrom_safe (f := false) (n := a'.env.tick) (h1 true) hs
      revert h2
      simp only [Bool.false_eq_true, if_false]
      cases movedFrom P false a'.env.tick src _ with
      | ub => exact fun h => h
      | verify => exact fun _ => trivial
      | throw _ => exact fun h => h.elim
      | ok _ a2 => exact fun h2 => h2
    · have h2 := movedFrom_safe (f := true) (n := a'.env.tick) (h1 false) hs
      revert h2
      simp only [if_true]
      cases movedFrom P true a'.env.tick src _ with
      | ub => exact fun h => h
      | verify => exact fun _ => trivial
      | throw _ => exact fun h => h.elim
      | ok _ a2 => exact fun h2 => h2

theorem make_safe (hP : P.OK) (h : St B P s a) {r : Nat} (hr : s r = none) (x : Option Val) :
    Out.Safe (fun _ a' => ∃ s', St B P s' a') (fun a' => ∃ s', St B P s' a') (make P r x a) := by
  cases x with
  | none => exact safe_nothrow (safe_mono (new_safe h hr) (fun _ _ h => ⟨_, h⟩) (fun _ h => h))
  | some v => exact safe_mono (create_safe hP h hr trivial) (fun _ _ h => ⟨_, h⟩) (fun _ h => ⟨_, h⟩)

/-- some shape -/
def Fine (B : Base) (P : Prog Val) (a : AState Val) : Prop := ∃ s, St B P s a

theorem Fine.mk {s : Nat → Option Bool} {a : AState Val} (h : St B P s a) : Fine B P a := ⟨s, h⟩

/-- outcome after which the log is in order -/
abbrev Good {α : Type} (B : Base) (P : Prog Val) (x : Out (AState Val) α) : Prop := Out.Safe (fun _ => Fine B P) (Fine B P) x

theorem good_of {α : Type} {s1 s2 : Nat → Option Bool} {x : Out (AState Val) α}
    (h : Out.Safe (fun _ a' => St B P s1 a') (St B P s2) x) : Good B P x :=
  safe_mono h (fun _ _ h => ⟨_, h⟩) (fun _ h => ⟨_, h⟩)

theorem good_of' {α : Type} {s1 : Nat → Option Bool} {x : Out (AState Val) α}
    (h : Out.Safe (fun _ a' => St B P s1 a') (fun _ => False) x) : Good B P x :=
  safe_mono h (fun _ _ h => ⟨_, h⟩) (fun _ h => h.elim)

theorem ctorFrom_safe (hP : P.OK) (h : St B P s a) {i j : Nat} {mv : Bool} (hi : s i = none) (hj : a.mem j ≠ none) :
    Out.Safe (fun _ a' => ∃ b, St B P (upd s i (some b)) a') (St B P s) (ctorFrom P i j mv a) := by
  refine safe_bind (safe_nothrow (get_safe h hj)) ?_
  rintro x a' ⟨rfl, hx, hs⟩
  cases x with
  | none => exact safe_nothrow (safe_mono (new_safe h hi) (fun _ _ h => ⟨_, h⟩) (fun _ h => h))
  | some v => exact safe_mono (createVia_safe hP h hi hs) (fun _ _ h => ⟨_, h⟩) (fun _ h => h)

theorem take_good (hP : P.OK) (h : St B P s a) {i r : Nat} (hr : s r = none) (hi : a.mem i ≠ none) :
    Good B P (take P i r a) := by
  obtain ⟨x, hx⟩ := Option.ne_none_iff_exists'.1 hi
  have hsi := h.of_mem hx
  have hne : i ≠ r := fun e => by subst e; rw [hr] at hsi; cases hsi
  refine safe_bind (safe_mono (ctorFrom_safe hP h hr hi) (fun _ _ h => h) (fun _ h => ⟨_, h⟩)) ?_
  rintro _ a' ⟨b, h'⟩
  exact good_of' (clear_safe h' ((upd_other _ _ hne).trans hsi))

theorem allHave_safe (h : St B P s a) : ∀ {is : List (Nat × Bool)}, (∀ p ∈ is, a.mem p.1 ≠ none) →
    Out.Safe (fun b a' => a' = a ∧ (b = true → ∀ p ∈ is, s p.1 = some true)) (fun _ => False) (allHave is a)
  | [], _ => ⟨rfl, fun _ _ h => (by cases h)⟩
  | (i, mv) :: is, hall => by
    refine safe_bind (get_safe h (hall (i, mv) List.mem_cons_self)) ?_
    rintro x a' ⟨e, hx, hs⟩
    rw [e]
    cases x with
    | none => exact ⟨rfl, fun h => (by cases h)⟩
    | some v =>
      refine safe_mono (allHave_safe h fun p hp => hall p (List.mem_cons_of_mem _ hp)) ?_ (fun _ h => h)
      rintro b a' ⟨rfl, h'⟩
      refine ⟨rfl, fun hb p hp => ?_⟩
      rcases List.mem_cons.1 hp with rfl | hp
      · exact hs
      · exact h' hb p hp

theorem dropTmp_safe (h : St B P s a) (i : Nat) :
    Out.Safe (fun _ a' => St B P s a') (fun _ => False) (dropTmp P i a) := by
  unfold dropTmp
  split
  · exact h
  · exact h.event (n := a.env.tick) rfl

theorem dropTmps_safe : ∀ {is : List Nat} {a : AState Val}, St B P s a →
    Out.Safe (fun _ a' => St B P s a') (fun _ => False) (dropTmps P is a)
  | [], _, h => h
  | i :: _, _, h => safe_bind (dropTmp_safe h i) fun _ _ h => dropTmps_safe h

theorem zipElems_safe : ∀ {is : List (Nat × Bool)} {a : AState Val}, St B P s a → (∀ p ∈ is, s p.1 = some true) →
    Out.Safe (fun _ a' => St B P s a') (St B P s) (zipElems P is a)
  | [], _, h, _ => h
  | (i, mv) :: is, a, h, hall => by
    refine safe_bind (give_safe h (hall (i, mv) List.mem_cons_self)) ?_
    intro v a1 h1
    refine safe_bind (safe_onThrow (zipElems_safe h1 fun p hp => hall p (List.mem_cons_of_mem _ hp))
      fun _ h => dropTmp_safe h i) ?_
    exact fun _ _ h => h

theorem vals_safe (h : St B P s a) : ∀ {is : List Nat}, (∀ i ∈ is, s i = some true) →
    Out.Safe (fun _ a' => a' = a) (fun _ => False) (vals is a)
  | [], _ => rfl
  | i :: is, hall => by
    obtain ⟨v, hv⟩ := h.engaged (hall i List.mem_cons_self)
    simp only [vals, bind_run, val_run hv, obind_ok]
    refine safe_bind (vals_safe h fun p hp => hall p (List.mem_cons_of_mem _ hp)) ?_
    exact fun _ _ h => h

end Spec

end Opt
