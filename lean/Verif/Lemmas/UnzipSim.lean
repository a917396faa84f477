import Verif.Lemmas.UnzipList
import Verif.Lemmas.Shape

/-!
# `unzip` as an operation of a history: simulation, lifetimes, log
-/

namespace Opt

variable {Val : Type} {P : Prog Val} {q : Parts Val} {i : Nat} {mv : Bool}

theorem Spec.clock_run (a : AState Val) : (Spec.clock : M (AState Val) Nat) a = .ok a.env.tick a := rfl

namespace Prog

theorem unzipPart_sim (hP : P.OK) {w : World} {a : AState Val} {k r : Nat} (h : R P w a) (hl : q.Legal P i [(k, r)]) :
    Out.Rel (fun _ w' _ a' => R P w' a') (R P) (P.unzipElem q i mv k r w) (Spec.unzipPart P q i mv k r a) := by
  obtain ⟨m, e⟩ := a
  simp only [Spec.unzipPart, bind_run]
  cases hi : m i with
  | none => simp only [Spec.val, bind_run, Spec.get_none (a := ⟨m, e⟩) hi, obind_ub]; exact rel_ub _
  | some x =>
    cases x with
    | none => simp only [Spec.val, bind_run, Spec.get_run (a := ⟨m, e⟩) hi, obind_ok, bad_run, obind_ub]; exact rel_ub _
    | some v =>
      have hl' := hl v (R_dom h hi) (k, r) (List.mem_cons_self ..)
      dsimp only at hl'
      simp only [Spec.val_run (a := ⟨m, e⟩) hi, obind_ok, Spec.clock_run, bind_run]
      cases hr : m r with
      | some y =>
        simp only [M.onThrow, Spec.create, bind_run, Spec.new_some (a := ⟨m, e⟩) hr, obind_ub]; exact rel_ub _
      | none =>
        by_cases ht : (P.elem r).ctorTriv (partKind mv) = true ∨ P.throwsAt e.tick = false
        · obtain ⟨w', h1, h2⟩ := unzipElem_ok hP (mv := mv) h hi hr hl'.1 hl'.2 ht
          rw [h1]
          simp only [M.onThrow, Spec.create_ok (P := P) (e := e) hr (gives_partSrc (mv := mv) (P := P) (m := m) (r := r) (v := q.part k v))
            (by rw [kind_partSrc]; exact ht), obind_ok, ctorLeaves_partSrc, partEv_ctor, Spec.put_run]
          exact h2
        · rw [not_or] at ht
          have ht1 : (P.elem r).ctorTriv (partKind mv) = false := by simpa using ht.1
          have ht2 : P.throwsAt e.tick = true := by simpa using ht.2
          obtain ⟨w', h1, h2⟩ := unzipElem_throw hP (mv := mv) h hi hr hl'.1 hl'.2 ht1 ht2
          rw [h1]
          simp only [M.onThrow, Spec.create_throw (P := P) (e := e) hr
            (gives_partSrc (mv := mv) (P := P) (m := m) (r := r) (v := q.part k v)) (by rw [kind_partSrc]; exact ht1) ht2, leaves_partSrc,
            kind_partSrc, Spec.put_run, obind_throw]
          cases mv
          · exact h2
          · simp only [partKind, if_true] at ht1
            simp only [ht1, Bool.not_false, Bool.and_self, if_true]
            exact h2

theorem unzipParts_sim (hP : P.OK) : ∀ {ps : List (Nat × Nat)} {w : World} {a : AState Val}, R P w a → q.Legal P i ps →
    Out.Rel (fun _ w' _ a' => R P w' a') (R P) (P.unzipElems q i mv ps w) (Spec.unzipParts P q i mv ps a)
  | [], _, _, h, _ => h
  | (k, r) :: ps, w, a, h, hl => by
    refine rel_bind (unzipPart_sim hP h fun v hv p hp => ?_) fun _ w1 _ a1 h1 => rel_onThrow
      (unzipParts_sim hP h1 fun v hv p hp => hl v hv p (List.mem_cons_of_mem _ hp)) fun w2 a2 h2 => dtor_sim hP h2
    rw [List.mem_singleton] at hp
    exact hl v hv p (hp ▸ List.mem_cons_self ..)

theorem newAll_sim (hP : P.OK) : ∀ {rs : List Nat} {w : World} {a : AState Val}, R P w a →
    Out.Rel (fun _ w' _ a' => R P w' a') (R P) (P.unzipNone rs w) (Spec.newAll rs a)
  | [], _, _, h => h
  | _ :: _, _, _, h =>
    rel_bind (rel_nothrow (ctorDefault_sim hP h)) fun _ _ _ _ h1 => newAll_sim hP h1

theorem unzipNew_sim (hP : P.OK) {rs : List Nat} {w : World} {a : AState Val} (h : R P w a)
    (hl : q.Legal P i (indexed rs)) :
    Out.Rel (fun _ w' _ a' => R P w' a') (R P) (P.unzipList q i mv rs w) (Spec.unzipNew P q i mv rs a) := by
  simp only [unzipList, Spec.unzipNew, bind_run]
  cases hi : a.mem i with
  | none => simp only [Spec.get_none hi, obind_ub]; exact rel_ub _
  | some x =>
    obtain ⟨o, ho, hr⟩ := h.some' hi
    simp only [Spec.get_run hi, obind_ok, hasValue_run ho hr]
    cases x with
    | none => exact newAll_sim hP h
    | some v => exact unzipParts_sim hP h hl

theorem destroyAll_sim (hP : P.OK) : ∀ {ts : List Nat} {w : World} {a : AState Val}, R P w a →
    Out.Rel (fun _ w' _ a' => R P w' a') (fun _ _ => False) (P.dtorAll ts w) (Spec.destroyAll P ts a)
  | [], _, _, h => h
  | _ :: _, _, _, h => rel_bind (dtor_sim hP h) fun _ _ _ _ h1 => destroyAll_sim hP h1

/-- each move constructor that is reached finds an option it fits -/
def MoveFit (P : Prog Val) (ms : List (Nat × Nat)) (a : AState Val) : Prop :=
  ∀ pre r t post a1, ms = pre ++ (r, t) :: post → Spec.moveAll P pre a = .ok () a1 → a1.mem r = none →
    (∃ v, a1.mem t = some (some v)) → P.FitAt r (P.kind r (.opt t true)) a1.env.tick

theorem moveAll_sim (hP : P.OK) : ∀ {ms : List (Nat × Nat)} {w : World} {a : AState Val}, R P w a → MoveFit P ms a →
    Out.Rel (fun _ w' _ a' => R P w' a') (R P) (P.moveAll ms w) (Spec.moveAll P ms a)
  | [], _, _, h, _ => h
  | (r, t) :: ms, w, a, h, hF => by
    cases hr : a.mem r with
    | some y =>
      have : Spec.ctorFrom P r t true a = .ub := by
        simp only [Spec.ctorFrom, bind_run]
        cases ht : a.mem t with
        | none => simp only [Spec.get_none ht, obind_ub]
        | some x =>
          cases x with
          | none => simp only [Spec.get_run ht, obind_ok, Spec.new_some hr]
          | some v => simp only [Spec.get_run ht, obind_ok, Spec.createVia, bind_run, Spec.new_some hr, obind_ub]
      simp only [Spec.moveAll, bind_run, this, obind_ub]
      exact rel_ub _
    | none =>
      have hc := ctorFrom_sim hP (i := r) (j := t) (mv := true)
        (fun ht => by rw [h.env]; exact hF [] r t ms a rfl rfl hr ht) h
      simp only [moveAll, Spec.moveAll, bind_run]
      cases hs : Spec.ctorFrom P r t true a with
      | ub => simp only [obind_ub]; exact rel_ub _
      | verify =>
        rw [hs] at hc
        cases hx : P.ctorFrom r t true w <;> rw [hx] at hc <;> first | exact hc.elim | exact hc
      | throw a1 =>
        obtain ⟨w1, h1, h2⟩ := rel_thrown hc hs
        simp only [h1, obind_throw]
        exact h2
      | ok u a1 =>
        obtain ⟨_, w1, h1, h2⟩ := rel_ok hc hs
        simp only [h1, obind_ok]
        refine rel_onThrow (moveAll_sim hP h2 ?_) fun w2 a2 h3 => dtor_sim hP h3
        intro pre r' t' post a2 hms hrun
        refine hF ((r, t) :: pre) r' t' post a2 (by rw [hms]; rfl) ?_
        simp only [Spec.moveAll, bind_run, hs, obind_ok, M.onThrow, hrun]

theorem unzipVia_sim (hP : P.OK) {ts : List Nat} {ms : List (Nat × Nat)} {w : World} {a : AState Val} (h : R P w a)
    (hl : q.Legal P i (indexed ts)) (hF : ∀ a1, Spec.unzipNew P q i mv ts a = .ok () a1 → MoveFit P ms a1) :
    Out.Rel (fun _ w' _ a' => R P w' a') (R P) (P.unzipTuple q i mv ts ms w) (Spec.unzipVia P q i mv ts ms a) := by
  have h1 := unzipNew_sim hP (mv := mv) h hl
  simp only [unzipTuple, Spec.unzipVia, bind_run]
  cases hs : Spec.unzipNew P q i mv ts a with
  | ub => simp only [obind_ub]; exact rel_ub _
  | verify =>
    rw [hs] at h1
    cases hx : P.unzipList q i mv ts w <;> rw [hx] at h1 <;> first | exact h1.elim | exact h1
  | throw a1 =>
    obtain ⟨w1, h2, h3⟩ := rel_thrown h1 hs
    simp only [h2, obind_throw]
    exact h3
  | ok u a1 =>
    obtain ⟨_, w1, h2, h3⟩ := rel_ok h1 hs
    simp only [h2, obind_ok]
    exact rel_bind (rel_onThrow (moveAll_sim hP h3 (hF a1 hs)) fun w2 a2 h4 => destroyAll_sim hP h4)
      fun _ w2 _ a2 h4 => rel_nothrow (destroyAll_sim hP h4)

end Prog

namespace Spec

/-! ## Lifetimes -/

variable {B : Base} {s : Nat → Option Bool} {a : AState Val}

theorem destroy_safe (h : St B P s a) {i : Nat} {b : Bool} (hi : s i = some b) :
    Out.Safe (fun _ a' => St B P (upd s i none) a') (fun _ => False) (destroy P i a) := by
  refine safe_bind (clear_safe h hi) fun _ a1 h1 => ?_
  have := del_safe h1 (upd_same _ _ _)
  rwa [upd_upd] at this

theorem unzipPart_safe (hP : P.OK) (h : St B P s a) {k r : Nat} (hi : s i = some true) (hr : s r = none) :
    Out.Safe (fun _ a' => St B P (upd s r (some true)) a') (St B P s) (unzipPart P q i mv k r a) := by
  obtain ⟨v, hv⟩ := h.engaged hi
  have hir : i ≠ r := by rintro rfl; rw [hi] at hr; cases hr
  simp only [unzipPart, bind_run, val_run hv, obind_ok, clock_run]
  refine safe_bind (safe_onThrow (create_safe hP h hr (by cases mv <;> exact trivial)) ?_) ?_
  · intro a1 h1
    exact h1.put hi
  · intro _ a1 h1
    exact h1.put ((upd_other _ _ hir).trans hi)

theorem unzipParts_safe (hP : P.OK) : ∀ {ps : List (Nat × Nat)} {s : Nat → Option Bool} {a : AState Val}, St B P s a →
    s i = some true → (ps.map (·.2)).Nodup → (∀ p ∈ ps, s p.2 = none) →
    Out.Safe (fun _ a' => ∃ s', St B P s' a' ∧ (∀ p ∈ ps, s' p.2 ≠ none) ∧ ∀ j, j ∉ ps.map (·.2) → s' j = s j) (St B P s)
      (unzipParts P q i mv ps a)
  | [], s, a, h, _, _, _ => ⟨s, h, (fun _ h => by cases h), fun _ _ => rfl⟩
  | (k, r) :: ps, s, a, h, hi, hn, hf => by
    rw [List.map_cons, List.nodup_cons] at hn
    have hr : s r = none := hf _ (List.mem_cons_self ..)
    have hir : i ≠ r := by rintro rfl; rw [hi] at hr; cases hr
    refine safe_bind (unzipPart_safe hP h hi hr) fun _ a1 h1 => ?_
    refine safe_mono (safe_onThrow (T := St B P s) (unzipParts_safe hP h1 ((upd_other _ _ hir).trans hi) hn.2 fun p hp => ?_)
      fun a2 h2 => ?_) ?_ (fun _ h => h)
    · have : p.2 ≠ r := fun he => hn.1 (List.mem_map.2 ⟨p, hp, he⟩)
      exact (upd_other _ _ this).trans (hf p (List.mem_cons_of_mem _ hp))
    · refine safe_mono (destroy_safe h2 (upd_same _ _ _)) (fun _ a3 h3 => ?_) (fun _ h => h)
      rwa [upd_upd' hr] at h3
    · rintro _ a2 ⟨s', h2, h3, h4⟩
      refine ⟨s', h2, fun p hp => ?_, fun j hj => ?_⟩
      · rcases List.mem_cons.1 hp with rfl | hp
        · rw [h4 _ hn.1]; exact (upd_same ..).symm ▸ nofun
        · exact h3 p hp
      · rw [List.map_cons, List.mem_cons, not_or] at hj
        rw [h4 j hj.2, upd_other _ _ hj.1]

theorem newAll_safe : ∀ {rs : List Nat} {s : Nat → Option Bool} {a : AState Val}, St B P s a → rs.Nodup →
    (∀ r ∈ rs, s r = none) →
    Out.Safe (fun _ a' => ∃ s', St B P s' a' ∧ (∀ r ∈ rs, s' r ≠ none) ∧ ∀ j, j ∉ rs → s' j = s j) (fun _ => False)
      (newAll rs a)
  | [], s, a, h, _, _ => ⟨s, h, (fun _ h => by cases h), fun _ _ => rfl⟩
  | r :: rs, s, a, h, hn, hf => by
    rw [List.nodup_cons] at hn
    refine safe_bind (new_safe h (hf r (List.mem_cons_self ..))) fun _ a1 h1 => ?_
    refine safe_mono (newAll_safe h1 hn.2 fun r' hr' => ?_) ?_ (fun _ h => h)
    · have : r' ≠ r := fun he => hn.1 (he ▸ hr')
      exact (upd_other _ _ this).trans (hf r' (List.mem_cons_of_mem _ hr'))
    · rintro _ a2 ⟨s', h2, h3, h4⟩
      refine ⟨s', h2, fun r' hr' => ?_, fun j hj => ?_⟩
      · rcases List.mem_cons.1 hr' with rfl | hr'
        · rw [h4 _ hn.1]; exact (upd_same ..).symm ▸ nofun
        · exact h3 r' hr'
      · rw [List.mem_cons, not_or] at hj
        rw [h4 j hj.2, upd_other _ _ hj.1]

theorem unzipNew_safe (hP : P.OK) (h : St B P s a) {rs : List Nat} (hi : a.mem i ≠ none) (hn : rs.Nodup)
    (hf : ∀ r ∈ rs, s r = none) :
    Out.Safe (fun _ a' => ∃ s', St B P s' a' ∧ (∀ r ∈ rs, s' r ≠ none) ∧ ∀ j, j ∉ rs → s' j = s j) (St B P s)
      (unzipNew P q i mv rs a) := by
  refine safe_bind (safe_nothrow (get_safe h hi)) ?_
  rintro x a' ⟨rfl, hxi, hsi⟩
  cases x with
  | none => exact safe_nothrow (newAll_safe h hn hf)
  | some v =>
    have hsnd := Prog.indexed_snd rs
    refine safe_mono (unzipParts_safe hP h hsi (by rw [hsnd]; exact hn) fun p hp => ?_) ?_ (fun _ h => h)
    · exact hf p.2 (by rw [← hsnd]; exact List.mem_map.2 ⟨p, hp, rfl⟩)
    · rintro _ a2 ⟨s', h2, h3, h4⟩
      rw [hsnd] at h4
      refine ⟨s', h2, fun r hr => ?_, h4⟩
      rw [← hsnd] at hr
      obtain ⟨p, hp, rfl⟩ := List.mem_map.1 hr
      exact h3 p hp

theorem moveAll_safe (hP : P.OK) : ∀ {ms : List (Nat × Nat)} {s : Nat → Option Bool} {a : AState Val}, St B P s a →
    (ms.map (·.1)).Nodup → (∀ p ∈ ms, s p.1 = none) → (∀ p ∈ ms, s p.2 ≠ none) →
    Out.Safe (fun _ a' => ∃ s', St B P s' a' ∧ ∀ j, j ∉ ms.map (·.1) → s' j = s j) (St B P s) (moveAll P ms a)
  | [], s, a, h, _, _, _ => ⟨s, h, fun _ _ => rfl⟩
  | (r, t) :: ms, s, a, h, hn, hf, ht => by
    rw [List.map_cons, List.nodup_cons] at hn
    have hr : s r = none := hf _ (List.mem_cons_self ..)
    have ht0 : a.mem t ≠ none := fun he => ht _ (List.mem_cons_self ..) (h.of_none he)
    refine safe_bind (ctorFrom_safe hP h hr ht0) ?_
    rintro _ a1 ⟨b, h1⟩
    refine safe_mono (safe_onThrow (T := St B P s) (moveAll_safe hP h1 hn.2 (fun p hp => ?_) fun p hp => ?_) fun a2 h2 => ?_)
      ?_ (fun _ h => h)
    · have : p.1 ≠ r := fun he => hn.1 (List.mem_map.2 ⟨p, hp, he⟩)
      exact (upd_other _ _ this).trans (hf p (List.mem_cons_of_mem _ hp))
    · have : p.2 ≠ r := fun he => ht p (List.mem_cons_of_mem _ hp) (he ▸ hr)
      rw [upd_other _ _ this]
      exact ht p (List.mem_cons_of_mem _ hp)
    · refine safe_mono (destroy_safe h2 (upd_same _ _ _)) (fun _ a3 h3 => ?_) (fun _ h => h)
      rwa [upd_upd' hr] at h3
    · rintro _ a2 ⟨s', h2, h4⟩
      refine ⟨s', h2, fun j hj => ?_⟩
      rw [List.map_cons, List.mem_cons, not_or] at hj
      rw [h4 j hj.2, upd_other _ _ hj.1]

theorem destroyAll_safe : ∀ {ts : List Nat} {s : Nat → Option Bool} {a : AState Val}, St B P s a → ts.Nodup →
    (∀ t ∈ ts, s t ≠ none) → Out.Safe (fun _ a' => Fine B P a') (fun _ => False) (destroyAll P ts a)
  | [], s, a, h, _, _ => ⟨s, h⟩
  | t :: ts, s, a, h, hn, hf => by
    rw [List.nodup_cons] at hn
    obtain ⟨b, hb⟩ := Option.ne_none_iff_exists'.1 (hf t (List.mem_cons_self ..))
    refine safe_bind (destroy_safe h hb) fun _ a1 h1 => destroyAll_safe h1 hn.2 fun t' ht' => ?_
    have : t' ≠ t := fun he => hn.1 (he ▸ ht')
    rw [upd_other _ _ this]
    exact hf t' (List.mem_cons_of_mem _ ht')

theorem unzipVia_good (hP : P.OK) (h : St B P s a) {ts : List Nat} {ms : List (Nat × Nat)} (hi : a.mem i ≠ none)
    (hn : (ts ++ ms.map (·.1)).Nodup) (hf : ∀ r ∈ ts ++ ms.map (·.1), s r = none) (ht : ∀ p ∈ ms, p.2 ∈ ts) :
    Good B P (unzipVia P q i mv ts ms a) := by
  obtain ⟨hn1, hn2, hn3⟩ := List.nodup_append.1 hn
  refine safe_bind (safe_mono (unzipNew_safe hP h hi hn1 fun r hr => hf r (List.mem_append_left _ hr)) (fun _ _ h => h)
    (fun _ h => ⟨_, h⟩)) ?_
  rintro _ a1 ⟨s1, h1, h2, h3⟩
  have hrev : ts.reverse.Nodup := List.pairwise_reverse.2 (hn1.imp Ne.symm)
  refine safe_bind (safe_onThrow (moveAll_safe hP h1 hn2 (fun p hp => ?_) fun p hp => h2 _ (ht p hp)) fun a2 h4 =>
    destroyAll_safe h4 hrev fun t ht => h2 t (List.mem_reverse.1 ht)) ?_
  · have hm : p.1 ∈ ms.map (·.1) := List.mem_map.2 ⟨p, hp, rfl⟩
    rw [h3 _ fun hc => hn3 _ hc _ hm rfl]
    exact hf _ (List.mem_append_right _ hm)
  · rintro _ a2 ⟨s2, h4, h5⟩
    refine safe_nothrow (destroyAll_safe h4 hrev fun t ht => ?_)
    have ht' := List.mem_reverse.1 ht
    rw [h5 t fun hc => hn3 _ ht' _ hc rfl]
    exact h2 t ht'

/-! ## The log only grows -/

/-- `x` only adds to the log -/
def Grows {α : Type} (x : M (AState Val) α) : Prop :=
  ∀ a b a', x a = .ok b a' → ∃ evs, a'.env.log = a.env.log ++ evs

theorem Grows.pure {α : Type} (b : α) : Grows (pure b : M (AState Val) α) := fun a _ _ h => by
  cases h; exact ⟨[], (List.append_nil _).symm⟩

theorem Grows.bad {α : Type} : Grows (M.bad : M (AState Val) α) := fun _ _ _ h => by cases h

theorem Grows.raise {α : Type} : Grows (M.raise : M (AState Val) α) := fun _ _ _ h => by cases h

theorem Grows.bind {α β : Type} {x : M (AState Val) α} {f : α → M (AState Val) β} (hx : Grows x) (hf : ∀ b, Grows (f b)) :
    Grows (x >>= f) := by
  intro a c a' h
  rw [bind_run] at h
  cases hxa : x a with
  | ok b a1 =>
    rw [hxa, obind_ok] at h
    obtain ⟨e1, h1⟩ := hx a b a1 hxa
    obtain ⟨e2, h2⟩ := hf b a1 c a' h
    exact ⟨e1 ++ e2, by rw [h2, h1, List.append_assoc]⟩
  | throw _ => rw [hxa] at h; cases h
  | verify => rw [hxa] at h; cases h
  | ub => rw [hxa] at h; cases h

theorem Grows.ite {α : Type} {c : Prop} [Decidable c] {x y : M (AState Val) α} (hx : Grows x) (hy : Grows y) :
    Grows (if c then x else y) := by
  split
  · exact hx
  · exact hy

theorem Grows.onThrow {α : Type} {x : M (AState Val) α} {k : M (AState Val) Unit} (hx : Grows x) :
    Grows (M.onThrow x k) := by
  intro a b a' h
  simp only [M.onThrow] at h
  cases hxa : x a with
  | ok c a1 => rw [hxa] at h; cases h; exact hx _ _ _ hxa
  | throw a1 =>
    simp only [hxa] at h
    cases hk : k a1 <;> simp only [hk] at h <;> cases h
  | verify => rw [hxa] at h; cases h
  | ub => rw [hxa] at h; cases h

theorem grows_get (i : Nat) : Grows (get i : M (AState Val) _) := by
  intro a b a' h
  unfold get at h
  split at h
  · cases h; exact ⟨[], (List.append_nil _).symm⟩
  · cases h

theorem grows_put (i : Nat) (x : Option Val) : Grows (put i x) := fun a _ _ h => by
  cases h; exact ⟨[], (List.append_nil _).symm⟩

theorem grows_new (i : Nat) : Grows (new i : M (AState Val) _) := by
  intro a b a' h
  unfold new at h
  split at h
  · cases h
  · cases h; exact ⟨[], (List.append_nil _).symm⟩

theorem grows_user (e f : Event) : Grows (user P e f) := fun a _ _ h => by cases h; exact ⟨_, rfl⟩

theorem grows_note (e : Event) : Grows (note e : M (AState Val) _) := fun a _ _ h => by cases h; exact ⟨_, rfl⟩

theorem grows_clock : Grows (clock : M (AState Val) _) := fun a _ _ h => by
  cases h; exact ⟨[], (List.append_nil _).symm⟩

theorem grows_val (i : Nat) : Grows (val i : M (AState Val) _) := by
  refine (grows_get i).bind fun x => ?_
  cases x with
  | none => exact Grows.bad
  | some v => exact Grows.pure v

theorem grows_value (i : Nat) (src : Src Val) : Grows (value P i src) := by
  cases src
  case opt j mv => exact (grows_val j).bind fun _ => Grows.pure _
  all_goals exact Grows.pure _

theorem grows_movedFrom (f : Bool) (n : Nat) (src : Src Val) : Grows (movedFrom P f n src) := by
  cases src
  case opt j mv =>
    cases mv
    · exact Grows.pure _
    · exact (grows_val j).bind fun _ => grows_put _ _
  all_goals exact Grows.pure _

theorem grows_initAs (t : Bool) (i : Nat) (src : Src Val) : Grows (initAs P t i src) := by
  refine (grows_get i).bind fun x => Grows.ite Grows.bad ((grows_value i src).bind fun v => Grows.ite (grows_put _ _) ?_)
  exact (grows_user _ _).bind fun p => (grows_movedFrom _ _ _).bind fun _ => Grows.ite Grows.raise
    ((grows_put _ _).bind fun _ => Grows.ite (grows_note _) (Grows.pure _))

theorem grows_create (i : Nat) (src : Src Val) : Grows (create P i src) :=
  (grows_new i).bind fun _ => (grows_initAs _ _ _).onThrow

theorem grows_createVia (i : Nat) (src : Src Val) : Grows (createVia P i src) :=
  (grows_new i).bind fun _ => (grows_initAs _ _ _).onThrow

theorem grows_ctorFrom (i j : Nat) (mv : Bool) : Grows (ctorFrom P i j mv) := by
  refine (grows_get j).bind fun x => ?_
  cases x with
  | none => exact grows_new i
  | some v => exact grows_createVia i _

theorem grows_unzipParts : ∀ ps : List (Nat × Nat), Grows (unzipParts P q i mv ps)
  | [] => Grows.pure _
  | (_, _) :: ps => Grows.bind ((grows_val i).bind fun _ => grows_clock.bind fun _ => ((grows_create _ _).onThrow).bind
      fun _ => grows_put _ _) fun _ => (grows_unzipParts ps).onThrow

theorem grows_newAll : ∀ rs : List Nat, Grows (newAll rs : M (AState Val) _)
  | [] => Grows.pure _
  | r :: rs => (grows_new r).bind fun _ => grows_newAll rs

theorem grows_unzipNew (rs : List Nat) : Grows (unzipNew P q i mv rs) := by
  refine (grows_get i).bind fun x => ?_
  cases x with
  | none => exact grows_newAll rs
  | some v => exact grows_unzipParts _

theorem grows_moveAll : ∀ ms : List (Nat × Nat), Grows (moveAll P ms)
  | [] => Grows.pure _
  | (r, t) :: ms => (grows_ctorFrom r t true).bind fun _ => (grows_moveAll ms).onThrow

/-- what a cleanup does: it does not throw, makes no numbered call, and only adds to the log -/
def Tidies (x : M (AState Val) Unit) : Prop :=
  ∀ a, x a = .ub ∨ ∃ a' evs, x a = .ok () a' ∧ a'.env.tick = a.env.tick ∧ a'.env.log = a.env.log ++ evs

theorem Tidies.bind {x : M (AState Val) Unit} {f : Unit → M (AState Val) Unit} (hx : Tidies x) (hf : ∀ u, Tidies (f u)) :
    Tidies (x >>= f) := by
  intro a
  rw [bind_run]
  rcases hx a with h | ⟨a1, e1, h1, t1, l1⟩
  · exact .inl (by rw [h, obind_ub])
  · rw [h1, obind_ok]
    rcases hf () a1 with h | ⟨a2, e2, h2, t2, l2⟩
    · exact .inl h
    · exact .inr ⟨a2, e1 ++ e2, h2, by rw [t2, t1], by rw [l2, l1, List.append_assoc]⟩

theorem tidies_destroy (r : Nat) : Tidies (destroy P r) := by
  intro a
  cases hr : a.mem r with
  | none => exact .inl (by simp only [destroy, clear, bind_run, get_none hr, obind_ub])
  | some x =>
    refine .inr ⟨_, _, destroy_eq (m := a.mem) (e := a.env) hr, ?_, rfl⟩
    rw [Env.after_tick0]

theorem tidies_destroyAll : ∀ ts : List Nat, Tidies (destroyAll P ts)
  | [] => fun a => .inr ⟨a, [], rfl, rfl, (List.append_nil _).symm⟩
  | t :: ts => (tidies_destroy t).bind fun _ => tidies_destroyAll ts

theorem Tidies.after {α : Type} {x : M (AState Val) α} {k : M (AState Val) Unit} (hk : Tidies k) {a a1 : AState Val}
    (hx : x a = .throw a1) : M.onThrow x k a = .ub ∨
      ∃ a2 evs, M.onThrow x k a = .throw a2 ∧ a2.env.tick = a1.env.tick ∧ a2.env.log = a1.env.log ++ evs := by
  simp only [M.onThrow, hx]
  rcases hk a1 with h | ⟨a2, e2, h2, t2, l2⟩
  · exact .inl (by rw [h])
  · exact .inr ⟨a2, e2, by rw [h2], t2, l2⟩

/-- an exception of a later move ends the whole -/
theorem moveAll_fails {ms : List (Nat × Nat)} : ∀ {pre : List (Nat × Nat)} {a a1 a2 : AState Val},
    moveAll P pre a = .ok () a1 → moveAll P ms a1 = .throw a2 → moveAll P (pre ++ ms) a = .ub ∨
      ∃ a3 evs, moveAll P (pre ++ ms) a = .throw a3 ∧ a3.env.tick = a2.env.tick ∧ a3.env.log = a2.env.log ++ evs
  | [], a, a1, a2, h, hm => by
    cases h
    exact .inr ⟨a2, [], hm, rfl, (List.append_nil _).symm⟩
  | (r, t) :: pre, a, a1, a2, h, hm => by
    simp only [moveAll, bind_run, List.cons_append] at h ⊢
    cases hc : ctorFrom P r t true a with
    | ok u a' =>
      rw [hc, obind_ok] at h
      rw [obind_ok]
      have h' : moveAll P pre a' = .ok () a1 := by
        simp only [M.onThrow] at h
        cases hp : moveAll P pre a' with
        | ok u a'' => rw [hp] at h; exact h
        | throw a'' =>
          simp only [hp] at h
          cases hd : destroy P r a'' <;> simp only [hd] at h <;> cases h
        | verify => rw [hp] at h; cases h
        | ub => rw [hp] at h; cases h
      rcases moveAll_fails h' hm with h1 | ⟨a3, e3, h1, t1, l1⟩
      · exact .inl (by simp only [M.onThrow, h1])
      · rcases (tidies_destroy (P := P) r).after h1 with h2 | ⟨a4, e4, h2, t2, l2⟩
        · exact .inl h2
        · exact .inr ⟨a4, e3 ++ e4, h2, by rw [t2, t1], by rw [l2, l1, List.append_assoc]⟩
    | throw _ => rw [hc] at h; cases h
    | verify => rw [hc] at h; cases h
    | ub => rw [hc] at h; cases h

/-- the constructor of a result throws: `unzip` does -/
theorem unzipVia_fails {ts : List Nat} {pre post : List (Nat × Nat)} {r t : Nat} {a a1 a2 a3 : AState Val} {ev : Event}
    (h1 : unzipNew P q i mv ts a = .ok () a1) (h2 : moveAll P pre a1 = .ok () a2)
    (h3 : ctorFrom P r t true a2 = .throw a3) (hl : a3.env.log = a2.env.log ++ [ev]) :
    unzipVia P q i mv ts (pre ++ (r, t) :: post) a = .ub ∨
      ∃ a4 evs, unzipVia P q i mv ts (pre ++ (r, t) :: post) a = .throw a4 ∧ a4.env.tick = a3.env.tick ∧
        a4.env.log = a.env.log ++ evs ∧ ev ∈ evs := by
  obtain ⟨e1, l1⟩ := grows_unzipNew _ _ _ _ h1
  obtain ⟨e2, l2⟩ := grows_moveAll _ _ _ _ h2
  have h3' : moveAll P ((r, t) :: post) a2 = .throw a3 := by simp only [moveAll, bind_run, h3, obind_throw]
  simp only [unzipVia, bind_run, h1, obind_ok]
  rcases moveAll_fails h2 h3' with h | ⟨a4, e4, h4, t4, l4⟩
  · exact .inl (by simp only [M.onThrow, h, obind_ub])
  · rcases (tidies_destroyAll (P := P) ts.reverse).after h4 with h | ⟨a5, e5, h5, t5, l5⟩
    · exact .inl (by rw [h, obind_ub])
    · refine .inr ⟨a5, e1 ++ e2 ++ [ev] ++ e4 ++ e5, by rw [h5, obind_throw], by rw [t5, t4], ?_, by simp⟩
      rw [l5, l4, hl, l2, l1]
      simp only [List.append_assoc]

end Spec

end Opt
