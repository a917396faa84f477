import Verif.Spec.Unzip
import Verif.Lemmas.SpecApi

/-!
# Running `unzip`
-/

namespace Opt

variable {Val : Type} {P : Prog Val} {m : Nat → Option (Option Val)} {e : Env} {w : World} {i r t : Nat} {v : Val}
  {q : Parts Val} {mv : Bool}

theorem rel_ok {σ τ α β : Type} {B : α → σ → β → τ → Prop} {C : σ → τ → Prop} {x : Out σ α} {b : β} {s : τ} {y : Out τ β}
    (h : Out.Rel B C x y) (hy : y = .ok b s) : ∃ a s', x = .ok a s' ∧ B a s' b s := by
  subst hy
  cases x with
  | ok a s' => exact ⟨a, s', rfl, h⟩
  | throw s => exact h.elim
  | verify => exact h.elim
  | ub => exact h.elim

theorem rel_thrown {σ τ α β : Type} {B : α → σ → β → τ → Prop} {C : σ → τ → Prop} {x : Out σ α} {s : τ} {y : Out τ β}
    (h : Out.Rel B C x y) (hy : y = .throw s) : ∃ s', x = .throw s' ∧ C s' s := by
  subst hy
  cases x with
  | throw s' => exact ⟨s', rfl, h⟩
  | ok a s' => exact h.elim
  | verify => exact h.elim
  | ub => exact h.elim

namespace Prog

theorem Quiet.head {n k : Nat} (h : P.Quiet n k) (hk : 0 < k) : P.throwsAt n = false := h n (Nat.le_refl _) (by omega)

theorem Quiet.sub {n k n' k' : Nat} (h : P.Quiet n k) (h1 : n ≤ n') (h2 : n' + k' ≤ n + k) : P.Quiet n' k' :=
  fun m a b => h m (by omega) (by omega)

theorem R_dom (h : R P w ⟨m, e⟩) (hv : m i = some (some v)) : (P.elem i).Dom P.pw v := by
  obtain ⟨u, w', _, _, _, _, hd⟩ := rel_ok (readT_sim w h) (Spec.val_run (a := ⟨m, e⟩) hv)
  exact hd

theorem R_tick (h : R P w ⟨m, e⟩) : w.env.tick = e.tick := by rw [h.env]

theorem kind_partSrc : P.kind r (partSrc mv v) = partKind mv := by cases mv <;> rfl

theorem legal_partSrc (h : (P.elem r).Dom P.pw v) : (partSrc mv v).Legal P r := by cases mv <;> exact h

theorem gives_partSrc : (partSrc mv v).gives P m r = some v := by cases mv <;> rfl

theorem leaves_partSrc {f : Bool} {n : Nat} : (partSrc mv v).leaves P f n m = m := by cases mv <;> rfl

theorem ctorLeaves_partSrc {n : Nat} : P.ctorLeaves r (partSrc mv v) n m = m := by
  simp only [ctorLeaves, leaves_partSrc, ite_self]

/-- the calls for one element -/
def partEv (P : Prog Val) (mv : Bool) (r : Nat) : List Event :=
  if (P.elem r).ctorTriv (partKind mv) then [] else [.ctor r (partKind mv)]

theorem partEvs_cons {rs : List Nat} : P.partEvs mv (r :: rs) = P.partEv mv r ++ P.partEvs mv rs := rfl

theorem partEv_ctor : P.ctorEvs r (partSrc mv v) = P.partEv mv r := by
  simp only [ctorEvs, partEv, kind_partSrc]

/-- what the tuple is after one element was made -/
def partLeft (P : Prog Val) (q : Parts Val) (mv : Bool) (n k r : Nat) (v : Val) : Val :=
  if mv && !(P.elem r).ctorTriv .move then q.after false k n v else v

theorem partEv_tick : (e.after (P.partEv mv r)).tick =
    if (P.elem r).ctorTriv (partKind mv) then e.tick else e.tick + 1 := by
  simp only [partEv]
  split
  · rw [Env.after_nil]
  · rw [Env.after_tick1 rfl]

theorem tupleLeft_cons {n k : Nat} {ps : List (Nat × Nat)} : P.tupleLeft q mv e.tick v ((k, r) :: ps) =
    P.tupleLeft q mv (e.after (P.partEv mv r)).tick (P.partLeft q mv e.tick k r v) ps := by
  rw [tupleLeft, partEv_tick, partLeft]
  cases mv
  · simp only [Bool.false_and, Bool.false_eq_true, if_false]; split <;> rfl
  · simp only [Bool.true_and, partKind, if_true]
    cases h : (P.elem r).ctorTriv .move <;> rfl

theorem writeT_ok (hP : P.OK) {n : Nat} {u : Val} (h : R P w ⟨m, e⟩) (hx : m i = some (some u))
    (hd : (P.elem i).Dom P.pw v) : ∃ w', P.writeT i n v w = .ok () w' ∧ R P w' ⟨upd m i (some (some v)), e⟩ := by
  obtain ⟨o, h1, h2⟩ := writeT_sim hP (n := n) h hx hd
  exact ⟨_, h1, h2⟩

theorem unzipElem_start {k : Nat} (h : R P w ⟨m, e⟩) (hi : m i = some (some v)) :
    P.unzipElem q i mv k r w =
      (if mv && !(P.elem r).ctorTriv .move then do
        M.onThrow (P.ctorArg r (partSrc mv (q.part k v))) (P.writeT i e.tick (q.after true k e.tick v))
        P.writeT i e.tick (q.after false k e.tick v)
      else P.ctorArg r (partSrc mv (q.part k v)) : M World Unit) w := by
  obtain ⟨o, ho, hr⟩ := h.some' hi
  simp only [unzipElem, bind_run, getCheck_run ho hr, Option.isSome_some, check_true, obind_ok, readT_run ho hr, now]
  rw [R_tick h]

theorem unzipElem_ok (hP : P.OK) {k : Nat} (h : R P w ⟨m, e⟩) (hi : m i = some (some v)) (hr : m r = none)
    (hd : (P.elem r).Dom P.pw (q.part k v)) (hq : ∀ f n, (P.elem i).Dom P.pw (q.after f k n v))
    (ht : (P.elem r).ctorTriv (partKind mv) = true ∨ P.throwsAt e.tick = false) :
    ∃ w', P.unzipElem q i mv k r w = .ok () w' ∧
      R P w' ⟨upd (upd m r (some (some (q.part k v)))) i (some (some (P.partLeft q mv e.tick k r v))),
        e.after (P.partEv mv r)⟩ := by
  have hir : i ≠ r := fun h => by subst h; rw [hi] at hr; cases hr
  obtain ⟨_, w1, h1, h2⟩ := rel_ok (ctorArg_sim hP h (legal_partSrc (mv := mv) hd))
    (Spec.create_ok hr gives_partSrc (by rw [kind_partSrc]; exact ht))
  rw [ctorLeaves_partSrc, partEv_ctor] at h2
  have hi' : upd m r (some (some (q.part k v))) i = some (some v) := by rw [upd_other _ _ hir]; exact hi
  rw [unzipElem_start h hi]
  simp only [partLeft]
  cases hc : mv && !(P.elem r).ctorTriv .move
  · simp only [Bool.false_eq_true, if_false]
    rw [upd_self hi']
    exact ⟨w1, h1, h2⟩
  · simp only [if_true, bind_run, M.onThrow, h1, obind_ok]
    exact writeT_ok hP h2 hi' (hq _ _)

theorem unzipElem_throw (hP : P.OK) {k : Nat} (h : R P w ⟨m, e⟩) (hi : m i = some (some v)) (hr : m r = none)
    (hd : (P.elem r).Dom P.pw (q.part k v)) (hq : ∀ f n, (P.elem i).Dom P.pw (q.after f k n v))
    (ht : (P.elem r).ctorTriv (partKind mv) = false) (hn : P.throwsAt e.tick = true) :
    ∃ w', P.unzipElem q i mv k r w = .throw w' ∧
      R P w' ⟨upd m i (some (some (if mv then q.after true k e.tick v else v))),
        e.after [.ctorFail r (partKind mv)]⟩ := by
  obtain ⟨w1, h1, h2⟩ := rel_thrown (ctorArg_sim hP h (legal_partSrc (mv := mv) hd))
    (Spec.create_throw hr gives_partSrc (by rw [kind_partSrc]; exact ht) hn)
  rw [leaves_partSrc, kind_partSrc] at h2
  rw [unzipElem_start h hi]
  cases mv
  · simp only [Bool.false_and, Bool.false_eq_true, if_false]
    rw [upd_self hi]
    exact ⟨w1, h1, h2⟩
  · simp only [partKind, if_true] at ht
    obtain ⟨w2, h3, h4⟩ := writeT_ok hP (n := e.tick) h2 hi (hq true e.tick)
    simp only [Bool.true_and, ht, Bool.not_false, if_true, bind_run, M.onThrow, h1, h3, obind_throw]
    exact ⟨w2, rfl, h4⟩

/-- the view after `unzipElems`: `i` holds `u`, the options in `ps` hold the parts of `v`, the others are as in `m` -/
structure Spread (q : Parts Val) (m m' : Nat → Option (Option Val)) (i : Nat) (v u : Val) (ps : List (Nat × Nat)) : Prop where
  part : ∀ p ∈ ps, m' p.2 = some (some (q.part p.1 v))
  tuple : m' i = some (some u)
  rest : ∀ a, a ≠ i → a ∉ ps.map (·.2) → m' a = m a

theorem unzipElems_ok (hP : P.OK) (hq : q.Apart) : ∀ {ps : List (Nat × Nat)} {w : World} {m : Nat → Option (Option Val)} {e : Env}
    {v : Val}, R P w ⟨m, e⟩ → m i = some (some v) → (ps.map (·.1)).Nodup → (ps.map (·.2)).Nodup → (∀ p ∈ ps, m p.2 = none) →
    q.Legal P i ps → P.Quiet e.tick ps.length →
    ∃ w' m', P.unzipElems q i mv ps w = .ok () w' ∧ R P w' ⟨m', e.after (P.partEvs mv (ps.map (·.2)))⟩ ∧
      Spread q m m' i v (P.tupleLeft q mv e.tick v ps) ps
  | [], w, m, e, v, h, hi, _, _, _, _, _ => by
    refine ⟨w, m, rfl, ?_, ?_, hi, fun _ _ _ => rfl⟩
    · simp only [List.map_nil, partEvs, List.flatMap_nil, Env.after_nil]; exact h
    · intro p hp; cases hp
  | (k, r) :: ps, w, m, e, v, h, hi, hk, hs, hf, hl, ht => by
    rw [List.map_cons, List.nodup_cons] at hk hs
    have hr : m r = none := hf _ (List.mem_cons_self ..)
    have hir : i ≠ r := fun h => by subst h; rw [hi] at hr; cases hr
    have hl' := hl v (R_dom h hi) (k, r) (List.mem_cons_self ..)
    obtain ⟨w1, h1, h2⟩ := unzipElem_ok hP (mv := mv) h hi hr hl'.1 hl'.2 (.inr (ht.head (Nat.succ_pos _)))
    have hte := partEv_tick (P := P) (e := e) (mv := mv) (r := r)
    have hif : ∀ p ∈ ps, p.2 ≠ i := by
      rintro p hp rfl
      rw [hf p (List.mem_cons_of_mem _ hp)] at hi; cases hi
    have hrf : ∀ p ∈ ps, p.2 ≠ r := fun p hp he => hs.1 (List.mem_map.2 ⟨p, hp, he⟩)
    obtain ⟨w2, m2, h3, h4, h5⟩ := unzipElems_ok hP hq h2 (upd_same _ _ _) hk.2 hs.2
      (fun p hp => by rw [upd_other _ _ (hif p hp), upd_other _ _ (hrf p hp)]; exact hf p (List.mem_cons_of_mem _ hp))
      (fun v hv p hp => hl v hv p (List.mem_cons_of_mem _ hp))
      (ht.sub (by rw [hte]; split <;> omega) (by rw [hte, List.length_cons]; split <;> omega))
    refine ⟨w2, m2, ?_, ?_, ?_, ?_, ?_⟩
    · simp only [unzipElems, bind_run, h1, obind_ok, M.onThrow, h3]
    · rw [Env.after_after] at h4
      exact h4
    · intro p hp
      rcases List.mem_cons.1 hp with rfl | hp'
      · rw [h5.rest _ (Ne.symm hir) hs.1, upd_other _ _ (Ne.symm hir), upd_same]
      · rw [h5.part p hp']
        have : p.1 ≠ k := fun he => hk.1 (List.mem_map.2 ⟨p, hp', he⟩)
        simp only [partLeft]
        split
        · rw [hq _ _ _ _ _ this]
        · rfl
    · rw [tupleLeft_cons (n := 0)]; exact h5.tuple
    · intro a ha hb
      rw [List.map_cons, List.mem_cons, not_or] at hb
      rw [h5.rest a ha hb.2, upd_other _ _ ha, upd_other _ _ hb.1]

theorem dropEvs_cons {rs : List Nat} : P.dropEvs (r :: rs) = (if P.tracked r then [.dtor r] else []) ++ P.dropEvs rs := rfl

theorem dropEvs_append {rs ss : List Nat} : P.dropEvs (rs ++ ss) = P.dropEvs rs ++ P.dropEvs ss := List.flatMap_append

theorem dtorEvs_drop {v : Val} : P.dtorEvs r (some v) = P.dropEvs [r] := by
  simp only [dtorEvs, dropEvs, List.flatMap_cons, List.flatMap_nil, List.append_nil, Option.isSome_some, Bool.true_and]

theorem dtor_ok (hP : P.OK) {x : Option Val} (h : R P w ⟨m, e⟩) (hx : m r = some x) :
    ∃ w', P.dtor r w = .ok () w' ∧ R P w' ⟨upd m r none, e.after (P.dtorEvs r x)⟩ := by
  obtain ⟨_, w', h1, h2⟩ := rel_ok (dtor_sim hP h) (Spec.destroy_eq hx)
  exact ⟨w', h1, h2⟩

/-- `unzipElems` when element `(k, r)` after `pre` throws -/
theorem unzipElems_throw (hP : P.OK) (hq : q.Apart) {k : Nat} {post : List (Nat × Nat)} :
    ∀ {pre : List (Nat × Nat)} {w : World} {m : Nat → Option (Option Val)} {e : Env} {v : Val},
    R P w ⟨m, e⟩ → m i = some (some v) → (pre.map (·.1) ++ [k]).Nodup → (pre.map (·.2) ++ [r]).Nodup →
    (∀ p ∈ pre, m p.2 = none) → m r = none → q.Legal P i (pre ++ [(k, r)]) → 
    (∀ n, e.tick ≤ n → n < e.tick + (P.partEvs mv (pre.map (·.2))).length → P.throwsAt n = false) →
    (P.elem r).ctorTriv (partKind mv) = false → P.throwsAt (e.tick + (P.partEvs mv (pre.map (·.2))).length) = true →
    ∃ w', P.unzipElems q i mv (pre ++ (k, r) :: post) w = .throw w' ∧
      R P w' ⟨upd m i (some (some (if mv then q.after true k (e.tick + (P.partEvs mv (pre.map (·.2))).length)
          (P.tupleLeft q mv e.tick v pre) else v))),
        e.after (P.partEvs mv (pre.map (·.2)) ++ [.ctorFail r (partKind mv)] ++ P.dropEvs (pre.map (·.2)).reverse)⟩
  | [], w, m, e, v, h, hi, hk, hs, hf, hr, hl, ht, hc, hn => by
    have hl' := hl v (R_dom h hi) (k, r) (List.mem_cons_self ..)
    obtain ⟨w1, h1, h2⟩ := unzipElem_throw hP h hi hr hl'.1 hl'.2 hc hn
    refine ⟨w1, ?_, ?_⟩
    · simp only [List.nil_append, unzipElems, bind_run, h1, obind_throw]
    · exact h2
  | (k', r') :: pre, w, m, e, v, h, hi, hk, hs, hf, hr, hl, ht, hc, hn => by
    rw [List.map_cons, List.cons_append, List.nodup_cons] at hk hs
    have hr' : m r' = none := hf _ (List.mem_cons_self ..)
    have hir : i ≠ r' := fun h => by subst h; rw [hi] at hr'; cases hr'
    have hl' := hl v (R_dom h hi) (k', r') (List.mem_cons_self ..)
    have hte := partEv_tick (P := P) (e := e) (mv := mv) (r := r')
    have hlen : (P.partEvs mv (((k', r') :: pre).map (·.2))).length =
        (P.partEv mv r').length + (P.partEvs mv (pre.map (·.2))).length := by
      rw [List.map_cons, partEvs_cons, List.length_append]
    have htl : (e.after (P.partEv mv r')).tick = e.tick + (P.partEv mv r').length := by
      rw [hte, partEv]; split <;> rfl
    have hok : (P.elem r').ctorTriv (partKind mv) = true ∨ P.throwsAt e.tick = false := by
      cases hcc : (P.elem r').ctorTriv (partKind mv)
      · refine .inr (ht _ (Nat.le_refl _) ?_)
        rw [hlen]
        simp only [partEv, hcc, Bool.false_eq_true, if_false, List.length_singleton]
        omega
      · exact .inl rfl
    obtain ⟨w1, h1, h2⟩ := unzipElem_ok hP (mv := mv) h hi hr' hl'.1 hl'.2 hok
    have hif : ∀ p ∈ pre, p.2 ≠ i := by
      rintro p hp rfl
      rw [hf p (List.mem_cons_of_mem _ hp)] at hi; cases hi
    have hri : r ≠ i := by rintro rfl; rw [hr] at hi; cases hi
    have hrf : ∀ p ∈ pre, p.2 ≠ r' := fun p hp he =>
      hs.1 (List.mem_append_left _ (List.mem_map.2 ⟨p, hp, he⟩))
    have hrr : r ≠ r' := fun he => hs.1 (he ▸ List.mem_append_right _ (List.mem_singleton.2 rfl))
    obtain ⟨w2, h3, h4⟩ := unzipElems_throw hP hq (post := post) h2 (upd_same _ _ _) hk.2 hs.2
      (fun p hp => by rw [upd_other _ _ (hif p hp), upd_other _ _ (hrf p hp)]; exact hf p (List.mem_cons_of_mem _ hp))
      (by rw [upd_other _ _ hri, upd_other _ _ hrr]; exact hr)
      (fun v hv p hp => hl v hv p (List.mem_cons_of_mem _ hp))
      (fun n a b => ht n (by omega) (by omega)) hc
      (by rw [htl, Nat.add_assoc, ← hlen]; exact hn)
    rw [upd_upd] at h4
    obtain ⟨w3, h5, h6⟩ := dtor_ok hP (r := r') (x := some (q.part k' v)) h4
      (by rw [upd_other _ _ (Ne.symm hir), upd_same])
    refine ⟨w3, ?_, ?_⟩
    · simp only [List.cons_append, unzipElems, bind_run, h1, obind_ok, M.onThrow, h3, h5]
    · rw [Env.after_after, Env.after_after, dtorEvs_drop] at h6
      have hm : ∀ x, upd (upd (upd m r' (some (some (q.part k' v)))) i x) r' none = upd m i x := by
        intro x
        funext a
        simp only [upd]
        by_cases ha : a = r'
        · subst ha
          rw [if_pos rfl, if_neg (Ne.symm hir)]; exact hr'.symm
        · rw [if_neg ha]
          by_cases hb : a = i
          · rw [if_pos hb, if_pos hb]
          · rw [if_neg hb, if_neg hb, if_neg ha]
      rw [hm] at h6
      have hev : P.partEvs mv (((k', r') :: pre).map (·.2)) ++ [Event.ctorFail r (partKind mv)] ++
          P.dropEvs (((k', r') :: pre).map (·.2)).reverse =
        P.partEv mv r' ++ (P.partEvs mv (pre.map (·.2)) ++ [Event.ctorFail r (partKind mv)] ++
          P.dropEvs (pre.map (·.2)).reverse ++ P.dropEvs [r']) := by
        rw [List.map_cons, partEvs_cons, List.reverse_cons, dropEvs_append]
        simp only [List.append_assoc]
      rw [hev, tupleLeft_cons (n := 0), hlen]
      rw [htl, Nat.add_assoc] at h6
      have hlast : (if mv = true then q.after true k (e.tick + ((P.partEv mv r').length + (P.partEvs mv (pre.map (·.2))).length))
            (P.tupleLeft q mv (e.tick + (P.partEv mv r').length) (P.partLeft q mv e.tick k' r' v) pre)
          else P.partLeft q mv e.tick k' r' v) =
        (if mv = true then q.after true k (e.tick + ((P.partEv mv r').length + (P.partEvs mv (pre.map (·.2))).length))
            (P.tupleLeft q mv (e.after (P.partEv mv r')).tick (P.partLeft q mv e.tick k' r' v) pre)
          else v) := by
        rw [htl]
        cases mv
        · rfl
        · rfl
      rw [← hlast]
      exact h6

/-! ## Empty source, temporaries -/

theorem unzipNone_ok (hP : P.OK) : ∀ {rs : List Nat} {w : World} {m : Nat → Option (Option Val)} {e : Env},
    R P w ⟨m, e⟩ → rs.Nodup → (∀ r ∈ rs, m r = none) →
    ∃ w' m', P.unzipNone rs w = .ok () w' ∧ R P w' ⟨m', e⟩ ∧ (∀ r ∈ rs, m' r = some none) ∧ ∀ a, a ∉ rs → m' a = m a
  | [], w, m, e, h, _, _ => ⟨w, m, rfl, h, (fun _ h => by cases h), fun _ _ => rfl⟩
  | r :: rs, w, m, e, h, hs, hf => by
    rw [List.nodup_cons] at hs
    obtain ⟨_, w1, h1, h2⟩ := rel_ok (ctorDefault_sim hP (i := r) h) (Spec.new_eq (hf r (List.mem_cons_self ..)))
    obtain ⟨w2, m2, h3, h4, h5, h6⟩ := unzipNone_ok hP h2 hs.2 (fun a ha => by
      have hne : a ≠ r := by rintro rfl; exact hs.1 ha
      rw [upd_other _ _ hne]; exact hf a (List.mem_cons_of_mem _ ha))
    refine ⟨w2, m2, ?_, h4, ?_, ?_⟩
    · simp only [unzipNone, bind_run, h1, obind_ok, h3]
    · intro a ha
      rcases List.mem_cons.1 ha with rfl | ha
      · rw [h6 _ hs.1, upd_same]
      · exact h5 a ha
    · intro a ha
      rw [List.mem_cons, not_or] at ha
      rw [h6 a ha.2, upd_other _ _ ha.1]

/-- destructors of the options `ts`, which hold `x t` -/
theorem dtorAll_ok (hP : P.OK) {x : Nat → Option Val} : ∀ {ts : List Nat} {w : World} {m : Nat → Option (Option Val)} {e : Env},
    R P w ⟨m, e⟩ → ts.Nodup → (∀ t ∈ ts, m t = some (x t)) →
    ∃ w' m', P.dtorAll ts w = .ok () w' ∧ R P w' ⟨m', e.after (ts.flatMap fun t => P.dtorEvs t (x t))⟩ ∧
      (∀ t ∈ ts, m' t = none) ∧ ∀ a, a ∉ ts → m' a = m a
  | [], w, m, e, h, _, _ => ⟨w, m, rfl, by rw [List.flatMap_nil, Env.after_nil]; exact h, (fun _ h => by cases h), fun _ _ => rfl⟩
  | t :: ts, w, m, e, h, hs, hf => by
    rw [List.nodup_cons] at hs
    obtain ⟨w1, h1, h2⟩ := dtor_ok hP h (hf t (List.mem_cons_self ..))
    obtain ⟨w2, m2, h3, h4, h5, h6⟩ := dtorAll_ok hP h2 hs.2 (fun a ha => by
      have hne : a ≠ t := by rintro rfl; exact hs.1 ha
      rw [upd_other _ _ hne]; exact hf a (List.mem_cons_of_mem _ ha))
    refine ⟨w2, m2, ?_, ?_, ?_, ?_⟩
    · simp only [dtorAll, bind_run, h1, obind_ok, h3]
    · rw [Env.after_after] at h4
      exact h4
    · intro a ha
      rcases List.mem_cons.1 ha with rfl | ha
      · rw [h6 _ hs.1, upd_same]
      · exact h5 a ha
    · intro a ha
      rw [List.mem_cons, not_or] at ha
      rw [h6 a ha.2, upd_other _ _ ha.1]

/-- the calls for moving one option -/
def moveEv (P : Prog Val) (r t : Nat) (x : Option Val) : List Event :=
  if x.isSome then P.buildEvs r (.opt t true) else []

theorem buildEvs_tick {src : Src Val} : (e.after (P.buildEvs r src)).tick =
    if (P.elem r).ctorTriv (P.kind r src) then e.tick else e.tick + 1 := by
  simp only [buildEvs]
  split
  · rw [Env.after_nil]
  · split <;> rfl

theorem moveEv_tick {x : Option Val} : e.tick ≤ (e.after (P.moveEv r t x)).tick ∧
    (e.after (P.moveEv r t x)).tick ≤ e.tick + 1 := by
  simp only [moveEv]
  split
  · rw [buildEvs_tick]; split <;> omega
  · rw [Env.after_nil]; omega

/-- move construction of one option of the same type -/
theorem ctorFrom_ok (hP : P.OK) {x : Option Val} (h : R P w ⟨m, e⟩) (hx : m t = some x) (hr : m r = none)
    (hc : P.cls r = P.cls t) (ht : (P.elem r).ctorTriv (P.kind r (.opt t true)) = true ∨ P.throwsAt e.tick = false) :
    ∃ w' y, P.ctorFrom r t true w = .ok () w' ∧
      R P w' ⟨upd (upd m t (some y)) r (some x), e.after (P.moveEv r t x)⟩ ∧ y.isSome = x.isSome := by
  have hrt : r ≠ t := by rintro rfl; rw [hr] at hx; cases hx
  cases x with
  | none =>
    obtain ⟨_, w1, h1, h2⟩ := rel_ok
      (ctorFrom_sim hP (i := r) (j := t) (mv := true) (fun ⟨v, hv⟩ => by cases hx.symm.trans hv) h)
      ((Spec.ctorFrom_none hx).trans (Spec.new_eq hr))
    refine ⟨w1, none, h1, ?_, rfl⟩
    rw [upd_self hx]
    have : P.moveEv r t (none : Option Val) = [] := rfl
    rw [this, Env.after_nil]; exact h2
  | some v =>
    have hg : (Src.opt t true : Src Val).gives P m r = some v := by
      rw [Spec.gives_opt hx]; simp only [convFrom, hc, if_true]
    obtain ⟨_, w1, h1, h2⟩ := rel_ok
      (ctorFrom_sim hP (i := r) (j := t) (mv := true) (fun _ => FitAt.nothrow (by rw [R_tick h]; exact ht)) h)
      ((Spec.ctorFrom_some hx).trans (Spec.createVia_ok hr hg ht))
    refine ⟨w1, if (P.elem r).ctorTriv (P.kind r (.opt t true)) then some v else some (P.moved false t e.tick v), h1, ?_,
      by split <;> rfl⟩
    have : P.ctorLeaves r (.opt t true) e.tick m =
        upd m t (some (if (P.elem r).ctorTriv (P.kind r (.opt t true)) then some v else some (P.moved false t e.tick v))) := by
      simp only [ctorLeaves, Src.leaves]
      split
      · rw [upd_self hx]
      · rw [hx]; rfl
    rw [this] at h2
    exact h2

theorem ctorFrom_throw (hP : P.OK) (h : R P w ⟨m, e⟩) (hx : m t = some (some v)) (hr : m r = none)
    (hc : P.cls r = P.cls t) (hF : P.FitAt r (P.kind r (.opt t true)) e.tick)
    (ht : (P.elem r).ctorTriv (P.kind r (.opt t true)) = false) (hn : P.throwsAt e.tick = true) :
    ∃ w', P.ctorFrom r t true w = .throw w' ∧
      R P w' ⟨upd m t (some (some (P.moved true t e.tick v))), e.after [P.buildFail r (.opt t true)]⟩ := by
  have hg : (Src.opt t true : Src Val).gives P m r = some v := by
    rw [Spec.gives_opt hx]; simp only [convFrom, hc, if_true]
  obtain ⟨w1, h1, h2⟩ := rel_thrown
    (ctorFrom_sim hP (i := r) (j := t) (mv := true) (fun _ => by rw [R_tick h]; exact hF) h)
    ((Spec.ctorFrom_some hx).trans (Spec.createVia_throw hr hg ht hn))
  refine ⟨w1, h1, ?_⟩
  simpa only [Src.leaves, hx, Option.map_some] using h2

/-- the objects of a tuple constructor: results and temporaries are all different, results do not exist, temporaries do and
hold `x`, corresponding ones have the same type -/
structure MoveOK (P : Prog Val) (m : Nat → Option (Option Val)) (x : Nat → Option Val) (ms : List (Nat × Nat)) : Prop where
  fresh : ∀ p ∈ ms, m p.1 = none
  temp : ∀ p ∈ ms, m p.2 = some (x p.2)
  type : ∀ p ∈ ms, P.cls p.1 = P.cls p.2
  nd1 : (ms.map (·.1)).Nodup
  nd2 : (ms.map (·.2)).Nodup

theorem MoveOK.tail {x : Nat → Option Val} {ms : List (Nat × Nat)} {y : Option Val} (h : MoveOK P m x ((r, t) :: ms)) :
    MoveOK P (upd (upd m t (some y)) r (some (x t))) x ms := by
  have h1 := h.nd1; have h2 := h.nd2
  rw [List.map_cons, List.nodup_cons] at h1 h2
  have hft : ∀ p ∈ ms, p.1 ≠ t := by
    rintro p hp rfl
    have := h.temp _ (List.mem_cons_self ..)
    rw [h.fresh p (List.mem_cons_of_mem _ hp)] at this; cases this
  have htr : ∀ p ∈ ms, p.2 ≠ r := by
    rintro p hp rfl
    have := h.fresh _ (List.mem_cons_self ..)
    rw [h.temp p (List.mem_cons_of_mem _ hp)] at this; cases this
  refine ⟨fun p hp => ?_, fun p hp => ?_, fun p hp => h.type p (List.mem_cons_of_mem _ hp), h1.2, h2.2⟩
  · rw [upd_other _ _ (fun he => h1.1 (List.mem_map.2 ⟨p, hp, he⟩)), upd_other _ _ (hft p hp)]
    exact h.fresh p (List.mem_cons_of_mem _ hp)
  · rw [upd_other _ _ (htr p hp), upd_other _ _ (fun he => h2.1 (List.mem_map.2 ⟨p, hp, he⟩))]
    exact h.temp p (List.mem_cons_of_mem _ hp)

theorem moveAll_ok (hP : P.OK) {x : Nat → Option Val} : ∀ {ms : List (Nat × Nat)} {w : World} {m : Nat → Option (Option Val)}
    {e : Env}, R P w ⟨m, e⟩ → MoveOK P m x ms → P.Quiet e.tick ms.length →
    ∃ w' m', P.moveAll ms w = .ok () w' ∧ R P w' ⟨m', e.after (ms.flatMap fun p => P.moveEv p.1 p.2 (x p.2))⟩ ∧
      (∀ p ∈ ms, m' p.1 = some (x p.2)) ∧ (∀ p ∈ ms, ∃ y, m' p.2 = some y ∧ y.isSome = (x p.2).isSome) ∧
      ∀ a, a ∉ ms.map (·.1) → a ∉ ms.map (·.2) → m' a = m a
  | [], w, m, e, h, _, _ => ⟨w, m, rfl, by rw [List.flatMap_nil, Env.after_nil]; exact h, (fun _ h => by cases h),
      (fun _ h => by cases h), fun _ _ _ => rfl⟩
  | (r, t) :: ms, w, m, e, h, hm, ht => by
    obtain ⟨w1, y, h1, h2, hy⟩ := ctorFrom_ok hP h (hm.temp _ (List.mem_cons_self ..)) (hm.fresh _ (List.mem_cons_self ..))
      (hm.type _ (List.mem_cons_self ..)) (.inr (ht.head (Nat.succ_pos _)))
    have hk := moveEv_tick (P := P) (e := e) (r := r) (t := t) (x := x t)
    obtain ⟨w2, m2, h3, h4, h5, h6, h7⟩ := moveAll_ok hP h2 hm.tail
      (ht.sub hk.1 (by
        show (e.after (P.moveEv r t (x t))).tick + ms.length ≤ e.tick + (ms.length + 1)
        omega))
    have hr1 := hm.nd1; have hr2 := hm.nd2
    rw [List.map_cons, List.nodup_cons] at hr1 hr2
    have hrn := hm.fresh _ (List.mem_cons_self ..)
    have htn := hm.temp _ (List.mem_cons_self ..)
    have hrt : r ≠ t := by rintro rfl; rw [hrn] at htn; cases htn
    have hr3 : r ∉ ms.map (·.2) := by
      intro hmem
      obtain ⟨p, hp, he⟩ := List.mem_map.1 hmem
      have := hm.temp p (List.mem_cons_of_mem _ hp)
      rw [he, hrn] at this; cases this
    have ht3 : t ∉ ms.map (·.1) := by
      intro hmem
      obtain ⟨p, hp, he⟩ := List.mem_map.1 hmem
      have := hm.fresh p (List.mem_cons_of_mem _ hp)
      rw [he, htn] at this; cases this
    refine ⟨w2, m2, ?_, ?_, ?_, ?_, ?_⟩
    · simp only [moveAll, bind_run, h1, obind_ok, M.onThrow, h3]
    · rw [Env.after_after] at h4
      exact h4
    · intro p hp
      rcases List.mem_cons.1 hp with rfl | hp
      · rw [h7 _ hr1.1 hr3, upd_same]
      · exact h5 p hp
    · intro p hp
      rcases List.mem_cons.1 hp with rfl | hp
      · exact ⟨y, by rw [h7 _ ht3 hr2.1, upd_other _ _ (Ne.symm hrt), upd_same], hy⟩
      · exact h6 p hp
    · intro a h1 h2
      rw [List.map_cons, List.mem_cons, not_or] at h1 h2
      rw [h7 a h1.2 h2.2, upd_other _ _ h1.1, upd_other _ _ h2.1]

/-- the tuple constructor when the move of `(r, t)` after `pre` throws; everything is engaged -/
theorem moveAll_throw (hP : P.OK) {x : Nat → Option Val} {post : List (Nat × Nat)} :
    ∀ {pre : List (Nat × Nat)} {w : World} {m : Nat → Option (Option Val)} {e : Env}, R P w ⟨m, e⟩ →
    MoveOK P m x (pre ++ (r, t) :: post) → (∀ p ∈ pre ++ (r, t) :: post, (x p.2).isSome = true) →
    (∀ n, e.tick ≤ n → n < (e.after (P.moveEvs pre)).tick → P.throwsAt n = false) →
    P.FitAt r (P.kind r (.opt t true)) (e.after (P.moveEvs pre)).tick →
    (P.elem r).ctorTriv (P.kind r (.opt t true)) = false → P.throwsAt (e.after (P.moveEvs pre)).tick = true →
    ∃ w' m', P.moveAll (pre ++ (r, t) :: post) w = .throw w' ∧
      R P w' ⟨m', e.after (P.moveEvs pre ++ [P.buildFail r (.opt t true)] ++ P.dropEvs (pre.map (·.1)).reverse)⟩ ∧
      (∀ p ∈ pre ++ (r, t) :: post, ∃ y, m' p.2 = some (some y)) ∧
      ∀ a, a ∉ (pre ++ (r, t) :: post).map (·.2) → m' a = m a
  | [], w, m, e, h, hm, hx, ht, hF, hc, hn => by
    have ht0 := hm.temp (r, t) (List.mem_cons_self ..)
    obtain ⟨v, hv⟩ := Option.isSome_iff_exists.1 (hx (r, t) (List.mem_cons_self ..))
    rw [hv] at ht0
    have he : e.after (P.moveEvs []) = e := Env.after_nil e
    rw [he] at hF hn
    obtain ⟨w1, h1, h2⟩ := ctorFrom_throw hP h ht0 (hm.fresh (r, t) (List.mem_cons_self ..))
      (hm.type (r, t) (List.mem_cons_self ..)) hF hc hn
    refine ⟨w1, _, ?_, h2, ?_, ?_⟩
    · simp only [List.nil_append, moveAll, bind_run, h1, obind_throw]
    · intro p hp
      by_cases hpt : p.2 = t
      · exact ⟨_, by rw [hpt, upd_same]⟩
      · rw [upd_other _ _ hpt, hm.temp p hp]
        obtain ⟨u, hu⟩ := Option.isSome_iff_exists.1 (hx p hp)
        exact ⟨u, by rw [hu]⟩
    · intro a ha
      refine upd_other _ _ fun he => ha ?_
      rw [he]; exact List.mem_map.2 ⟨(r, t), List.mem_cons_self .., rfl⟩
  | (r', t') :: pre, w, m, e, h, hm, hx, ht, hF, hc, hn => by
    have hmem : (r', t') ∈ (r', t') :: pre ++ (r, t) :: post := List.mem_cons_self ..
    have hev : P.moveEvs ((r', t') :: pre) = P.buildEvs r' (.opt t' true) ++ P.moveEvs pre := rfl
    have hme : P.moveEv r' t' (x t') = P.buildEvs r' (.opt t' true) := by
      rw [moveEv, if_pos (hx _ hmem)]
    have hge : ∀ (e : Env) (es : List Event), e.tick ≤ (e.after es).tick := fun e es => Nat.le_add_right ..
    have hlt : (P.elem r').ctorTriv (P.kind r' (.opt t' true)) = true ∨ P.throwsAt e.tick = false := by
      cases hcc : (P.elem r').ctorTriv (P.kind r' (.opt t' true))
      · refine .inr (ht _ (Nat.le_refl _) ?_)
        rw [hev, ← Env.after_after]
        refine Nat.lt_of_lt_of_le ?_ (hge _ _)
        rw [buildEvs_tick, hcc]
        exact Nat.lt_succ_self _
      · exact .inl rfl
    obtain ⟨w1, y, h1, h2, hy⟩ := ctorFrom_ok hP h (hm.temp _ hmem) (hm.fresh _ hmem) (hm.type _ hmem) hlt
    rw [hev, ← Env.after_after] at ht hF hn
    simp only [hme] at h2
    obtain ⟨w2, m2, h3, h4, h5, h6⟩ := moveAll_throw hP h2 hm.tail (fun p hp => hx p (List.mem_cons_of_mem _ hp))
      (fun n a b => ht n (Nat.le_trans (hge _ _) a) b) hF hc hn
    have hr1 := hm.nd1; have hr2 := hm.nd2
    rw [List.cons_append, List.map_cons, List.nodup_cons] at hr1 hr2
    have hrn := hm.fresh _ hmem
    have htn := hm.temp _ hmem
    have hrt : r' ≠ t' := by rintro rfl; rw [hrn] at htn; cases htn
    have hr3 : r' ∉ (pre ++ (r, t) :: post).map (·.2) := by
      intro hh
      obtain ⟨p, hp, he⟩ := List.mem_map.1 hh
      have := hm.temp p (List.mem_cons_of_mem _ hp)
      rw [he, hrn] at this; cases this
    obtain ⟨v, hv⟩ := Option.isSome_iff_exists.1 (hx _ hmem)
    obtain ⟨u, hu⟩ := Option.isSome_iff_exists.1 (hy.trans (hx _ hmem))
    obtain ⟨w3, h7, h8⟩ := dtor_ok hP (r := r') (x := some v) h4 (by
      rw [h6 r' hr3, upd_same]; exact congrArg some hv)
    refine ⟨w3, upd m2 r' none, ?_, ?_, ?_, ?_⟩
    · simp only [List.cons_append, moveAll, bind_run, h1, obind_ok, M.onThrow, h3, h7]
    · rw [Env.after_after, Env.after_after, dtorEvs_drop] at h8
      have : P.moveEvs ((r', t') :: pre) ++ [P.buildFail r (.opt t true)] ++ P.dropEvs (((r', t') :: pre).map (·.1)).reverse =
          P.buildEvs r' (.opt t' true) ++ (P.moveEvs pre ++ [P.buildFail r (.opt t true)] ++
            P.dropEvs (pre.map (·.1)).reverse ++ P.dropEvs [r']) := by
        rw [hev, List.map_cons, List.reverse_cons, dropEvs_append]
        simp only [List.append_assoc]
      rw [this]; exact h8
    · intro p hp
      have hpr : p.2 ≠ r' := by
        rintro he
        have := hm.temp p hp
        rw [he, hrn] at this; cases this
      rw [upd_other _ _ hpr]
      rcases List.mem_cons.1 hp with rfl | hp
      · rw [h6 _ hr2.1, upd_other _ _ (Ne.symm hrt), upd_same, hu]; exact ⟨u, rfl⟩
      · exact h5 p hp
    · intro a ha
      rw [List.cons_append, List.map_cons, List.mem_cons, not_or] at ha
      by_cases har : a = r'
      · rw [har, upd_same, hrn]
      · rw [upd_other _ _ har, h6 a ha.2, upd_other _ _ har, upd_other _ _ ha.1]

end Prog

end Opt
