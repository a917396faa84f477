import Verif.Lemmas.Threads
import Verif.Lemmas.Demo
import Verif.Lemmas.Decide
import Verif.Props.Machine

/-!
# C73: threads that do not conflict do not influence each other
-/

namespace Opt

variable {α Val : Type}

theorem SameEnd.refl (S : List Nat) (x : Out World α) : SameEnd S x x := by
  cases x with
  | ok a w => exact ⟨rfl, rfl, fun _ _ => rfl⟩
  | throw w => exact ⟨rfl, fun _ _ => rfl⟩
  | verify => trivial
  | ub => trivial

theorem SameEnd.trans {S : List Nat} {x y z : Out World α} (h : SameEnd S x y) (h' : SameEnd S y z) : SameEnd S x z := by
  cases x <;> cases y <;> cases z <;> simp only [SameEnd] at * <;> first
    | exact ⟨h.1.trans h'.1, h.2.1.trans h'.2.1, fun k hk => (h.2.2 k hk).trans (h'.2.2 k hk)⟩
    | exact ⟨h.1.trans h'.1, fun k hk => (h.2 k hk).trans (h'.2 k hk)⟩
    | trivial
    | exact h.elim
    | exact h'.elim

/-- C73: every operation can be carried out by single accesses that write only options it may change, and read only these and its
operands.  In particular observers, comparisons and copying do not write to the options they look at. -/
theorem C73_accesses (P : Prog Val) (op : Op Val) :
    ∃ A : Acc (Ret Val), A.Within op.uses op.changes ∧ ∀ w, A.eval w = P.runOp op w := P.foot_runOp op

namespace Threads

variable {R W : Nat → List Nat} {s : Threads α}

theorem step_within (hw : ∀ t, (s.work t).Within (R t) (W t)) (u t : Nat) : ((s.step u).work t).Within (R t) (W t) := by
  have hu := hw u
  unfold step
  by_cases htu : t = u
  · subst htu
    split
    · next heq => rw [heq] at hu; simpa [upd] using hu.2 _
    · next heq => rw [heq] at hu; simpa [upd] using hu.2
    · next heq => rw [heq] at hu; simpa [upd] using hu _
    · exact hw t
  · split <;> simpa [upd, htu] using hw t

/-- a step writes only what the thread may write -/
theorem step_mem (hw : ∀ t, (s.work t).Within (R t) (W t)) (u k : Nat) (hk : k ∉ W u) : (s.step u).mem k = s.mem k := by
  have hu := hw u
  unfold step
  split
  · rfl
  · next j x next heq =>
    rw [heq] at hu
    have : k ≠ j := fun e => hk (e ▸ hu.1)
    simp [upd, this]
  · rfl
  · rfl

theorem step_alone (hn : NoConflict R W) (hw : ∀ t, (s.work t).Within (R t) (W t)) (u t : Nat) :
    SameEnd (R t ++ W t) ((s.step u).alone t) (s.alone t) := by
  by_cases htu : t = u
  · subst htu
    unfold alone step
    split <;> next heq => simpa [upd, heq, Acc.eval] using SameEnd.refl _ _
  · have h1 : (s.step u).work t = s.work t := by unfold step; split <;> simp [upd, htu]
    have h2 : (s.step u).env t = s.env t := by unfold step; split <;> simp [upd, htu]
    unfold alone
    rw [h1, h2]
    refine Acc.eval_local (hw t) (fun k hk => List.mem_append_left _ hk) (fun k hk => List.mem_append_right _ hk) fun k hk => ?_
    refine step_mem hw u k fun hku => ?_
    have := hn u t (Ne.symm htu) k hku
    exact (List.mem_append.1 hk).elim this.1 this.2

theorem exec_alone (hn : NoConflict R W) (ts : List Nat) : ∀ {s : Threads α}, (∀ t, (s.work t).Within (R t) (W t)) → ∀ t,
    SameEnd (R t ++ W t) ((s.exec ts).alone t) (s.alone t) := by
  induction ts with
  | nil => exact fun _ t => SameEnd.refl _ _
  | cons u ts ih => exact fun hw t => (ih (step_within hw u) t).trans (step_alone hn hw u t)

theorem exec_mem (ts : List Nat) : ∀ {s : Threads α}, (∀ t, (s.work t).Within (R t) (W t)) → ∀ k, (∀ t, k ∉ W t) →
    (s.exec ts).mem k = s.mem k := by
  induction ts with
  | nil => exact fun _ _ _ => rfl
  | cons u ts ih => exact fun hw k hk => (ih (step_within hw u) k hk).trans (step_mem hw u k (hk u))

end Threads

namespace Acc

/-- the number of accesses on the way to the end, without interruption -/
def length : Acc α → World → Nat
  | .read k next, w => (next (w.mem k)).length w + 1
  | .write k x next, w => next.length { w with mem := upd w.mem k x } + 1
  | .user g next, w => (next w.env).length { w with env := g w.env } + 1
  | _, _ => 0

/-- nothing left to do -/
def ended : Acc α → Prop
  | .read _ _ => False
  | .write _ _ _ => False
  | .user _ _ => False
  | _ => True

theorem length_local {S R W : List Nat} {t : Acc α} (ht : t.Within R W) (hr : ∀ k ∈ R, k ∈ S) (hw : ∀ k ∈ W, k ∈ S)
    {m m' : Nat → Option Obj} {e : Env} (h : ∀ k ∈ S, m k = m' k) : t.length ⟨m, e⟩ = t.length ⟨m', e⟩ := by
  induction t generalizing m m' e with
  | ret a => rfl
  | raise => rfl
  | verify => rfl
  | ub => rfl
  | read k next ih =>
    have hk : m k = m' k := ht.1.elim (fun hk => h k (hr k hk)) fun hk => h k (hw k hk)
    simp only [length]
    rw [← hk, ih _ (ht.2 _) h]
  | write k x next ih =>
    simp only [length]
    rw [ih ht.2 fun j hj => ?_]
    by_cases hjk : j = k
    · subst hjk; simp [upd]
    · simpa [upd, hjk] using h j hj
  | user g next ih =>
    simp only [length]
    rw [ih _ (ht _) h]

theorem ended_of_length {t : Acc α} {w : World} (h : t.length w = 0) : t.ended := by
  cases t <;> first | trivial | (simp [length] at h)

end Acc

namespace Threads

variable {R W : Nat → List Nat} {s : Threads α}

/-- what thread `t` still has to do, alone -/
def left (s : Threads α) (t : Nat) : Nat := (s.work t).length ⟨s.mem, s.env t⟩

theorem step_left (hn : NoConflict R W) (hw : ∀ t, (s.work t).Within (R t) (W t)) (u t : Nat) :
    (s.step u).left t = s.left t - (if t = u then 1 else 0) := by
  by_cases htu : t = u
  · subst htu
    rw [if_pos rfl]
    unfold left step
    split
    · next heq => simp [upd, heq, Acc.length]
    · next heq => simp [upd, heq, Acc.length]
    · next heq => simp [upd, heq, Acc.length]
    · next h1 h2 h3 =>
      cases he : s.work t with
      | read k next => exact absurd he (h1 k next)
      | write k x next => exact absurd he (h2 k x next)
      | user g next => exact absurd he (h3 g next)
      | _ => rfl
  · rw [if_neg htu]
    have h1 : (s.step u).work t = s.work t := by unfold step; split <;> simp [upd, htu]
    have h2 : (s.step u).env t = s.env t := by unfold step; split <;> simp [upd, htu]
    unfold left
    rw [h1, h2]
    refine Acc.length_local (hw t) (fun k hk => List.mem_append_left _ hk) (fun k hk => List.mem_append_right _ hk) fun k hk => ?_
    refine step_mem hw u k fun hku => ?_
    have := hn u t (Ne.symm htu) k hku
    exact (List.mem_append.1 hk).elim this.1 this.2

theorem exec_left (hn : NoConflict R W) (ts : List Nat) : ∀ {s : Threads α}, (∀ t, (s.work t).Within (R t) (W t)) → ∀ t,
    (s.exec ts).left t = s.left t - ts.count t := by
  induction ts with
  | nil => exact fun _ _ => rfl
  | cons u ts ih =>
    intro s hw t
    show ((s.step u).exec ts).left t = _
    rw [ih (step_within hw u) t, step_left hn hw u t, List.count_cons]
    by_cases htu : t = u
    · subst htu; simp; omega
    · simp [htu, Ne.symm htu]

end Threads

/-- C73: threads execute histories of any length on shared options, interrupted anywhere, also in the middle of an operation, by any
schedule whatever.  If no thread changes an option that another one uses or changes, then every thread that has reached its end got the
results, made the calls of user code and left the contents of its options that it would have made alone, undefined behaviour and failed
checks included; the options that no thread changes are untouched. -/
theorem C73_schedule (P : Nat → Prog Val) (hist : Nat → List (Op Val)) (mem : Nat → Option Obj) (env : Nat → Env)
    (hn : NoConflict (fun t => usedBy (hist t)) (fun t => changedBy (hist t))) (work : Nat → Acc (List (Ret Val)))
    (hw : ∀ t, (work t).Within (usedBy (hist t)) (changedBy (hist t)))
    (he : ∀ t w, (work t).eval w = (P t).run (hist t) w) (ts : List Nat) :
    let s := Threads.exec ⟨mem, env, work⟩ ts
    (∀ t rs, s.work t = .ret rs → ∃ w, (P t).run (hist t) ⟨mem, env t⟩ = .ok rs w ∧ s.env t = w.env ∧
      ∀ k, k ∈ usedBy (hist t) ∨ k ∈ changedBy (hist t) → s.mem k = w.mem k) ∧
    (∀ t, s.work t = .ub → (P t).run (hist t) ⟨mem, env t⟩ = .ub) ∧
    (∀ t, s.work t = .verify → (P t).run (hist t) ⟨mem, env t⟩ = .verify) ∧
    (∀ k, (∀ t, k ∉ changedBy (hist t)) → s.mem k = mem k) := by
  intro s
  have key : ∀ t, SameEnd (usedBy (hist t) ++ changedBy (hist t)) (s.alone t) ((P t).run (hist t) ⟨mem, env t⟩) := fun t => by
    have := Threads.exec_alone hn ts (s := ⟨mem, env, work⟩) hw t
    rwa [show Threads.alone ⟨mem, env, work⟩ t = (P t).run (hist t) ⟨mem, env t⟩ from he t _] at this
  refine ⟨fun t rs h => ?_, fun t h => ?_, fun t h => ?_, fun k hk => Threads.exec_mem ts (s := ⟨mem, env, work⟩) hw k hk⟩
  · have hk := key t
    simp only [Threads.alone, h, Acc.eval] at hk
    cases hr : (P t).run (hist t) ⟨mem, env t⟩ with
    | ok rs' w =>
      rw [hr] at hk
      exact ⟨w, by rw [hk.1], hk.2.1, fun k hk' => hk.2.2 k (List.mem_append.2 hk')⟩
    | throw _ => rw [hr] at hk; exact hk.elim
    | verify => rw [hr] at hk; exact hk.elim
    | ub => rw [hr] at hk; exact hk.elim
  · have hk := key t
    simp only [Threads.alone, h, Acc.eval] at hk
    cases hr : (P t).run (hist t) ⟨mem, env t⟩ with
    | ub => rfl
    | _ => rw [hr] at hk; exact hk.elim
  · have hk := key t
    simp only [Threads.alone, h, Acc.eval] at hk
    cases hr : (P t).run (hist t) ⟨mem, env t⟩ with
    | verify => rfl
    | _ => rw [hr] at hk; exact hk.elim

/-- C73: the accesses that `C73_schedule` speaks about exist for all histories. -/
theorem C73_work (P : Nat → Prog Val) (hist : Nat → List (Op Val)) : ∃ work : Nat → Acc (List (Ret Val)),
    (∀ t, (work t).Within (usedBy (hist t)) (changedBy (hist t))) ∧ ∀ t w, (work t).eval w = (P t).run (hist t) w :=
  ⟨fun t => ((P t).foot_run (hist t)).choose, fun t => ((P t).foot_run (hist t)).choose_spec.1,
    fun t => ((P t).foot_run (hist t)).choose_spec.2⟩

/-- C73: nobody waits for anybody: a thread has ended after a number of its own steps that does not depend on the other threads'
steps. -/
theorem C73_progress (R W : Nat → List Nat) (hn : NoConflict R W) (s : Threads α) (hw : ∀ t, (s.work t).Within (R t) (W t)) (t : Nat) :
    ∃ n, ∀ ts, n ≤ ts.count t → ((s.exec ts).work t).ended := by
  refine ⟨s.left t, fun ts h => Acc.ended_of_length (w := ⟨(s.exec ts).mem, (s.exec ts).env t⟩) ?_⟩
  have := Threads.exec_left hn ts hw t
  unfold Threads.left at this h
  omega

theorem Prog.run_local (P : Prog Val) (ops : List (Op Val)) {S : List Nat} (hr : ∀ k ∈ usedBy ops, k ∈ S)
    (hw : ∀ k ∈ changedBy ops, k ∈ S) {m m' : Nat → Option Obj} {e : Env} (h : ∀ k ∈ S, m k = m' k) :
    SameEnd S (P.run ops ⟨m, e⟩) (P.run ops ⟨m', e⟩) := by
  obtain ⟨t, ht, he⟩ := P.foot_run ops
  rw [← he, ← he]
  exact Acc.eval_local ht hr hw h

theorem Prog.run_snoc (P : Prog Val) (op : Op Val) : ∀ (ops : List (Op Val)) (w : World),
    P.run (ops ++ [op]) w = (P.run ops w).bind fun rs w' => (Prog.catch_ (P.runOp op) w').bind fun r w'' => .ok (rs ++ [r]) w''
  | [], w => by
    simp only [List.nil_append, Prog.run, bind_run, pure_run, obind_ok]
    cases Prog.catch_ (P.runOp op) w <;> rfl
  | o :: ops, w => by
    simp only [List.cons_append, Prog.run, bind_run]
    cases Prog.catch_ (P.runOp o) w with
    | ok r w1 =>
      simp only [obind_ok, bind_run, Prog.run_snoc P op ops w1]
      cases P.run ops w1 with
      | ok rs w2 =>
        simp only [obind_ok, pure_run]
        cases Prog.catch_ (P.runOp op) w2 <;> rfl
      | _ => rfl
    | _ => rfl

theorem Prog.run_prefix (P : Prog Val) : ∀ (a b : List (Op Val)) (w : World) {rs : List (Ret Val)} {w' : World},
    P.run (a ++ b) w = .ok rs w' → ∃ rs1 w1, P.run a w = .ok rs1 w1
  | [], _, w, _, _, _ => ⟨[], w, rfl⟩
  | o :: a, b, w, rs, w', h => by
    simp only [List.cons_append, Prog.run, bind_run] at h ⊢
    cases hc : Prog.catch_ (P.runOp o) w with
    | ok r w1 =>
      rw [hc] at h
      simp only [obind_ok, bind_run] at h ⊢
      cases hr : P.run (a ++ b) w1 with
      | ok rs2 w2 =>
        obtain ⟨rs1, w3, h3⟩ := Prog.run_prefix P a b w1 hr
        exact ⟨r :: rs1, w3, by rw [h3]; rfl⟩
      | throw _ => rw [hr] at h; cases h
      | verify => rw [hr] at h; cases h
      | ub => rw [hr] at h; cases h
    | throw _ => rw [hc] at h; cases h
    | verify => rw [hc] at h; cases h
    | ub => rw [hc] at h; cases h

/-- thread `t` is where it would be after `n` operations alone from `s` -/
def Clients.At (P : Nat → Prog Val) (s s' : Clients Val) (t n : Nat) : Prop :=
  s'.todo t = (s.todo t).drop n ∧ ∃ rs w, (P t).run ((s.todo t).take n) ⟨s.mem, s.env t⟩ = .ok rs w ∧ s'.got t = s.got t ++ rs ∧
    s'.env t = w.env ∧ ∀ k, k ∈ usedBy (s.todo t) ∨ k ∈ changedBy (s.todo t) → s'.mem k = w.mem k

theorem usedBy_mem {ops : List (Op Val)} {op : Op Val} (h : op ∈ ops) : ∀ k ∈ op.uses, k ∈ usedBy ops := fun k hk =>
  List.mem_flatMap.2 ⟨op, h, hk⟩

theorem changedBy_mem {ops : List (Op Val)} {op : Op Val} (h : op ∈ ops) : ∀ k ∈ op.changes, k ∈ changedBy ops := fun k hk =>
  List.mem_flatMap.2 ⟨op, h, hk⟩

theorem Prog.catch_local (P : Prog Val) (op : Op Val) {S : List Nat} (hr : ∀ k ∈ op.uses, k ∈ S) (hw : ∀ k ∈ op.changes, k ∈ S)
    {m m' : Nat → Option Obj} {e : Env} (h : ∀ k ∈ S, m k = m' k) :
    SameEnd S (Prog.catch_ (P.runOp op) ⟨m, e⟩) (Prog.catch_ (P.runOp op) ⟨m', e⟩) := by
  obtain ⟨t, ht, he⟩ := (P.foot_runOp op).catch_
  rw [← he, ← he]
  exact Acc.eval_local ht hr hw h

theorem Prog.catch_mem (P : Prog Val) (op : Op Val) {w w' : World} {r : Ret Val} (h : Prog.catch_ (P.runOp op) w = .ok r w') :
    Untouched op.changes w w' := by
  have h1 := P.only_runOp op w
  unfold Prog.catch_ at h
  cases hx : P.runOp op w with
  | ok r1 w1 => rw [hx] at h1 h; cases h; exact h1
  | throw w1 => rw [hx] at h1 h; cases h; exact h1
  | verify => rw [hx] at h; cases h
  | ub => rw [hx] at h; cases h

theorem Clients.step_at {P : Nat → Prog Val} {s : Clients Val}
    (hn : NoConflict (fun t => usedBy (s.todo t)) (fun t => changedBy (s.todo t)))
    (hok : ∀ t, ∃ rs w, (P t).run (s.todo t) ⟨s.mem, s.env t⟩ = .ok rs w) {s' : Clients Val} {n : Nat → Nat}
    (ha : ∀ t, Clients.At P s s' t (n t)) (u : Nat) :
    ∃ s'', s'.step P u = some s'' ∧ ∀ t, Clients.At P s s'' t (n t + if u = t then 1 else 0) := by
  obtain ⟨h1, rs, w, h2, h3, h4, h5⟩ := ha u
  unfold Clients.step
  cases ht : s'.todo u with
  | nil =>
    refine ⟨s', rfl, fun t => ?_⟩
    by_cases hut : u = t
    · subst hut
      rw [if_pos rfl]
      have hl : (s.todo u).length ≤ n u := List.drop_eq_nil_iff.1 (h1.symm.trans ht)
      refine ⟨?_, rs, w, ?_, h3, h4, h5⟩
      · rw [ht, List.drop_eq_nil_of_le (by omega)]
      · rw [List.take_of_length_le (by omega)]
        rwa [List.take_of_length_le hl] at h2
    · simpa [hut] using ha t
  | cons op ops =>
    dsimp only
    have hlt : n u < (s.todo u).length := by
      rcases Nat.lt_or_ge (n u) (s.todo u).length with h | h
      · exact h
      · rw [h1, List.drop_eq_nil_of_le h] at ht; cases ht
    rw [h1, List.drop_eq_getElem_cons hlt] at ht
    obtain ⟨hop, hops⟩ := List.cons.inj ht
    have hmem : op ∈ s.todo u := hop ▸ List.getElem_mem hlt
    have htake : (s.todo u).take (n u + 1) = (s.todo u).take (n u) ++ [op] := by
      rw [List.take_succ_eq_append_getElem hlt, hop]
    -- alone the operation completes
    obtain ⟨rsA, wA, hA⟩ := hok u
    obtain ⟨rs1, w1, hp⟩ := Prog.run_prefix (P u) ((s.todo u).take (n u + 1)) ((s.todo u).drop (n u + 1)) ⟨s.mem, s.env u⟩
      (by rw [List.take_append_drop]; exact hA)
    rw [htake, Prog.run_snoc, h2, obind_ok] at hp
    have hc := Prog.catch_local (P u) op (S := usedBy (s.todo u) ++ changedBy (s.todo u))
      (fun k hk => List.mem_append_left _ (usedBy_mem hmem k hk)) (fun k hk => List.mem_append_right _ (changedBy_mem hmem k hk))
      (m := s'.mem) (m' := w.mem) (e := s'.env u) fun k hk => h5 k (List.mem_append.1 hk)
    rw [h4] at hc
    cases ho : Prog.catch_ ((P u).runOp op) ⟨w.mem, w.env⟩ with
    | ok r w2 =>
      rw [ho] at hc hp
      cases hs : Prog.catch_ ((P u).runOp op) ⟨s'.mem, w.env⟩ with
      | ok r' w' =>
        rw [hs] at hc
        obtain ⟨hr, henv, hm⟩ := hc
        have hun := Prog.catch_mem (P u) op hs
        rw [h4, hs]
        refine ⟨_, rfl, fun t => ?_⟩
        by_cases hut : u = t
        · subst hut
          rw [if_pos rfl]
          refine ⟨?_, rs ++ [r], w2, ?_, ?_, ?_, fun k hk => hm k (List.mem_append.2 hk)⟩
          · simp only [upd, if_true]
            exact hops.symm
          · rw [htake, Prog.run_snoc, h2, obind_ok, ho]; rfl
          · simp [upd, h3, hr]
          · simp [upd, henv]
        · rw [if_neg hut, Nat.add_zero]
          obtain ⟨g1, rs', w', g2, g3, g4, g5⟩ := ha t
          refine ⟨?_, rs', w', g2, ?_, ?_, fun k hk => ?_⟩
          · simpa [upd, Ne.symm hut] using g1
          · simpa [upd, Ne.symm hut] using g3
          · simpa [upd, Ne.symm hut] using g4
          · refine (hun k fun hkc => ?_).trans (g5 k hk)
            have := hn u t hut k (changedBy_mem hmem k hkc)
            exact hk.elim this.1 this.2
      | throw _ => rw [hs] at hc; exact hc.elim
      | verify => rw [hs] at hc; exact hc.elim
      | ub => rw [hs] at hc; exact hc.elim
    | throw _ => rw [ho] at hp; cases hp
    | verify => rw [ho] at hp; cases hp
    | ub => rw [ho] at hp; cases hp

theorem Clients.exec_at {P : Nat → Prog Val} {s : Clients Val}
    (hn : NoConflict (fun t => usedBy (s.todo t)) (fun t => changedBy (s.todo t)))
    (hok : ∀ t, ∃ rs w, (P t).run (s.todo t) ⟨s.mem, s.env t⟩ = .ok rs w) (ts : List Nat) : ∀ {s' : Clients Val} {n : Nat → Nat},
    (∀ t, Clients.At P s s' t (n t)) → ∃ s'', s'.exec P ts = some s'' ∧ ∀ t, Clients.At P s s'' t (n t + ts.count t) := by
  induction ts with
  | nil => exact fun ha => ⟨_, rfl, ha⟩
  | cons u ts ih =>
    intro s' n ha
    obtain ⟨s1, h1, h2⟩ := Clients.step_at hn hok ha u
    obtain ⟨s2, h3, h4⟩ := ih h2
    refine ⟨s2, by simp only [Clients.exec, h1, Option.bind_some, h3], fun t => ?_⟩
    have := h4 t
    rw [List.count_cons]
    by_cases hut : u = t
    · subst hut
      rw [if_pos rfl] at this
      rw [if_pos (beq_self_eq_true _), show n u + (ts.count u + 1) = n u + 1 + ts.count u by omega]
      exact this
    · simpa [hut] using this

/-- C73: the same for whole operations, without mentioning accesses: at every moment of every schedule every thread has the results, the
calls of user code and the contents of its options that it would have after the same number of operations alone, and no operation
fails. -/
theorem C73_operations (P : Nat → Prog Val) (s : Clients Val)
    (hn : NoConflict (fun t => usedBy (s.todo t)) (fun t => changedBy (s.todo t)))
    (hok : ∀ t, ∃ rs w, (P t).run (s.todo t) ⟨s.mem, s.env t⟩ = .ok rs w) (ts : List Nat) :
    ∃ s', s.exec P ts = some s' ∧ ∀ t, s'.todo t = (s.todo t).drop (ts.count t) ∧
      ∃ rs w, (P t).run ((s.todo t).take (ts.count t)) ⟨s.mem, s.env t⟩ = .ok rs w ∧ s'.got t = s.got t ++ rs ∧ s'.env t = w.env ∧
        ∀ k, k ∈ usedBy (s.todo t) ∨ k ∈ changedBy (s.todo t) → s'.mem k = w.mem k := by
  obtain ⟨s', h1, h2⟩ := Clients.exec_at hn hok ts (s' := s) (n := fun _ => 0)
    fun t => ⟨rfl, [], _, rfl, (List.append_nil _).symm, rfl, fun _ _ => rfl⟩
  refine ⟨s', h1, fun t => ?_⟩
  have := h2 t
  rw [Nat.zero_add] at this
  exact this

/-! ## The hypotheses can be met, and the rule is needed -/

theorem Out.of_seen_isSome {x : Out World α} (h : x.seen.isSome = true) : ∃ r w, x = .ok r w := by
  cases x with
  | ok r w => exact ⟨r, w, rfl⟩
  | _ => cases h

/-- thread 0 copies option 0, moves the copy on and compares; thread 1 copies and queries the same option 0 and fills and empties
options of its own, with a constructor that throws in between; the other threads do nothing -/
def Demo.hist : Nat → List (Op Byte)
  | 0 => [.ctorFrom 8 0 false, .take 8 12, .cmp .eq (fun _ a b => a == b) 12 0]
  | 1 => [.hasValue 0, .emplace 5 (.opt 0 false), .assignFrom 5 0 false, .reset 5, .get 0]
  | _ => []

theorem Demo.noConflict : NoConflict (fun t => usedBy (Demo.hist t)) (fun t => changedBy (Demo.hist t)) := by
  intro t u htu k hk
  match t, u with
  | 0, 0 => exact absurd rfl htu
  | 1, 1 => exact absurd rfl htu
  | 0, 1 => revert k; decide
  | 1, 0 => revert k; decide
  | 0, u + 2 => exact ⟨nofun, nofun⟩
  | 1, u + 2 => exact ⟨nofun, nofun⟩
  | t + 2, _ => cases hk

/- the hypotheses of C73_schedule and C73_progress -/
example (env : Nat → Env) (work : Nat → Acc (List (Ret Byte)))
    (hw : ∀ t, (work t).Within (usedBy (Demo.hist t)) (changedBy (Demo.hist t)))
    (he : ∀ t w, (work t).eval w = Demo.angry.run (Demo.hist t) w) (ts : List Nat) :=
  (C73_schedule (fun _ => Demo.angry) Demo.hist Demo.world.mem env Demo.noConflict work hw he ts).1 1

example : ∃ work : Nat → Acc (List (Ret Byte)), (∀ t, (work t).Within (usedBy (Demo.hist t)) (changedBy (Demo.hist t))) ∧
    ∀ t w, (work t).eval w = Demo.angry.run (Demo.hist t) w := C73_work (fun _ => Demo.angry) Demo.hist

/- the hypotheses of C73_operations -/
example : ∃ s', Clients.exec (fun _ => Demo.angry) ⟨Demo.world.mem, fun t => ⟨1 - t, []⟩, Demo.hist, fun _ => []⟩ [1, 0, 1, 1, 0, 1, 1, 0, 1] = some s' ∧
    s'.todo 0 = [] ∧ s'.todo 1 = [] := by
  obtain ⟨s', h1, h2⟩ := C73_operations (fun _ => Demo.angry) ⟨Demo.world.mem, fun t => ⟨1 - t, []⟩, Demo.hist, fun _ => []⟩ Demo.noConflict
    (fun t => by
      match t with
      | 0 => exact Out.of_seen_isSome (by decide +kernel)
      | 1 => exact Out.of_seen_isSome (by decide +kernel)
      | t + 2 => exact ⟨[], _, rfl⟩)
    [1, 0, 1, 1, 0, 1, 1, 0, 1]
  exact ⟨s', h1, (h2 0).1.trans rfl, (h2 1).1.trans rfl⟩

/- the rule is needed: if one thread empties option 0 while another one asks whether it has a value, the answer depends on the schedule -/
example : ((Clients.exec (fun _ => Demo.calm) ⟨Demo.world.mem, fun _ => ⟨0, []⟩, fun t => if t = 0 then [.reset 0] else if t = 1 then [.hasValue 0] else [],
      fun _ => []⟩ [0, 1]).map fun s => s.got 1) = some [.bool false] ∧
    ((Clients.exec (fun _ => Demo.calm) ⟨Demo.world.mem, fun _ => ⟨0, []⟩, fun t => if t = 0 then [.reset 0] else if t = 1 then [.hasValue 0] else [],
      fun _ => []⟩ [1, 0]).map fun s => s.got 1) = some [.bool true] := by
  decide +kernel

end Opt
