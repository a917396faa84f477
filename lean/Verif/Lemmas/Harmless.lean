import Verif.Lemmas.History
import Verif.Lemmas.SpecRun

/-!
# Simulation of the operations whose failing constructor calls are harmless
-/

namespace Opt

variable {Val : Type} {P : Prog Val}

namespace Prog

/-- from what the specification does when the constructor throws to what the machine needs -/
theorem fit_of_harmless {op : Op Val} {m : Nat → Option (Option Val)} {e : Env} {i n : Nat} {src : Src Val}
    (hop : op.inStorage i = true) (hh : op.Harmless P ⟨m, e⟩)
    (hs : (P.elem i).ctorTriv (P.kind i src) = false → P.throwsAt n = true →
      ∃ a' evs, Spec.runOp P op ⟨m, e⟩ = .throw a' ∧ a'.env.log = e.log ++ evs ∧ P.buildFail i src ∈ evs ∧
        a'.env.tick = n + 1) :
    P.FitAt i (P.kind i src) n := by
  refine ⟨fun hk old h1 h2 h3 h4 => ?_⟩
  obtain ⟨a', evs, hr, hlog, hmem, ht⟩ := hs hk h4
  have hb : P.buildFail i src = .ctorFail i (P.kind i src) := by
    unfold buildFail
    rw [if_neg]
    intro hc
    simp only [Bool.and_eq_true, Bool.not_eq_true'] at hc
    rw [hc.1.1, hc.1.2] at h2
    cases h2
  have := hh _ evs i (P.kind i src) hop hr hlog (hb ▸ hmem)
  rw [ht] at this
  exact this old h1 h2 h3 h4

/-- the same when nothing follows the failed constructor -/
theorem fit_of_harmless' {op : Op Val} {m : Nat → Option (Option Val)} {e : Env} {i n : Nat} {src : Src Val}
    (hop : op.inStorage i = true) (hh : op.Harmless P ⟨m, e⟩)
    (hs : (P.elem i).ctorTriv (P.kind i src) = false → P.throwsAt n = true →
      ∃ m' pre, Spec.runOp P op ⟨m, e⟩ = .throw ⟨m', e.after (pre ++ [P.buildFail i src])⟩ ∧
        (e.after (pre ++ [P.buildFail i src])).tick = n + 1) :
    P.FitAt i (P.kind i src) n :=
  fit_of_harmless hop hh fun h1 h2 => by
    obtain ⟨m', pre, hr, ht⟩ := hs h1 h2
    exact ⟨_, _, hr, rfl, by simp, ht⟩

theorem buildFail_tick (e : Env) (i : Nat) (src : Src Val) (pre : List Event) :
    (e.after (pre ++ [P.buildFail i src])).tick = (e.after pre).tick + 1 := by
  rw [← Env.after_after, Env.after_tick1]
  unfold buildFail
  split <;> rfl

theorem asRet_throw {σ α : Type} {f : α → Ret Val} {x : M σ α} {s s' : σ} (h : x s = .throw s') :
    asRet f x s = .throw s' := by
  simp only [asRet, bind_run, h, obind_throw]

/-- an argument that passes the library's check gives a value -/
theorem evalArg_gives {src : Src Val} {m : Nat → Option (Option Val)} {e : Env} {u : Unit} {a : AState Val} {i : Nat}
    (h : Spec.evalArg src ⟨m, e⟩ = .ok u a) : ∃ v, src.gives P m i = some v := by
  cases src with
  | opt j mv =>
    cases hj : m j with
    | none =>
      simp only [Spec.evalArg, Spec.checked, bind_run, Spec.get_none (a := ⟨m, e⟩) hj, obind_ub] at h
      cases h
    | some x =>
      cases x with
      | none =>
        rw [Spec.evalArg, Spec.checked_run (a := ⟨m, e⟩) hj] at h
        cases h
      | some v => exact ⟨_, Spec.gives_opt hj⟩
  | args v => exact ⟨v, rfl⟩
  | copy v => exact ⟨v, rfl⟩
  | move v => exact ⟨v, rfl⟩

/-- operations that begin by checking their argument -/
theorem arg_sim {α β : Type} {w : World} {a : AState Val} {src : Src Val} {f : Unit → M World α}
    {g : Unit → M (AState Val) β} {B : α → World → β → AState Val → Prop} {C : World → AState Val → Prop} (h : R P w a)
    (hok : (∃ u a', Spec.evalArg src a = .ok u a') →
      Out.Rel B C ((P.evalArg src >>= f) w) ((Spec.evalArg src >>= g) a)) :
    Out.Rel B C ((P.evalArg src >>= f) w) ((Spec.evalArg src >>= g) a) := by
  by_cases he : ∃ u a', Spec.evalArg src a = .ok u a'
  · exact hok he
  · have hs := evalArg_sim (P := P) (src := src) h
    refine rel_bind (B := fun _ _ _ _ => False) ?_ (fun _ _ _ _ h => h.elim)
    revert hs
    cases hx : Spec.evalArg src a with
    | ok u a' => exact absurd ⟨u, a', hx⟩ he
    | ub => exact fun _ => rel_ub _
    | throw a' =>
      cases P.evalArg src w <;> first | exact fun h => h.elim | exact fun h => h
    | verify =>
      cases P.evalArg src w <;> first | exact fun h => h.elim | exact fun h => h

theorem init_fail {m : Nat → Option (Option Val)} {e : Env} {i : Nat} {src : Src Val} {v : Val} (hi : m i = some none)
    (hv : src.gives P m i = some v) (ht : (P.elem i).ctorTriv (P.kind i src) = false) (hn : P.throwsAt e.tick = true) :
    Spec.init P i src ⟨m, e⟩ = .throw ⟨src.leaves P true e.tick m, e.after [P.buildFail i src]⟩ :=
  Spec.init_throw hi (by rw [Src.notSelf_of_empty hi hv]; rfl) hv ht hn

theorem ctorFrom_fail {m : Nat → Option (Option Val)} {e : Env} {i j : Nat} {mv : Bool} (hi : m i = none)
    (hj : ∃ v, m j = some (some v)) (ht : (P.elem i).ctorTriv (P.kind i (.opt j mv)) = false)
    (hn : P.throwsAt e.tick = true) :
    ∃ m', Spec.ctorFrom P i j mv ⟨m, e⟩ = .throw ⟨m', e.after [P.buildFail i (.opt j mv)]⟩ := by
  obtain ⟨v, hj⟩ := hj
  exact ⟨_, (Spec.ctorFrom_some hj).trans (Spec.createVia_throw hi (Spec.gives_opt hj) ht hn)⟩

theorem runOp_sim_harmless (hP : P.OK) {w : World} {a : AState Val} {op : Op Val} (h : R P w a) (hl : op.Legal P)
    (hal : op.Allowed a.mem) (hh : op.Harmless P a) :
    Out.Rel (fun r w' r' a' => r = r' ∧ R P w' a') (R P) (P.runOp op w) (Spec.runOp P op a) := by
  obtain ⟨m, e⟩ := a
  obtain ⟨hu, hm, hnd, hx⟩ := hal
  have hE : w.env = e := h.env
  have one : ∀ {i : Nat} {src : Src Val}, op.inStorage i = true →
      ((P.elem i).ctorTriv (P.kind i src) = false → P.throwsAt w.env.tick = true →
        ∃ m', Spec.runOp P op ⟨m, e⟩ = .throw ⟨m', e.after [P.buildFail i src]⟩) →
      P.FitAt i (P.kind i src) w.env.tick := by
    intro i src hop hs
    refine fit_of_harmless' hop hh fun h1 h2 => ?_
    obtain ⟨m', hr⟩ := hs h1 h2
    refine ⟨m', [], hr, ?_⟩
    rw [buildFail_tick, Env.after_nil, hE]
  have from' : ∀ {i j : Nat} {mv : Bool}, op.inStorage i = true → m i = none → (∃ v, m j = some (some v)) →
      Spec.runOp P op ⟨m, e⟩ = asRet (fun _ => .unit) (Spec.ctorFrom P i j mv) ⟨m, e⟩ →
      P.FitAt i (P.kind i (.opt j mv)) w.env.tick := by
    intro i j mv hop hi hj he
    refine one hop fun h1 h2 => ?_
    obtain ⟨m', hr⟩ := ctorFrom_fail (e := e) hi hj h1 (hE ▸ h2)
    exact ⟨m', he.trans (asRet_throw hr)⟩
  cases op with
  | ctorFrom i j mv => exact asRet_unit (ctorFrom_sim hP (fun hj => from' rfl (hm i (List.mem_singleton.2 rfl)) hj rfl) h)
  | assignFrom i j mv =>
    refine asRet_unit (assignFrom_sim hP (fun hi hj => one rfl fun h1 h2 => ?_) h)
    obtain ⟨v, hj⟩ := hj
    exact ⟨_, asRet_throw ((Spec.assignFrom_eq hi hj).trans (init_fail hi (Spec.gives_opt hj) h1 (hE ▸ h2)))⟩
  | assignValue i src =>
    refine asRet_unit (arg_sim h fun ⟨u, a', he⟩ => assignValue_sim hP (fun hi => ?_) h hl)
    obtain ⟨v, hv⟩ := evalArg_gives (P := P) (i := i) he
    refine one rfl fun h1 h2 => ⟨src.leaves P true e.tick m, asRet_throw ?_⟩
    · rw [Spec.assignValue_eq hi hv]
      simp only [ite_self]
      exact init_fail hi hv h1 (hE ▸ h2)
  | emplace i src =>
    refine asRet_unit (arg_sim h fun ⟨u, a', he⟩ => emplace_sim hP ?_ h hl)
    obtain ⟨v, hv⟩ := evalArg_gives (P := P) (i := i) he
    obtain ⟨x, hi⟩ := Option.ne_none_iff_exists'.1 (hu i (by simp [Op.uses]))
    refine fit_of_harmless' rfl hh fun h1 h2 => ⟨_, _, asRet_throw (Spec.emplace_throw hi hx hv h1 (hE ▸ h2)), ?_⟩
    rw [buildFail_tick, Env.after_tick0, hE]
  | tryEmplace i src =>
    refine asRet_unit (arg_sim h fun ⟨u, a', he⟩ => tryEmplace_sim hP (fun hi => ?_) h hl)
    obtain ⟨v, hv⟩ := evalArg_gives (P := P) (i := i) he
    refine one rfl fun h1 h2 => ⟨src.leaves P true e.tick m, asRet_throw ?_⟩
    · rw [Spec.tryEmplace_eq hi hv]
      exact init_fail hi hv h1 (hE ▸ h2)
  | swap i j =>
    refine asRet_unit (swap_sim hP (fun hi hj => one rfl fun h1 h2 => ?_) (fun hj hi => one rfl fun h1 h2 => ?_) h)
    · obtain ⟨v, hj⟩ := hj
      exact ⟨_, asRet_throw ((Spec.swap_eq hi hj).trans (Spec.shift_throw hi hj h1 (hE ▸ h2)))⟩
    · obtain ⟨v, hi⟩ := hi
      exact ⟨_, asRet_throw ((Spec.swap_eq hi hj).trans (Spec.shift_throw hj hi h1 (hE ▸ h2)))⟩
  | take i r =>
    refine asRet_unit (take_sim hP (fun hi => one rfl fun h1 h2 => ?_) h)
    obtain ⟨v, hi⟩ := hi
    exact ⟨_, asRet_throw (Spec.take_throw (hm r (List.mem_singleton.2 rfl)) hi h1 (hE ▸ h2))⟩
  | takeIf i r f =>
    refine asRet_unit (takeIf_sim hP (fun v hi ht hf => fit_of_harmless' rfl hh fun h1 h2 => ?_) h hl)
    have hr : m r = none := hm r (List.mem_singleton.2 rfl)
    have hne : i ≠ r := fun h => by subst h; cases hr.symm.trans hi
    have ht' : (e.after [.call i true]).tick = e.tick + 1 := Env.after_tick1 rfl
    have hn : P.throwsAt (e.after [.call i true]).tick = true := by rw [ht', ← hE]; exact h2
    have hs := Spec.take_throw (P := P) (v := f.after v) (m := upd m i (some (some (f.after v))))
      (e := e.after [.call i true]) (by rw [upd_other _ _ hne.symm]; exact hr) (upd_same _ _ _) h1 hn
    rw [Env.after_after] at hs
    refine ⟨_, [.call i true], asRet_throw (Eq.trans ?_ hs), ?_⟩
    · simp only [Spec.takeIf, bind_run, Spec.get_run (a := ⟨m, e⟩) hi, obind_ok, Spec.call_eq hi, hE ▸ ht, hf,
        Bool.false_eq_true, if_false, if_true]
    · rw [buildFail_tick, ht', hE]
  | orElse i r mv x =>
    refine asRet_unit (orElse_sim hP (fun hi => ?_) h hl)
    refine from' rfl (hm r (List.mem_singleton.2 rfl)) hi ?_
    obtain ⟨v, hi⟩ := hi
    simp only [Spec.runOp, Spec.orElse, asRet, bind_run, Spec.get_run (a := ⟨m, e⟩) hi, obind_ok]
  | orOp i j r mi mj =>
    refine asRet_unit (orOp_sim hP (fun hi => ?_) (fun hi hj => ?_) h)
    · refine from' rfl (hm r (List.mem_singleton.2 rfl)) hi ?_
      obtain ⟨v, hi⟩ := hi
      simp only [Spec.runOp, Spec.orOp, asRet, bind_run, Spec.get_run (a := ⟨m, e⟩) hi, obind_ok]
    · refine from' rfl (hm r (List.mem_singleton.2 rfl)) hj ?_
      simp only [Spec.runOp, Spec.orOp, asRet, bind_run, Spec.get_run (a := ⟨m, e⟩) hi, obind_ok]
  | orAssignValue i src =>
    refine asRet_unit (arg_sim h fun ⟨u, a', he⟩ => orAssignValue_sim hP (fun hi => ?_) h hl)
    obtain ⟨v, hv⟩ := evalArg_gives (P := P) (i := i) he
    refine one rfl fun h1 h2 => ⟨src.leaves P true e.tick m, asRet_throw ?_⟩
    · simp only [Spec.orAssignValue, bind_run, Spec.evalArg_eq hv, Spec.get_run (a := ⟨m, e⟩) hi, obind_ok]
      exact init_fail hi hv h1 (hE ▸ h2)
  | orAssignFrom i j mv =>
    refine asRet_unit (orAssignFrom_sim hP (fun hi hj => one rfl fun h1 h2 => ?_) h)
    obtain ⟨v, hj⟩ := hj
    refine ⟨(Src.opt j mv).leaves P true e.tick m, asRet_throw ?_⟩
    · simp only [Spec.orAssignFrom, bind_run, Spec.get_run (a := ⟨m, e⟩) hi, Spec.get_run (a := ⟨m, e⟩) hj, obind_ok]
      exact init_fail hi (Spec.gives_opt hj) h1 (hE ▸ h2)
  | andOp i j r mv =>
    refine asRet_unit (andOp_sim hP (fun hi hj => ?_) h)
    refine from' rfl (hm r (List.mem_singleton.2 rfl)) hj ?_
    obtain ⟨v, hi⟩ := hi
    simp only [Spec.runOp, Spec.andOp, asRet, bind_run, Spec.get_run (a := ⟨m, e⟩) hi, obind_ok]
  | xorOp i j r mi mj =>
    refine asRet_unit (xorOp_sim hP (fun hi hj => ?_) (fun hi hj => ?_) h)
    · refine from' rfl (hm r (List.mem_singleton.2 rfl)) hi ?_
      obtain ⟨v, hi⟩ := hi
      simp only [Spec.runOp, Spec.xorOp, asRet, bind_run, Spec.get_run (a := ⟨m, e⟩) hi,
        Spec.get_run (a := ⟨m, e⟩) hj, obind_ok]
    · refine from' rfl (hm r (List.mem_singleton.2 rfl)) hj ?_
      obtain ⟨v, hj⟩ := hj
      simp only [Spec.runOp, Spec.xorOp, asRet, bind_run, Spec.get_run (a := ⟨m, e⟩) hi,
        Spec.get_run (a := ⟨m, e⟩) hj, obind_ok]
  | ctorDefault i => exact asRet_unit (rel_nothrow (ctorDefault_sim hP h))
  | ctorValue i src => exact asRet_unit (ctorValue_sim hP h hl)
  | dtor i => exact asRet_unit (rel_nothrow (dtor_sim hP h))
  | reset i => exact asRet_unit (rel_nothrow (reset_sim hP h))
  | hasValue i =>
    refine asRet_val (rel_nothrow ?_)
    simp only [Spec.engaged, bind_run]
    cases hi : m i with
    | none => simp only [Spec.get_none (a := ⟨m, e⟩) hi, obind_ub]; exact rel_ub _
    | some x =>
      obtain ⟨o, ho, hr⟩ := h.some' hi
      rw [hasValue_run ho hr, Spec.get_run (a := ⟨m, e⟩) hi]
      exact ⟨rfl, h⟩
  | get i =>
    refine asRet_val (rel_nothrow (rel_mono (get_sim h) ?_ (fun _ _ h => h)))
    rintro _ _ _ _ ⟨rfl, rfl, rfl⟩; exact ⟨rfl, h⟩
  | getUnchecked i =>
    refine asRet_val (rel_nothrow (rel_mono (readT_sim w h) ?_ (fun _ _ h => h)))
    rintro _ _ _ _ ⟨rfl, rfl, rfl, _⟩; exact ⟨rfl, h⟩
  | valueOrThrow i =>
    refine asRet_val (rel_mono (valueOrThrow_sim h) ?_ ?_)
    · rintro _ _ _ _ ⟨rfl, rfl, rfl⟩; exact ⟨rfl, h⟩
    · rintro _ _ ⟨rfl, rfl⟩; exact h
  | ptrOrNull i =>
    refine asRet_val (rel_nothrow (rel_mono (ptrOrNull_sim h) ?_ (fun _ _ h => h)))
    rintro _ _ _ _ ⟨rfl, rfl, rfl⟩; exact ⟨rfl, h⟩
  | valueOr i mv d => exact asRet_val (valueOr_sim hP h hl)
  | hasValueAnd i f => exact asRet_val (hasValueAnd_sim hP h hl)
  | inspect i f => exact asRet_unit (inspect_sim hP h hl)
  | mapOr i d f => exact asRet_val (mapOr_sim hP h hl)
  | mapOrElse i d f => exact asRet_val (mapOrElse_sim hP h hl)
  | map i r f => exact asRet_unit (map_sim hP h hl.1 hl.2)
  | andThen i r f => exact asRet_unit (andThen_sim hP h hl.1 hl.2)
  | filter i r mv f => exact asRet_unit (filter_sim hP h hl)
  | zip is r g => exact asRet_unit (zip_sim hP h hl)
  | zipWith is r g => exact asRet_unit (zipWith_sim hP h hl)
  | ioWrite i d => exact asRet_val (ioWrite_sim h)
  | ioRead i d v => exact asRet_val (ioRead_sim hP h hl)
  | cmp o rel i j => exact asRet_val (cmp_sim h)
  | cmpNone o i => exact asRet_val (cmpNone_sim h)
  | noneCmp o i => exact asRet_val (noneCmp_sim h)
  | cmpVal o rel i v => exact asRet_val (cmpVal_sim h)
  | valCmp o rel v i => exact asRet_val (valCmp_sim h)
  | hash i f => exact asRet_val (hash_sim h)
  | forEach i f => exact asRet_unit (forEach_sim hP h hl)
  | unzipArray q i mv rs => exact asRet_unit (unzipNew_sim hP h hl)
  | unzipTuple q i mv ts ms =>
    cases hub : Spec.unzipVia P q i mv ts ms ⟨m, e⟩ with
    | ub =>
      have : Spec.runOp P (.unzipTuple q i mv ts ms) ⟨m, e⟩ = .ub := by
        simp only [Spec.runOp, asRet, bind_run, hub, obind_ub]
      rw [this]
      exact rel_ub _
    | _ =>
      all_goals
      refine asRet_unit (unzipVia_sim hP h hl fun a1 h1 pre r t post a2 hms h2 hr ht => ?_)
      refine fit_of_harmless (op := .unzipTuple q i mv ts ms) ?_ hh fun h3 h4 => ?_
      · simp only [Op.inStorage, hms, List.contains_iff_mem]
        simp
      · obtain ⟨m', h5⟩ := ctorFrom_fail (m := a2.mem) (e := a2.env) hr ht h3 h4
        rcases Spec.unzipVia_fails (post := post) h1 h2 h5 rfl with h6 | ⟨a4, evs, h6, h7, h8, h9⟩
        · rw [hms, h6] at hub; cases hub
        · refine ⟨a4, evs, asRet_throw (by rw [hms]; exact h6), h8, h9, ?_⟩
          rw [h7]
          exact buildFail_tick a2.env r (.opt t true) []

theorem run_sim_harmless (hP : P.OK) : ∀ {ops : List (Op Val)} {w : World} {a : AState Val},
    R P w a → (∀ op ∈ ops, op.Legal P) → Op.AllAllowed P ops a → Op.AllHarmless P ops a →
    Out.Rel (fun r w' r' a' => r = r' ∧ R P w' a') (fun _ _ => False) (P.run ops w) (Spec.run P ops a)
  | [], _, _, h, _, _, _ => ⟨rfl, h⟩
  | op :: ops, w, a, h, hl, ⟨ha1, ha2⟩, ⟨hh1, hh2⟩ => by
    have hs := catch_sim (runOp_sim_harmless hP h (hl op List.mem_cons_self) ha1 hh1)
    simp only [run, Spec.run, bind_run]
    revert hs ha2 hh2
    cases catch_ (Spec.runOp P op) a with
    | ub => intros; exact rel_ub _
    | throw a1 =>
      cases catch_ (P.runOp op) w <;> intro _ _ hs <;> first | exact hs.elim | exact hs
    | verify =>
      cases catch_ (P.runOp op) w <;> intro _ _ hs <;> first | exact hs.elim | exact hs
    | ok r' a1 =>
      cases catch_ (P.runOp op) w with
      | ub => exact fun _ _ hs => hs.elim
      | throw _ => exact fun _ _ hs => hs.elim
      | verify => exact fun _ _ hs => hs.elim
      | ok r w1 =>
        rintro ha2 hh2 ⟨rfl, h1⟩
        refine rel_bind (run_sim_harmless hP h1 (fun o ho => hl o (List.mem_cons_of_mem _ ho)) ha2 hh2) ?_
        rintro rs w2 rs' a2 ⟨rfl, h2⟩
        exact ⟨rfl, h2⟩

end Prog

namespace Op

/-- a history with a harmful failure has a first one -/
theorem first_harmful : ∀ {ops : List (Op Val)} {a : AState Val}, ¬ AllHarmless P ops a →
    ∃ pre op post rs a1, ops = pre ++ op :: post ∧ AllHarmless P pre a ∧ Spec.run P pre a = .ok rs a1 ∧
      ¬ op.Harmless P a1
  | [], _, h => absurd trivial h
  | op :: ops, a, h => by
    by_cases h1 : op.Harmless P a
    · have h2 : ¬ (match Prog.catch_ (Spec.runOp P op) a with
        | .ok _ a' => AllHarmless P ops a'
        | _ => True) := fun h2 => h ⟨h1, h2⟩
      cases hr : Prog.catch_ (Spec.runOp P op) a with
      | ok r a' =>
        rw [hr] at h2
        obtain ⟨pre, o, post, rs, a1, rfl, hp, hrun, hn⟩ := first_harmful h2
        refine ⟨op :: pre, o, post, r :: rs, a1, rfl, ⟨h1, ?_⟩, ?_, hn⟩
        · rw [hr]; exact hp
        · simp only [Spec.run, bind_run, hr, obind_ok, hrun, pure_run]
      | throw _ => rw [hr] at h2; exact absurd trivial h2
      | verify => rw [hr] at h2; exact absurd trivial h2
      | ub => rw [hr] at h2; exact absurd trivial h2
    · exact ⟨[], op, ops, [], a, rfl, trivial, rfl, h1⟩

theorem harmless_of_throwSafe (hT : P.ThrowSafe) (op : Op Val) (a : AState Val) : op.Harmless P a :=
  fun _ _ i k _ _ _ _ => hT i k _

theorem allHarmless_of_throwSafe (hT : P.ThrowSafe) : ∀ (ops : List (Op Val)) (a : AState Val), AllHarmless P ops a
  | [], _ => trivial
  | op :: ops, a => by
    refine ⟨harmless_of_throwSafe hT op a, ?_⟩
    cases Prog.catch_ (Spec.runOp P op) a with
    | ok _ a' => exact allHarmless_of_throwSafe hT ops a'
    | _ => trivial

theorem allAllowed_append : ∀ {ops ops' : List (Op Val)} {a : AState Val}, AllAllowed P (ops ++ ops') a →
    AllAllowed P ops a
  | [], _, _, _ => trivial
  | op :: ops, ops', a, ⟨h1, h2⟩ => by
    refine ⟨h1, ?_⟩
    revert h2
    cases Prog.catch_ (Spec.runOp P op) a with
    | ok _ a' => exact fun h2 => allAllowed_append h2
    | _ => exact fun h => h

/-- a checker for examples: no operation of the history ends with a failed constructor in the storage of an option -/
def noneFails (P : Prog Val) : List (Op Val) → AState Val → Bool
  | [], _ => true
  | op :: ops, a =>
    (match Spec.runOp P op a with
      | .throw a' => (a'.env.log.drop a.env.log.length).all fun
        | .ctorFail i _ => !op.inStorage i
        | _ => true
      | _ => true) &&
    match Prog.catch_ (Spec.runOp P op) a with
    | .ok _ a' => noneFails P ops a'
    | _ => true

theorem allHarmless_of_noneFails : ∀ {ops : List (Op Val)} {a : AState Val}, noneFails P ops a = true →
    AllHarmless P ops a
  | [], _, _ => trivial
  | op :: ops, a, h => by
    simp only [noneFails, Bool.and_eq_true] at h
    refine ⟨fun a' evs i k hm hr hlog hmem => ?_, ?_⟩
    · rw [hr] at h
      simp only [hlog, List.drop_left] at h
      have := List.all_eq_true.1 h.1 _ hmem
      simp only [hm] at this
      cases this
    · have h2 := h.2
      revert h2
      cases Prog.catch_ (Spec.runOp P op) a with
      | ok _ a' => exact fun h2 => allHarmless_of_noneFails h2
      | _ => exact fun _ => trivial

end Op

end Opt
