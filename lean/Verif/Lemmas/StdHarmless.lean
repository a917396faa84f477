import Verif.Lemmas.StdOptional
import Verif.Lemmas.Harmless

/-!
# What a history that is valid for `std::optional` respects
-/

namespace Opt.Std

variable {Val : Type} {P : Prog Val} {a : AState Val} {s : State Val}

/-- `o.emplace(*o)` uses a value that is gone -/
theorem emplace_self (i : Nat) (mv : Bool) (s : State Val) : body P 0 (.emplace i (.opt i mv)) s = .ub := by
  cases hs : s.obj i with
  | none => simp [body, Prog.asRet, starred, star, obj, bind_run, hs, Out.bind]
  | some o =>
    obtain ⟨g, v⟩ := o
    cases g with
    | false => simp [body, Prog.asRet, starred, star, obj, bind_run, hs, Out.bind, M.bad]
    | true =>
      cases v with
      | none => simp [body, Prog.asRet, starred, star, deref, obj, bind_run, hs, Out.bind, M.bad]
      | some v =>
        by_cases ht : (P.elem i).trivDtor = true <;>
          simp [body, Prog.asRet, starred, star, deref, obj, bind_run, hs, Out.bind, M.bad, ht, emplace, reset, destroyT, store,
            flag, construct, operand, upd, pure_run]

theorem present_allowed (h : SR P a s) {op : Op Val} (hs : runOp P 0 op s ≠ .ub) : op.Allowed a.mem := by
  have hp : Present op s = true := by
    cases hp : Present op s with
    | true => rfl
    | false => simp [runOp, hp] at hs
  have hb : body P 0 op s ≠ .ub := by simpa [runOp, hp] using hs
  simp only [Present, Bool.and_eq_true, List.all_eq_true] at hp
  refine ⟨fun i hi => ?_, fun r hr => ?_, ?_, ?_⟩
  · have := hp.1 i hi
    rw [h.obj] at this
    intro h0
    rw [h0] at this
    cases this
  · have := hp.2 r hr
    rw [h.obj] at this
    cases hm : a.mem r with
    | none => rfl
    | some x => rw [hm] at this; cases this
  · cases op <;> first | exact List.nodup_nil | (simp [Op.makes]; done) | exact absurd rfl hb
  · cases op with
    | emplace i src =>
      cases src with
      | opt j mv =>
        simp only [Src.isSelf]
        by_cases hj : j = i
        · subst hj; exact absurd (emplace_self _ _ _) hb
        · simpa using hj
      | _ => rfl
    | getUnchecked i => exact absurd rfl hb
    | unzipTuple => exact absurd rfl hb
    | _ => trivial

/-- a history with a result respects the library's conditions as well -/
theorem run_allowed (hP : P.OK) (hB : P.ScalarsKeep) : ∀ (ops : List (Op Val)) {a : AState Val} {s s' : State Val}
    {rs : List (Ret Val)}, SR P a s → run P 0 ops s = .ok rs s' → Op.AllAllowed P ops a
  | [], _, _, _, _, _, _ => trivial
  | op :: ops, a, s, s', rs, h, hr => by
    have ho := runOp_rel hP hB h op
    have hn : runOp P 0 op s ≠ .ub := fun h0 => by
      simp only [run, bind_run, Prog.catch_, h0] at hr
      cases hr
    refine ⟨present_allowed h hn, ?_⟩
    revert ho hr
    simp only [run, bind_run, Prog.catch_]
    cases runOp P 0 op s with
    | ub => exact fun hr _ => by cases hr
    | verify => exact fun hr _ => by cases hr
    | ok v s1 =>
      cases Spec.runOp P op a with
      | ok u a1 =>
        rintro hr ⟨rfl, h1⟩
        simp only [obind_ok, bind_run] at hr
        cases hr1 : run P 0 ops s1 with
        | ok rs1 s2 => exact run_allowed hP hB ops h1 hr1
        | _ => rw [hr1] at hr; cases hr
      | _ => exact fun _ ho => ho.elim
    | throw s1 =>
      cases Spec.runOp P op a with
      | throw a1 =>
        intro hr h1
        simp only [obind_ok, bind_run] at hr
        cases hr1 : run P 0 ops s1 with
        | ok rs1 s2 => exact run_allowed hP hB ops h1 hr1
        | _ => rw [hr1] at hr; cases hr
      | _ => exact fun _ ho => ho.elim

/-- a history with a result, in two parts -/
theorem run_append : ∀ (pre : List (Op Val)) {op : Op Val} {post : List (Op Val)} {s s' : State Val} {rs : List (Ret Val)},
    run P 0 (pre ++ op :: post) s = .ok rs s' → ∃ rs1 s1 rs2, rs = rs1 ++ rs2 ∧ run P 0 pre s = .ok rs1 s1 ∧
      run P 0 (op :: post) s1 = .ok rs2 s'
  | [], _, _, s, _, rs, h => ⟨[], s, rs, rfl, rfl, h⟩
  | o :: pre, op, post, s, s', rs, h => by
    simp only [List.cons_append, run, bind_run] at h
    revert h
    cases hc : Prog.catch_ (runOp P 0 o) s with
    | ok r s0 =>
      simp only [obind_ok, bind_run]
      intro h
      cases hr : run P 0 (pre ++ op :: post) s0 with
      | ok rs0 s2 =>
        rw [hr] at h
        cases h
        obtain ⟨rs1, s1, rs2, rfl, h1, h2⟩ := run_append pre hr
        exact ⟨r :: rs1, s1, rs2, rfl, by simp only [run, bind_run, hc, obind_ok, h1, pure_run], h2⟩
      | _ => rw [hr] at h; cases h
    | _ => exact fun h => by cases h

end Opt.Std
