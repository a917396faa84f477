import Verif.Spec.Lifetime

/-!
# A log in order has as many destructor calls as constructor calls, up to what is still alive
-/

namespace Opt.Life

variable {tr : Nat → Bool}

theorem foldl_none (log : List Event) : log.foldl (fun s e => s.bind (step tr · e)) none = none := by
  induction log with
  | nil => rfl
  | cons e log ih => exact ih

theorem runFrom_cons (l : Nat → Bool) (e : Event) (log : List Event) :
    runFrom tr l (e :: log) = (step tr l e).bind (runFrom tr · log) := by
  simp only [runFrom, List.foldl_cons, Option.bind_some]
  cases step tr l e with
  | none => exact foldl_none log
  | some l' => rfl

/-- one event: what it adds to the number of constructor and destructor calls -/
theorem step_count {l l' : Nat → Bool} {e : Event} {i : Nat} (hi : tr i = true) (h : step tr l e = some l') :
    (l i).toNat + ctors i [e] = dtors i [e] + (l' i).toNat := by
  cases e with
  | ctor j k =>
    simp only [step] at h
    by_cases hj : j = i
    · subst hj
      rw [hi, if_pos rfl] at h
      cases hl : l j with
      | true => rw [hl] at h; cases h
      | false => rw [hl] at h; cases h; simp [ctors, dtors, upd]
    · have : l' i = l i := by
        revert h
        split
        · split
          · nofun
          · intro h; cases h; simp [upd, Ne.symm hj]
        · intro h; cases h; rfl
      simp [ctors, dtors, this, hj]
  | dtor j =>
    simp only [step] at h
    by_cases hj : j = i
    · subst hj
      cases hl : l j with
      | false => rw [hl] at h; cases h
      | true => rw [hl] at h; cases h; simp [ctors, dtors, upd]
    · have : l' i = l i := by
        revert h
        split
        · intro h; cases h; simp [upd, Ne.symm hj]
        · nofun
      simp [ctors, dtors, this, hj]
  | _ =>
    have : l' = l := by
      revert h
      simp only [step]
      try split
      all_goals (intro h; cases h; try rfl)
    simp [ctors, dtors, this]

theorem ctors_cons (i : Nat) (e : Event) (log : List Event) : ctors i (e :: log) = ctors i [e] + ctors i log := by
  simp only [ctors, List.countP_cons, List.countP_nil]; omega

theorem dtors_cons (i : Nat) (e : Event) (log : List Event) : dtors i (e :: log) = dtors i [e] + dtors i log := by
  simp only [dtors, List.countP_cons, List.countP_nil]; omega

theorem runFrom_count {i : Nat} (hi : tr i = true) : ∀ {log : List Event} {l l' : Nat → Bool},
    runFrom tr l log = some l' → (l i).toNat + ctors i log = dtors i log + (l' i).toNat
  | [], l, l', h => by cases h; simp [ctors, dtors]
  | e :: log, l, l', h => by
    rw [runFrom_cons] at h
    cases hs : step tr l e with
    | none => rw [hs] at h; cases h
    | some l1 =>
      rw [hs] at h
      have h1 := step_count hi hs
      have h2 := runFrom_count hi (log := log) h
      rw [ctors_cons, dtors_cons]; omega

/-- constructor calls are destructor calls plus what is alive -/
theorem run_count {i : Nat} (hi : tr i = true) {log : List Event} {l : Nat → Bool} (h : run tr log = some l) :
    ctors i log = dtors i log + (l i).toNat := by
  have := runFrom_count hi h
  simpa using this

end Opt.Life
