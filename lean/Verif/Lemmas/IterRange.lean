import Verif.Model.IterProg

/-!
# Lemmas for C64: client programs on the iterators of an option
-/

namespace Opt

namespace Iter

/-- the iterator variables of a range of `k` elements that starts at position `n` of the array `a` -/
def InRange (a n k : Nat) (s : IterSpec.Vars) (t : Nat → Ptr) : Prop :=
  ∀ x p, s x = some p → p ≤ k ∧ t x = .elem a (n + p)

/-- the iterator variables of an empty range represented by null pointers -/
def AllNull (s : IterSpec.Vars) (t : Nat → Ptr) : Prop := ∀ x p, s x = some p → p = 0 ∧ t x = .null

theorem InRange.set {a n k : Nat} {s : IterSpec.Vars} {t : Nat → Ptr} (h : InRange a n k s t) (x : Nat) {p : Nat} (hp : p ≤ k) :
    InRange a n k (IterSpec.set s x p) (setVar t x (.elem a (n + p))) := by
  intro y q hq
  simp only [IterSpec.set] at hq
  simp only [setVar]
  split at hq
  · next e => cases hq; exact ⟨hp, by rw [if_pos e]⟩
  · next e => rw [if_neg e]; exact h y q hq

theorem AllNull.set {s : IterSpec.Vars} {t : Nat → Ptr} (h : AllNull s t) (x : Nat) :
    AllNull (IterSpec.set s x 0) (setVar t x .null) := by
  intro y q hq
  simp only [IterSpec.set] at hq
  simp only [setVar]
  split at hq
  · next e => cases hq; exact ⟨rfl, by rw [if_pos e]⟩
  · next e => rw [if_neg e]; exact h y q hq

theorem seek_some {k p q : Nat} {n : Int} (h : IterSpec.seek k p n = some q) : q ≤ k ∧ (p : Int) + n = q := by
  simp only [IterSpec.seek] at h
  split at h
  · next e => cases h; omega
  · cases h

theorem ptrAdd_seek {len : Nat → Nat} {a n k p q : Nat} {m : Int} (hk : n + k ≤ len a)
    (h : IterSpec.seek k p m = some q) : ptrAdd len a (n + p) m = .ok (.elem a (n + q)) := by
  have e := seek_some h
  have e1 : 0 ≤ ((n + p : Nat) : Int) + m ∧ ((n + p : Nat) : Int) + m ≤ (len a : Nat) := by omega
  have e2 : (((n + p : Nat) : Int) + m).toNat = n + q := by omega
  simp only [ptrAdd, e1, and_self, if_true, e2]

theorem look_elem (a n p : Nat) (f : Nat → IterObs) : look (.elem a n) f (a, n + p) = .ok [f p] := by
  have : n + p - n = p := by omega
  simp only [look, offset, true_and, Nat.le_add_right, if_true, this]

/-- every allowed step is carried out as the standard says -/
theorem step_elem {len : Nat → Nat} {a n k : Nat} (hk : n + k ≤ len a) {s s' : IterSpec.Vars} {t : Nat → Ptr}
    {os : List IterObs} {c : IterStep} (hr : InRange a n k s t) (h : IterSpec.step k s c = some (s', os)) :
    ∃ t', step len (.elem a n) (.elem a (n + k)) t c = .ok (t', os) ∧ InRange a n k s' t' := by
  cases c with
  | begin_ x => cases h; exact ⟨_, rfl, hr.set x (Nat.zero_le k)⟩
  | end_ x => cases h; exact ⟨_, rfl, hr.set x (Nat.le_refl k)⟩
  | copy x y =>
    simp only [IterSpec.step] at h
    cases e : s y with
    | none => rw [e] at h; cases h
    | some p =>
      rw [e] at h; cases h
      exact ⟨_, by simp only [step, (hr y p e).2], hr.set x (hr y p e).1⟩
  | inc x | dec x | postInc x y | postDec x y | plus x y m | minus x y m =>
    simp only [IterSpec.step] at h
    rcases Option.bind_eq_some_iff.mp h with ⟨p, e, h⟩
    rcases Option.map_eq_some_iff.mp h with ⟨q, e', h⟩
    cases h
    have hp := ptrAdd_seek hk e'
    have hx := (hr _ _ e).2
    first
      | refine ⟨_, ?_, hr.set _ (seek_some e').1⟩
        simp only [step, hx]
        simp only [inc, dec, add, sub, hp, Res.map]
        done
      | refine ⟨_, ?_, (hr.set _ (seek_some e').1).set _ (hr _ _ e).1⟩
        simp only [step, hx]
        simp only [postInc, postDec, hp, Res.map]
        done
  | diff x y | eq x y | ne x y | lt x y | gt x y | le x y | ge x y =>
    simp only [IterSpec.step] at h
    rcases Option.bind_eq_some_iff.mp h with ⟨p, e, h⟩
    rcases Option.map_eq_some_iff.mp h with ⟨q, e', h⟩
    cases h
    have hx := (hr _ _ e).2
    have hy := (hr _ _ e').2
    refine ⟨t, ?_, hr⟩
    simp only [step, diff, eq, ne, lt, gt, le, ge, ptrLt, ptrLe, hx, hy, if_true, Res.map, bne_iff_ne, ne_eq, reduceCtorEq,
      not_false_eq_true, verifyThen, Ptr.elem.injEq, true_and, Nat.add_left_cancel_iff, Nat.add_lt_add_iff_left,
      Nat.add_le_add_iff_left, decide_not]
    try (congr 4; omega)
  | deref x =>
    simp only [IterSpec.step] at h
    rcases Option.bind_eq_some_iff.mp h with ⟨p, e, h⟩
    split at h
    · next hp =>
      cases h
      have hl : n + p < len a := by omega
      exact ⟨t, by simp only [step, deref, (hr x p e).2, ptrDeref, hl, if_true, Res.bind, look_elem, Res.map], hr⟩
    · cases h
  | arrow x =>
    simp only [IterSpec.step] at h
    rcases Option.map_eq_some_iff.mp h with ⟨p, e, h⟩
    cases h
    exact ⟨t, by simp only [step, arrow, (hr x p e).2, Res.bind, look_elem, Res.map], hr⟩
  | index x m =>
    simp only [IterSpec.step] at h
    rcases Option.bind_eq_some_iff.mp h with ⟨p, e, h⟩
    rcases Option.bind_eq_some_iff.mp h with ⟨q, e', h⟩
    split at h
    · next hq =>
      cases h
      have hl : n + q < len a := by omega
      exact ⟨t, by simp only [step, index, (hr x p e).2, ptrAdd_seek hk e', ptrDeref, hl, if_true, Res.bind, look_elem,
        Res.map], hr⟩
    · cases h

/-- every allowed program sees what the standard says -/
theorem exec_elem {len : Nat → Nat} {a n k : Nat} (hk : n + k ≤ len a) (cs : List IterStep) :
    ∀ {s : IterSpec.Vars} {t : Nat → Ptr} {os : List IterObs}, InRange a n k s t → IterSpec.run k cs s = some os →
      exec len (.elem a n) (.elem a (n + k)) cs t = .ok os := by
  induction cs with
  | nil => intro s t os _ h; cases h; rfl
  | cons c cs ih =>
    intro s t os hr h
    simp only [IterSpec.run] at h
    rcases Option.bind_eq_some_iff.mp h with ⟨⟨s', o1⟩, e, h⟩
    rcases Option.map_eq_some_iff.mp h with ⟨o2, e', h⟩
    cases h
    obtain ⟨t', h1, h2⟩ := step_elem hk hr e
    simp only [exec, h1, Res.bind, ih h2 e', Res.map]

/-- with null pointers, an allowed step of an undemanding kind is carried out, any other one stops in a check -/
theorem step_null {len : Nat → Nat} {s s' : IterSpec.Vars} {t : Nat → Ptr} {os : List IterObs} {c : IterStep}
    (hr : AllNull s t) (h : IterSpec.step 0 s c = some (s', os)) :
    (c.demanding = true ∧ step len .null .null t c = .verify) ∨
      (c.demanding = false ∧ ∃ t', step len .null .null t c = .ok (t', os) ∧ AllNull s' t') := by
  cases c with
  | begin_ x => cases h; exact .inr ⟨rfl, _, rfl, hr.set x⟩
  | end_ x => cases h; exact .inr ⟨rfl, _, rfl, hr.set x⟩
  | copy x y =>
    simp only [IterSpec.step] at h
    rcases Option.map_eq_some_iff.mp h with ⟨p, e, h⟩
    cases h
    have hy := hr y p e
    cases hy.1
    exact .inr ⟨rfl, _, by simp only [step, hy.2], hr.set x⟩
  | inc x | dec x | postInc x y | postDec x y =>
    simp only [IterSpec.step] at h
    rcases Option.bind_eq_some_iff.mp h with ⟨p, e, h⟩
    rcases Option.map_eq_some_iff.mp h with ⟨q, e', h⟩
    have := seek_some e'
    have := (hr _ _ e).1
    omega
  | plus x y m | minus x y m =>
    simp only [IterSpec.step] at h
    rcases Option.bind_eq_some_iff.mp h with ⟨p, e, h⟩
    exact .inl ⟨rfl, by simp only [step, (hr _ _ e).2, add, sub, Res.map]⟩
  | arrow x =>
    simp only [IterSpec.step] at h
    rcases Option.map_eq_some_iff.mp h with ⟨p, e, h⟩
    exact .inl ⟨rfl, by simp only [step, (hr _ _ e).2, arrow, Res.bind]⟩
  | lt x y | gt x y =>
    simp only [IterSpec.step] at h
    rcases Option.bind_eq_some_iff.mp h with ⟨p, e, h⟩
    exact .inl ⟨rfl, by simp only [step, (hr _ _ e).2, lt, gt]; rfl⟩
  | diff x y | eq x y | ne x y | le x y | ge x y =>
    simp only [IterSpec.step] at h
    rcases Option.bind_eq_some_iff.mp h with ⟨p, e, h⟩
    rcases Option.map_eq_some_iff.mp h with ⟨q, e', h⟩
    cases h
    have hx := hr _ _ e
    have hy := hr _ _ e'
    cases hx.1
    cases hy.1
    exact .inr ⟨rfl, t, by simp [step, diff, eq, ne, le, ge, ptrLe, hx.2, hy.2], hr⟩
  | deref x =>
    simp only [IterSpec.step] at h
    rcases Option.bind_eq_some_iff.mp h with ⟨p, e, h⟩
    simp at h
  | index x m =>
    simp only [IterSpec.step] at h
    rcases Option.bind_eq_some_iff.mp h with ⟨p, e, h⟩
    rcases Option.bind_eq_some_iff.mp h with ⟨q, e', h⟩
    simp at h

/-- with null pointers, an allowed program sees what the standard says unless a demanding step stops it in a check -/
theorem exec_null {len : Nat → Nat} (cs : List IterStep) :
    ∀ {s : IterSpec.Vars} {t : Nat → Ptr} {os : List IterObs}, AllNull s t → IterSpec.run 0 cs s = some os →
      exec len .null .null cs t = if cs.any IterStep.demanding then .verify else .ok os := by
  induction cs with
  | nil => intro s t os _ h; cases h; rfl
  | cons c cs ih =>
    intro s t os hr h
    simp only [IterSpec.run] at h
    rcases Option.bind_eq_some_iff.mp h with ⟨⟨s', o1⟩, e, h⟩
    rcases Option.map_eq_some_iff.mp h with ⟨o2, e', h⟩
    cases h
    rcases step_null (len := len) hr e with ⟨hc, h1⟩ | ⟨hc, t', h1, h2⟩
    · simp only [exec, h1, Res.bind, List.any_cons, hc, Bool.true_or, if_true]
    · simp only [exec, h1, Res.bind, ih h2 e', List.any_cons, hc, Bool.false_or]
      split <;> rfl

end Iter

end Opt
