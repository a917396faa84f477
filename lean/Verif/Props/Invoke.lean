import Verif.Spec.Invoke

/-!
# C55 `impl::invoke` is `std::invoke`
-/

namespace Opt.Invoke

open Opt.RefBind

variable {B : Base}

theorem related_iff {c d : Core} : related B c d = true ↔ c = d ∨ B c d = true := by simp [related]

/-- the two cases that are left out: a pointer to a member of `reference_wrapper` itself, and a pointer to a data member with more
arguments (which `std::invoke` rejects) -/
def Usual (B : Base) (f : Callable) (first : Core) (more : Nat) : Prop :=
  match f with
  | .memFun c => ∀ cv d, first = .refWrap cv d → related B c first = false
  | .memObj c => more = 0 ∧ ∀ cv d, first = .refWrap cv d → related B c first = false
  | .other => True

/-- C55: `impl::invoke` does what the standard's `INVOKE` does: no overload resolution is ambiguous, and the expression is the one of
the standard, except for members of `reference_wrapper` (`C55_violated_wrapper`). -/
theorem C55_invoke_partial (f : Callable) (first : Core) (more : Nat) (h : Usual B f first more) :
    ∃ x, invoke B f first more = some x ∧ ∀ y, Invokes B f first more y ↔ y = x := by
  cases f with
  | other =>
    refine ⟨.call, rfl, fun y => ⟨fun h => ?_, fun h => h ▸ .call⟩⟩
    cases h; rfl
  | memFun c =>
    cases hr : related B c first
    · have hn : ¬(c = first ∨ B c first = true) := by rw [← related_iff, hr]; simp
      cases first with
      | refWrap cv d =>
        refine ⟨.unwrap, ?_, fun y => ⟨fun h => ?_, fun h => h ▸ .funWrap hn⟩⟩
        · simp [invoke, chosen, overloads, Overload.viable, hr, Overload.rank, Overload.body]
        · cases h with
          | funDirect h => exact absurd h hn
          | funWrap => rfl
          | funDeref _ hw => exact absurd rfl (hw _ _)
      | cls n =>
        refine ⟨.deref, ?_, fun y => ⟨fun h => ?_, fun h => h ▸ .funDeref hn (by simp)⟩⟩
        · simp [invoke, chosen, overloads, Overload.viable, hr, Overload.rank, Overload.body]
        · cases h with
          | funDirect h => exact absurd h hn
          | funDeref => rfl
      | opt cv d r =>
        refine ⟨.deref, ?_, fun y => ⟨fun h => ?_, fun h => h ▸ .funDeref hn (by simp)⟩⟩
        · simp [invoke, chosen, overloads, Overload.viable, hr, Overload.rank, Overload.body]
        · cases h with
          | funDirect h => exact absurd h hn
          | funDeref => rfl
      | inPlace =>
        refine ⟨.deref, ?_, fun y => ⟨fun h => ?_, fun h => h ▸ .funDeref hn (by simp)⟩⟩
        · simp [invoke, chosen, overloads, Overload.viable, hr, Overload.rank, Overload.body]
        · cases h with
          | funDirect h => exact absurd h hn
          | funDeref => rfl
    · have hp : c = first ∨ B c first = true := related_iff.1 hr
      refine ⟨.direct, ?_, fun y => ⟨fun h => ?_, fun h => h ▸ .funDirect hp⟩⟩
      · cases first with
        | refWrap cv d => have := h _ _ rfl; rw [hr] at this; cases this
        | _ => simp [invoke, chosen, overloads, Overload.viable, hr, Overload.rank, Overload.body]
      · cases h with
        | funDirect => rfl
        | funWrap hn => exact absurd hp hn
        | funDeref hn => exact absurd hp hn
  | memObj c =>
    obtain ⟨rfl, h⟩ := h
    cases hr : related B c first
    · have hn : ¬(c = first ∨ B c first = true) := by rw [← related_iff, hr]; simp
      cases first with
      | refWrap cv d =>
        refine ⟨.unwrap, ?_, fun y => ⟨fun h => ?_, fun h => h ▸ .objWrap hn⟩⟩
        · simp [invoke, chosen, overloads, Overload.viable, hr, Overload.rank, Overload.body]
        · cases h with
          | objDirect h => exact absurd h hn
          | objWrap => rfl
          | objDeref _ hw => exact absurd rfl (hw _ _)
      | cls n =>
        refine ⟨.deref, ?_, fun y => ⟨fun h => ?_, fun h => h ▸ .objDeref hn (by simp)⟩⟩
        · simp [invoke, chosen, overloads, Overload.viable, hr, Overload.rank, Overload.body]
        · cases h with
          | objDirect h => exact absurd h hn
          | objDeref => rfl
      | opt cv d r =>
        refine ⟨.deref, ?_, fun y => ⟨fun h => ?_, fun h => h ▸ .objDeref hn (by simp)⟩⟩
        · simp [invoke, chosen, overloads, Overload.viable, hr, Overload.rank, Overload.body]
        · cases h with
          | objDirect h => exact absurd h hn
          | objDeref => rfl
      | inPlace =>
        refine ⟨.deref, ?_, fun y => ⟨fun h => ?_, fun h => h ▸ .objDeref hn (by simp)⟩⟩
        · simp [invoke, chosen, overloads, Overload.viable, hr, Overload.rank, Overload.body]
        · cases h with
          | objDirect h => exact absurd h hn
          | objDeref => rfl
    · have hp : c = first ∨ B c first = true := related_iff.1 hr
      refine ⟨.direct, ?_, fun y => ⟨fun h => ?_, fun h => h ▸ .objDirect hp⟩⟩
      · cases first with
        | refWrap cv d => have := h _ _ rfl; rw [hr] at this; cases this
        | _ => simp [invoke, chosen, overloads, Overload.viable, hr, Overload.rank, Overload.body]
      · cases h with
        | objDirect => rfl
        | objWrap hn => exact absurd hp hn
        | objDeref hn => exact absurd hp hn

/-- class 1 is derived from class 0 -/
def demoBase : Base := fun c d => c == .cls 0 && d == .cls 1

/-- a member function of class 0 on an object of class 1, on a pointer-like object, and on a wrapper of class 1 -/
example : invoke demoBase (.memFun (.cls 0)) (.cls 1) 2 = some .direct ∧ invoke demoBase (.memFun (.cls 0)) (.cls 7) 2 = some .deref ∧
    invoke demoBase (.memFun (.cls 0)) (.refWrap ⟨false, false⟩ (.cls 1)) 0 = some .unwrap := by decide

example : Usual demoBase (.memFun (.cls 0)) (.refWrap ⟨false, false⟩ (.cls 1)) 0 := by
  intro cv d h
  cases h
  rfl

/-- C55: further arguments after a pointer to a data member are rejected (there `std::invoke` is ill-formed too). -/
theorem C55_data_member_arguments (c first : Core) (more : Nat) (hm : more ≠ 0) (deref : Core → Option Core) :
    (∀ x, invoke B (.memObj c) first more = some x → x.wellFormed B deref (.memObj c) first more = false) ∧
    ∀ y, ¬Invokes B (.memObj c) first more y := by
  have h0 : (more == 0) = false := by simpa using hm
  constructor
  · intro x hx
    have : invoke B (.memObj c) first more = some .call := by
      cases first <;> simp [invoke, chosen, overloads, Overload.viable, h0, Overload.rank, Overload.body]
    rw [this] at hx
    cases hx
    rfl
  · intro y h
    cases h <;> exact hm rfl

example : invoke demoBase (.memObj (.cls 0)) (.cls 0) 1 = some .call := by decide

/-- C55 is violated for members of `reference_wrapper`: `option<std::reference_wrapper<X>>::map(&std::reference_wrapper<X>::get)`
chooses `first.get().*f`, which does not compile unless `X` is such a wrapper itself; the standard says `first.*f`. -/
theorem C55_violated_wrapper (cv : Cv) (d : Core) (more : Nat) (deref : Core → Option Core)
    (hd : related B (.refWrap cv d) d = false) :
    Invokes B (.memFun (.refWrap cv d)) (.refWrap cv d) more .direct ∧
    invoke B (.memFun (.refWrap cv d)) (.refWrap cv d) more = some .unwrap ∧
    Form.wellFormed B deref (.memFun (.refWrap cv d)) (.refWrap cv d) more .unwrap = false ∧
    Form.wellFormed B deref (.memFun (.refWrap cv d)) (.refWrap cv d) more .direct = true := by
  refine ⟨.funDirect (.inl rfl), ?_, ?_, ?_⟩
  · simp [invoke, chosen, overloads, Overload.viable, related, Overload.rank, Overload.body]
  · simpa [Form.wellFormed] using hd
  · simp [Form.wellFormed, related]

example : related demoBase (.refWrap ⟨false, false⟩ (.cls 5)) (.cls 5) = false := by decide

end Opt.Invoke
