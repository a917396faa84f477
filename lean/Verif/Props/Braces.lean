import Verif.Model.Braces

/-!
# C60 Empty braces
-/

namespace Opt.Braces

open Opt.RefBind (Ref)

/-- C60: assigning `{}` empties the option when `T` is no scalar (nor a reference to one) and the option can be assigned.
Missing: scalars (`C60_violated_scalar`) and references to scalars (`C60_violated_reference`). -/
theorem C60_empties_partial (F : Facts) (hs : F.scalar = false) (ha : F.assigns = true) : assign F = .empties := by
  obtain ⟨r, c, v, s, f, a, o⟩ := F
  simp only at hs ha
  subst hs ha
  cases r <;> cases c <;> cases v <;> cases f <;> cases a <;> rfl

/-- a class such as `std::string`; a reference to it -/
example : assign ⟨.none, false, false, false, true, true, true⟩ = .empties ∧
    assign ⟨.lv, true, false, false, true, true, true⟩ = .empties := by decide

/-- C60, exactly when `{}` empties: the option can be assigned, and `T` is a class, a scalar that cannot be assigned, or a
reference that does not bind to a temporary. -/
theorem C60_exact (F : Facts) : assign F = .empties ↔
    F.assigns = true ∧ (F.scalar = true → (F.ref = .none ∧ F.accepts = false) ∨
      (F.ref = .lv ∧ (F.const = false ∨ F.volatile = true))) := by
  obtain ⟨r, c, v, s, f, a, o⟩ := F
  cases r <;> cases c <;> cases v <;> cases s <;> cases f <;> cases a <;> cases o <;> decide

/-- C60 violated: for every assignable scalar, `o = {}` leaves the option engaged with `T{}`, also when it was empty. -/
theorem C60_violated_scalar (F : Facts) (hr : F.ref = .none) (hs : F.scalar = true) (ha : F.accepts = true) :
    assign F = .value := by
  obtain ⟨r, c, v, s, f, a, o⟩ := F
  simp only at hr hs ha
  subst hr hs ha
  cases c <;> cases v <;> cases f <;> cases o <;> rfl

/-- `option<int>` -/
example : assign ⟨.none, false, false, true, true, true, true⟩ = .value := by decide

/-- C60 violated: for a `const` reference to a scalar and for an rvalue reference to one, `o = {}` leaves the option engaged
with the address of a temporary. -/
theorem C60_violated_reference (F : Facts) (hs : F.scalar = true)
    (hr : F.ref = .rv ∨ (F.ref = .lv ∧ F.const = true ∧ F.volatile = false)) : assign F = .dangles := by
  obtain ⟨r, c, v, s, f, a, o⟩ := F
  simp only at hs hr
  subst hs
  rcases hr with rfl | ⟨rfl, rfl, rfl⟩
  · cases c <;> cases v <;> cases f <;> cases a <;> cases o <;> rfl
  · cases f <;> cases a <;> cases o <;> rfl

/-- `option<const int&>`, `option<int&&>`; `option<int&>` is emptied -/
example : assign ⟨.lv, true, false, true, true, true, true⟩ = .dangles ∧ assign ⟨.rv, false, false, true, true, true, true⟩ = .dangles ∧
    assign ⟨.lv, false, false, true, true, true, true⟩ = .empties := by decide

/-- C60: the call is never ambiguous: if the option can be assigned, `o = {}` compiles for every `T`. -/
theorem C60_never_ambiguous (F : Facts) (ha : F.assigns = true) : assign F ≠ .illFormed := by
  obtain ⟨r, c, v, s, f, a, o⟩ := F
  simp only at ha
  subst ha
  cases r <;> cases c <;> cases v <;> cases s <;> cases f <;> cases a <;> decide

end Opt.Braces
