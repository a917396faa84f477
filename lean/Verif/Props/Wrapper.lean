import Verif.Spec.Wrapper

/-!
# C71: the wrappers mimic the wrapped type
-/

namespace Opt.Wrapper

open IntSentinel (IntTy)

/-- C71 (partial): `W w(e)` does what `T t(e)` does exactly when `T(e)` and `T{e}` are the same thing. -/
theorem C71_direct_partial (F : Facts) (h : F.WF) :
    direct F = wantDirect F ↔ (F.constructible = true → F.braced = true ∧ F.listCtor = false) := by
  obtain ⟨h1, h2, h3⟩ := h
  obtain ⟨a, b, c, d, e, f, g, i, j, k⟩ := F
  dsimp only at h1 h2 h3
  simp only [direct, wantDirect, initializable, memberInit, memberCopy]
  revert h1 h2 h3
  cases a <;> cases b <;> cases c <;> cases d <;> cases e <;> cases f <;> cases g <;> cases i <;> cases j <;> cases k <;> decide

/-- a class with a constructor, initialised from something it can be constructed from by either syntax -/
example : direct ⟨true, false, false, true, false, false, true, false, false, true⟩ =
    wantDirect ⟨true, false, false, true, false, false, true, false, false, true⟩ :=
  (C71_direct_partial _ ⟨by decide, by decide, by decide⟩).2 (by decide)

/-- C71 (partial): `W w = e` does what `T t = e` does exactly when the conversion is a standard one and copying `T` with braces
makes a copy. -/
theorem C71_implicit_partial (F : Facts) (h : F.WF) :
    implicit F = wantImplicit F ↔ (F.convertible = true → F.standard = true ∧ F.listSelf = false) := by
  obtain ⟨h1, h2, h3⟩ := h
  obtain ⟨a, b, c, d, e, f, g, i, j, k⟩ := F
  dsimp only at h1 h2 h3
  simp only [implicit, wantImplicit, memberCopy]
  revert h1 h2 h3
  cases a <;> cases b <;> cases c <;> cases d <;> cases e <;> cases f <;> cases g <;> cases i <;> cases j <;> cases k <;> decide

example : implicit (intFacts false (.int 32 false) (.int 32 true)) = wantImplicit (intFacts false (.int 32 false) (.int 32 true)) :=
  (C71_implicit_partial _ ⟨by decide, by decide, by decide⟩).2 (by decide)

/-- C71 (partial): `w = e` does not call `T`'s assignment from `e`; it does the same exactly when `T` can be assigned `e` just in the
cases in which `e` converts to `T` by a standard conversion. -/
theorem C71_assign_partial (F : Facts) (h : F.WF) :
    assign F = wantAssign F ↔ F.assignable = F.standard ∧ (F.assignable = true → F.listSelf = false) := by
  obtain ⟨h1, h2, h3⟩ := h
  obtain ⟨a, b, c, d, e, f, g, i, j, k⟩ := F
  dsimp only at h1 h2 h3
  simp only [assign, implicit, wantAssign, memberCopy]
  revert h1 h2 h3
  cases a <;> cases b <;> cases c <;> cases d <;> cases e <;> cases f <;> cases g <;> cases i <;> cases j <;> cases k <;> decide

example : assign (intFacts false (.int 8 true) (.int 64 false)) = wantAssign (intFacts false (.int 8 true) (.int 64 false)) :=
  (C71_assign_partial _ ⟨by decide, by decide, by decide⟩).2 (by decide)

/-- C71 is violated by every `T` that is converted to by a constructor: `enforce<std::string> w = "abc"` and `w = "abc"` do not
compile, and neither does the assignment to an option of the wrapper. -/
theorem C71_violated_user_conversion (F : Facts) (hs : F.same = false) (hu : F.standard = false) (hc : F.convertible = true)
    (ha : F.assignable = true) :
    (wantImplicit F = .ok .value ∧ implicit F = .noMatch) ∧ (wantAssign F = .ok .value ∧ assign F = .noMatch) ∧
    optionAssign F = .noMatch := by
  simp [wantImplicit, implicit, wantAssign, assign, optionAssign, hs, hu, hc, ha]

/-- `std::string` from `const char*` -/
example : optionAssign ⟨true, false, false, true, true, false, true, false, false, true⟩ = .noMatch :=
  (C71_violated_user_conversion _ rfl rfl rfl rfl).2.2

/-- C71 is violated by copying a `T` that can be its own element, such as `std::vector<std::any>`: the wrapper holds a list with
one element. -/
theorem C71_violated_list (F : Facts) (h : F.WF) (hs : F.same = true) (hl : F.listSelf = true) :
    direct F = .ok .list ∧ implicit F = .ok .list ∧ wantDirect F = .ok .value ∧ wantImplicit F = .ok .value := by
  have h1 := (h.same hs).1
  have h2 := h.std h1
  have h3 := h.conv h2
  simp [direct, implicit, memberCopy, wantDirect, wantImplicit, hs, hl, h2, h3]

example : direct ⟨true, false, true, true, true, true, true, true, true, true⟩ = .ok .list :=
  (C71_violated_list _ ⟨by decide, by decide, by decide⟩ rfl rfl).1

/-! ## Integers -/

/-- narrowing, without the rules: some value of the source is no value of the target -/
theorem narrows_iff {t q : IntTy} (ht : t.WF) (hq : q.WF) : narrows t q = true ↔ ∃ v, q.Has v ∧ ¬ t.Has v := by
  cases t with
  | bool =>
    cases q with
    | bool => simp only [narrows, Bool.false_eq_true, false_iff]; rintro ⟨v, h1, h2⟩; exact h2 h1
    | int w s =>
      simp only [narrows, true_iff]
      refine ⟨2, ?_, by simp [IntTy.Has]⟩
      simp only [IntTy.WF] at hq
      rcases hq with rfl | rfl | rfl | rfl <;> cases s <;> decide
  | int w s =>
    simp only [IntTy.WF] at ht
    cases q with
    | bool =>
      simp only [narrows, Bool.false_eq_true, false_iff]
      rintro ⟨v, h1, h2⟩
      apply h2
      simp only [IntTy.Has] at h1
      rcases h1 with rfl | rfl <;> rcases ht with rfl | rfl | rfl | rfl <;> cases s <;> decide
    | int w' s' =>
      simp only [IntTy.WF] at hq
      constructor
      · intro h
        cases s' with
        | false =>
          refine ⟨2 ^ w' - 1, ?_, ?_⟩
          · rcases hq with rfl | rfl | rfl | rfl <;> decide
          · revert h
            rcases hq with rfl | rfl | rfl | rfl <;> rcases ht with rfl | rfl | rfl | rfl <;> cases s <;> decide
        | true =>
          refine ⟨-2 ^ (w' - 1), ?_, ?_⟩
          · rcases hq with rfl | rfl | rfl | rfl <;> decide
          · revert h
            rcases hq with rfl | rfl | rfl | rfl <;> rcases ht with rfl | rfl | rfl | rfl <;> cases s <;> decide
      · rintro ⟨v, h1, h2⟩
        rcases hq with rfl | rfl | rfl | rfl <;> rcases ht with rfl | rfl | rfl | rfl <;> cases s <;> cases s' <;>
          simp only [IntTy.Has, narrows] at * <;> first | rfl | (exfalso; omega)

/-- C71 for integers: a wrapper of `t` (and an option of it) is constructed from a `q` exactly when every value of `q` is a value of
`t`; otherwise the constructor is chosen and its definition does not compile.  Conversion and assignment always work for the wrapper,
but the assignment to an option of it has the same restriction. -/
theorem C71_integers {cxx20 : Bool} {t q : IntTy} (ht : t.WF) (hq : q.WF) :
    (direct (intFacts cxx20 t q) = .ok .value ↔ ∀ v, q.Has v → t.Has v) ∧
    (direct (intFacts cxx20 t q) = .error ↔ ∃ v, q.Has v ∧ ¬ t.Has v) ∧
    (optionCtor (intFacts cxx20 t q) = .error ↔ ∃ v, q.Has v ∧ ¬ t.Has v) ∧
    (optionAssign (intFacts cxx20 t q) = .error ↔ ∃ v, q.Has v ∧ ¬ t.Has v) ∧
    implicit (intFacts cxx20 t q) = .ok .value ∧ assign (intFacts cxx20 t q) = .ok .value := by
  have hn := narrows_iff ht hq
  have hf : narrows t q = false ↔ ∀ v, q.Has v → t.Has v := by
    constructor
    · intro h v hv
      refine Classical.byContradiction fun hv' => ?_
      rw [hn.2 ⟨v, hv, hv'⟩] at h
      cases h
    · intro h
      cases hh : narrows t q
      · rfl
      · obtain ⟨v, h1, h2⟩ := hn.1 hh
        exact absurd (h v h1) h2
  rw [← hn, ← hf]
  have hself : t = q → narrows t q = false := by
    rintro rfl
    exact hf.2 (fun v hv => hv)
  by_cases e : t = q
  · simp [direct, optionCtor, optionAssign, assign, implicit, intFacts, e, memberCopy, ← e ▸ hself e]
  · cases h : narrows t q <;> cases cxx20 <;>
      simp [direct, optionCtor, optionAssign, assign, implicit, intFacts, e, memberCopy, memberInit, initializable, h]

/-- `option<sentinel<unsigned, ~0u>> o = 1;` does not compile, although `unsigned` accepts `1` -/
example : optionCtor (intFacts false (.int 32 false) (.int 32 true)) = .error :=
  (C71_integers (by simp [IntTy.WF]) (by simp [IntTy.WF])).2.2.1.2 ⟨-1, by decide, by decide⟩

/-- `std::is_constructible` promises what does not compile. -/
theorem C71_violated_is_constructible :
    ∃ t q : IntTy, t.WF ∧ q.WF ∧ wantDirect (intFacts true t q) = .ok .value ∧ direct (intFacts true t q) = .error ∧
      initializable (intFacts true t q) = true :=
  ⟨.int 32 false, .int 32 true, by simp [IntTy.WF], by simp [IntTy.WF], by decide, by decide, by decide⟩

end Opt.Wrapper
