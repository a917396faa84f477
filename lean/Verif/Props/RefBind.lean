import Verif.Spec.RefBind
import Verif.Lemmas.MachineRun

/-!
# C52 What options of references may be bound to
-/

namespace Opt.RefBind

variable {B : Bases} {T U : QTy} {e : Expr}

theorem ptrConvertible_iff : ptrConvertible B U T = true ↔ Compatible B T U := by
  obtain ⟨_, ⟨a, b⟩, c⟩ := U
  obtain ⟨_, ⟨a', b'⟩, c'⟩ := T
  constructor
  · intro h
    simp only [ptrConvertible, Bool.and_eq_true, Bool.or_eq_true, Bool.not_eq_true', beq_iff_eq] at h
    obtain ⟨⟨h1, h2⟩, h3⟩ := h
    refine ⟨fun h => ?_, fun h => ?_, ?_⟩
    · simp only at h h1; subst h; simpa using h1
    · simp only at h h2; subst h; simpa using h2
    · rcases h3 with h3 | h3
      · exact .inl h3
      · cases c <;> cases c' <;> simp only [Bool.false_eq_true] at h3
        exact .inr ⟨_, _, rfl, rfl, h3⟩
  · rintro ⟨h1, h2, h3⟩
    simp only [ptrConvertible, Bool.and_eq_true, Bool.or_eq_true, Bool.not_eq_true', beq_iff_eq]
    refine ⟨⟨?_, ?_⟩, ?_⟩
    · cases a
      · exact .inl rfl
      · exact .inr (h1 rfl)
    · cases b
      · exact .inl rfl
      · exact .inr (h2 rfl)
    · rcases h3 with h3 | ⟨b, d, hb, hd, h⟩
      · exact .inl h3
      · simp only at hb hd
        subst hb; subst hd
        exact .inr h

theorem sameReferenceWrapper_iff : sameReferenceWrapper T U = true ↔
    Wraps U { T.cv with const := false } T.core ∨ Wraps U T.cv T.core := by
  obtain ⟨r, cv, c⟩ := U
  obtain ⟨r', ⟨a, b⟩, c'⟩ := T
  cases c with
  | refWrap cv' d =>
    obtain ⟨x, y⟩ := cv'
    simp only [sameReferenceWrapper, Wraps, Bool.and_eq_true, Bool.or_eq_true, beq_iff_eq, Core.refWrap.injEq, Cv.mk.injEq]
    constructor
    · rintro ⟨⟨rfl, rfl⟩, ⟨rfl, rfl⟩ | ⟨rfl, rfl⟩⟩
      · exact .inr ⟨rfl, ⟨rfl, rfl⟩, rfl⟩
      · cases x
        · exact .inl ⟨rfl, ⟨rfl, rfl⟩, rfl⟩
        · exact .inr ⟨rfl, ⟨rfl, rfl⟩, rfl⟩
    · rintro (⟨rfl, ⟨rfl, rfl⟩, rfl⟩ | ⟨rfl, ⟨rfl, rfl⟩, rfl⟩)
      · cases a
        · exact ⟨⟨rfl, rfl⟩, .inl ⟨rfl, rfl⟩⟩
        · exact ⟨⟨rfl, rfl⟩, .inr ⟨rfl, rfl⟩⟩
      · exact ⟨⟨rfl, rfl⟩, .inl ⟨rfl, rfl⟩⟩
  | _ => simp [sameReferenceWrapper, Wraps]

theorem binds_iff : binds B T U = true ↔ CanBind B T U := by
  have h : ((T.ref == .lv) == (U.ref == .lv)) = true ↔ (T.ref = .lv ↔ U.ref = .lv) := by
    cases T.ref <;> cases U.ref <;> decide
  unfold binds CanBind
  rw [Bool.or_eq_true, Bool.and_eq_true, sameReferenceWrapper_iff, ptrConvertible_iff, h, or_assoc]

/-- **C52**: the constraints on the value constructor and the value assignment of an option of a reference are the
documented ones. -/
theorem C52_as_documented (B : Bases) (T U : QTy) :
    (fromValueCtor B T U = true ↔ CtorEnabled B T U) ∧ (fromValueAssign B T U = true ↔ AssignEnabled B T U) := by
  constructor
  · unfold fromValueCtor CtorEnabled
    rw [Bool.and_eq_true, Bool.and_eq_true, binds_iff]
    obtain ⟨r, cv, c⟩ := U
    cases c <;> simp [isOption]
  · unfold fromValueAssign AssignEnabled
    rw [Bool.and_eq_true, binds_iff]
    simp

theorem Core.ne_refWrap (cv : Cv) : ∀ c : Core, c ≠ .refWrap cv c := by
  intro c h
  have := congrArg sizeOf h
  simp at this

theorem Core.ne_opt (cv : Cv) (r : Ref) : ∀ c : Core, c ≠ .opt cv c r := by
  intro c h
  have := congrArg sizeOf h
  simp at this
  omega

theorem deduced_lv (e : Expr) : e.deduced.ref = .lv ↔ e.lvalue = true := by
  cases h : e.lvalue <;> simp [Expr.deduced, h]

theorem faithful_of_binds (h : binds B T e.deduced = true) : Faithful B T e (refToPtr B T e) := by
  rw [binds_iff] at h
  have hwrap : ∀ cv : Cv, Wraps e.deduced cv T.core → (cv.const = true → T.cv.const = true) →
      cv.volatile = T.cv.volatile → Faithful B T e (refToPtr B T e) := by
    intro cv hw hc hv
    have hcore : e.core = .refWrap cv T.core := hw.2
    have hp : ptrConvertible B ⟨.none, cv, T.core⟩ T = true :=
      ptrConvertible_iff.mpr ⟨hc, fun h => hv ▸ h, .inl rfl⟩
    have hne : (T.core == Core.refWrap cv T.core) = false := by
      simpa using Core.ne_refWrap cv T.core
    simp only [refToPtr, hcore, hne, hp, if_true, Bool.false_eq_true, if_false]
    exact .wrapped cv hcore hc hv
  rcases h with h | h | ⟨h, hc⟩
  · exact hwrap _ h (fun h => by cases h) rfl
  · exact hwrap _ h id rfl
  · have hp : ptrConvertible B e.deduced T = true := ptrConvertible_iff.mpr h
    rw [deduced_lv] at hc
    have hbind : bindParam B T e = .object e.place := by
      unfold bindParam
      rw [if_pos hp]
      cases hl : e.lvalue
      · rw [hl] at hc
        have : (T.ref == .lv) = false := by simpa using hc
        simp [this]
      · rw [hl] at hc
        have : (T.ref == .lv) = true := by simpa using hc
        simp [this]
    have : refToPtr B T e = .object e.place := by
      unfold refToPtr
      split
      next cv c hcore =>
        have : T.core = .refWrap cv c := by
          rcases h.core with h | ⟨b, d, _, hd, _⟩
          · exact h.symm.trans hcore
          · exact absurd (hd.symm.trans hcore) (by simp)
        rw [if_pos (by simpa using this), hbind]
      · exact hbind
    rw [this]
    exact .object h hc

/-- **C52**: an expression the constraints accept makes the value constructor, the value assignment or the assignment
from another option (an rvalue with a value) refer to the given object itself (an lvalue for an lvalue reference, an rvalue
for an rvalue reference) or to the object of the given wrapper.  It is never bound to a temporary made by a conversion, and
the body is well-formed. -/
theorem C52_direct_partial (B : Bases) (T : QTy) (e : Expr) :
    (fromValueCtor B T e.deduced = true → Faithful B T e (ctorValue B T e)) ∧
    (fromValueAssign B T e.deduced = true → Faithful B T e (assignValue B T e)) ∧
    (∀ U r s conv, fromOptionAssign B T U = true →
      Faithful B T (rvalueGet U r s conv) (assignOption B T U r s conv)) := by
  refine ⟨fun h => ?_, fun h => ?_, fun U r s conv h => ?_⟩
  · rw [ctorValue, if_pos h]
    rw [fromValueCtor, Bool.and_eq_true] at h
    exact faithful_of_binds h.2
  · rw [assignValue, if_pos h]
    rw [fromValueAssign, Bool.and_eq_true] at h
    exact faithful_of_binds h.2
  · rw [assignOption, if_pos h]
    rw [fromOptionAssign, Bool.and_eq_true] at h
    refine faithful_of_binds ?_
    have h2 := h.2
    rw [binds_iff] at h2 ⊢
    rcases h2 with h2 | h2 | ⟨h2, hc⟩
    · exact .inl ⟨h2.1, h2.2⟩
    · exact .inr (.inl ⟨h2.1, h2.2⟩)
    · refine .inr (.inr ⟨⟨h2.1, h2.2, h2.3⟩, ?_⟩)
      rw [deduced_lv, hc]
      simp [rvalueGet]

/-- **C52**: conversely, whatever can be bound directly with the right category is accepted: by assignment unless it is an
`option<T>` itself, by construction unless it is an option or `in_place_t`. -/
theorem C52_complete (B : Bases) (T : QTy) (e : Expr) (h : emplace B T e = .object e.place)
    (hnw : ∀ cv c, e.core = .refWrap cv c → T.core = .refWrap cv c) (hc : T.ref = .lv ↔ e.lvalue = true) :
    (e.core ≠ .opt T.cv T.core T.ref → assignValue B T e = .object e.place) ∧
    (e.core ≠ .inPlace → (∀ cv c r, e.core ≠ .opt cv c r) → ctorValue B T e = .object e.place) := by
  have hp : ptrConvertible B e.deduced T = true := by
    have hb : bindParam B T e = .object e.place := by
      unfold emplace refToPtr at h
      split at h
      next cv c hcore =>
        rwa [if_pos (by simpa using hnw cv c hcore)] at h
      · exact h
    unfold bindParam at hb
    split at hb
    · assumption
    · split at hb <;> cases hb
  have hcb : ((T.ref == .lv) == (e.deduced.ref == .lv)) = true := by
    rw [← deduced_lv] at hc
    revert hc
    cases T.ref <;> cases e.deduced.ref <;> decide
  have hbinds : binds B T e.deduced = true := by
    unfold binds
    rw [hp, hcb]
    simp
  refine ⟨fun hne => ?_, fun hne hno => ?_⟩
  · rw [assignValue, if_pos, ← h]; · rfl
    rw [fromValueAssign, hbinds]
    simpa [Expr.deduced] using hne
  · rw [ctorValue, if_pos, ← h]; · rfl
    rw [fromValueCtor, hbinds]
    have : isOption e.deduced = false := by
      unfold isOption
      split
      next cv c r hcore => exact absurd hcore (hno cv c r)
      · rfl
    rw [this]
    simpa [Expr.deduced] using hne

/-! The cases: class 1 is derived from class 0; class 2 is unrelated, and class 0 is made from it by a conversion. -/

def plain : Cv := ⟨false, false⟩
def konst : Cv := ⟨true, false⟩
def isBase : Bases := fun b d => b == 0 && d == 1
def derivedLvalue : Expr := ⟨true, plain, .cls 1, (7, 2), (0, 0), fun _ => false⟩
def unrelated : Expr := ⟨true, plain, .cls 2, (7, 2), (0, 0), fun c => c == .cls 0⟩
def wrapperOf0 : Expr := ⟨false, plain, .refWrap plain (.cls 0), (7, 2), (7, 3), fun _ => false⟩

/-- `option<const X0&> = derived`: bound to the object; `option<const X0&> = std::ref(x0)`: bound to its object -/
example : ctorValue isBase ⟨.lv, konst, .cls 0⟩ derivedLvalue = .object (7, 2) ∧
    Faithful isBase ⟨.lv, konst, .cls 0⟩ derivedLvalue (ctorValue isBase ⟨.lv, konst, .cls 0⟩ derivedLvalue) ∧
    ctorValue isBase ⟨.lv, konst, .cls 0⟩ wrapperOf0 = .wrapped (7, 3) ∧
    CtorEnabled isBase ⟨.lv, konst, .cls 0⟩ derivedLvalue.deduced ∧
    assignOption isBase ⟨.lv, konst, .cls 0⟩ ⟨.lv, plain, .cls 1⟩ (7, 2) (0, 0) (fun _ => false) = .object (7, 2) :=
  ⟨by decide, (C52_direct_partial _ _ _).1 (by decide), by decide, (C52_as_documented _ _ _).1.mp (by decide),
    by decide⟩

example : assignValue isBase ⟨.lv, konst, .cls 0⟩ derivedLvalue = .object (7, 2) :=
  (C52_complete isBase ⟨.lv, konst, .cls 0⟩ derivedLvalue (by decide) (by intro cv c h; cases h) (by decide)).1
    (by decide)

/-- **C52**, the part that fails: the in-place constructor, `emplace` and `try_emplace` are not constrained like this.  For
a reference to const and any expression of another type that converts, they refer to a temporary that is destroyed before
they return; the value constructor and the assignment reject the same expression. -/
theorem C52_violated_temporary (B : Bases) (T tag : QTy) (e : Expr)
    (hcv : T.ref = .lv → T.cv = ⟨true, false⟩) (hw : ∀ cv c, e.core ≠ .refWrap cv c)
    (hno : ¬ Compatible B T e.deduced) (hne : e.core ≠ T.core) (hconv : e.converts T.core = true) :
    emplace B T e = .temporary ∧ ctorInPlace B T tag e = .temporary ∧
    ctorValue B T e = .illFormed ∧ assignValue B T e = .illFormed := by
  have hp : ptrConvertible B e.deduced T = false := by
    cases h : ptrConvertible B e.deduced T
    · rfl
    · exact absurd (ptrConvertible_iff.mp h) hno
  have hr : refToPtr B T e = .temporary := by
    have : refToPtr B T e = bindParam B T e := by
      unfold refToPtr
      split
      next cv c h => exact absurd h (hw cv c)
      · rfl
    rw [this]
    unfold bindParam
    have hk : (T.ref != .lv || (T.cv.const && !T.cv.volatile)) = true := by
      by_cases h : T.ref = .lv
      · simp [hcv h]
      · simp [h]
    rw [hp, hk, hconv]
    simp [hne]
  have hb : binds B T e.deduced = false := by
    have hs : sameReferenceWrapper T e.deduced = false := by
      unfold sameReferenceWrapper
      split
      next cv c h => exact absurd h (hw cv c)
      · rfl
    simp [binds, hp, hs]
  refine ⟨hr, ?_, ?_, ?_⟩
  · simp [ctorInPlace, fromInPlaceCtor, hr]
  · simp [ctorValue, fromValueCtor, hb]
  · simp [assignValue, fromValueAssign, hb]

/-- `option<const X0&>{}.emplace(x2)`, and `option<X0&&>{}.emplace(x2)` -/
example : emplace isBase ⟨.lv, konst, .cls 0⟩ unrelated = .temporary ∧
    emplace isBase ⟨.rv, plain, .cls 0⟩ unrelated = .temporary :=
  have hno : ∀ r cv, ¬ Compatible isBase ⟨r, cv, .cls 0⟩ unrelated.deduced := by
    rintro r cv ⟨_, _, h | ⟨b, d, hb, hd, h⟩⟩
    · cases h
    · cases hb; cases hd; cases h
  ⟨(C52_violated_temporary isBase ⟨.lv, konst, .cls 0⟩ ⟨.none, plain, .inPlace⟩ unrelated (by decide)
      (by intro cv c h; cases h) (hno _ _) (by decide) (by decide)).1,
    (C52_violated_temporary isBase ⟨.rv, plain, .cls 0⟩ ⟨.none, plain, .inPlace⟩ unrelated (by decide)
      (by intro cv c h; cases h) (hno _ _) (by decide) (by decide)).1⟩

/-- **C52**: when `emplace` refers to the given object itself: exactly when it is reference-compatible, and an rvalue for
an rvalue reference; for an lvalue reference it is an lvalue, or the reference is to const (and then the object may be an
rvalue about to be destroyed). -/
theorem C52_emplace_object (B : Bases) (T : QTy) (e : Expr)
    (hnw : ∀ cv c, e.core = .refWrap cv c → T.core = .refWrap cv c) :
    emplace B T e = .object e.place ↔ Compatible B T e.deduced ∧
      (T.ref = .lv → e.lvalue = true ∨ T.cv = ⟨true, false⟩) ∧ (T.ref ≠ .lv → e.lvalue = false) := by
  have hr : emplace B T e = bindParam B T e := by
    unfold emplace refToPtr
    split
    next cv c hcore => rw [if_pos (by simpa using hnw cv c hcore)]
    · rfl
  rw [hr, ← ptrConvertible_iff]
  obtain ⟨ref, ⟨k, vol⟩, core⟩ := T
  unfold bindParam
  cases hp : ptrConvertible B e.deduced ⟨ref, ⟨k, vol⟩, core⟩
  · simp only [Bool.false_eq_true, if_false, false_and, iff_false]
    split <;> simp
  · cases ref <;> cases hl : e.lvalue <;> cases k <;> cases vol <;> simp

/-- `option<X0&&>{}.emplace(derived)` does not refer to `derived`; `option<const X0&>{}.emplace(std::move(derived))` does -/
example : emplace isBase ⟨.rv, plain, .cls 0⟩ derivedLvalue ≠ .object (7, 2) := fun h =>
  absurd (((C52_emplace_object isBase ⟨.rv, plain, .cls 0⟩ derivedLvalue (by intro cv c h; cases h)).1 h).2.2 (by decide))
    (by decide)

example : emplace isBase ⟨.lv, konst, .cls 0⟩ { derivedLvalue with lvalue := false } = .object (7, 2) :=
  (C52_emplace_object isBase ⟨.lv, konst, .cls 0⟩ { derivedLvalue with lvalue := false } (by intro cv c h; cases h)).2
    ⟨ptrConvertible_iff.mp (by decide), fun _ => .inr rfl, fun h => absurd rfl h⟩

/-- **C52**, what this means for the program: after `emplace` with such an expression the option has a value, `get()`
returns the place of the temporary, and reading it is undefined.  `tmp` is where the temporary is made, `v` its value. -/
theorem C52_violated_dangling {Val : Type} (i : Nat) (tmp : Loc) (v : Val) (w : RWorld Val) :
    ∃ w', withTemporary tmp v (RefOpt.emplace i) w = .ok tmp w' ∧ RefOpt.hasValue i w' = .ok true w' ∧
      RefOpt.get i w' = .ok tmp w' ∧ (RefOpt.get i >>= RefOpt.value) w' = .ub := by
  refine ⟨⟨upd w.ptr i (.elem tmp.1 tmp.2), fun r => if r = tmp then none else if r = tmp then some v else w.cell r⟩, ?_, ?_, ?_, ?_⟩
  · simp [withTemporary, RefOpt.emplace, RefOpt.reset, RefOpt.construct, RefOpt.get, RefOpt.hasValue, RefOpt.store,
      RefOpt.load, RefOpt.star, RefOpt.refToPtr, bind_run, obind_ok, M.check, upd_same, upd_upd, pure_run]
  · simp [RefOpt.hasValue, RefOpt.load, bind_run, obind_ok, upd_same, pure_run]
  · simp [RefOpt.get, RefOpt.hasValue, RefOpt.load, RefOpt.star, bind_run, obind_ok, M.check, upd_same, pure_run]
  · simp [RefOpt.get, RefOpt.hasValue, RefOpt.load, RefOpt.star, RefOpt.value, bind_run, obind_ok, M.check, upd_same, pure_run]

/-- **C52**, the part that fails: an option of an rvalue reference accepts a `reference_wrapper`, and then refers to an
lvalue nobody moved. -/
theorem C52_violated_wrapper (B : Bases) (cv : Cv) (c : Core) (e : Expr) (hcv : e.cv = ⟨false, false⟩)
    (hc : e.core = .refWrap cv c) :
    ctorValue B ⟨.rv, cv, c⟩ e = .wrapped e.wrapped ∧ assignValue B ⟨.rv, cv, c⟩ e = .wrapped e.wrapped := by
  have hw : Wraps e.deduced cv c := ⟨hcv, hc⟩
  have hb : CanBind B ⟨.rv, cv, c⟩ e.deduced := .inr (.inl hw)
  have hctor : fromValueCtor B ⟨.rv, cv, c⟩ e.deduced = true := by
    rw [(C52_as_documented _ _ _).1]
    exact ⟨by rw [hw.2]; simp, by rw [hw.2]; simp, fun _ _ _ => by rw [hw.2]; simp, hb⟩
  have hassign : fromValueAssign B ⟨.rv, cv, c⟩ e.deduced = true := by
    rw [(C52_as_documented _ _ _).2]
    exact ⟨by rw [hw.2]; simp, hb⟩
  have hr : refToPtr B ⟨.rv, cv, c⟩ e = .wrapped e.wrapped := by
    have hp : ptrConvertible B ⟨.none, cv, c⟩ ⟨.rv, cv, c⟩ = true := ptrConvertible_iff.mpr ⟨id, id, .inl rfl⟩
    have hne : (c == Core.refWrap cv c) = false := by simpa using Core.ne_refWrap cv c
    simp [refToPtr, hc, hne, hp]
  exact ⟨by rw [ctorValue, if_pos hctor, hr], by rw [assignValue, if_pos hassign, hr]⟩

example : ctorValue isBase ⟨.rv, plain, .cls 0⟩ wrapperOf0 = .wrapped (7, 3) :=
  (C52_violated_wrapper isBase plain (.cls 0) wrapperOf0 rfl rfl).1

/-- **C52**, the part that fails: the in-place constructor is documented as disabled for references.  It is enabled for
every first argument, whatever its type, and one more. -/
theorem C52_violated_in_place (B : Bases) (T tag : QTy) (e : Expr) (n : Nat) :
    (fromInPlaceCtor T tag n = true ↔ n = 1) ∧ ctorInPlace B T tag e = emplace B T e := by
  refine ⟨by simp [fromInPlaceCtor], by simp [ctorInPlace, fromInPlaceCtor, emplace]⟩

/-- `option<const X0&>(x2, derived)`: the first argument is no tag at all -/
example : ctorInPlace isBase ⟨.lv, konst, .cls 0⟩ ⟨.none, plain, .cls 2⟩ derivedLvalue = .object (7, 2) :=
  (C52_violated_in_place isBase _ _ _ 1).2.trans (by decide)

/-- **C52**: an option of a reference to an option can be assigned from an lvalue option, and refers to it, but it cannot
be constructed from one. -/
theorem C52_options_assign_only (B : Bases) (e : Expr) (cv cv' : Cv) (c : Core) (r : Ref) (hl : e.lvalue = true)
    (hc : e.core = .opt cv' c r) (hk : e.cv.const = true → cv.const = true) (hv : e.cv.volatile = true → cv.volatile = true) :
    assignValue B ⟨.lv, cv, e.core⟩ e = .object e.place ∧ ctorValue B ⟨.lv, cv, e.core⟩ e = .illFormed := by
  have hcomp : Compatible B ⟨.lv, cv, e.core⟩ e.deduced := ⟨hk, hv, .inl rfl⟩
  have hp := ptrConvertible_iff.mpr hcomp
  constructor
  · refine (C52_complete B ⟨.lv, cv, e.core⟩ e ?_ (fun _ _ h => h) (by simp [hl])).1 (by exact Core.ne_opt _ _ _)
    have : refToPtr B ⟨.lv, cv, e.core⟩ e = bindParam B ⟨.lv, cv, e.core⟩ e := by
      unfold refToPtr
      split
      next h => rw [hc] at h; cases h
      · rfl
    rw [emplace, this, bindParam, if_pos hp]
    simp [hl]
  · have : isOption e.deduced = true := by simp [isOption, Expr.deduced, hc]
    simp [ctorValue, fromValueCtor, this]

def optionLvalue : Expr := ⟨true, plain, .opt plain (.cls 0) .none, (7, 2), (0, 0), fun _ => false⟩

example : assignValue isBase ⟨.lv, konst, optionLvalue.core⟩ optionLvalue = .object (7, 2) :=
  (C52_options_assign_only isBase optionLvalue konst plain (.cls 0) .none rfl rfl (by decide) (by decide)).1

end Opt.RefBind
