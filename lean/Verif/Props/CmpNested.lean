import Verif.Model.CmpNested
import Verif.Props.Compare

/-!
# C65: comparisons between options of different nesting depths
-/

namespace Opt

theorem cmpUsable_all (m n : Nat) : cmpUsable m n = true := by
  induction m generalizing n with
  | zero =>
    induction n with
    | zero => simp only [cmpUsable]
    | succ n ih => simpa only [cmpUsable] using ih
  | succ m ih =>
    cases n with
    | zero => simpa only [cmpUsable] using ih 0
    | succ n => simp only [cmpUsable, ih n, Bool.true_or]

/-- **C65**: whenever the innermost types can be compared, overload resolution succeeds at every pair of depths; the
template for two options is used whenever both operands are options, one of the templates for a value only if the other operand
is not an option; and usability is what overload resolution says. -/
theorem C65_overload (m n : Nat) :
    CmpForm.choose cmpUsable m n = some (match m, n with
      | 0, 0 => .elem
      | 0, _ + 1 => .right
      | _ + 1, 0 => .left
      | _ + 1, _ + 1 => .both) ∧
    cmpUsable m n = (CmpForm.choose cmpUsable m n).isSome := by
  have key : CmpForm.choose cmpUsable m n = some (match m, n with
      | 0, 0 => .elem
      | 0, _ + 1 => .right
      | _ + 1, 0 => .left
      | _ + 1, _ + 1 => .both) := by
    cases m <;> cases n <;> simp [CmpForm.choose, CmpForm.viable, cmpUsable_all]
  exact ⟨key, by rw [key, cmpUsable_all]; rfl⟩

example : CmpForm.choose cmpUsable 2 1 = some .both := (C65_overload 2 1).1

variable {α β : Type}

/-- **C65**: at every pair of depths and for all six operators the result is that of one order on what the operands hold:
an empty option under `k` engaged ones, or a value.  The depths themselves do not matter. -/
theorem C65_key (rel : CmpOp → α → β → Bool) (op : CmpOp) (m n : Nat) (x : Nest α m) (y : Nest β n) :
    cmpDepth rel op m n x y = keyRel rel op (Nest.key m x) (Nest.key n y) := by
  induction m generalizing n with
  | zero =>
    induction n with
    | zero => rfl
    | succ n ih =>
      cases y with
      | none => cases op <;> rfl
      | some b =>
        have ih := ih b
        simp only [cmpDepth] at ih
        simp only [cmpDepth, valCmpDepth, ih, Nest.key]
        cases Nest.key n b <;> rfl
  | succ m ih =>
    cases n with
    | zero =>
      cases x with
      | none => cases op <;> rfl
      | some a =>
        simp only [cmpDepth, ih 0 a y, Nest.key]
        cases Nest.key m a <;> rfl
    | succ n =>
      cases x with
      | none => cases y with
        | none => cases op <;> rfl
        | some b =>
          simp only [cmpDepth, Nest.key]
          cases Nest.key n b <;> cases op <;> simp [keyRel, natRel, CmpOp.onBool]
      | some a => cases y with
        | none =>
          simp only [cmpDepth, Nest.key]
          cases Nest.key m a <;> cases op <;> simp [keyRel, natRel, CmpOp.onBool]
        | some b =>
          simp only [cmpDepth, ih n a b, Nest.key]
          cases Nest.key m a <;> cases Nest.key n b <;> cases op <;> simp [keyRel, natRel]

example : cmpDepth Demo.byteRel .lt 3 2 (some none) (some (some (3 : Byte))) = true :=
  (C65_key Demo.byteRel .lt 3 2 _ _).trans rfl

theorem keyRel_equiv {rel : CmpOp → α → α → Bool} (he : Equiv (holds rel .eq)) : Equiv (holds (keyRel rel) .eq) := by
  refine ⟨?_, ?_, ?_⟩
  · intro a
    cases a with
    | inl i => simp [holds, keyRel, natRel]
    | inr a => exact he.refl a
  · intro a b
    cases a <;> cases b <;> simp only [holds, keyRel, natRel, decide_eq_true_eq]
    · exact Eq.symm
    · exact fun h => by omega
    · exact fun h => by omega
    · exact he.symm _ _
  · intro a b c
    cases a <;> cases b <;> cases c <;> simp only [holds, keyRel, natRel, decide_eq_true_eq] <;>
      first | exact he.trans _ _ _ | (intros; omega)

theorem keyRel_weak {rel : CmpOp → α → α → Bool} (hs : StrictWeak (holds rel .lt)) :
    StrictWeak (holds (keyRel rel) .lt) := by
  refine ⟨?_, ?_, ?_⟩
  · intro a
    cases a with
    | inl i => simp [holds, keyRel, natRel]
    | inr a => exact hs.irrefl a
  · intro a b c
    cases a <;> cases b <;> cases c <;> simp only [holds, keyRel, natRel, decide_eq_true_eq] <;>
      first | exact hs.trans _ _ _ | (intros; omega)
  · intro a b c
    cases a <;> cases b <;> cases c <;> simp only [holds, keyRel, natRel, decide_eq_true_eq] <;>
      first | exact hs.incomp _ _ _ | (intros; omega)

theorem keyRel_total {rel : CmpOp → α → α → Bool} (hs : StrictTotal (holds rel .lt) (holds rel .eq)) :
    StrictTotal (holds (keyRel rel) .lt) (holds (keyRel rel) .eq) := by
  refine ⟨keyRel_weak hs.weak, ?_, ?_⟩
  · intro a b
    cases a <;> cases b <;> simp only [holds, keyRel, natRel, decide_eq_true_eq] <;>
      first | exact hs.tri _ _ | omega
  · intro a b
    cases a <;> cases b <;> simp only [holds, keyRel, natRel, decide_eq_true_eq] <;>
      first | exact hs.excl _ _ | (intros; omega)

theorem keyRel_consistent {rel : CmpOp → α → α → Bool} (hc : Consistent (holds rel)) : Consistent (holds (keyRel rel)) := by
  refine ⟨?_, ?_, ?_, ?_⟩ <;> intro a b <;>
    cases a <;> cases b <;> simp only [holds, keyRel, natRel, decide_eq_true_eq] <;>
      first | exact hc.ne _ _ | exact hc.gt _ _ | exact hc.le _ _ | exact hc.ge _ _ | omega

/-- values of any depth, to speak about comparisons of mixed depths -/
abbrev AnyNest (α : Type) := (n : Nat) × Nest α n

/-- the operators between values of any two depths -/
def anyRel (rel : CmpOp → α → α → Bool) (op : CmpOp) (x y : AnyNest α) : Bool := cmpDepth rel op x.1 y.1 x.2 y.2

/-- **C65**: if the innermost type is well-behaved, the comparisons between values of all depths are, mixed in any way: `==` is
an equivalence relation, `<` a strict weak order, a total one if it is, and the six operators fit together. -/
theorem C65_order (rel : CmpOp → α → α → Bool) :
    (Equiv (holds rel .eq) → Equiv (holds (anyRel rel) .eq)) ∧
    (StrictWeak (holds rel .lt) → StrictWeak (holds (anyRel rel) .lt)) ∧
    (StrictTotal (holds rel .lt) (holds rel .eq) → StrictTotal (holds (anyRel rel) .lt) (holds (anyRel rel) .eq)) ∧
    (Consistent (holds rel) → Consistent (holds (anyRel rel))) := by
  have e : ∀ op (x y : AnyNest α), holds (anyRel rel) op x y ↔
      holds (keyRel rel) op (Nest.key x.1 x.2) (Nest.key y.1 y.2) := by
    intro op x y
    simp only [holds, anyRel, C65_key]
  have weak : StrictWeak (holds rel .lt) → StrictWeak (holds (anyRel rel) .lt) := by
    intro h
    have h := keyRel_weak h
    refine ⟨?_, ?_, ?_⟩ <;> intros <;> simp only [e] at *
    · exact h.irrefl _
    · exact h.trans _ _ _ (by assumption) (by assumption)
    · exact h.incomp _ _ _ (by assumption) (by assumption) (by assumption) (by assumption)
  refine ⟨?_, weak, ?_, ?_⟩
  · intro h
    have h := keyRel_equiv h
    refine ⟨?_, ?_, ?_⟩ <;> intros <;> simp only [e] at *
    · exact h.refl _
    · exact h.symm _ _ (by assumption)
    · exact h.trans _ _ _ (by assumption) (by assumption)
  · intro h
    have h' := keyRel_total h
    refine ⟨weak h.weak, ?_, ?_⟩ <;> intros <;> simp only [e] at *
    · exact h'.tri _ _
    · exact h'.excl _ _ (by assumption)
  · intro h
    have h := keyRel_consistent h
    refine ⟨?_, ?_, ?_, ?_⟩ <;> intros <;> simp only [e]
    · exact h.ne _ _
    · exact h.gt _ _
    · exact h.le _ _
    · exact h.ge _ _

example : holds (anyRel Demo.byteRel) .lt (⟨1, (none : Option Byte)⟩ : AnyNest Byte) ⟨2, (some none : Option (Option Byte))⟩ ∧
    StrictTotal (holds (anyRel Demo.byteRel) .lt) (holds (anyRel Demo.byteRel) .eq) :=
  ⟨rfl, (C65_order Demo.byteRel).2.2.1 Demo.byteRel_total⟩

/-- **C65**: between equal depths these are the operators of C28. -/
theorem C65_same_depth (rel : CmpOp → α → α → Bool) (op : CmpOp) (n : Nat) (x y : Nest α n) :
    cmpDepth rel op n n x y = nestRel rel n op x y := by
  induction n with
  | zero => rfl
  | succ n ih =>
    cases x <;> cases y <;> first | exact ih _ _ | (cases op <;> rfl)

example : cmpDepth Demo.byteRel .ge 1 1 none (some (3 : Byte)) = false := C65_same_depth Demo.byteRel .ge 1 none (some (3 : Byte))

theorem nestHash_key {hash : α → U64} (n : Nat) (x : Nest α n) :
    nestHash hash n x = (match Nest.key n x with | .inl _ => 0 | .inr a => hash a) := by
  induction n with
  | zero => rfl
  | succ n ih =>
    cases x with
    | none => rfl
    | some x =>
      simp only [nestHash, ih x, Nest.key]
      cases Nest.key n x <;> rfl

/-- **C65**: values of different depths that compare equal hash equally, if values of the innermost type do. -/
theorem C65_hash {rel : CmpOp → α → α → Bool} {hash : α → U64} (hh : ∀ a b, rel .eq a b = true → hash a = hash b)
    {m n : Nat} {x : Nest α m} {y : Nest α n} (h : cmpDepth rel .eq m n x y = true) :
    nestHash hash m x = nestHash hash n y := by
  rw [C65_key] at h
  rw [nestHash_key, nestHash_key]
  cases hx : Nest.key m x with
  | inl i => cases hy : Nest.key n y with
    | inl j => rfl
    | inr b => rw [hx, hy] at h; cases h
  | inr a => cases hy : Nest.key n y with
    | inl j => rw [hx, hy] at h; cases h
    | inr b => rw [hx, hy] at h; exact hh a b h

example : nestHash (fun b : Byte => BitVec.setWidth 64 b) 2 (some (some (3 : Byte))) =
    nestHash (fun b : Byte => BitVec.setWidth 64 b) 1 (some (3 : Byte)) :=
  C65_hash (rel := fun _ a b => decide (a = b)) (fun a b h => by rw [of_decide_eq_true h]) (m := 2) (n := 1)
    (x := some (some (3 : Byte))) (y := some (3 : Byte)) rfl

/-- **C65**, wrapping: `option<X>(x) == x`, for an `x` of any depth, holds exactly if `x` holds a value (of the innermost type).
What is missing is an `x` that is itself an empty option, or contains one (`C65_violated_wrap`). -/
theorem C65_wrap_partial {rel : CmpOp → α → α → Bool} (hr : ∀ a, rel .eq a a = true) (n : Nat) (x : Nest α n) :
    cmpDepth rel .eq (n + 1) n (some x) x = true ↔ ∃ a, Nest.key n x = .inr a := by
  have h := C65_key rel .eq (n + 1) n (some x : Option (Nest α n)) x
  refine (Bool.eq_iff_iff.mp h).trans ?_
  simp only [Nest.key]
  cases Nest.key n x with
  | inl k => simp [keyRel, natRel]
  | inr a => simp [keyRel, hr]

example : cmpDepth Demo.byteRel .eq 2 1 (some (some (3 : Byte))) (some (3 : Byte)) = true :=
  (C65_wrap_partial Demo.byteRel_equiv.refl 1 (some (3 : Byte))).2 ⟨3, rfl⟩

/-- **C65** is violated: let `oo` be an `option<option<T>>` that holds
an empty option `o`.  Then `oo == o` is false and `oo > o` is true, although `oo` equals an `option<option<T>>` constructed from
`o`: the comparison takes the template for two options, so `o` stands for an empty `option<option<T>>`. -/
theorem C65_violated_wrap (rel : CmpOp → α → α → Bool) :
    cmpDepth rel .eq 2 1 (some none) none = false ∧ cmpDepth rel .gt 2 1 (some none) none = true ∧
    cmpDepth rel .eq 2 2 (some none) (some none) = true ∧ cmpDepth rel .eq 2 1 none none = true :=
  ⟨rfl, rfl, rfl, rfl⟩

/-- **C29** is violated by values that are options themselves: comparing with `v` is not comparing with an option that holds
`v`, for every operator but with suitable operands. -/
theorem C29_violated_option (rel : CmpOp → α → α → Bool) (op : CmpOp) :
    ∃ (x : Nest α 2) (v : Nest α 1), cmpDepth rel op 2 1 x v ≠ cmpDepth rel op 2 2 x (some v : Option (Nest α 1)) := by
  cases op
  · exact ⟨(some none : Option (Option α)), (none : Option α), nofun⟩
  · exact ⟨(some none : Option (Option α)), (none : Option α), nofun⟩
  · exact ⟨(none : Option (Option α)), (none : Option α), nofun⟩
  · exact ⟨(some none : Option (Option α)), (none : Option α), nofun⟩
  · exact ⟨(some none : Option (Option α)), (none : Option α), nofun⟩
  · exact ⟨(none : Option (Option α)), (none : Option α), nofun⟩

end Opt
