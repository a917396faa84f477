import Verif.Spec.Order
import Verif.Props.Api

/-!
# C28, C29, C30: comparisons and hash
-/

namespace Opt

variable {Val : Type} {P : Prog Val} {w : World} {i j k : Nat}

namespace Prog

/-- `has_value()` does not change anything -/
theorem hasValue_eq (hw : P.Inv w) {x : Option Val} (hx : P.view w i = some x) : P.hasValue i w = .ok x.isSome w := by
  cases x with
  | some v => exact (C24_engaged hw hx).2.2.2.2
  | none => exact (C24_empty hw hx).2.2.2

/-- `get()` on an engaged option -/
theorem get_eq (hw : P.Inv w) {v : Val} (hx : P.view w i = some (some v)) : P.get i w = .ok v w := (C24_engaged hw hx).1

/-- a call that does not throw -/
theorem call0_ok {β : Type} (b : β) (ht : P.throwsAt w.env.tick = false) :
    P.call0 b w = .ok b { w with env := w.env.after [.call0 true] } := by
  simp only [call0, bind_run, userOp, obind_ok, ht, Bool.false_eq_true, if_false]
  rfl

/-- a call that throws -/
theorem call0_throw {β : Type} (b : β) (ht : P.throwsAt w.env.tick = true) :
    P.call0 b w = .throw { w with env := w.env.after [.call0 false] } := by
  simp only [call0, bind_run, userOp, obind_ok, ht, if_true]
  rfl

/-- comparing two optional values as the code does, spelled out -/
theorem cmp_eq (hw : P.Inv w) {op : CmpOp} {rel : CmpOp → Val → Val → Bool} {x y : Option Val}
    (hx : P.view w i = some x) (hy : P.view w j = some y) :
    P.cmp op rel i j w = match x, y with
      | some a, some b => P.call0 (rel op a b) w
      | _, _ => .ok (below rel op x y) w := by
  simp only [cmp, bind_run, hasValue_eq hw hx, hasValue_eq hw hy, obind_ok]
  cases x with
  | none => cases y <;> cases op <;> rfl
  | some a => cases y with
    | none => cases op <;> rfl
    | some b =>
      simp only [Option.isSome, Bool.and_self, if_true, bind_run, get_eq hw hx, get_eq hw hy, obind_ok]

theorem cmp_answers (hw : P.Inv w) (ht : P.throwsAt w.env.tick = false) {op : CmpOp} {rel : CmpOp → Val → Val → Bool}
    {x y : Option Val} (hx : P.view w i = some x) (hy : P.view w j = some y) (r : Bool) :
    Answers w (P.cmp op rel i j) r ↔ below rel op x y = r := by
  unfold Answers
  rw [cmp_eq hw hx hy]
  cases x with
  | none => exact ⟨fun ⟨_, h⟩ => by cases h; rfl, fun h => ⟨w, by rw [h]⟩⟩
  | some a => cases y with
    | none => exact ⟨fun ⟨_, h⟩ => by cases h; rfl, fun h => ⟨w, by rw [h]⟩⟩
    | some b =>
      simp only [call0_ok _ ht]
      exact ⟨fun ⟨_, h⟩ => by cases h; rfl, fun h => ⟨_, by rw [← h]; rfl⟩⟩

end Prog

/-! ## C28 -/

/-- the operators of `unsigned char`, for the examples -/
def Demo.byteRel : CmpOp → Byte → Byte → Bool
  | .eq, a, b => a.toNat == b.toNat
  | .ne, a, b => a.toNat != b.toNat
  | .lt, a, b => decide (a.toNat < b.toNat)
  | .le, a, b => decide (a.toNat ≤ b.toNat)
  | .gt, a, b => decide (a.toNat > b.toNat)
  | .ge, a, b => decide (a.toNat ≥ b.toNat)

theorem Demo.there1 : Demo.calm.view Demo.world 1 ≠ none := by rw [Demo.view1]; nofun
theorem Demo.there4 : Demo.calm.view Demo.world 4 ≠ none := by rw [Demo.view4]; nofun
theorem Demo.there5 : Demo.calm.view Demo.world 5 ≠ none := by rw [Demo.view5]; nofun
theorem Demo.there9 : Demo.calm.view Demo.world 9 ≠ none := by rw [Demo.view9]; nofun

theorem Demo.byteRel_total : StrictTotal (holds Demo.byteRel .lt) (holds Demo.byteRel .eq) := by
  refine ⟨⟨?_, ?_, ?_⟩, ?_, ?_⟩ <;> simp only [holds, Demo.byteRel, decide_eq_true_eq, beq_iff_eq] <;> intros <;> omega

theorem Demo.byteRel_equiv : Equiv (holds Demo.byteRel .eq) := by
  refine ⟨?_, ?_, ?_⟩ <;> simp only [holds, Demo.byteRel, beq_iff_eq]
  · intro _; trivial
  · intro a b h; exact h.symm
  · intro a b c h1 h2; exact h1.trans h2

theorem Demo.byteRel_consistent : Consistent (holds Demo.byteRel) := by
  refine ⟨?_, ?_, ?_, ?_⟩ <;>
    simp only [holds, Demo.byteRel, decide_eq_true_eq, beq_iff_eq, bne_iff_ne, ne_eq, gt_iff_lt, ge_iff_le, Nat.not_lt,
      implies_true]

/-- **C28**: each of the six operators between two options gives what `below` says, changes no option, and calls the
operator of the element types exactly once if both are engaged and never otherwise. -/
theorem C28_result (hw : P.Inv w) (ht : P.throwsAt w.env.tick = false) {op : CmpOp} {rel : CmpOp → Val → Val → Bool}
    {x y : Option Val} (hx : P.view w i = some x) (hy : P.view w j = some y) :
    P.Ends w (P.cmp op rel i j w) (below rel op x y) (if x.isSome && y.isSome then [.call0 true] else []) (P.view w) := by
  rw [Prog.cmp_eq hw hx hy]
  cases x with
  | none => exact ⟨w, rfl, hw, rfl, by simp [Env.after]⟩
  | some a => cases y with
    | none => exact ⟨w, rfl, hw, rfl, by simp [Env.after]⟩
    | some b => exact ⟨_, Prog.call0_ok _ ht, hw, rfl, rfl⟩

example : Demo.calm.Ends Demo.world (Demo.calm.cmp .lt Demo.byteRel 1 9 Demo.world) true [.call0 true]
    (Demo.calm.view Demo.world) :=
  C28_result Demo.inv rfl Demo.view1 Demo.view9

/-- **C28**: an element comparison that throws leaves every option as it was. -/
theorem C28_throws (hw : P.Inv w) (ht : P.throwsAt w.env.tick = true) {op : CmpOp} {rel : CmpOp → Val → Val → Bool}
    {a b : Val} (hx : P.view w i = some (some a)) (hy : P.view w j = some (some b)) :
    P.Throws w (P.cmp op rel i j w) [.call0 false] (P.view w) := by
  rw [Prog.cmp_eq hw hx hy]
  exact ⟨_, Prog.call0_throw _ ht, hw, rfl, rfl⟩

example : Demo.angry.Throws Demo.world (Demo.angry.cmp .eq Demo.byteRel 1 9 Demo.world) [.call0 false]
    (Demo.angry.view Demo.world) :=
  C28_throws Demo.inv rfl Demo.view1 Demo.view9

/-- **C28**: if `==` on the values is an equivalence relation, so is `==` on the options. -/
theorem C28_equivalence (hw : P.Inv w) (ht : P.throwsAt w.env.tick = false) {rel : CmpOp → Val → Val → Bool}
    (he : Equiv (holds rel .eq)) (hi : P.view w i ≠ none) (hj : P.view w j ≠ none) (hk : P.view w k ≠ none) :
    Answers w (P.cmp .eq rel i i) true ∧
    (Answers w (P.cmp .eq rel i j) true → Answers w (P.cmp .eq rel j i) true) ∧
    (Answers w (P.cmp .eq rel i j) true → Answers w (P.cmp .eq rel j k) true → Answers w (P.cmp .eq rel i k) true) := by
  obtain ⟨x, hx⟩ := Option.ne_none_iff_exists'.mp hi
  obtain ⟨y, hy⟩ := Option.ne_none_iff_exists'.mp hj
  obtain ⟨z, hz⟩ := Option.ne_none_iff_exists'.mp hk
  simp only [Prog.cmp_answers hw ht hx hx, Prog.cmp_answers hw ht hx hy, Prog.cmp_answers hw ht hy hx,
    Prog.cmp_answers hw ht hy hz, Prog.cmp_answers hw ht hx hz]
  refine ⟨?_, ?_, ?_⟩
  · cases x with
    | none => rfl
    | some a => exact he.refl a
  · cases x <;> cases y <;> simp only [below, imp_self] <;> first | trivial | exact he.symm _ _
  · cases x <;> cases y <;> cases z <;> simp only [below, imp_self, Bool.false_eq_true, false_implies, implies_true] <;>
      first | trivial | exact he.trans _ _ _

example : Answers Demo.world (Demo.calm.cmp .eq Demo.byteRel 1 1) true :=
  (C28_equivalence (j := 1) (k := 1) Demo.inv rfl Demo.byteRel_equiv (i := 1) Demo.there1
    Demo.there1 Demo.there1).1

theorem below_strictWeak {α : Type} {rel : CmpOp → α → α → Bool} (hs : StrictWeak (holds rel .lt)) :
    StrictWeak (holds (below rel) .lt) where
  irrefl := by
    intro x h
    cases x with
    | none => cases h
    | some a => exact hs.irrefl a h
  trans := by
    intro x y z h1 h2
    cases x <;> cases y <;> cases z <;> simp only [holds, below, Bool.false_eq_true] at h1 h2 ⊢
    exact hs.trans _ _ _ h1 h2
  incomp := by
    intro x y z h1 h2 h3 h4
    cases x <;> cases y <;> cases z <;>
      simp only [holds, below, Bool.false_eq_true, not_true, not_false_iff, and_self] at h1 h2 h3 h4 ⊢
    exact hs.incomp _ _ _ h1 h2 h3 h4

theorem below_strictTotal {α : Type} {rel : CmpOp → α → α → Bool} (hs : StrictTotal (holds rel .lt) (holds rel .eq)) :
    StrictTotal (holds (below rel) .lt) (holds (below rel) .eq) where
  weak := below_strictWeak hs.weak
  tri := by
    intro x y
    cases x <;> cases y <;> simp only [holds, below, Bool.false_eq_true, or_false, true_or, or_true]
    exact hs.tri _ _
  excl := by
    intro x y h
    cases x <;> cases y <;> simp only [holds, below, Bool.false_eq_true, not_false_iff] at h ⊢
    exact hs.excl _ _ h

theorem below_consistent {α : Type} {rel : CmpOp → α → α → Bool} (hc : Consistent (holds rel)) :
    Consistent (holds (below rel)) where
  ne := by
    intro x y; cases x <;> cases y <;> simp only [holds, below, Bool.false_eq_true, not_true, not_false_iff]
    exact hc.ne _ _
  gt := by
    intro x y; cases x <;> cases y <;> simp only [holds, below]
    exact hc.gt _ _
  le := by
    intro x y; cases x <;> cases y <;> simp only [holds, below, Bool.false_eq_true, not_true, not_false_iff]
    exact hc.le _ _
  ge := by
    intro x y; cases x <;> cases y <;> simp only [holds, below, Bool.false_eq_true, not_true, not_false_iff]
    exact hc.ge _ _

/-- **C28**: if `<` on the values is a strict weak order, so is `<` on the options. -/
theorem C28_strict_weak_order (hw : P.Inv w) (ht : P.throwsAt w.env.tick = false) {rel : CmpOp → Val → Val → Bool}
    (hs : StrictWeak (holds rel .lt)) (hi : P.view w i ≠ none) (hj : P.view w j ≠ none) (hk : P.view w k ≠ none) :
    Answers w (P.cmp .lt rel i i) false ∧
    (Answers w (P.cmp .lt rel i j) true → Answers w (P.cmp .lt rel j k) true → Answers w (P.cmp .lt rel i k) true) ∧
    (Answers w (P.cmp .lt rel i j) false → Answers w (P.cmp .lt rel j i) false →
      Answers w (P.cmp .lt rel j k) false → Answers w (P.cmp .lt rel k j) false →
      Answers w (P.cmp .lt rel i k) false ∧ Answers w (P.cmp .lt rel k i) false) := by
  obtain ⟨x, hx⟩ := Option.ne_none_iff_exists'.mp hi
  obtain ⟨y, hy⟩ := Option.ne_none_iff_exists'.mp hj
  obtain ⟨z, hz⟩ := Option.ne_none_iff_exists'.mp hk
  have h := below_strictWeak hs
  simp only [Prog.cmp_answers hw ht hx hx, Prog.cmp_answers hw ht hx hy, Prog.cmp_answers hw ht hy hx,
    Prog.cmp_answers hw ht hy hz, Prog.cmp_answers hw ht hx hz, Prog.cmp_answers hw ht hz hx,
    Prog.cmp_answers hw ht hz hy, ← Bool.not_eq_true]
  exact ⟨h.irrefl x, h.trans x y z, h.incomp x y z⟩

example : Answers Demo.world (Demo.calm.cmp .lt Demo.byteRel 5 9) true :=
  (C28_strict_weak_order (i := 5) (j := 1) (k := 9) Demo.inv rfl Demo.byteRel_total.weak Demo.there5
    Demo.there1 Demo.there9).2.1
    ((Prog.cmp_answers Demo.inv rfl Demo.view5 Demo.view1 _).mpr rfl)
    ((Prog.cmp_answers Demo.inv rfl Demo.view1 Demo.view9 _).mpr rfl)

/-- **C28**: if `<` on the values is a strict total order for `==`, then of two options exactly one of `a < b`, `a == b`,
`b < a` holds. -/
theorem C28_trichotomy (hw : P.Inv w) (ht : P.throwsAt w.env.tick = false) {rel : CmpOp → Val → Val → Bool}
    (hs : StrictTotal (holds rel .lt) (holds rel .eq)) (hsym : Equiv (holds rel .eq))
    (hi : P.view w i ≠ none) (hj : P.view w j ≠ none) :
    (Answers w (P.cmp .lt rel i j) true ∧ Answers w (P.cmp .eq rel i j) false ∧ Answers w (P.cmp .lt rel j i) false) ∨
    (Answers w (P.cmp .lt rel i j) false ∧ Answers w (P.cmp .eq rel i j) true ∧ Answers w (P.cmp .lt rel j i) false) ∨
    (Answers w (P.cmp .lt rel i j) false ∧ Answers w (P.cmp .eq rel i j) false ∧ Answers w (P.cmp .lt rel j i) true) := by
  obtain ⟨x, hx⟩ := Option.ne_none_iff_exists'.mp hi
  obtain ⟨y, hy⟩ := Option.ne_none_iff_exists'.mp hj
  simp only [Prog.cmp_answers hw ht hx hy, Prog.cmp_answers hw ht hy hx, ← Bool.not_eq_true]
  have h := below_strictTotal hs
  have hanti : ∀ a b, holds (below rel) .lt a b → ¬ holds (below rel) .lt b a :=
    fun a b h1 h2 => h.weak.irrefl a (h.weak.trans _ _ _ h1 h2)
  have hes : holds (below rel) .eq x y → holds (below rel) .eq y x := by
    cases x <;> cases y <;> simp only [holds, below, imp_self]
    exact hsym.symm _ _
  rcases h.tri x y with h1 | h1 | h1
  · exact .inl ⟨h1, fun he => h.excl _ _ he h1, hanti _ _ h1⟩
  · exact .inr (.inl ⟨h.excl _ _ h1, h1, h.excl _ _ (hes h1)⟩)
  · exact .inr (.inr ⟨hanti _ _ h1, fun he => h.excl _ _ (hes he) h1, h1⟩)

example : StrictTotal (holds Demo.byteRel .lt) (holds Demo.byteRel .eq) ∧ Equiv (holds Demo.byteRel .eq) ∧
    Demo.calm.view Demo.world 1 ≠ none ∧ Demo.calm.view Demo.world 5 ≠ none :=
  ⟨Demo.byteRel_total, Demo.byteRel_equiv, Demo.there1, Demo.there5⟩

/-- **C28**: an empty option is equal to an empty option and below every engaged one. -/
theorem C28_empty_least (hw : P.Inv w) (ht : P.throwsAt w.env.tick = false) {rel : CmpOp → Val → Val → Bool} {v : Val}
    (hi : P.view w i = some none) (hj : P.view w j = some none) (hk : P.view w k = some (some v)) :
    Answers w (P.cmp .eq rel i j) true ∧ Answers w (P.cmp .lt rel i j) false ∧
    Answers w (P.cmp .lt rel i k) true ∧ Answers w (P.cmp .eq rel i k) false ∧ Answers w (P.cmp .lt rel k i) false := by
  simp only [Prog.cmp_answers hw ht hi hj, Prog.cmp_answers hw ht hi hk, Prog.cmp_answers hw ht hk hi]
  exact ⟨rfl, rfl, rfl, rfl, rfl⟩

example : Answers Demo.world (Demo.calm.cmp .lt Demo.byteRel 5 1) true :=
  (C28_empty_least (j := 4) Demo.inv rfl Demo.view5 Demo.view4 Demo.view1).2.2.1

/-- **C28**: if the six operators fit together on the values, they do on the options. -/
theorem C28_consistent (hw : P.Inv w) (ht : P.throwsAt w.env.tick = false) {rel : CmpOp → Val → Val → Bool}
    (hc : Consistent (holds rel)) (hi : P.view w i ≠ none) (hj : P.view w j ≠ none) (b : Bool) :
    (Answers w (P.cmp .ne rel i j) b ↔ Answers w (P.cmp .eq rel i j) !b) ∧
    (Answers w (P.cmp .gt rel i j) b ↔ Answers w (P.cmp .lt rel j i) b) ∧
    (Answers w (P.cmp .le rel i j) b ↔ Answers w (P.cmp .gt rel i j) !b) ∧
    (Answers w (P.cmp .ge rel i j) b ↔ Answers w (P.cmp .lt rel i j) !b) := by
  obtain ⟨x, hx⟩ := Option.ne_none_iff_exists'.mp hi
  obtain ⟨y, hy⟩ := Option.ne_none_iff_exists'.mp hj
  simp only [Prog.cmp_answers hw ht hx hy, Prog.cmp_answers hw ht hy hx]
  have h := below_consistent hc
  have h1 := h.ne x y
  have h2 := h.gt x y
  have h3 := h.le x y
  have h4 := h.ge x y
  simp only [holds] at h1 h2 h3 h4
  revert h1 h2 h3 h4
  cases below rel .ne x y <;> cases below rel .eq x y <;> cases below rel .lt x y <;> cases below rel .gt x y <;>
    cases below rel .le x y <;> cases below rel .ge x y <;> cases below rel .lt y x <;> cases b <;> decide

example : Answers Demo.world (Demo.calm.cmp .ne Demo.byteRel 1 9) true ↔
    Answers Demo.world (Demo.calm.cmp .eq Demo.byteRel 1 9) false :=
  (C28_consistent Demo.inv rfl Demo.byteRel_consistent Demo.there1 Demo.there9 true).1

theorem below_equiv {α : Type} {rel : CmpOp → α → α → Bool} (he : Equiv (holds rel .eq)) :
    Equiv (holds (below rel) .eq) where
  refl := by
    intro x
    cases x with
    | none => rfl
    | some a => exact he.refl a
  symm := by
    intro x y
    cases x <;> cases y <;> simp only [holds, below, imp_self]
    exact he.symm _ _
  trans := by
    intro x y z
    cases x <;> cases y <;> cases z <;> simp only [holds, below, imp_self, Bool.false_eq_true, false_implies, implies_true]
    exact he.trans _ _ _

theorem nest_total {α : Type} {rel : CmpOp → α → α → Bool} (hs : StrictTotal (holds rel .lt) (holds rel .eq))
    (he : Equiv (holds rel .eq)) (n : Nat) :
    StrictTotal (holds (nestRel rel n) .lt) (holds (nestRel rel n) .eq) ∧ Equiv (holds (nestRel rel n) .eq) := by
  induction n with
  | zero => exact ⟨hs, he⟩
  | succ n ih => exact ⟨below_strictTotal ih.1, below_equiv ih.2⟩

/-- **C28**, options nested to any depth: options whose element type is `n` layers of options, compared with the
operators of those layers, are totally ordered whenever the innermost type is. -/
theorem C28_nested {α : Type} {rel : CmpOp → α → α → Bool} (hs : StrictTotal (holds rel .lt) (holds rel .eq))
    (he : Equiv (holds rel .eq)) {n : Nat} {P : Prog (Nest α n)} {w : World} {i j k : Nat} (hw : P.Inv w)
    (ht : P.throwsAt w.env.tick = false) (hi : P.view w i ≠ none) (hj : P.view w j ≠ none) (hk : P.view w k ≠ none) :
    Answers w (P.cmp .lt (nestRel rel n) i i) false ∧
    (Answers w (P.cmp .lt (nestRel rel n) i j) true → Answers w (P.cmp .lt (nestRel rel n) j k) true →
      Answers w (P.cmp .lt (nestRel rel n) i k) true) ∧
    (Answers w (P.cmp .lt (nestRel rel n) i j) true ∨ Answers w (P.cmp .eq (nestRel rel n) i j) true ∨
      Answers w (P.cmp .lt (nestRel rel n) j i) true) := by
  have h := nest_total hs he n
  have h1 := C28_strict_weak_order hw ht h.1.weak hi hj hk
  refine ⟨h1.1, h1.2.1, ?_⟩
  rcases C28_trichotomy hw ht h.1 h.2 hi hj with h2 | h2 | h2
  · exact .inl h2.1
  · exact .inr (.inl h2.2.1)
  · exact .inr (.inr h2.2.2)

example : Answers Demo.world (Demo.calm.cmp .lt (nestRel Demo.byteRel 0) 1 1) false :=
  (C28_nested (n := 0) (P := Demo.calm) (j := 5) (k := 9) Demo.byteRel_total Demo.byteRel_equiv Demo.inv rfl
    Demo.there1 Demo.there5 Demo.there9).1

example : nestRel Demo.byteRel 2 .lt (some none) (some (some (3 : Byte))) = true := rfl

/-! ## C29 -/

/-- **C29**: comparing an option with `none` is the same, in result and in effect, as comparing it with an empty option;
in both operand orders and for all six operators. -/
theorem C29_none (hw : P.Inv w) (op : CmpOp) (rel : CmpOp → Val → Val → Bool) (hi : P.view w i ≠ none)
    (hj : P.view w j = some none) :
    P.cmpNone op i w = P.cmp op rel i j w ∧ P.noneCmp op i w = P.cmp op rel j i w := by
  obtain ⟨x, hx⟩ := Option.ne_none_iff_exists'.mp hi
  rw [Prog.cmp_eq hw hx hj, Prog.cmp_eq hw hj hx]
  have h := Prog.hasValue_eq hw hx
  cases x <;> cases op <;>
    simp only [Prog.cmpNone, Prog.noneCmp, bind_run, h, obind_ok, Option.isSome] <;> exact ⟨rfl, rfl⟩

example : Demo.calm.cmpNone .ge 1 Demo.world = Demo.calm.cmp .ge Demo.byteRel 1 5 Demo.world :=
  (C29_none Demo.inv .ge Demo.byteRel Demo.there1 Demo.view5).1

/-- **C29**: comparing an option with a value is the same, in result and in effect, as comparing it with an option that
holds the value; in both operand orders and for all six operators.  This is about values that are not options themselves:
for those another template is used (Model/CmpNested, `C29_violated_option`). -/
theorem C29_value_partial (hw : P.Inv w) (op : CmpOp) (rel : CmpOp → Val → Val → Bool) {v : Val} (hi : P.view w i ≠ none)
    (hj : P.view w j = some (some v)) :
    P.cmpVal op rel i v w = P.cmp op rel i j w ∧ P.valCmp op rel v i w = P.cmp op rel j i w := by
  obtain ⟨x, hx⟩ := Option.ne_none_iff_exists'.mp hi
  rw [Prog.cmp_eq hw hx hj, Prog.cmp_eq hw hj hx]
  simp only [Prog.cmpVal, Prog.valCmp, bind_run, Prog.hasValue_eq hw hx, obind_ok]
  cases x with
  | none => cases op <;> exact ⟨rfl, rfl⟩
  | some a => simp only [Option.isSome, if_true, bind_run, Prog.get_eq hw hx, obind_ok, and_self]

example : Demo.calm.valCmp .lt Demo.byteRel 6 1 Demo.world = Demo.calm.cmp .lt Demo.byteRel 9 1 Demo.world :=
  (C29_value_partial Demo.inv .lt Demo.byteRel Demo.there1 Demo.view9).2

/-! ## C30 -/

/-- **C30**: if equal values have equal hashes, options that compare equal have equal hashes. -/
theorem C30_equal (hw : P.Inv w) (ht : P.throwsAt w.env.tick = false) {rel : CmpOp → Val → Val → Bool}
    {hash : Val → U64} (hh : ∀ a b, rel .eq a b = true → hash a = hash b) (hi : P.view w i ≠ none)
    (hj : P.view w j ≠ none) (he : Answers w (P.cmp .eq rel i j) true) :
    ∃ n, Answers w (P.hash hash i) n ∧ Answers w (P.hash hash j) n := by
  obtain ⟨x, hx⟩ := Option.ne_none_iff_exists'.mp hi
  obtain ⟨y, hy⟩ := Option.ne_none_iff_exists'.mp hj
  rw [Prog.cmp_answers hw ht hx hy] at he
  simp only [Answers, Prog.hash, bind_run, Prog.hasValue_eq hw hx, Prog.hasValue_eq hw hy, obind_ok]
  cases x with
  | none => cases y with
    | none => exact ⟨0, ⟨w, rfl⟩, ⟨w, rfl⟩⟩
    | some b => cases he
  | some a => cases y with
    | none => cases he
    | some b =>
      simp only [Option.isSome, if_true, bind_run, Prog.get_eq hw hx, Prog.get_eq hw hy, obind_ok, Prog.call0_ok _ ht]
      exact ⟨hash a, ⟨_, rfl⟩, ⟨_, by rw [hh a b he]⟩⟩

example : ∃ n, Answers Demo.world (Demo.calm.hash (fun v => v.setWidth 64) 4) n ∧
    Answers Demo.world (Demo.calm.hash (fun v => v.setWidth 64) 5) n :=
  C30_equal (rel := Demo.byteRel) Demo.inv rfl (fun a b h => by rw [show a = b from BitVec.eq_of_toNat_eq (by simpa [Demo.byteRel] using h)])
    Demo.there4 Demo.there5
    ((Prog.cmp_answers Demo.inv rfl Demo.view4 Demo.view5 _).mpr rfl)

/-- **C30**: all empty options hash to 0 without calling the element's hash; an engaged option hashes like its value, in
one call. -/
theorem C30_value (hw : P.Inv w) (ht : P.throwsAt w.env.tick = false) {hash : Val → U64} {x : Option Val}
    (hi : P.view w i = some x) :
    P.Ends w (P.hash hash i w) (x.elim 0 hash) (if x.isSome then [.call0 true] else []) (P.view w) := by
  simp only [Prog.hash, bind_run, Prog.hasValue_eq hw hi, obind_ok]
  cases x with
  | none => exact ⟨w, rfl, hw, rfl, by simp [Env.after]⟩
  | some a =>
    simp only [Option.isSome, if_true, bind_run, Prog.get_eq hw hi, obind_ok]
    exact ⟨_, Prog.call0_ok _ ht, hw, rfl, rfl⟩

example : Demo.calm.Ends Demo.world (Demo.calm.hash (fun v => v.setWidth 64) 1 Demo.world) 5 [.call0 true]
    (Demo.calm.view Demo.world) :=
  C30_value Demo.inv rfl Demo.view1

/-- the hash of `n` layers of options respects `==` of `n` layers of options -/
theorem nestHash_eq {α : Type} {rel : CmpOp → α → α → Bool} {hash : α → U64}
    (hh : ∀ a b, rel .eq a b = true → hash a = hash b) (n : Nat) (a b : Nest α n) (he : nestRel rel n .eq a b = true) :
    nestHash hash n a = nestHash hash n b := by
  induction n with
  | zero => exact hh a b he
  | succ n ih =>
    cases a with
    | none => cases b with
      | none => rfl
      | some b => cases he
    | some a => cases b with
      | none => cases he
      | some b => exact ih a b he

/-- **C30**, options nested to any depth: options whose element type is `n` layers of options and that compare equal hash
equally, if equal values of the innermost type do. -/
theorem C30_nested {α : Type} {rel : CmpOp → α → α → Bool} {hash : α → U64}
    (hh : ∀ a b, rel .eq a b = true → hash a = hash b) {n : Nat} {P : Prog (Nest α n)} {w : World} {i j : Nat}
    (hw : P.Inv w) (ht : P.throwsAt w.env.tick = false) (hi : P.view w i ≠ none) (hj : P.view w j ≠ none)
    (he : Answers w (P.cmp .eq (nestRel rel n) i j) true) :
    ∃ m, Answers w (P.hash (nestHash hash n) i) m ∧ Answers w (P.hash (nestHash hash n) j) m :=
  C30_equal hw ht (nestHash_eq hh n) hi hj he

example : nestRel Demo.byteRel 1 .eq (some (3 : Byte)) (some (3 : Byte)) = true := rfl

end Opt
