import Verif.Lemmas.CmpSelect

/-!
# C88: which comparisons compile, which function they call, and what it answers

For operands of all types: any number of options around any types, `none` on one side, all six operators, C++17 and C++20.
-/

namespace Opt.CmpSel

variable {L α : Type}

/-- **C88**: as soon as the innermost types can be compared as written, or one operand is `none`, the template written for the
kinds of the operands is called, as it is and never rewritten; this holds in every version of the language. -/
theorem C88_selected (lang : Lang) (ok : CmpOp → Base L → Base L → Bool) (k : Nat) (op : CmpOp) (s t : Ty L)
    (hk : s.depth + t.depth ≤ k) (ho : SomeOption s t) (h : ok op s.base t.base = true ∨ WithNone s t) :
    ∃ f, best (viable lang (usable lang ok k) op s t) = some ⟨f, false, false⟩ ∧
      (1 ≤ s.depth → 1 ≤ t.depth → f = .both) ∧
      (1 ≤ s.depth → t.depth = 0 → t.base = .none → f = .noneR) ∧
      (1 ≤ s.depth → t.depth = 0 → t.base ≠ .none → f = .left) ∧
      (s.depth = 0 → s.base = .none → 1 ≤ t.depth → f = .noneL) ∧
      (s.depth = 0 → s.base ≠ .none → 1 ≤ t.depth → f = .right) := by
  refine ⟨_, best_direct ho ?_, ?_⟩
  · refine needs_meant ho fun hw s' t' hs ht _ _ hd => usable_direct (by omega) (Or.inl ?_)
    rw [hs, ht]
    exact h.resolve_right hw
  · rcases s with ⟨m, b⟩
    rcases t with ⟨n, c⟩
    cases m <;> cases n <;> cases b <;> cases c <;> simp [kind, Ty.isOpt, Ty.isNone, meant]

/-- **C88**: in C++17 operands, at least one of them an option, can be compared exactly when the innermost types can, with the
same operator and in the same order, or when one of them is `none`.  A comparison is never ambiguous: if no function is
chosen, there is none to choose from. -/
theorem C88_cpp17 (ok : CmpOp → Base L → Base L → Bool) (k : Nat) (op : CmpOp) (s t : Ty L) (hs : s.Wf) (ht : t.Wf)
    (hk : s.depth + t.depth ≤ k) (ho : SomeOption s t) :
    (usable cpp17 ok (k + 1) op s t = true ↔ ok op s.base t.base = true ∨ WithNone s t) ∧
    (best (viable cpp17 (usable cpp17 ok k) op s t) = none → viable cpp17 (usable cpp17 ok k) op s t = []) := by
  by_cases h : ok op s.base t.base = true ∨ WithNone s t
  · have hu : usable cpp17 ok (k + 1) op s t = true := usable_direct (by omega) h
    refine ⟨iff_of_true hu h, fun e => ?_⟩
    rw [usable_succ ho, e] at hu
    cases hu
  · have hn := fun k => viable_nil (lang := cpp17) (k := k) (fun _ _ _ h => h) candidates17 hs ht (fun e => h (Or.inr e))
      (Bool.eq_false_iff.2 fun e => h (Or.inl e))
    refine ⟨iff_of_false ?_ h, fun _ => (hn k).2⟩
    rw [(hn (k + 1)).1]
    decide

/-- **C88**: in C++20 operands, at least one of them an option, can be compared exactly when the innermost types can, where
`==` may be turned round and `!=` may be the negation of `==`, or when one of them is `none`.  Again no comparison is
ambiguous.  Whether the templates for `none` may be rewritten does not matter. -/
theorem C88_cpp20 (nl nr : Bool) (ok : CmpOp → Base L → Base L → Bool) (k : Nat) (op : CmpOp) (s t : Ty L) (hs : s.Wf)
    (ht : t.Wf) (hk : s.depth + t.depth ≤ k) (ho : SomeOption s t) :
    (usable (cpp20 nl nr) ok (k + 1) op s t = true ↔ rewritable ok op s.base t.base = true ∨ WithNone s t) ∧
    (best (viable (cpp20 nl nr) (usable (cpp20 nl nr) ok k) op s t) = none →
      viable (cpp20 nl nr) (usable (cpp20 nl nr) ok k) op s t = []) := by
  by_cases h : rewritable ok op s.base t.base = true ∨ WithNone s t
  · have hu : usable (cpp20 nl nr) ok (k + 1) op s t = true := usable20 (by omega) ho h
    refine ⟨iff_of_true hu h, fun e => ?_⟩
    rw [usable_succ ho, e] at hu
    cases hu
  · have hn := fun k => viable_nil (lang := cpp20 nl nr) (k := k) ok_rewritable candidates_rewritable hs ht
      (fun e => h (Or.inr e)) (Bool.eq_false_iff.2 fun e => h (Or.inl e))
    refine ⟨iff_of_false ?_ h, fun _ => (hn k).2⟩
    rw [(hn (k + 1)).1]
    decide

/-- **C88**: the answer of a comparison that is possible as written is that of one order on what the operands hold, and the same
in every version of the language. -/
theorem C88_answer (lang : Lang) (ok : CmpOp → Base L → Base L → Bool) (rel : CmpOp → Base L → Base L → V α → V α → Bool)
    (k : Nat) (op : CmpOp) (s t : Ty L) (x y : V α) (hs : s.Wf) (ht : t.Wf) (hk : s.depth + t.depth < k)
    (ho : SomeOption s t) (h : ok op s.base t.base = true ∨ WithNone s t)
    (hx : x.HasTy s.depth s.base) (hy : y.HasTy t.depth t.base) :
    eval lang ok rel k op s t x y =
      some (keyRel (fun op a a' => rel op s.base t.base (.val a) (.val a')) op x.key y.key) := by
  refine eval_direct hk ?_ hx hy
  by_cases hw : WithNone s t
  · exact Or.inr hw
  · exact Or.inl ⟨(leaves ho hs ht hw).1, (leaves ho hs ht hw).2, h.resolve_right hw⟩

/-- **C88**: the same for all comparisons in C++20, also those that work by rewriting only: the answer is that of the order
whose comparisons of the innermost values are turned round or negated where necessary; and there is no answer exactly when the
comparison does not compile. -/
theorem C88_answer20 (nl nr : Bool) (ok : CmpOp → Base L → Base L → Bool)
    (rel : CmpOp → Base L → Base L → V α → V α → Bool) (k : Nat) (op : CmpOp) (s t : Ty L) (x y : V α) (hs : s.Wf)
    (ht : t.Wf) (hk : s.depth + t.depth ≤ k) (ho : SomeOption s t) (hx : x.HasTy s.depth s.base)
    (hy : y.HasTy t.depth t.base) :
    (rewritable ok op s.base t.base = true ∨ WithNone s t →
      eval (cpp20 nl nr) ok rel (k + 1) op s t x y =
        some (keyRel (meaning ok rel s.base t.base) op x.key y.key)) ∧
    (¬ (rewritable ok op s.base t.base = true ∨ WithNone s t) → eval (cpp20 nl nr) ok rel (k + 1) op s t x y = none) := by
  constructor
  · intro h
    by_cases hw : WithNone s t
    · rw [eval_direct (by omega) (Or.inr hw) hx hy]
      congr 1
      have : (∃ i, x.key = .inl i) ∨ ∃ i, y.key = .inl i := by
        rcases hw with ⟨_, h1, h2⟩ | ⟨_, h1, h2⟩
        · rw [h1, h2] at hy
          cases y <;> simp_all [V.HasTy, V.key]
        · rw [h1, h2] at hx
          cases x <;> simp_all [V.HasTy, V.key]
      rcases this with ⟨i, e⟩ | ⟨i, e⟩ <;> rw [e]
      · cases y.key <;> rfl
      · cases x.key <;> rfl
    · obtain ⟨h1, h2⟩ := leaves ho hs ht hw
      exact eval20 (by omega) h1 h2 (usable20 (by omega) ho h) hx hy
  · intro h
    have hn := viable_nil (lang := cpp20 nl nr) (k := k) ok_rewritable candidates_rewritable hs ht
      (fun e => h (Or.inr e)) (Bool.eq_false_iff.2 fun e => h (Or.inl e))
    rw [eval, if_pos ((someOption_iff s t).2 ho), hn.2]
    rfl

/-! ### examples -/

namespace Demo

/-- two types of the user, `0` and `1`; only `0 == 1` is declared, and `0 < 0` -/
def ok : CmpOp → Base Nat → Base Nat → Bool
  | .eq, .leaf 0, .leaf 1 => true
  | .lt, .leaf 0, .leaf 0 => true
  | _, _, _ => false

/-- their operators, on numbers -/
def rel : CmpOp → Base Nat → Base Nat → V Nat → V Nat → Bool
  | op, _, _, .val a, .val b => natRel op a b
  | _, _, _, _, _ => false

/-- `option<option<type 0>>`, `option<type 1>`, `type 1`, `none_t` -/
def oo0 : Ty Nat := ⟨2, .leaf 0⟩
def o1 : Ty Nat := ⟨1, .leaf 1⟩
def t1 : Ty Nat := ⟨0, .leaf 1⟩
def tn : Ty Nat := ⟨0, .none⟩

example : usable cpp17 ok 4 .eq oo0 o1 = true :=
  ((C88_cpp17 ok 3 .eq oo0 o1 (Or.inr nofun) (Or.inr nofun) (by decide) (Or.inl (by decide))).1).2 (Or.inl rfl)

/-- turned round it does not compile in C++17, but does in C++20; the same for `!=` -/
example : usable cpp17 ok 4 .eq o1 oo0 = false ∧ usable (cpp20 true false) ok 4 .eq o1 oo0 = true ∧
    usable cpp17 ok 4 .ne oo0 o1 = false ∧ usable (cpp20 false false) ok 4 .ne o1 oo0 = true := by
  decide +kernel

example : eval (cpp20 false true) ok rel 4 .ne o1 oo0 (.full (.val 3)) (.full (.full (.val 4))) = some true :=
  (C88_answer20 false true ok rel 3 .ne o1 oo0 (.full (.val 3)) (.full (.full (.val 4))) (Or.inr nofun) (Or.inr nofun)
    (by decide) (Or.inl (by decide)) trivial trivial).1 (Or.inl rfl)

/-- an engaged option whose value is empty is not equal to `none` -/
example : eval cpp17 ok rel 4 .eq oo0 tn (.full .empty) .none = some false :=
  C88_answer cpp17 ok rel 4 .eq oo0 tn (.full .empty) .none (Or.inr nofun) (Or.inl rfl) (by decide) (Or.inl (by decide))
    (Or.inr (Or.inl ⟨by decide, rfl, rfl⟩)) trivial trivial

example : best (viable cpp17 (usable cpp17 ok 3) .eq oo0 tn) = some ⟨.noneR, false, false⟩ ∧
    (viable cpp17 (usable cpp17 ok 3) .eq oo0 tn).length = 2 := by decide +kernel

/-- a value against an option: in C++20 the exchanged candidate is called -/
example : best (viable (cpp20 true true) (usable (cpp20 true true) ok 3) .eq t1 oo0) = some ⟨.right, false, false⟩ ∧
    best (viable (cpp20 true true) (usable (cpp20 true true) ok 3) .eq t1 ⟨1, .leaf 0⟩) = some ⟨.left, true, false⟩ := by
  decide +kernel

end Demo

end Opt.CmpSel
