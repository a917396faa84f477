import Verif.Model.GetType
import Verif.Props.Access

/-!
# C59 get by type on options of tuples
-/

namespace Opt

variable {Val : Type} {P : Prog Val} {w : World} {i : Nat}

theorem TTys.sizeOf_mem {t : TTy} : ∀ {ts : TTys}, t ∈ ts.list → sizeOf t < sizeOf ts
  | .nil, h => by simp [TTys.list] at h
  | .cons a as, h => by
    simp only [TTys.list, List.mem_cons] at h
    rcases h with rfl | h
    · simp; omega
    · have := TTys.sizeOf_mem h
      simp; omega

/-- no type is an element of itself -/
theorem TTy.not_self (T : TTy) : T ∉ T.elems := by
  cases T with
  | atom n => simp [TTy.elems]
  | tuple ts =>
    intro h
    have := TTys.sizeOf_mem (t := .tuple ts) h
    simp at this; omega

theorem TTy.getPos_of_unique {S T : TTy} {n : Nat} (hn : S.elems[n]? = some T)
    (hu : ∀ m : Nat, S.elems[m]? = some T → m = n) : S.getPos T = some n := by
  have hlt : n < S.elems.length := by
    rcases Nat.lt_or_ge n S.elems.length with h | h
    · exact h
    · rw [List.getElem?_eq_none h] at hn; cases hn
  have hi : S.elems.findIdx (· == T) = n := by
    apply hu
    have h : S.elems.findIdx (· == T) < S.elems.length :=
      List.findIdx_lt_length_of_exists ⟨T, List.mem_of_getElem? hn, by simp⟩
    rw [List.getElem?_eq_getElem h]
    have := List.findIdx_getElem (p := (· == T)) (w := h)
    simpa using this
  have hc : S.elems.count T = 1 := by
    have h1 : 0 < S.elems.count T := List.count_pos_iff.2 (List.mem_of_getElem? hn)
    have h2 : ∀ l : List TTy, 2 ≤ l.count T → ∃ a b : Nat, a ≠ b ∧ l[a]? = some T ∧ l[b]? = some T := by
      intro l
      induction l with
      | nil => simp
      | cons x l ih =>
        intro h
        by_cases hx : x = T
        · subst hx
          rw [List.count_cons_self] at h
          have : x ∈ l := List.count_pos_iff.1 (by omega)
          obtain ⟨b, hb, e⟩ := List.getElem_of_mem this
          exact ⟨0, b + 1, by omega, by simp, by simp [List.getElem?_eq_getElem hb, e]⟩
        · rw [List.count_cons_of_ne (by simpa using hx)] at h
          obtain ⟨a, b, hab, ha, hb⟩ := ih h
          exact ⟨a + 1, b + 1, by omega, by simpa using ha, by simpa using hb⟩
    rcases Nat.lt_or_ge 1 (S.elems.count T) with h | h
    · obtain ⟨a, b, hab, ha, hb⟩ := h2 _ h
      exact absurd ((hu a ha).trans (hu b hb).symm) hab
    · omega
  rw [TTy.getPos, if_pos hc, hi]

/-- C59: on an lvalue, `get<T>` compiles if `T` is the type of exactly one element, and refers to that element of the contained
tuple (what it refers to, if the element is a reference), or is empty if the option is.
Missing: rvalues (`C59_violated_rvalue`). -/
theorem C59_lvalue_partial (hw : P.Inv w) {x : Option Val} (hx : P.view w i = some x) (tup : Val → Tup) (S T : TTy) (conv : Bool)
    {n : Nat} (hn : S.elems[n]? = some T) (hu : ∀ m : Nat, S.elems[m]? = some T → m = n)
    (hl : ∀ v, x = some v → (tup v).kinds.length = S.elems.length) :
    ∃ m, P.getByType tup S conv .lvalue i T = some m ∧
      m w = .ok (x.map fun v => .lref (if (tup v).kinds[n]? = some .val then (i, n) else (tup v).target n)) w := by
  refine ⟨P.getAt tup .lvalue i n, by simp [Prog.getByType, TTy.getPos_of_unique hn hu], ?_⟩
  rw [C44_tuple hw hx tup .lvalue n]
  intro v hv
  rw [hl v hv]
  rcases Nat.lt_or_ge n S.elems.length with h | h
  · exact h
  · rw [List.getElem?_eq_none h] at hn; cases hn

/-- C59: `get<T>` does not compile if `T` is not an element type, or is there more than once. -/
theorem C59_rejected (tup : Val → Tup) (S T : TTy) (conv : Bool) (c : Cat)
    (h : T ∉ S.elems ∨ ∃ a b : Nat, a ≠ b ∧ S.elems[a]? = some T ∧ S.elems[b]? = some T) :
    P.getByType tup S conv c i T = none := by
  cases c with
  | rvalue =>
    have : T.getPos T = none := by simp [TTy.getPos, List.count_eq_zero.2 T.not_self]
    simp [Prog.getByType, this]
  | lvalue =>
    have : S.elems.count T ≠ 1 := by
      rcases h with h | ⟨a, b, hab, ha, hb⟩
      · rw [List.count_eq_zero.2 h]; decide
      · have key : ∀ (l : List TTy) (a b : Nat), a < b → l[a]? = some T → l[b]? = some T → 2 ≤ l.count T := by
          intro l
          induction l with
          | nil => intro a b _ h; simp at h
          | cons x l ih =>
            intro a b hab ha hb
            obtain ⟨b', rfl⟩ : ∃ b', b = b' + 1 := ⟨b - 1, by omega⟩
            simp only [List.getElem?_cons_succ] at hb
            cases a with
            | zero =>
              simp only [List.getElem?_cons_zero, Option.some.injEq] at ha
              subst ha
              have := List.count_pos_iff.2 (List.mem_of_getElem? hb)
              rw [List.count_cons_self]; omega
            | succ a =>
              simp only [List.getElem?_cons_succ] at ha
              have := ih a b' (by omega) ha hb
              have := List.count_le_count_cons (a := T) (b := x) (l := l)
              omega
        rcases Nat.lt_or_gt_of_ne hab with h | h
        · have := key _ _ _ h ha hb; omega
        · have := key _ _ _ h hb ha; omega
    simp [Prog.getByType, TTy.getPos, this]

example : Demo.calm.getByType (fun _ => ⟨[.val, .val], fun _ => (0, 0)⟩) (.tuple (.cons (.atom 0) (.cons (.atom 0) .nil))) false
    .lvalue 1 (.atom 0) = none := C59_rejected _ _ _ _ _ (.inr ⟨0, 1, by decide, rfl, rfl⟩)

/-- C59 violated: on an rvalue option `get<T>` never compiles, whatever the types (the overloads cast to an option of the
element type; a type is not an element of itself). -/
theorem C59_violated_rvalue (tup : Val → Tup) (S T : TTy) (conv : Bool) : P.getByType tup S conv .rvalue i T = none := by
  have : T.getPos T = none := by simp [TTy.getPos, List.count_eq_zero.2 T.not_self]
  simp [Prog.getByType, this]

/-- a tuple of an `int`, a `char&` and a tuple of two `int`s: the third element as an lvalue; the same as an rvalue (where
`get<2>` works) -/
example : ∃ m, Demo.calm.getByType (fun _ => ⟨[.val, .lref, .val], fun _ => (40, 1)⟩)
      (.tuple (.cons (.atom 0) (.cons (.atom 1) (.cons (.tuple (.cons (.atom 0) (.cons (.atom 0) .nil))) .nil)))) false .lvalue 1
      (.tuple (.cons (.atom 0) (.cons (.atom 0) .nil))) = some m ∧
    m Demo.world = .ok (some (.lref (1, 2))) Demo.world :=
  C59_lvalue_partial (n := 2) Demo.inv Demo.view1 _ _ _ false rfl (by
    intro m h
    match m, h with
    | 0, h => simp [TTy.elems, TTys.list] at h
    | 1, h => simp [TTy.elems, TTys.list] at h
    | 2, _ => rfl
    | m + 3, h => simp [TTy.elems, TTys.list] at h) (fun _ _ => rfl)

end Opt
