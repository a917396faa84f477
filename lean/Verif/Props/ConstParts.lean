import Verif.Spec.ConstParts
import Verif.Lemmas.TraitsTy

/-!
# C72: options of types with const parts
-/

namespace Opt.ConstParts

theorem findMax_spec (xs : List Info) (h : xs ≠ []) : findMax xs ∈ xs ∧ ∀ x ∈ xs, x.levels ≤ (findMax xs).levels := by
  have hm : xs.map (·.levels) ≠ [] := by simpa using h
  obtain ⟨m, h1, h2, _⟩ := indexOfMax_spec hm
  rw [List.getElem?_map] at h1
  cases hx : xs[indexOfMax (xs.map (·.levels))]? with
  | none => rw [hx] at h1; simp at h1
  | some y =>
    have e : findMax xs = y := by
      cases xs with
      | nil => exact absurd rfl h
      | cons a as => simp only [findMax]; rw [hx]; rfl
    rw [hx] at h1
    simp only [Option.map_some, Option.some.injEq] at h1
    rw [e]
    refine ⟨List.mem_of_getElem? hx, fun x hmem => ?_⟩
    obtain ⟨j, hj⟩ := List.getElem?_of_mem hmem
    rw [h1]
    exact h2 j _ (by rw [List.getElem?_map, hj]; rfl)

theorem le_greatest {ps : List Part} {p : Part} (h : p ∈ ps) : p.count ≤ greatest ps := by
  induction ps with
  | nil => simp at h
  | cons q qs ih =>
    simp only [greatest]
    rcases List.mem_cons.1 h with rfl | h
    · omega
    · have := ih h; omega

theorem greatest_eq {ps : List Part} {n : Nat} (h1 : ∀ p ∈ ps, p.count ≤ n) (h2 : 1 ≤ n → ∃ p ∈ ps, p.count = n) :
    greatest ps = n := by
  have hle : greatest ps ≤ n := by
    clear h2
    induction ps with
    | nil => simp [greatest]
    | cons q qs ih =>
      have a := h1 q (by simp)
      have b := ih (fun p hp => h1 p (by simp [hp]))
      simp only [greatest]
      omega
  by_cases hn : 1 ≤ n
  · obtain ⟨p, hp, e⟩ := h2 hn
    have := le_greatest hp
    omega
  · omega

/-- the traits use one of the parts, and none has more levels -/
def Uses (i : Info) (ps : List Part) : Prop :=
  (∀ p ∈ ps, p.count ≤ i.levels) ∧ (1 ≤ i.levels → ∃ p ∈ ps, p.count = i.levels ∧ p.writable = i.sets)

theorem Uses.greatest {i : Info} {ps : List Part} (h : Uses i ps) : greatest ps = i.levels :=
  greatest_eq h.1 (fun hn => let ⟨p, h1, h2, _⟩ := h.2 hn; ⟨p, h1, h2⟩)

theorem uses_none : Uses .none [] := ⟨by simp, by simp [Info.none]⟩

mutual
theorem CTy.uses (k : Bool) : (t : CTy) → Uses (t.info k) (t.parts k)
  | .plain => by simpa [CTy.info, CTy.parts] using uses_none
  | .seen n => by simp [CTy.info, CTy.parts, Uses]
  | .hidden n => by
    cases k
    · simp [CTy.info, CTy.parts, Uses]
    · simpa [CTy.info, CTy.parts] using uses_none
  | .pair c1 t1 c2 t2 => by
    have h1 := t1.uses (k || c1)
    have h2 := t2.uses (k || c2)
    have key : ∀ i : Info, (i = t1.info (k || c1) ∨ i = t2.info (k || c2)) → (t1.info (k || c1)).levels ≤ i.levels →
        (t2.info (k || c2)).levels ≤ i.levels → Uses i (t1.parts (k || c1) ++ t2.parts (k || c2)) := by
      intro i hi hl1 hl2
      refine ⟨fun p hp => ?_, fun hn => ?_⟩
      · rcases List.mem_append.1 hp with hp | hp
        · have := h1.1 p hp; omega
        · have := h2.1 p hp; omega
      · rcases hi with rfl | rfl
        · obtain ⟨p, a, b⟩ := h1.2 hn
          exact ⟨p, List.mem_append_left _ a, b⟩
        · obtain ⟨p, a, b⟩ := h2.2 hn
          exact ⟨p, List.mem_append_right _ a, b⟩
    simp only [CTy.parts]
    cases k with
    | true =>
      simp only [Bool.true_or] at key ⊢
      have := findMax_spec [t1.info true, t2.info true] (by simp)
      simp only [CTy.info, if_true]
      refine key _ ?_ (this.2 _ (by simp)) (this.2 _ (by simp))
      simpa using this.1
    | false =>
      simp only [Bool.false_or] at key ⊢
      simp only [CTy.info, Bool.false_eq_true, if_false]
      split
      · exact key _ (.inl rfl) (Nat.le_refl _) (by omega)
      · exact key _ (.inr rfl) (by omega) (Nat.le_refl _)
  | .tuple es => by
    have h := es.uses k
    simp only [CTy.info, CTy.parts]
    cases hi : es.infos k with
    | nil =>
      refine ⟨fun p hp => ?_, by simp [findMax, Info.none]⟩
      obtain ⟨i, hi', _⟩ := h.1 p hp
      rw [hi] at hi'; simp at hi'
    | cons x xs =>
      have hs := findMax_spec (es.infos k) (by rw [hi]; simp)
      rw [← hi]
      refine ⟨fun p hp => ?_, fun hn => ?_⟩
      · obtain ⟨i, hi', hl⟩ := h.1 p hp
        have := hs.2 i hi'
        omega
      · obtain ⟨p, hp, h2⟩ := h.2 _ hs.1 hn
        exact ⟨p, hp, h2⟩
  | .array c t n => by
    have h := t.uses (k || c)
    simp only [CTy.info, CTy.parts]
    split
    · exact uses_none
    · exact h
  | .option c t => by
    have h := t.uses c
    have h0 := t.uses false
    simp only [CTy.info, CTy.parts]
    cases k with
    | true => simpa using uses_none
    | false =>
      simp only [Bool.false_eq_true, if_false, h.greatest, h0.greatest]
      split
      · refine ⟨fun p hp => ?_, fun hn => ?_⟩
        · obtain ⟨q, hq, rfl⟩ := List.mem_map.1 hp
          have := h.1 q hq
          show q.count - 1 ≤ (t.info c).levels - 1
          omega
        · dsimp only at hn
          obtain ⟨q, hq, e1, e2⟩ := h.2 (by omega)
          exact ⟨_, List.mem_map.2 ⟨q, hq, rfl⟩, by rw [e1], e2⟩
      · refine ⟨by simp, fun _ => ?_⟩
        simp [BEq.beq]
theorem Elems.uses (k : Bool) : (es : Elems) → (∀ p ∈ es.parts k, ∃ i ∈ es.infos k, p.count ≤ i.levels) ∧
    ∀ i ∈ es.infos k, 1 ≤ i.levels → ∃ p ∈ es.parts k, p.count = i.levels ∧ p.writable = i.sets
  | .nil => by simp [Elems.parts, Elems.infos]
  | .cons c t es => by
    have h1 := t.uses (k || c)
    have h2 := es.uses k
    simp only [Elems.parts, Elems.infos]
    refine ⟨fun p hp => ?_, fun i hi hn => ?_⟩
    · rcases List.mem_append.1 hp with hp | hp
      · exact ⟨_, by simp, h1.1 p hp⟩
      · obtain ⟨i, a, b⟩ := h2.1 p hp
        exact ⟨i, by simp [a], b⟩
    · rcases List.mem_cons.1 hi with rfl | hi
      · obtain ⟨p, a, b⟩ := h1.2 hn
        exact ⟨p, List.mem_append_left _ a, b⟩
      · obtain ⟨p, a, b⟩ := h2.2 i hi hn
        exact ⟨p, List.mem_append_right _ a, b⟩
end

mutual
theorem CTy.parts_const : (t : CTy) → ∀ p ∈ t.parts true, p.writable = false
  | .plain => by simp [CTy.parts]
  | .seen n => by simp [CTy.parts]
  | .hidden n => by simp [CTy.parts]
  | .pair c1 t1 c2 t2 => fun p hp => by
    simp only [CTy.parts, Bool.true_or] at hp
    rcases List.mem_append.1 hp with hp | hp
    · exact t1.parts_const p hp
    · exact t2.parts_const p hp
  | .tuple es => fun p hp => es.parts_const p (by simpa [CTy.parts] using hp)
  | .array c t n => fun p hp => by
    simp only [CTy.parts, Bool.true_or] at hp
    split at hp
    · simp at hp
    · exact t.parts_const p hp
  | .option c t => by simp [CTy.parts]
theorem Elems.parts_const : (es : Elems) → ∀ p ∈ es.parts true, p.writable = false
  | .nil => by simp [Elems.parts]
  | .cons c t es => fun p hp => by
    simp only [Elems.parts, Bool.true_or] at hp
    rcases List.mem_append.1 hp with hp | hp
    · exact t.parts_const p hp
    · exact es.parts_const p hp
end

mutual
theorem CTy.parts_noConst : (t : CTy) → t.noConst = true → ∀ p ∈ t.parts false, p.writable = true
  | .plain, _ => by simp [CTy.parts]
  | .seen n, _ => by simp [CTy.parts]
  | .hidden n, _ => by simp [CTy.parts]
  | .pair c1 t1 c2 t2, h => fun p hp => by
    simp only [CTy.noConst, Bool.and_eq_true, Bool.not_eq_true'] at h
    obtain ⟨⟨⟨rfl, rfl⟩, h1⟩, h2⟩ := h
    simp only [CTy.parts, Bool.false_or] at hp
    rcases List.mem_append.1 hp with hp | hp
    · exact t1.parts_noConst h1 p hp
    · exact t2.parts_noConst h2 p hp
  | .tuple es, h => fun p hp => es.parts_noConst (by simpa [CTy.noConst] using h) p (by simpa [CTy.parts] using hp)
  | .array c t n, h => fun p hp => by
    simp only [CTy.noConst, Bool.and_eq_true, Bool.not_eq_true'] at h
    obtain ⟨rfl, h1⟩ := h
    simp only [CTy.parts, Bool.false_or] at hp
    split at hp
    · simp at hp
    · exact t.parts_noConst h1 p hp
  | .option c t, h => fun p hp => by
    simp only [CTy.noConst, Bool.and_eq_true, Bool.not_eq_true'] at h
    obtain ⟨rfl, h1⟩ := h
    simp only [CTy.parts, Bool.false_eq_true, if_false] at hp
    split at hp
    · obtain ⟨q, hq, rfl⟩ := List.mem_map.1 hp
      exact t.parts_noConst h1 q hq
    · rename_i hg
      simp only [List.mem_singleton] at hp
      subst hp
      simp only [beq_iff_eq]
      omega
theorem Elems.parts_noConst : (es : Elems) → es.noConst = true → ∀ p ∈ es.parts false, p.writable = true
  | .nil, _ => by simp [Elems.parts]
  | .cons c t es, h => fun p hp => by
    simp only [Elems.noConst, Bool.and_eq_true, Bool.not_eq_true'] at h
    obtain ⟨⟨rfl, h1⟩, h2⟩ := h
    simp only [Elems.parts, Bool.false_or] at hp
    rcases List.mem_append.1 hp with hp | hp
    · exact t.parts_noConst h1 p hp
    · exact es.parts_noConst h2 p hp
end

mutual
theorem CTy.greatest_const_le : (t : CTy) → ∀ p ∈ t.parts true, ∃ q ∈ t.parts false, p.count ≤ q.count
  | .plain => by simp [CTy.parts]
  | .seen n => by simp [CTy.parts]
  | .hidden n => by simp [CTy.parts]
  | .pair c1 t1 c2 t2 => fun p hp => by
    simp only [CTy.parts, Bool.true_or, Bool.false_or] at hp ⊢
    rcases List.mem_append.1 hp with hp | hp
    · obtain ⟨q, a, b⟩ : ∃ q ∈ t1.parts c1, p.count ≤ q.count := by
        cases c1
        · exact t1.greatest_const_le p hp
        · exact ⟨p, hp, Nat.le_refl _⟩
      exact ⟨q, List.mem_append_left _ a, b⟩
    · obtain ⟨q, a, b⟩ : ∃ q ∈ t2.parts c2, p.count ≤ q.count := by
        cases c2
        · exact t2.greatest_const_le p hp
        · exact ⟨p, hp, Nat.le_refl _⟩
      exact ⟨q, List.mem_append_right _ a, b⟩
  | .tuple es => fun p hp => by
    simp only [CTy.parts] at hp ⊢
    exact es.greatest_const_le p hp
  | .array c t n => fun p hp => by
    simp only [CTy.parts, Bool.true_or, Bool.false_or] at hp ⊢
    split at hp
    · simp at hp
    · rename_i hn
      rw [if_neg hn]
      cases c
      · exact t.greatest_const_le p hp
      · exact ⟨p, hp, Nat.le_refl _⟩
  | .option c t => by simp [CTy.parts]
theorem Elems.greatest_const_le : (es : Elems) → ∀ p ∈ es.parts true, ∃ q ∈ es.parts false, p.count ≤ q.count
  | .nil => by simp [Elems.parts]
  | .cons c t es => fun p hp => by
    simp only [Elems.parts, Bool.true_or, Bool.false_or] at hp ⊢
    rcases List.mem_append.1 hp with hp | hp
    · obtain ⟨q, a, b⟩ : ∃ q ∈ t.parts c, p.count ≤ q.count := by
        cases c
        · exact t.greatest_const_le p hp
        · exact ⟨p, hp, Nat.le_refl _⟩
      exact ⟨q, List.mem_append_left _ a, b⟩
    · obtain ⟨q, a, b⟩ := es.greatest_const_le p hp
      exact ⟨q, List.mem_append_right _ a, b⟩
end

theorem CTy.levels_const_le (t : CTy) : (t.info true).levels ≤ (t.info false).levels := by
  by_cases hn : 1 ≤ (t.info true).levels
  · obtain ⟨p, hp, h1, _⟩ := (t.uses true).2 hn
    obtain ⟨q, hq, h2⟩ := t.greatest_const_le p hp
    have := (t.uses false).1 q hq
    omega
  · omega

/-! ## C72 -/

/-- C72: making a type const never adds levels. -/
theorem C72_const_loses (t : CTy) : (t.info true).levels ≤ (t.info false).levels := t.levels_const_le

/-- `const std::pair<bool, float>` against `std::pair<bool, float>`, and `const bool`, which has no levels -/
example : ((CTy.pair false (.hidden 254) false (.seen 256)).info true).levels = 256 ∧ ((CTy.hidden 254).info true).levels = 0 ∧
    ((CTy.hidden 254).info true).levels ≤ ((CTy.hidden 254).info false).levels := ⟨by decide, by decide, C72_const_loses _⟩

/-- C72: the number of levels is that of the part with the most, const or not. -/
theorem C72_levels (k : Bool) (t : CTy) : (t.info k).levels = greatest (t.parts k) := (t.uses k).greatest.symm

/-- `std::pair<const float, bool>` -/
example : ((CTy.pair true (.seen 256) false (.hidden 254)).info false).levels = 256 := by
  rw [C72_levels]; decide

/-- C72 (partial): an option can be empty if every part with the most levels may be written. -/
theorem C72_compiles_partial (t : CTy) (h : ∀ p ∈ t.parts false, p.count = greatest (t.parts false) → p.writable = true) :
    emptyCompiles t = true := by
  have hu := t.uses false
  rw [hu.greatest] at h
  simp only [emptyCompiles, Bool.or_eq_true, beq_iff_eq]
  by_cases hn : 1 ≤ (t.info false).levels
  · obtain ⟨p, hp, h1, h2⟩ := hu.2 hn
    right
    rw [← h2]
    exact h p hp h1
  · left; omega

/-- `std::pair<const bool, float>` -/
example : emptyCompiles (.pair true (.hidden 254) false (.seen 256)) = true :=
  C72_compiles_partial _ (by decide)

/-- C72 (partial): in particular if nothing is declared const. -/
theorem C72_no_const_partial (t : CTy) (h : t.noConst = true) : emptyCompiles t = true :=
  C72_compiles_partial t (fun p hp _ => t.parts_noConst h p hp)

/-- `std::tuple<float, opt::option<std::string>, int*>` -/
example : emptyCompiles (.tuple (.cons false (.seen 256) (.cons false (.option false (.hidden 255)) (.cons false (.seen 512) .nil)))) =
    true := C72_no_const_partial _ (by decide)

/-- C72 is violated if every part with the most levels is const: no option of the type can be empty, although other parts may have
enough unused representations. -/
theorem C72_violated_greatest (t : CTy) (hn : 1 ≤ greatest (t.parts false))
    (h : ∀ p ∈ t.parts false, p.count = greatest (t.parts false) → p.writable = false) : emptyCompiles t = false := by
  have hu := t.uses false
  rw [hu.greatest] at h hn
  obtain ⟨p, hp, h1, h2⟩ := hu.2 hn
  have := h p hp h1
  simp only [emptyCompiles, Bool.or_eq_false_iff, beq_eq_false_iff_ne]
  exact ⟨by omega, by rw [← h2, this]⟩

/-- `std::map<float, bool>::value_type` -/
example : emptyCompiles (.pair true (.seen 256) false (.hidden 254)) = false :=
  C72_violated_greatest _ (by decide) (by decide)

/-- C72 is violated for every key type with a representation found by its properties (pointers, floating-point numbers, enumerations,
polymorphic classes) in the `value_type` of a map, if the mapped type has fewer levels. -/
theorem C72_violated_value_type (n : Nat) (t : CTy) (h : (t.info false).levels < n) :
    emptyCompiles (.pair true (.seen n) false t) = false := by
  have hu := t.uses false
  have hc : ∀ p ∈ t.parts false, p.count < n := fun p hp => by have := hu.1 p hp; omega
  have hg : greatest ((CTy.pair true (.seen n) false t).parts false) = n := by
    refine greatest_eq ?_ ?_
    · intro p hp
      simp only [CTy.parts, Bool.or_true, Bool.not_true, Bool.or_false, List.mem_append, List.mem_singleton] at hp
      rcases hp with rfl | hp
      · exact Nat.le_refl _
      · exact Nat.le_of_lt (hc p hp)
    · intro _
      exact ⟨⟨n, false⟩, by simp [CTy.parts], rfl⟩
  refine C72_violated_greatest _ (by omega) ?_
  rw [hg]
  intro p hp he
  simp only [CTy.parts, Bool.or_true, Bool.not_true, Bool.or_false, List.mem_append, List.mem_singleton] at hp
  rcases hp with rfl | hp
  · rfl
  · have := hc p hp; omega

/-- `std::map<void*, std::string>::value_type` -/
example : emptyCompiles (.pair true (.seen 512) false (.hidden 255)) = false := C72_violated_value_type 512 _ (by decide)

/-- C72: `option<option<const T>>` can be empty exactly when `T` has no levels, or `const T` has one, which the inner option uses up. -/
theorem C72_nested_const_partial (t : CTy) :
    emptyCompiles (.option true t) = true ↔ (t.info false).levels = 0 ∨ (t.info true).levels = 1 := by
  have hu := t.uses true
  have h0 := t.uses false
  by_cases hn : 1 ≤ (t.info true).levels
  · obtain ⟨p, hp, h1, h2⟩ := hu.2 hn
    have hs : (t.info true).sets = false := by rw [← h2]; exact t.parts_const p hp
    have hle : 1 ≤ (t.info false).levels := by
      refine Classical.byContradiction fun hc => ?_
      have := t.levels_const_le
      omega
    simp only [emptyCompiles, CTy.info, Bool.false_eq_true, if_false, if_pos (show (t.info true).levels ≥ 1 from hn), hs, Bool.or_false,
      beq_iff_eq]
    omega
  · simp only [emptyCompiles, CTy.info, Bool.false_eq_true, if_false, if_neg (show ¬ (t.info true).levels ≥ 1 from hn)]
    simp
    omega

/-- `option<option<const std::string>>` and `option<option<const float>>` cannot be empty, `option<option<const int>>` can -/
example : emptyCompiles (.option true (.hidden 255)) ≠ true ∧ emptyCompiles (.option true (.seen 256)) ≠ true ∧
    emptyCompiles (.option true .plain) = true := by
  refine ⟨?_, ?_, ?_⟩
  · rw [Ne, C72_nested_const_partial]; decide
  · rw [Ne, C72_nested_const_partial]; decide
  · rw [C72_nested_const_partial]; decide

/-- C72 is violated: `option<T>` works and `option<const T>` works, but not `option<option<const T>>`, for every `T` with a
representation found by its name (`bool`, `std::string`, ...), and for every one found by its properties with more than one level. -/
theorem C72_violated_nested (n : Nat) (hn : 1 ≤ n) :
    (emptyCompiles (.hidden n) = true ∧ emptyCompiles (.option true (.hidden n)) = false) ∧
    (2 ≤ n → emptyCompiles (.seen n) = true ∧ emptyCompiles (.option true (.seen n)) = false) := by
  have h1 := C72_nested_const_partial (.hidden n)
  have h2 := C72_nested_const_partial (.seen n)
  refine ⟨⟨by simp [emptyCompiles, CTy.info], ?_⟩, fun h => ⟨by simp [emptyCompiles, CTy.info], ?_⟩⟩
  · rw [← Bool.not_eq_true, h1]
    simp [CTy.info, Info.none]
    omega
  · rw [← Bool.not_eq_true, h2]
    simp [CTy.info]
    omega

example : emptyCompiles (.option true (.hidden 254)) = false := (C72_violated_nested 254 (by decide)).1.2

end Opt.ConstParts
