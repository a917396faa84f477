import Verif.Model.AggInit

/-!
# Lemmas on initialisation with parentheses and braces
-/

namespace Opt.Init

variable {E : Env}

theorem copyInit_same {a : Arg} {T : Ty} (h : a.ty = T) : copyInit E a T = some (.copy a) := by
  simp only [copyInit, h, if_true]

/-- an aggregate is only made from itself or by a user-defined conversion -/
theorem copyInit_agg {a : Arg} {n : Nat} {fs : List Ty} (h : a.ty ≠ .agg n fs) :
    copyInit E a (.agg n fs) = if E.user a.ty (.agg n fs) then some (.user a (.agg n fs)) else none := by
  simp only [copyInit, h, if_false]

theorem copyInit_narrows {a : Arg} {T : Ty} {h : How} (hc : copyInit E a T = some h) (hn : narrows E h = true) :
    ∃ n, T = .arith n := by
  cases T with
  | arith n => exact ⟨n, rfl⟩
  | cls n =>
    simp only [copyInit] at hc
    split at hc
    · cases hc; cases hn
    · cases hu : E.user a.ty (.cls n) with
      | true => rw [hu] at hc; cases hc; cases hn
      | false => rw [hu] at hc; cases hc
  | agg n fs =>
    simp only [copyInit] at hc
    split at hc
    · cases hc; cases hn
    · cases hu : E.user a.ty (.agg n fs) with
      | true => rw [hu] at hc; cases hc; cases hn
      | false => rw [hu] at hc; cases hc

/-- an element that the next expression can initialise takes it -/
theorem element_direct {T : Ty} {a : Arg} {as : List Arg} {h : How} (hc : copyInit E a T = some h) :
    element E T (a :: as) = if narrows E h then none else some (h, as) := by
  have hT := fun hn => copyInit_narrows hc hn
  cases T with
  | arith n => simp only [element, hc]
  | cls n =>
    cases hn : narrows E h with
    | true => obtain ⟨_, h⟩ := hT hn; cases h
    | false => simp only [element, hc]; rfl
  | agg n fs =>
    cases hn : narrows E h with
    | true => obtain ⟨_, h⟩ := hT hn; cases h
    | false => simp only [element, hc]; rfl

theorem element_nil {T : Ty} : element E T [] = (empty E T).map (·, []) := by
  cases T <;> simp only [element]

theorem empty_narrows {T : Ty} {h : How} (hc : empty E T = some h) : narrows E h = false := by
  simp only [empty] at hc
  split at hc
  · cases hc; rfl
  · cases hc

/-- where parentheses work, braces do the same unless something is narrowed -/
theorem elements_of_paren : ∀ {fs : List Ty} {as : List Arg} {hs : List How}, parenMembers E fs as = some hs →
    elements E fs as = if hs.any (narrows E) then none else some (hs, [])
  | [], [], hs, h => by cases h; rfl
  | [], _ :: _, _, h => by cases h
  | f :: fs, [], hs, h => by
    simp only [parenMembers, Option.bind_eq_some_iff, Option.map_eq_some_iff] at h
    obtain ⟨h1, e1, hs', e2, rfl⟩ := h
    simp only [elements, element_nil, e1, Option.map_some, elements_of_paren e2, List.any_cons, empty_narrows e1, Bool.false_or]
    cases hs'.any (narrows E) <;> rfl
  | f :: fs, a :: as, hs, h => by
    simp only [parenMembers, Option.bind_eq_some_iff, Option.map_eq_some_iff] at h
    obtain ⟨h1, e1, hs', e2, rfl⟩ := h
    simp only [elements, element_direct e1, List.any_cons]
    by_cases hn : narrows E h1 = true
    · simp only [hn, if_true, Bool.true_or]
    · have hn' : narrows E h1 = false := by simpa using hn
      simp only [hn', Bool.false_eq_true, if_false, Bool.false_or, elements_of_paren e2]
      cases hs'.any (narrows E) <;> rfl

/-- each expression can initialise the member at its place, and there are not too many of them -/
def Direct (E : Env) : List Ty → List Arg → Bool
  | _, [] => true
  | [], _ :: _ => false
  | f :: fs, a :: as => (copyInit E a f).isSome && Direct E fs as

theorem paren_of_elements : ∀ {fs : List Ty} {as : List Arg} {hs : List How}, Direct E fs as = true →
    elements E fs as = some (hs, []) → parenMembers E fs as = some hs
  | [], [], hs, _, h => by cases h; rfl
  | [], _ :: _, _, hd, _ => by cases hd
  | f :: fs, [], hs, _, h => by
    simp only [elements, element_nil] at h
    cases he : empty E f with
    | none => simp only [he, Option.map_none] at h; cases h
    | some h1 =>
      simp only [he, Option.map_some, Option.map_eq_some_iff] at h
      obtain ⟨⟨hs', r⟩, e, e2⟩ := h
      cases e2
      simp only [parenMembers, he, Option.bind_some, paren_of_elements (by cases fs <;> rfl) e, Option.map_some]
  | f :: fs, a :: as, hs, hd, h => by
    simp only [Direct, Bool.and_eq_true, Option.isSome_iff_exists] at hd
    obtain ⟨⟨h1, e1⟩, hd⟩ := hd
    simp only [elements, element_direct e1] at h
    cases hn : narrows E h1 with
    | true => simp only [hn, if_true] at h; cases h
    | false =>
      simp only [hn, Bool.false_eq_true, if_false, Option.map_eq_some_iff] at h
      obtain ⟨⟨hs', r⟩, e, e2⟩ := h
      cases e2
      simp only [parenMembers, e1, Option.bind_some, paren_of_elements hd e, Option.map_some]

theorem direct_of_paren : ∀ {fs : List Ty} {as : List Arg} {hs : List How}, parenMembers E fs as = some hs → Direct E fs as = true
  | [], [], _, _ => rfl
  | [], _ :: _, _, h => by cases h
  | _ :: _, [], _, _ => rfl
  | f :: fs, a :: as, hs, h => by
    simp only [parenMembers, Option.bind_eq_some_iff, Option.map_eq_some_iff] at h
    obtain ⟨h1, e1, hs', e2, rfl⟩ := h
    simp only [Direct, e1, Option.isSome_some, direct_of_paren e2, Bool.and_self]

/-! Braces mean the same whether or not parentheses initialise aggregates. -/

mutual
theorem dfltOK_set (b : Bool) : ∀ T : Ty, T.dfltOK { E with parenInit := b } = T.dfltOK E
  | .arith _ => rfl
  | .cls _ => rfl
  | .agg _ fs => by simp only [Ty.dfltOK]; exact dfltsOK_set b fs
theorem dfltsOK_set (b : Bool) : ∀ fs : List Ty, Ty.dfltsOK { E with parenInit := b } fs = Ty.dfltsOK E fs
  | [] => rfl
  | f :: fs => by simp only [Ty.dfltsOK, dfltOK_set b f, dfltsOK_set b fs]
end

theorem empty_set (b : Bool) (T : Ty) : empty { E with parenInit := b } T = empty E T := by simp only [empty, dfltOK_set]

theorem copyInit_set (b : Bool) (a : Arg) (T : Ty) : copyInit { E with parenInit := b } a T = copyInit E a T := rfl

theorem narrows_set (b : Bool) (h : How) : narrows { E with parenInit := b } h = narrows E h := rfl

mutual
theorem element_set (b : Bool) : ∀ (T : Ty) (as : List Arg), element { E with parenInit := b } T as = element E T as
  | T, [] => by rw [element_nil, element_nil, empty_set]
  | .arith n, a :: as => by simp only [element, copyInit_set]; rfl
  | .cls n, a :: as => by simp only [element, copyInit_set]
  | .agg n fs, a :: as => by simp only [element, copyInit_set, elements_set b fs]
theorem elements_set (b : Bool) : ∀ (fs : List Ty) (as : List Arg), elements { E with parenInit := b } fs as = elements E fs as
  | [], _ => by simp only [elements]
  | f :: fs, as => by simp only [elements, element_set b f, elements_set b fs]
end

theorem brace_set (b : Bool) (n : Nat) (fs : List Ty) (as : List Arg) : brace { E with parenInit := b } n fs as = brace E n fs as := by
  cases as <;> simp only [brace, empty_set, elements_set]

theorem parenMembers_set (b : Bool) : ∀ (fs : List Ty) (as : List Arg),
    parenMembers { E with parenInit := b } fs as = parenMembers E fs as
  | [], [] => rfl
  | [], _ :: _ => rfl
  | f :: fs, [] => by simp only [parenMembers, empty_set, parenMembers_set b fs]
  | f :: fs, a :: as => by simp only [parenMembers, copyInit_set, parenMembers_set b fs]

end Opt.Init
