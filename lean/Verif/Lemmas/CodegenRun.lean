import Verif.Spec.CodegenRun

/-!
# Lemmas about the driver of the code generation test
-/

namespace Opt.Run

/-! ## Blank lines -/

/-- something is written there -/
def ink (t : Text) : Bool := t.any fun c => !isWs c

theorem ink_dropWhile : ∀ t : Text, ink (t.dropWhile isWs) = ink t
  | [] => rfl
  | c :: cs => by
    simp only [List.dropWhile_cons]
    by_cases h : isWs c = true
    · rw [if_pos h, ink_dropWhile cs]
      simp [ink, h]
    · rw [if_neg h]

theorem ink_reverse (t : Text) : ink t.reverse = ink t := by simp [ink]

theorem ink_strip (t : Text) : ink (strip t) = ink t := by
  simp only [strip, rstrip, lstrip, ink_reverse, ink_dropWhile]

theorem dropWhile_blank : ∀ {t : Text}, ink t = false → t.dropWhile isWs = []
  | [], _ => rfl
  | c :: cs, h => by
    simp only [ink, List.any_cons, Bool.or_eq_false_iff, Bool.not_eq_false'] at h
    rw [List.dropWhile_cons, if_pos h.1]
    exact dropWhile_blank h.2

theorem dropWhile_head : ∀ {t : Text}, (t.dropWhile isWs).isEmpty = false → ink t = true
  | [], h => by cases h
  | c :: cs, h => by
    rw [List.dropWhile_cons] at h
    by_cases hc : isWs c = true
    · rw [if_pos hc] at h
      simp only [ink, List.any_cons, Bool.or_eq_true]
      exact .inr (dropWhile_head h)
    · simp [ink, hc]

theorem strip_isEmpty (t : Text) : (strip t).isEmpty = !ink t := by
  cases h : ink t with
  | false =>
    have h1 : lstrip t = [] := dropWhile_blank h
    simp [strip, h1, rstrip]
  | true =>
    cases h2 : (strip t).isEmpty with
    | false => rfl
    | true =>
      have h3 : strip t = [] := List.isEmpty_iff.1 h2
      have := ink_strip t
      rw [h3, h] at this
      cases this

theorem ink_word {c : Char} (h : isWord c = true) : isWs c = false := by
  cases hc : isWs c with
  | false => rfl
  | true =>
    simp only [isWs, Bool.or_eq_true, beq_iff_eq] at hc
    rcases hc with ((((hc | hc) | hc) | hc) | hc) | hc <;> subst hc <;> exact absurd h (by decide)

theorem ink_hexFrom : ∀ (k : Nat) (t : Text), ink t = true → ink (hexFrom k t) = true
  | 0, _, h => h
  | _ + 1, [], h => h
  | k + 1, c :: cs, h => by
    simp only [hexFrom]
    by_cases hw : isWord c = true
    · rw [if_pos hw]; simp [ink, ink_word hw]
    · rw [if_neg hw]
      have h0 : isWs '0' = false := by decide
      cases hn : number cs with
      | none =>
        simp only [ink, List.any_cons, Bool.or_eq_true] at h ⊢
        exact h.imp id (ink_hexFrom k cs)
      | some x =>
        obtain ⟨n, r⟩ := x
        cases r <;> simp [ink, hexOf, h0]

theorem ink_hexAll {t : Text} (h : ink t = true) : ink (hexAll t) = true := by
  have h0 : isWs '0' = false := by decide
  simp only [hexAll]
  cases hn : number t with
  | none => exact ink_hexFrom _ _ h
  | some x =>
    obtain ⟨n, r⟩ := x
    cases r <;> simp [ink, hexOf, h0]

theorem ink_cleanLine {l t : Text} (h : cleanLine l = some t) : ink t = true := by
  simp only [cleanLine] at h
  split at h
  · cases h
  · split at h
    · cases h
    · split at h
      · cases h
      · rename_i hn
        cases h
        rw [strip_isEmpty] at hn
        refine ink_hexAll ?_
        rw [ink_strip]
        simpa using hn

/-! ## What is parsed has no blank lines -/

theorem parseExpected_ink : ∀ {ls : List (Nat × Text)} {cur : Option Section} {ss : List Section},
    (∀ s ∈ cur, ∀ l ∈ s.code, ink l = true) → parseExpected cur ls = some ss → ∀ s ∈ ss, ∀ l ∈ s.code, ink l = true
  | [], cur, ss, hc, h => by
    simp only [parseExpected, Option.some.injEq] at h
    subst h
    intro s hs
    exact hc s (by simpa using hs)
  | (n, line) :: rest, cur, ss, hc, h => by
    simp only [parseExpected] at h
    split at h
    · exact parseExpected_ink hc h
    · rename_i hne
      rw [strip_isEmpty] at hne
      split at h
      · rename_i name c hh
        cases hr : parseExpected (some ⟨n, name, c.map lower, []⟩) rest with
        | none => rw [hr] at h; cases h
        | some ss' =>
          rw [hr] at h
          cases h
          intro s hs
          rcases List.mem_append.1 hs with hs | hs
          · exact hc s (by simpa using hs)
          · exact parseExpected_ink (fun s hs l hl => by
              simp only [Option.mem_def, Option.some.injEq] at hs
              subst hs; cases hl) hr s hs
      · cases cur with
        | none => cases h
        | some s0 =>
          refine parseExpected_ink ?_ h
          intro s hs l hl
          simp only [Option.mem_def, Option.some.injEq] at hs
          subst hs
          rcases List.mem_append.1 hl with hl | hl
          · exact hc s0 rfl l hl
          · rw [List.mem_singleton.1 hl, ink_strip]
            simpa using hne

theorem parseDisasm_ink : ∀ {ls : List Text} {cur : Option (Text × List Text)},
    (∀ f ∈ cur, ∀ l ∈ f.2, ink l = true) → ∀ f ∈ parseDisasm cur ls, ∀ l ∈ f.2, ink l = true
  | [], cur, hc, f, hf => hc f (by simpa [parseDisasm] using hf)
  | line :: rest, cur, hc, f, hf => by
    simp only [parseDisasm] at hf
    split at hf
    · rcases List.mem_append.1 hf with hf | hf
      · exact hc f (by simpa using hf)
      · exact parseDisasm_ink (fun f hf l hl => by
          simp only [Option.mem_def, Option.some.injEq] at hf
          subst hf; cases hl) f hf
    · cases cur with
      | none => exact parseDisasm_ink (fun f hf => by cases hf) f hf
      | some g =>
        refine parseDisasm_ink ?_ f hf
        intro f hf l hl
        simp only [Option.mem_def, Option.some.injEq] at hf
        subst hf
        rcases List.mem_append.1 hl with hl | hl
        · exact hc g rfl l hl
        · exact ink_cleanLine (by simpa using hl)

theorem lookup_ink {ls : List Text} {name : Text} {code : List Text} (h : lookup (parseDisasm none ls) name = some code) :
    ∀ l ∈ code, ink l = true := by
  simp only [lookup, Option.map_eq_some_iff] at h
  obtain ⟨f, hf, rfl⟩ := h
  exact parseDisasm_ink (fun f hf => by cases hf) f (List.mem_reverse.1 (List.mem_of_find?_eq_some hf))

/-! ## The comparison -/

theorem differs_self (t : Text) : differs t t = false := by simp [differs]

theorem mismatch_self : ∀ t : List Text, mismatch t t = false
  | [] => by simp [mismatch]
  | t :: ts => by simp [mismatch, differs_self, mismatch_self ts]

theorem mismatch_eq : ∀ {es rs : List Text}, (∀ l ∈ es, ink l = true) → (∀ l ∈ rs, ink l = true) →
    mismatch es rs = false → es = rs
  | [], [], _, _, _ => rfl
  | e :: es, [], he, _, h => by
    simp only [mismatch, Bool.or_eq_false_iff, differs, strip_isEmpty, he e List.mem_cons_self] at h
    simp only [Bool.not_true, Bool.false_and, Bool.not_false, Bool.and_true, bne_eq_false_iff_eq] at h
    have := he e List.mem_cons_self
    rw [h.1] at this
    cases this
  | [], r :: rs, _, hr, h => by
    simp only [mismatch, List.any_cons, Bool.or_eq_false_iff, differs, strip_isEmpty, hr r List.mem_cons_self] at h
    simp only [Bool.not_true, Bool.and_false, Bool.not_false, Bool.and_true, bne_eq_false_iff_eq] at h
    have := hr r List.mem_cons_self
    rw [← h.1] at this
    cases this
  | e :: es, r :: rs, he, hr, h => by
    simp only [mismatch, Bool.or_eq_false_iff, differs, strip_isEmpty, he e List.mem_cons_self] at h
    simp only [Bool.not_true, Bool.false_and, Bool.not_false, Bool.and_true, bne_eq_false_iff_eq] at h
    rw [h.1, mismatch_eq (fun l hl => he l (List.mem_cons_of_mem _ hl)) (fun l hl => hr l (List.mem_cons_of_mem _ hl)) h.2]

/-! ## Which listings are used -/

theorem anyMatch_false {ids : List Text} {version : Text} {s : Section} : ∀ {all : List Section},
    selected.anyMatch ids version s all = some false ↔
      ∀ o ∈ all, o.name = s.name → ∀ c, o.conds = some c → matchCondition ids version c = some false
  | [] => by simp [selected.anyMatch]
  | o :: os => by
    simp only [selected.anyMatch, List.forall_mem_cons]
    cases hc : o.conds with
    | none => simpa using anyMatch_false (all := os)
    | some c =>
      simp only [Option.some.injEq]
      by_cases hn : o.name = s.name
      · rw [if_pos (by simpa using hn)]
        cases hm : matchCondition ids version c with
        | none => simp [hm, hn]
        | some b =>
          cases b with
          | true => simp [hm, hn]
          | false => simp [hm, hn, anyMatch_false (all := os)]
      · rw [if_neg (by simpa using hn)]
        simp [hn, anyMatch_false (all := os)]

theorem selected_true {all : List Section} {ids : List Text} {version : Text} {s : Section} :
    selected all ids version s = some true ↔ Used all ids version s := by
  unfold selected Used
  cases hc : s.conds with
  | some c => simp
  | none =>
    simp only [Option.map_eq_some_iff, Bool.not_eq_true', exists_eq_right]
    exact anyMatch_false

/-! ## The verdict -/

variable {all : List Section} {received : Text → Option (List Text)} {ids : List Text} {version : Text}

theorem checkLoop_passed : ∀ {ss : List Section} {good : Bool} {k n : Nat},
    checkLoop all received ids version ss good k = .passed n ↔
      good = true ∧ (∀ s ∈ ss, ∃ code, received s.name = some code ∧ selected all ids version s ≠ none ∧
        (selected all ids version s = some true → disabled s = false → mismatch s.code code = false)) ∧
      n = k + (ss.filter fun s => selected all ids version s == some true).length
  | [], good, k, n => by
    cases good with
    | false => simp [checkLoop]
    | true =>
      simp only [checkLoop, if_true, Verdict.passed.injEq, List.not_mem_nil, false_implies, implies_true, true_and, List.filter_nil,
        List.length_nil, Nat.add_zero]
      exact eq_comm
  | s :: ss, good, k, n => by
    simp only [checkLoop, List.forall_mem_cons, List.filter_cons]
    cases hr : received s.name with
    | none => simp
    | some code =>
      simp only [Option.some.injEq, exists_eq_left']
      cases hs : selected all ids version s with
      | none => simp
      | some b =>
        cases b with
        | false =>
          simp only
          rw [checkLoop_passed]
          simp
        | true =>
          simp only [Option.some.injEq, ne_eq, reduceCtorEq, not_false_eq_true, true_and, BEq.rfl, if_true,
            List.length_cons, forall_const]
          split
          · rename_i hd
            rw [checkLoop_passed]
            simp only [hd, Bool.true_eq_false, false_implies, true_and]
            constructor
            · rintro ⟨h1, h2, h3⟩; exact ⟨h1, h2, by omega⟩
            · rintro ⟨h1, h2, h3⟩; exact ⟨h1, h2, by omega⟩
          · rename_i hd
            rw [checkLoop_passed]
            simp only [Bool.and_eq_true, Bool.not_eq_true', Bool.not_eq_true] at hd ⊢
            simp only [hd, forall_const]
            constructor
            · rintro ⟨⟨h1, h4⟩, h2, h3⟩; exact ⟨h1, ⟨h4, h2⟩, by omega⟩
            · rintro ⟨h1, ⟨h4, h2⟩, h3⟩; exact ⟨⟨h1, h4⟩, h2, by omega⟩

instance {all : List Section} {ids : List Text} {version : Text} {s : Section} : Decidable (Used all ids version s) :=
  decidable_of_iff _ selected_true

theorem anyMatch_some {s : Section} : ∀ {os : List Section},
    (∀ o ∈ os, ∀ c, o.conds = some c → matchCondition ids version c ≠ none) → selected.anyMatch ids version s os ≠ none
  | [], _ => by simp [selected.anyMatch]
  | o :: os, h => by
    have ih := anyMatch_some (s := s) (os := os) fun o ho => h o (List.mem_cons_of_mem _ ho)
    simp only [selected.anyMatch]
    cases hc : o.conds with
    | none => exact ih
    | some c =>
      simp only
      split
      · cases hm : matchCondition ids version c with
        | none => exact absurd hm (h o List.mem_cons_self c hc)
        | some b => cases b <;> simp [ih]
      · exact ih

/-- the script evaluates every condition -/
theorem selected_some : (∀ s ∈ all, selected all ids version s ≠ none) ↔
    ∀ s ∈ all, ∀ c, s.conds = some c → matchCondition ids version c ≠ none := by
  constructor
  · intro h s hs c hc
    have := h s hs
    simpa only [selected, hc] using this
  · intro h s hs
    simp only [selected]
    cases hc : s.conds with
    | some c => exact h s hs c hc
    | none => simpa using anyMatch_some h

/-! ## Lines without `//$` -/

theorem after_none {p : Text} : ∀ {t : Text}, contains p t = false → after p t = []
  | [], _ => rfl
  | x :: xs, h => by
    simp only [contains, Bool.or_eq_false_iff] at h
    simp only [after, h.1]
    exact after_none h.2

theorem parseExpected_filter : ∀ (ls : List (Nat × Text)) (cur : Option Section),
    parseExpected cur (ls.filter fun x => contains (txt"//$") x.2) = parseExpected cur ls
  | [], _ => rfl
  | (n, line) :: rest, cur => by
    rw [List.filter_cons]
    cases h : contains (txt"//$") line with
    | false =>
      rw [if_neg (by simp)]
      rw [parseExpected_filter rest cur]
      have := after_none h
      simp only [parseExpected, this]
      rfl
    | true =>
      rw [if_pos rfl]
      simp only [parseExpected, parseExpected_filter rest]

end Opt.Run
