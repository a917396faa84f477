import Verif.Lemmas.EnumText
import Verif.Lemmas.Traits
import Verif.Spec.Pow2

/-!
# C09: scanning the printed candidate list
-/

namespace Opt.Enum

open Opt

/-- What the scan is for: 0 if the topmost candidate or no candidate is declared, otherwise the least power of two above
every declared candidate. -/
def ScanOutcome (declared : Nat → Bool) (max : Nat) (r : U64) : Prop :=
  (declared (max - 1) = true → r = 0) ∧
  ((∀ v, v < max → declared v = false) → r = 0) ∧
  (∀ hi, declared (max - 1) = false → IsLargestDeclared declared max hi → IsPow2Ceil (hi + 1) r.toNat)

theorem scan_largest {d : Nat → Bool} {hi : Nat} : ∀ (n : Nat), d hi = true → hi < n →
    (∀ v, v < n → d v = true → v ≤ hi) → scan d n = hi + 1
  | 0, _, h, _ => absurd h (Nat.not_lt_zero _)
  | n + 1, hd, hlt, hall => by
    rw [scan]
    by_cases e : d n = true
    · have := hall n (by omega) e
      have : n = hi := by omega
      subst this
      simp [hd]
    · have hne : n ≠ hi := by rintro rfl; exact e hd
      rw [if_neg e]
      exact scan_largest n hd (by omega) (fun v hv => hall v (by omega))

theorem scan_none {d : Nat → Bool} : ∀ (n : Nat), (∀ v, v < n → d v = false) → scan d n = 0
  | 0, _ => rfl
  | n + 1, h => by
    rw [scan, h n (by omega)]
    simpa using scan_none n (fun v hv => h v (by omega))

theorem maxEnumValue_outcome (d : Nat → Bool) (n : Nat) (hn : n + 1 ≤ 65536) :
    ScanOutcome d (n + 1) (maxEnumValue d (n + 1)) := by
  refine ⟨?_, ?_, ?_⟩
  · intro h
    simp only [Nat.add_sub_cancel] at h
    simp [maxEnumValue, h]
  · intro h
    have h1 := h n (by omega)
    have h2 := scan_none n (fun v hv => h v (by omega))
    simp [maxEnumValue, h1, h2]
  · intro hi htop ⟨h1, h2, h3⟩
    simp only [Nat.add_sub_cancel] at htop
    have hne : hi ≠ n := by rintro rfl; rw [h1] at htop; cases htop
    have hs := scan_largest n h1 (by omega) (fun v hv => h3 v (by omega))
    have : maxEnumValue d (n + 1) = roundUp (BitVec.ofNat 64 (hi + 1)) := by
      simp [maxEnumValue, htop, hs]
    rw [this]
    have he : (BitVec.ofNat 64 (hi + 1)).toNat = hi + 1 := by rw [BitVec.toNat_ofNat]; omega
    have := roundUp_spec (n := BitVec.ofNat 64 (hi + 1)) (by omega) (by omega)
    rw [he] at this
    exact this

/-- C09, GCC: for any text around the list and any names, the scan of the printed list has the intended outcome. -/
theorem C09_gcc {declared : Nat → Bool} {item : Nat → List Char} (h : GccItems declared item) (pre suf : List Char)
    (hpre : '{' ∉ pre) (max : Nat) (h0 : 1 ≤ max) (hmax : max ≤ 65536) :
    ScanOutcome declared max (gccMaxEnum (gccText pre suf item max) (BitVec.ofNat 64 max)) := by
  obtain ⟨n, rfl⟩ : ∃ n, max = n + 1 := ⟨max - 1, by omega⟩
  rw [gccMaxEnum_eq h pre suf hpre n]
  exact maxEnumValue_outcome declared n hmax

/-- C09, MSVC. -/
theorem C09_msvc {declared : Nat → Bool} {item : Nat → List Char} (h : MsvcItems declared item) (pre suf : List Char)
    (hpre : '<' ∉ pre) (hsuf : ',' ∉ suf) (max : Nat) (h0 : 1 ≤ max) (hmax : max ≤ 65536) :
    ScanOutcome declared max (otherMaxEnum .msvc (msvcText pre suf item max) (BitVec.ofNat 64 max)) := by
  obtain ⟨n, rfl⟩ : ∃ n, max = n + 1 := ⟨max - 1, by omega⟩
  rw [msvcMaxEnum_eq h pre suf hpre hsuf n]
  exact maxEnumValue_outcome declared n hmax

/-- C09, Clang <= 12. -/
theorem C09_clang12 {declared : Nat → Bool} {item : Nat → List Char} (h : Clang12Items declared item)
    (pre suf : List Char) (hpre : '<' ∉ pre) (hsuf : ',' ∉ suf) (max : Nat) (h0 : 1 ≤ max) (hmax : max ≤ 65536) :
    ScanOutcome declared max (otherMaxEnum .clang12 (clangText pre suf item max) (BitVec.ofNat 64 max)) := by
  obtain ⟨n, rfl⟩ : ∃ n, max = n + 1 := ⟨max - 1, by omega⟩
  rw [clang12MaxEnum_eq h pre suf hpre hsuf n]
  exact maxEnumValue_outcome declared n hmax

/-- C09, Clang > 12 (partial: the topmost candidate must not be printed with an `(anonymous namespace)` prefix, see
`C09_violated_clang_anonymous_top`). -/
theorem C09_clang_partial {declared : Nat → Bool} {item : Nat → List Char} (h : ClangItems declared item)
    (pre suf : List Char) (hpre : '<' ∉ pre) (hsuf : ',' ∉ suf) (max : Nat) (h0 : 1 ≤ max) (hmax : max ≤ 65536)
    (htop : declared (max - 1) = true → (item (max - 1)).head? ≠ some '(') :
    ScanOutcome declared max (otherMaxEnum .clang (clangText pre suf item max) (BitVec.ofNat 64 max)) := by
  obtain ⟨n, rfl⟩ : ∃ n, max = n + 1 := ⟨max - 1, by omega⟩
  rw [clangMaxEnum_eq h pre suf hpre hsuf n (by simpa using htop)]
  exact maxEnumValue_outcome declared n hmax

/-- An enum with enumerators 0 and 5, printed the GCC way. -/
def sampleItem (v : Nat) : List Char := if v = 0 then "E::a".toList else if v = 5 then "E::b".toList else "(E)9".toList

example : GccItems (fun v => v == 0 || v == 5) sampleItem where
  clean := fun v => by unfold sampleItem; split <;> (try split) <;> decide
  cast := fun v h => by
    simp only [Bool.or_eq_false_iff, beq_eq_false_iff_ne] at h
    simp only [sampleItem, if_neg h.1, if_neg h.2]; decide
  name := fun v h => by
    simp only [Bool.or_eq_true, beq_iff_eq] at h
    unfold sampleItem
    rcases h with rfl | rfl <;> decide

example : MsvcItems (fun v => v == 0 || v == 5) sampleItem where
  clean := fun v => by unfold sampleItem; split <;> (try split) <;> decide
  cast := fun v h => by
    simp only [Bool.or_eq_false_iff, beq_eq_false_iff_ne] at h
    simp only [sampleItem, if_neg h.1, if_neg h.2]; decide
  name := fun v h => by
    simp only [Bool.or_eq_true, beq_iff_eq] at h
    unfold sampleItem
    rcases h with rfl | rfl <;> decide

/-- the same enum printed the old Clang way -/
example : Clang12Items (fun v => v == 0 || v == 5)
    (fun v => if v = 0 then "E::a".toList else if v = 5 then "E::b".toList else "9".toList) where
  clean := fun v => by split <;> (try split) <;> decide
  cast := fun v h => by
    simp only [Bool.or_eq_false_iff, beq_eq_false_iff_ne] at h
    simp only [if_neg h.1, if_neg h.2]
    exact ⟨'9', [], by decide, by decide, by decide⟩
  name := fun v h => by
    simp only [Bool.or_eq_true, beq_iff_eq] at h
    rcases h with rfl | rfl
    · exact ⟨'E', "::a".toList, by decide, by decide⟩
    · exact ⟨'E', "::b".toList, by decide, by decide⟩

example : ClangItems (fun v => v == 0 || v == 5) sampleItem where
  clean := fun v => by unfold sampleItem; split <;> (try split) <;> decide
  cast := fun v h => by
    simp only [Bool.or_eq_false_iff, beq_eq_false_iff_ne] at h
    simp only [sampleItem, if_neg h.1, if_neg h.2]
    exact ⟨['E'], ['9'], by decide, by decide, by decide, by decide⟩
  name := fun v h => by
    simp only [Bool.or_eq_true, beq_iff_eq] at h
    unfold sampleItem
    rcases h with rfl | rfl <;> exact ⟨by decide, .inl (by decide)⟩

/-- the scan finds 5, so the empty values start at 8 -/
example (pre suf : List Char) (hpre : '{' ∉ pre) (h : GccItems (fun v => v == 0 || v == 5) sampleItem) :
    IsPow2Ceil 6 (gccMaxEnum (gccText pre suf sampleItem 256) (BitVec.ofNat 64 256)).toNat :=
  (C09_gcc h pre suf hpre 256 (by decide) (by decide)).2.2 5 (by decide)
    ⟨by decide, by decide, fun v _ hv => by
      simp only [Bool.or_eq_true, beq_iff_eq] at hv; omega⟩

/-! ## Where the scan goes wrong -/

/-- C09 is violated on Clang if the topmost candidate is an enumerator in an anonymous namespace: it is not noticed. -/
theorem C09_violated_clang_anonymous_top :
    ∃ (declared : Nat → Bool) (item : Nat → List Char) (pre suf : List Char), ClangItems declared item ∧
      '<' ∉ pre ∧ ',' ∉ suf ∧ declared 255 = true ∧
      otherMaxEnum .clang (clangText pre suf item 256) (BitVec.ofNat 64 256) ≠ 0 := by
  let d : Nat → Bool := fun v => v == 0 || v == 255
  let item : Nat → List Char := fun v =>
    if d v then "(anonymous namespace)::x".toList else "(E)7".toList
  have h : ClangItems d item := by
    refine ⟨?_, ?_, ?_⟩
    · intro v; simp only [item]; split <;> decide
    · intro v hv; simp only [item, hv]
      exact ⟨['E'], ['7'], by decide, by decide, by decide, by decide⟩
    · intro v hv; simp only [item, hv]
      exact ⟨by decide, .inr ⟨"anonymous namespace".toList, ":x".toList, by decide, by decide⟩⟩
  refine ⟨d, item, [], [], h, by simp, by simp, by decide, ?_⟩
  have ht : clangText [] [] item 256 = [] ++ ('<' :: (item 255 ++ (itemsAfter [',', ' '] item 255 ++ '>' :: []))) := by
    simp [clangText, items]
  rw [otherMaxEnum, ht, otherStart _ (by simp)]
  simp only [List.drop_succ_cons, List.drop_zero]
  have hne : item 255 ≠ [] := by decide
  rw [head?_append_ne hne, if_neg (by decide), clangLoop_spec h [] (by simp) 255 _ (by decide)]
  have hs : scan d 255 = 1 := scan_largest (hi := 0) 255 (by decide) (by decide) (fun v hv hdv => by
    simp only [d, Bool.or_eq_true, beq_iff_eq] at hdv; omega)
  simp only [scanResult, hs]
  decide

/-- GCC, candidates printed with one comma in the type name followed by a parenthesis, as for an enum inside
`S<int, (& object)>`: every undeclared candidate counts twice. -/
theorem gccLoop_double {p q : List Char} (hp : ',' ∉ p ∧ '}' ∉ p) (hq : ',' ∉ q ∧ '}' ∉ q) (hp0 : p.head? = some '(')
    (hq0 : q.head? = some '(') {item : Nat → List Char} {hi : Nat}
    (hitem : ∀ v, hi < v → item v = p ++ ',' :: ' ' :: q)
    (hname : item hi ≠ [] ∧ (item hi).head? ≠ some '(') (rest : List Char) :
    ∀ (k : Nat) (cur : U64) (t : List Char), ',' ∉ t → '}' ∉ t →
      gccLoop cur (t ++ (itemsAfter [',', ' '] item (hi + 1 + k) ++ rest)) =
        some (cur - BitVec.ofNat 64 (2 * k) - 1) := by
  intro k
  have step : ∀ (cur : U64) (t u : List Char), ',' ∉ t → '}' ∉ t →
      gccLoop cur (t ++ ',' :: ' ' :: u) = if u.head? ≠ some '(' then some (cur - 1) else gccLoop (cur - 1) u := by
    intro cur t u h1 h2
    have hn : gccNextComma (t ++ ',' :: ' ' :: u) = some (',' :: ' ' :: u) := by
      rw [gccNextComma_append t _ h1 h2]; simp [gccNextComma]
    rw [gccLoop]
    split
    · rename_i hl'; rw [hn] at hl'; cases hl'
    · rename_i l' hl'
      rw [hn] at hl'
      cases hl'
      rfl
  induction k with
  | zero =>
    intro cur t h1 h2
    have e : itemsAfter [',', ' '] item (hi + 1 + 0) ++ rest =
        ',' :: ' ' :: (item hi ++ (itemsAfter [',', ' '] item hi ++ rest)) := by simp [itemsAfter]
    rw [e, step cur t _ h1 h2, head?_append_ne hname.1, if_pos hname.2]
    simp
  | succ k ih =>
    intro cur t h1 h2
    have hit := hitem (hi + 1 + k) (by omega)
    have e : itemsAfter [',', ' '] item (hi + 1 + (k + 1)) ++ rest =
        ',' :: ' ' :: (p ++ ',' :: ' ' :: (q ++ (itemsAfter [',', ' '] item (hi + 1 + k) ++ rest))) := by
      rw [show hi + 1 + (k + 1) = (hi + 1 + k) + 1 by omega, itemsAfter, hit]; simp
    have hpne : p ≠ [] := by intro e; rw [e] at hp0; cases hp0
    have hqne : q ≠ [] := by intro e; rw [e] at hq0; cases hq0
    rw [e, step cur t _ h1 h2, head?_append_ne hpne, if_neg (by simp [hp0]), step _ p _ hp.1 hp.2,
      head?_append_ne hqne, if_neg (by simp [hq0]), ih _ q hq.1 hq.2]
    congr 1
    apply BitVec.eq_of_toNat_eq
    simp only [BitVec.toNat_sub, BitVec.toNat_ofNat, show BitVec.toNat (1 : U64) = 1 from rfl]
    omega

/-- C09 and C08 are violated on GCC for an 8-bit enum nested in a class template whose second argument is printed with a
leading parenthesis: with the single large enumerator 130 the scan answers 8, and 130 becomes an empty value. -/
theorem C09_violated_gcc_template_scope :
    ∃ (declared : Nat → Bool) (item : Nat → List Char) (pre suf : List Char), '{' ∉ pre ∧
      (∀ v, declared v = false → (item v).head? = some '(') ∧
      (∀ v, declared v = true → item v ≠ [] ∧ (item v).head? ≠ some '(') ∧
      declared 130 = true ∧
      let m := gccMaxEnum (gccText pre suf item 256) (BitVec.ofNat 64 256)
      m = 8 ∧ ((enumReflectTraits 8 m).getLevel [130]).toNat < (enumReflectTraits 8 m).maxLevel := by
  let p := "(S<int".toList
  let q := "(& object)>::E)7".toList
  let d : Nat → Bool := fun v => v == 130
  let item : Nat → List Char := fun v => if v = 130 then "S<int, (& object)>::b".toList else p ++ ',' :: ' ' :: q
  refine ⟨d, item, [], [], by simp, ?_, ?_, by decide, ?_⟩
  · intro v hv
    have : v ≠ 130 := by simpa [d] using hv
    simp only [item, if_neg this]; decide
  · intro v hv
    have : v = 130 := by simpa [d] using hv
    subst this
    simp only [item]; decide
  · have hloop := gccLoop_double (p := p) (q := q) (by decide) (by decide) (by decide) (by decide) (item := item)
      (hi := 130) (fun v hv => by simp only [item]; rw [if_neg (by omega)]) (by decide) ('}' :: []) 124
    have hm : gccMaxEnum (gccText [] [] item 256) (BitVec.ofNat 64 256) = 8 := by
      have hb : gccAfterBrace (gccText [] [] item 256) =
          some (p ++ ',' :: ' ' :: (q ++ (itemsAfter [',', ' '] item (130 + 1 + 124) ++ '}' :: []))) := by
        have e : gccText [] [] item 256 =
            '{' :: (item 255 ++ (itemsAfter [',', ' '] item 255 ++ '}' :: [])) := by simp [gccText, items]
        rw [e]
        simp only [gccAfterBrace, if_true]
        have : item 255 = p ++ ',' :: ' ' :: q := by simp only [item]; rfl
        rw [this]; simp
      rw [gccMaxEnum, hb]
      simp only
      have hpne : p ≠ [] := by decide
      have hqne : q ≠ [] := by decide
      rw [head?_append_ne hpne, if_neg (by decide)]
      have hn : gccNextComma (p ++ ',' :: ' ' :: (q ++ (itemsAfter [',', ' '] item (130 + 1 + 124) ++ '}' :: []))) =
          some (',' :: ' ' :: (q ++ (itemsAfter [',', ' '] item (130 + 1 + 124) ++ '}' :: []))) := by
        rw [gccNextComma_append p _ (by decide) (by decide)]; simp [gccNextComma]
      have hl : gccLoop (BitVec.ofNat 64 256)
          (p ++ ',' :: ' ' :: (q ++ (itemsAfter [',', ' '] item (130 + 1 + 124) ++ '}' :: []))) = some 6 := by
        rw [gccLoop]
        split
        · rename_i hl'; rw [hn] at hl'; cases hl'
        · rename_i l' hl'
          rw [hn] at hl'
          cases hl'
          simp only [List.drop_succ_cons, List.drop_zero]
          rw [head?_append_ne hqne, if_neg (by decide), hloop _ q (by decide) (by decide)]
          decide
      rw [hl]
      decide
    refine ⟨hm, ?_⟩
    rw [hm]
    decide

end Opt.Enum
