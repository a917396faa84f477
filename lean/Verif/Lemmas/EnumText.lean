import Verif.Lemmas.EnumRound
import Verif.Spec.EnumText

namespace Opt.Enum

open Opt

/-! ## memchr and friends on concatenations -/

theorem memchr_append {c : Char} : ∀ (t l : List Char), c ∉ t → memchr c (t ++ l) = memchr c l
  | [], _, _ => rfl
  | d :: ds, l, h => by
    have h1 : d ≠ c := by intro e; apply h; simp [e]
    have h2 : c ∉ ds := by intro e; apply h; simp [e]
    simp only [List.cons_append, memchr, if_neg h1]
    exact memchr_append ds l h2

theorem memchr_none {c : Char} : ∀ (t : List Char), c ∉ t → memchr c t = none
  | [], _ => rfl
  | d :: ds, h => by
    have h1 : d ≠ c := by intro e; apply h; simp [e]
    have h2 : c ∉ ds := by intro e; apply h; simp [e]
    simp only [memchr, if_neg h1]
    exact memchr_none ds h2

theorem memchr_here {c : Char} (l : List Char) : memchr c (c :: l) = some (c :: l) := by simp [memchr]

theorem gccNextComma_append : ∀ (t l : List Char), ',' ∉ t → '}' ∉ t → gccNextComma (t ++ l) = gccNextComma l
  | [], _, _, _ => rfl
  | d :: ds, l, h, h' => by
    have h1 : d ≠ ',' := by intro e; apply h; simp [e]
    have h2 : ',' ∉ ds := by intro e; apply h; simp [e]
    have h3 : d ≠ '}' := by intro e; apply h'; simp [e]
    have h4 : '}' ∉ ds := by intro e; apply h'; simp [e]
    simp only [List.cons_append, gccNextComma, if_neg h1, if_neg h3]
    exact gccNextComma_append ds l h2 h4

theorem gccAfterBrace_append : ∀ (t l : List Char), '{' ∉ t → gccAfterBrace (t ++ l) = gccAfterBrace l
  | [], _, _ => rfl
  | d :: ds, l, h => by
    have h1 : d ≠ '{' := by intro e; apply h; simp [e]
    have h2 : '{' ∉ ds := by intro e; apply h; simp [e]
    simp only [List.cons_append, gccAfterBrace, if_neg h1]
    exact gccAfterBrace_append ds l h2

theorem head?_append_ne {a b : List Char} (h : a ≠ []) : (a ++ b).head? = a.head? := by
  cases a with
  | nil => exact absurd rfl h
  | cons x xs => rfl

theorem ofNat_succ_sub_one (n : Nat) : (BitVec.ofNat 64 (n + 1) : U64) - 1 = BitVec.ofNat 64 n := by
  apply BitVec.eq_of_toNat_eq
  rw [BitVec.toNat_sub, show BitVec.toNat (1 : U64) = 1 from rfl, BitVec.toNat_ofNat, BitVec.toNat_ofNat]
  omega

/-- what all the scanning loops return, started at candidate `n` (not declared) with `current = n + 1` -/
def scanResult (declared : Nat → Bool) (n : Nat) : Option U64 :=
  if scan declared n = 0 then none else some (BitVec.ofNat 64 (scan declared n))

theorem scanResult_zero (d : Nat → Bool) : scanResult d 0 = none := rfl

theorem scanResult_decl {d : Nat → Bool} {n : Nat} (h : d n = true) : scanResult d (n + 1) = some (BitVec.ofNat 64 (n + 1)) := by
  simp [scanResult, scan, h]

theorem scanResult_undecl {d : Nat → Bool} {n : Nat} (h : d n = false) : scanResult d (n + 1) = scanResult d n := by
  simp [scanResult, scan, h]

theorem cast_or {α : Bool} : α = true ∨ α = false := by cases α <;> simp

/-! ## GCC -/

theorem gccLoop_spec {d : Nat → Bool} {item : Nat → List Char} (h : GccItems d item) (suf : List Char) :
    ∀ (n : Nat) (t : List Char), ',' ∉ t → '}' ∉ t →
      gccLoop (BitVec.ofNat 64 (n + 1)) (t ++ (itemsAfter [',', ' '] item n ++ '}' :: suf)) = scanResult d n := by
  intro n
  induction n with
  | zero =>
    intro t h1 h2
    have hn : gccNextComma (t ++ (itemsAfter [',', ' '] item 0 ++ '}' :: suf)) = none := by
      rw [gccNextComma_append t _ h1 h2]; simp [itemsAfter, gccNextComma]
    rw [gccLoop]
    split
    · exact (scanResult_zero d).symm
    · rename_i l' hl'
      rw [hn] at hl'; cases hl'
  | succ n ih =>
    intro t h1 h2
    have hn : gccNextComma (t ++ (itemsAfter [',', ' '] item (n + 1) ++ '}' :: suf)) =
        some (',' :: ' ' :: (item n ++ (itemsAfter [',', ' '] item n ++ '}' :: suf))) := by
      rw [gccNextComma_append t _ h1 h2]; simp [itemsAfter, gccNextComma]
    rw [gccLoop]
    split
    · rename_i hl'; rw [hn] at hl'; cases hl'
    · rename_i l' hl'
      rw [hn] at hl'
      cases hl'
      simp only [List.drop_succ_cons, List.drop_zero, ofNat_succ_sub_one]
      rcases cast_or (α := d n) with hd | hd
      · obtain ⟨hne, hh⟩ := h.name n hd
        rw [head?_append_ne hne, if_pos hh, scanResult_decl hd]
      · have hc := h.cast n hd
        have hne : item n ≠ [] := by intro e; rw [e] at hc; cases hc
        rw [head?_append_ne hne, if_neg (by simp [hc]), scanResult_undecl hd]
        exact ih (item n) (h.clean n).1 (h.clean n).2

/-- the value computed from the result of a loop -/
def finish (r : Option U64) : U64 := match r with | none => 0 | some c => roundUp c

theorem finish_scanResult (d : Nat → Bool) (n : Nat) (htop : d n = false) :
    finish (scanResult d n) = maxEnumValue d (n + 1) := by
  simp only [finish, scanResult, maxEnumValue, Nat.add_sub_cancel, htop, Bool.false_eq_true, if_false]
  cases scan d n <;> simp

theorem gccMaxEnum_eq {d : Nat → Bool} {item : Nat → List Char} (h : GccItems d item) (pre suf : List Char)
    (hpre : '{' ∉ pre) (n : Nat) :
    gccMaxEnum (gccText pre suf item (n + 1)) (BitVec.ofNat 64 (n + 1)) = maxEnumValue d (n + 1) := by
  have ht : gccText pre suf item (n + 1) = pre ++ ('{' :: (item n ++ (itemsAfter [',', ' '] item n ++ '}' :: suf))) := by
    simp [gccText, items]
  have hb : gccAfterBrace (gccText pre suf item (n + 1)) =
      some (item n ++ (itemsAfter [',', ' '] item n ++ '}' :: suf)) := by
    rw [ht, gccAfterBrace_append _ _ hpre]; simp [gccAfterBrace]
  rw [gccMaxEnum, hb]
  simp only
  rcases cast_or (α := d n) with hd | hd
  · obtain ⟨hne, hh⟩ := h.name n hd
    rw [head?_append_ne hne, if_pos hh]
    simp [maxEnumValue, hd]
  · have hc := h.cast n hd
    have hne : item n ≠ [] := by intro e; rw [e] at hc; cases hc
    rw [head?_append_ne hne, if_neg (by simp [hc]), gccLoop_spec h suf n _ (h.clean n).1 (h.clean n).2]
    rw [← finish_scanResult d n hd]; rfl

/-! ## MSVC -/

theorem msvcLoop_spec {d : Nat → Bool} {item : Nat → List Char} (h : MsvcItems d item) (suf : List Char)
    (hsuf : ',' ∉ suf) :
    ∀ (n : Nat) (t : List Char), ',' ∉ t →
      msvcLoop (BitVec.ofNat 64 (n + 1)) (t ++ (itemsAfter [','] item n ++ '>' :: suf)) = scanResult d n := by
  intro n
  induction n with
  | zero =>
    intro t h1
    have hn : memchr ',' (t ++ (itemsAfter [','] item 0 ++ '>' :: suf)) = none := by
      rw [memchr_append t _ h1]; simp only [itemsAfter, List.nil_append]; exact memchr_none _ (by simp [hsuf])
    rw [msvcLoop]
    split
    · exact (scanResult_zero d).symm
    · rename_i l' hl'
      rw [hn] at hl'; cases hl'
  | succ n ih =>
    intro t h1
    have hn : memchr ',' (t ++ (itemsAfter [','] item (n + 1) ++ '>' :: suf)) =
        some (',' :: (item n ++ (itemsAfter [','] item n ++ '>' :: suf))) := by
      rw [memchr_append t _ h1]; simp [itemsAfter, memchr]
    rw [msvcLoop]
    split
    · rename_i hl'; rw [hn] at hl'; cases hl'
    · rename_i l' hl'
      rw [hn] at hl'
      cases hl'
      simp only [List.drop_succ_cons, List.drop_zero, ofNat_succ_sub_one]
      rcases cast_or (α := d n) with hd | hd
      · obtain ⟨hne, hh⟩ := h.name n hd
        rw [head?_append_ne hne, if_pos hh, scanResult_decl hd]
      · have hc := h.cast n hd
        have hne : item n ≠ [] := by intro e; rw [e] at hc; cases hc
        rw [head?_append_ne hne, if_neg (by simp [hc]), scanResult_undecl hd]
        exact ih (item n) (h.clean n)

theorem otherStart (pre : List Char) (hpre : '<' ∉ pre) (body : List Char) :
    memchr '<' (pre ++ '<' :: body) = some ('<' :: body) := by
  rw [memchr_append _ _ hpre, memchr_here]

theorem msvcMaxEnum_eq {d : Nat → Bool} {item : Nat → List Char} (h : MsvcItems d item) (pre suf : List Char)
    (hpre : '<' ∉ pre) (hsuf : ',' ∉ suf) (n : Nat) :
    otherMaxEnum .msvc (msvcText pre suf item (n + 1)) (BitVec.ofNat 64 (n + 1)) = maxEnumValue d (n + 1) := by
  have ht : msvcText pre suf item (n + 1) = pre ++ ('<' :: (item n ++ (itemsAfter [','] item n ++ '>' :: suf))) := by
    simp [msvcText, items]
  rw [otherMaxEnum, ht, otherStart _ hpre]
  simp only [List.drop_succ_cons, List.drop_zero]
  rcases cast_or (α := d n) with hd | hd
  · obtain ⟨hne, hh⟩ := h.name n hd
    rw [head?_append_ne hne, if_pos (by simpa using hh)]
    simp [maxEnumValue, hd]
  · have hc := h.cast n hd
    have hne : item n ≠ [] := by intro e; rw [e] at hc; cases hc
    rw [head?_append_ne hne, if_neg (by simp [hc]), msvcLoop_spec h suf hsuf n _ (h.clean n)]
    rw [← finish_scanResult d n hd]; rfl

/-! ## Clang <= 12 -/

theorem clang12Loop_spec {d : Nat → Bool} {item : Nat → List Char} (h : Clang12Items d item) (suf : List Char)
    (hsuf : ',' ∉ suf) :
    ∀ (n : Nat) (t : List Char), ',' ∉ t →
      clang12Loop (BitVec.ofNat 64 (n + 1)) (t ++ (itemsAfter [',', ' '] item n ++ '>' :: suf)) = scanResult d n := by
  intro n
  induction n with
  | zero =>
    intro t h1
    have hn : memchr ',' (t ++ (itemsAfter [',', ' '] item 0 ++ '>' :: suf)) = none := by
      rw [memchr_append t _ h1]; simp only [itemsAfter, List.nil_append]; exact memchr_none _ (by simp [hsuf])
    rw [clang12Loop]
    split
    · exact (scanResult_zero d).symm
    · rename_i l' hl'
      rw [hn] at hl'; cases hl'
  | succ n ih =>
    intro t h1
    have hn : memchr ',' (t ++ (itemsAfter [',', ' '] item (n + 1) ++ '>' :: suf)) =
        some (',' :: ' ' :: (item n ++ (itemsAfter [',', ' '] item n ++ '>' :: suf))) := by
      rw [memchr_append t _ h1]; simp [itemsAfter, memchr]
    rw [clang12Loop]
    split
    · rename_i hl'; rw [hn] at hl'; cases hl'
    · rename_i l' hl'
      rw [hn] at hl'
      cases hl'
      simp only [List.drop_succ_cons, List.drop_zero, ofNat_succ_sub_one]
      rcases cast_or (α := d n) with hd | hd
      · obtain ⟨c, rest, hi, hh⟩ := h.name n hd
        have hne : item n ≠ [] := by rw [hi]; simp
        rw [head?_append_ne hne, hi, if_pos, scanResult_decl hd]
        simp only [isDig, List.head?_cons]
        simpa using hh
      · obtain ⟨c, rest, hi, hh⟩ := h.cast n hd
        have hne : item n ≠ [] := by rw [hi]; simp
        rw [head?_append_ne hne, if_neg, scanResult_undecl hd]
        · exact ih (item n) (h.clean n)
        · rw [hi]; simp [isDig, hh.1, hh.2]

theorem clang12MaxEnum_eq {d : Nat → Bool} {item : Nat → List Char} (h : Clang12Items d item) (pre suf : List Char)
    (hpre : '<' ∉ pre) (hsuf : ',' ∉ suf) (n : Nat) :
    otherMaxEnum .clang12 (clangText pre suf item (n + 1)) (BitVec.ofNat 64 (n + 1)) = maxEnumValue d (n + 1) := by
  have ht : clangText pre suf item (n + 1) = pre ++ ('<' :: (item n ++ (itemsAfter [',', ' '] item n ++ '>' :: suf))) := by
    simp [clangText, items]
  rw [otherMaxEnum, ht, otherStart _ hpre]
  simp only [List.drop_succ_cons, List.drop_zero]
  rcases cast_or (α := d n) with hd | hd
  · obtain ⟨c, rest, hi, hh⟩ := h.name n hd
    have hne : item n ≠ [] := by rw [hi]; simp
    rw [head?_append_ne hne, if_pos]
    · simp [maxEnumValue, hd]
    · rw [hi]; simp only [isDig, List.head?_cons]; simpa using hh
  · obtain ⟨c, rest, hi, hh⟩ := h.cast n hd
    have hne : item n ≠ [] := by rw [hi]; simp
    rw [head?_append_ne hne, if_neg (by rw [hi]; simp [isDig, hh.1, hh.2]), clang12Loop_spec h suf hsuf n _ (h.clean n)]
    rw [← finish_scanResult d n hd]; rfl

/-! ## Clang > 12 -/

theorem clangLoop_spec {d : Nat → Bool} {item : Nat → List Char} (h : ClangItems d item) (suf : List Char)
    (hsuf : ',' ∉ suf) :
    ∀ (n : Nat) (t : List Char), ',' ∉ t →
      clangLoop (BitVec.ofNat 64 (n + 1)) (t ++ (itemsAfter [',', ' '] item n ++ '>' :: suf)) = scanResult d n := by
  intro n
  induction n with
  | zero =>
    intro t h1
    have hn : memchr ',' (t ++ (itemsAfter [',', ' '] item 0 ++ '>' :: suf)) = none := by
      rw [memchr_append t _ h1]; simp only [itemsAfter, List.nil_append]; exact memchr_none _ (by simp [hsuf])
    rw [clangLoop]
    split
    · exact (scanResult_zero d).symm
    · rename_i l' hl'
      rw [hn] at hl'; cases hl'
  | succ n ih =>
    intro t h1
    have hn : memchr ',' (t ++ (itemsAfter [',', ' '] item (n + 1) ++ '>' :: suf)) =
        some (',' :: ' ' :: (item n ++ (itemsAfter [',', ' '] item n ++ '>' :: suf))) := by
      rw [memchr_append t _ h1]; simp [itemsAfter, memchr]
    rw [clangLoop]
    split
    · rename_i hl'; rw [hn] at hl'; cases hl'
    · rename_i l' hl'
      rw [hn] at hl'
      cases hl'
      simp only [List.drop_succ_cons, List.drop_zero, ofNat_succ_sub_one]
      rcases cast_or (α := d n) with hd | hd
      · obtain ⟨hne, hh | ⟨ns, rest, hi, hns⟩⟩ := h.name n hd
        · rw [head?_append_ne hne, if_pos hh, scanResult_decl hd]
        · have hm : memchr ')' (item n ++ (itemsAfter [',', ' '] item n ++ '>' :: suf)) =
              some (')' :: ':' :: (rest ++ (itemsAfter [',', ' '] item n ++ '>' :: suf))) := by
            rw [hi]
            have e : '(' :: ns ++ ')' :: ':' :: rest ++ (itemsAfter [',', ' '] item n ++ '>' :: suf) =
              ('(' :: ns) ++ (')' :: (':' :: (rest ++ (itemsAfter [',', ' '] item n ++ '>' :: suf)))) := by simp
            rw [e, memchr_append _ _ (by simp [hns]), memchr_here]
          rw [head?_append_ne hne, if_neg (by rw [hi]; simp)]
          split
          · rename_i hl2; simp only [List.drop_succ_cons, List.drop_zero] at hl2; rw [hm] at hl2; cases hl2
          · rename_i l2 hl2
            simp only [List.drop_succ_cons, List.drop_zero] at hl2
            rw [hm] at hl2
            cases hl2
            rw [if_pos (by simp), scanResult_decl hd]
      · obtain ⟨ty, num, hi, hty, hnum, hcol⟩ := h.cast n hd
        have hne : item n ≠ [] := by rw [hi]; simp
        have hm : memchr ')' (item n ++ (itemsAfter [',', ' '] item n ++ '>' :: suf)) =
            some ((')' :: num) ++ (itemsAfter [',', ' '] item n ++ '>' :: suf)) := by
          rw [hi]
          have e : '(' :: ty ++ ')' :: num ++ (itemsAfter [',', ' '] item n ++ '>' :: suf) =
            ('(' :: ty) ++ (')' :: (num ++ (itemsAfter [',', ' '] item n ++ '>' :: suf))) := by simp
          rw [e, memchr_append _ _ (by simp [hty]), memchr_here]; rfl
        rw [head?_append_ne hne, if_neg (by rw [hi]; simp)]
        split
        · rename_i hl2; simp only [List.drop_succ_cons, List.drop_zero] at hl2; rw [hm] at hl2; cases hl2
        · rename_i l2 hl2
          simp only [List.drop_succ_cons, List.drop_zero] at hl2
          rw [hm] at hl2
          cases hl2
          rw [if_neg, scanResult_undecl hd]
          · refine ih (')' :: num) ?_
            have := h.clean n
            rw [hi] at this
            simp at this ⊢
            exact this.2
          · simp only [List.cons_append, List.drop_succ_cons, List.drop_zero]
            rw [head?_append_ne hnum]; exact hcol

/-- On clang the topmost candidate must not be an enumerator of an anonymous namespace: it is printed with a leading
parenthesis and taken for a cast. -/
theorem clangMaxEnum_eq {d : Nat → Bool} {item : Nat → List Char} (h : ClangItems d item) (pre suf : List Char)
    (hpre : '<' ∉ pre) (hsuf : ',' ∉ suf) (n : Nat) (htop : d n = true → (item n).head? ≠ some '(') :
    otherMaxEnum .clang (clangText pre suf item (n + 1)) (BitVec.ofNat 64 (n + 1)) = maxEnumValue d (n + 1) := by
  have ht : clangText pre suf item (n + 1) = pre ++ ('<' :: (item n ++ (itemsAfter [',', ' '] item n ++ '>' :: suf))) := by
    simp [clangText, items]
  rw [otherMaxEnum, ht, otherStart _ hpre]
  simp only [List.drop_succ_cons, List.drop_zero]
  rcases cast_or (α := d n) with hd | hd
  · obtain ⟨hne, _⟩ := h.name n hd
    rw [head?_append_ne hne, if_pos (by simpa using htop hd)]
    simp [maxEnumValue, hd]
  · obtain ⟨ty, num, hi, _⟩ := h.cast n hd
    have hne : item n ≠ [] := by rw [hi]; simp
    rw [head?_append_ne hne, if_neg (by rw [hi]; simp), clangLoop_spec h suf hsuf n _ (h.clean n)]
    rw [← finish_scanResult d n hd]; rfl

end Opt.Enum
