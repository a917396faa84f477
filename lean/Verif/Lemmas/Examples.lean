import Verif.Spec.Examples
import Verif.Lemmas.CodegenText

/-!
# Lemmas about the check of the examples
-/

namespace Opt.Examples

open Opt.Run (Text after splitOn isDigit join Digits value)

/-! ## White space -/

theorem dropWhile_space {a t : Text} (ha : ∀ c ∈ a, isSpace c = true) : (a ++ t).dropWhile isSpace = t.dropWhile isSpace := by
  induction a with
  | nil => rfl
  | cons x xs ih =>
    rw [List.cons_append, List.dropWhile_cons, if_pos (ha x (by simp))]
    exact ih fun c hc => ha c (List.mem_cons_of_mem _ hc)

theorem dropWhile_solid {t : Text} (h : ∀ c ∈ t.head?, isSpace c = false) : t.dropWhile isSpace = t := by
  cases t with
  | nil => rfl
  | cons x xs => rw [List.dropWhile_cons, if_neg (by simp [h x rfl])]

theorem head_dropWhile (t : Text) : ∀ c ∈ (t.dropWhile isSpace).head?, isSpace c = false := by
  induction t with
  | nil => simp
  | cons x xs ih =>
    rw [List.dropWhile_cons]
    split
    · exact ih
    · rename_i h
      intro c hc
      simp only [List.head?_cons, Option.mem_def, Option.some.injEq] at hc
      subst hc
      simpa using h

theorem trims_strip {t e : Text} (h : Trims t e) : strip t = e := by
  obtain ⟨a, b, rfl, ha, hb, h1, h2⟩ := h
  cases e with
  | nil =>
    have : (a ++ [] ++ b).dropWhile isSpace = [] := by
      rw [List.append_nil, dropWhile_space ha]
      have := dropWhile_space (t := []) hb
      simpa using this
    rw [strip, this]; rfl
  | cons x xs =>
    rw [strip, List.append_assoc, dropWhile_space ha, dropWhile_solid (t := x :: xs ++ b) (by simpa using h1), List.reverse_append,
      dropWhile_space (by simpa using hb), dropWhile_solid (by rw [List.head?_reverse]; exact h2), List.reverse_reverse]

theorem strip_trims (t : Text) : Trims t (strip t) := by
  refine ⟨t.takeWhile isSpace, ((t.dropWhile isSpace).reverse.takeWhile isSpace).reverse, ?_, ?_, ?_, ?_, ?_⟩
  · rw [strip, List.append_assoc, ← List.reverse_append, List.takeWhile_append_dropWhile, List.reverse_reverse, List.takeWhile_append_dropWhile]
  · intro c hc
    exact List.all_eq_true.1 (List.all_takeWhile) c hc
  · intro c hc
    exact List.all_eq_true.1 (List.all_takeWhile) c (List.mem_reverse.1 hc)
  · intro c hc
    have hs := List.takeWhile_append_dropWhile (p := isSpace) (l := (t.dropWhile isSpace).reverse)
    have hd : (t.dropWhile isSpace) = strip t ++ ((t.dropWhile isSpace).reverse.takeWhile isSpace).reverse := by
      rw [strip, ← List.reverse_append, hs, List.reverse_reverse]
    refine head_dropWhile t c ?_
    rw [hd]
    cases hst : strip t with
    | nil => rw [hst] at hc; simp at hc
    | cons x xs => rw [hst] at hc; simpa using hc
  · intro c hc
    rw [strip, List.getLast?_reverse] at hc
    exact head_dropWhile _ c hc

theorem trims_iff {t e : Text} : Trims t e ↔ e = strip t :=
  ⟨fun h => (trims_strip h).symm, fun h => h ▸ strip_trims t⟩

theorem strip_append_newline (t : Text) : strip (t ++ ['\n']) = strip t := by
  refine trims_strip ?_
  obtain ⟨a, b, h, ha, hb, h1, h2⟩ := strip_trims t
  refine ⟨a, b ++ ['\n'], ?_, ha, ?_, h1, h2⟩
  · conv => lhs; rw [h]
    simp
  · intro c hc
    rcases List.mem_append.1 hc with hc | hc
    · exact hb c hc
    · rw [List.mem_singleton.1 hc]; decide

theorem strip_strip (t : Text) : strip (strip t) = strip t := by
  obtain ⟨_, _, _, _, _, h1, h2⟩ := strip_trims t
  exact trims_strip ⟨[], [], by simp, by simp, by simp, h1, h2⟩

/-! ## Marks -/

/-- what follows the first mark -/
def cut : Text → Option Text
  | [] => none
  | x :: xs => if (txt"//$").isPrefixOf (x :: xs) then some ((x :: xs).drop 3) else cut xs

theorem after_cut : ∀ t : Text, after (txt"//$") t = (cut t).getD []
  | [] => rfl
  | x :: xs => by
    simp only [after, cut]
    split
    · rfl
    · exact after_cut xs

theorem cut_newline : ∀ t : Text, cut (t ++ ['\n']) = (cut t).map (· ++ ['\n'])
  | [] => rfl
  | x :: xs => by
    have ih := cut_newline xs
    have hp : (txt"//$").isPrefixOf (x :: xs ++ ['\n']) = (txt"//$").isPrefixOf (x :: xs) := by
      match xs with
      | [] => simp [List.isPrefixOf]
      | [y] => simp [List.isPrefixOf]
      | y :: z :: zs => simp [List.isPrefixOf]
    have e : cut (x :: xs ++ ['\n']) = if (txt"//$").isPrefixOf (x :: xs ++ ['\n']) then some ((x :: xs ++ ['\n']).drop 3) else cut (xs ++ ['\n']) := rfl
    rw [e, hp]
    by_cases h : (txt"//$").isPrefixOf (x :: xs) = true
    · rw [if_pos h, cut, if_pos h]
      match xs, h with
      | [], h => exact absurd h (by simp [List.isPrefixOf])
      | [y], h => exact absurd h (by simp [List.isPrefixOf])
      | y :: z :: zs, _ => rfl
    · rw [if_neg h, ih, cut, if_neg h]

theorem cut_sound : ∀ {t rest : Text}, cut t = some rest → Marked t rest
  | [], _, h => by cases h
  | x :: xs, rest, h => by
    rw [cut] at h
    split at h
    · rename_i hp
      cases h
      refine ⟨[], ?_, fun a' _ _ => Nat.zero_le _⟩
      have := List.isPrefixOf_iff_prefix.1 hp
      obtain ⟨s, hs⟩ := this
      rw [← hs]; simp
    · rename_i hp
      obtain ⟨a, ha, hm⟩ := cut_sound h
      refine ⟨x :: a, by rw [ha]; simp, fun a' rest' he => ?_⟩
      cases a' with
      | nil =>
        refine absurd (List.isPrefixOf_iff_prefix.2 ⟨rest', ?_⟩) hp
        rw [he]; simp
      | cons y a' =>
        simp only [List.cons_append, List.cons.injEq] at he
        have := hm a' rest' he.2
        simp only [List.length_cons]
        omega

theorem cut_none : ∀ {t : Text}, cut t = none → Unmarked t
  | [], _ => fun a rest h => by
    have := congrArg List.length h
    simp at this
  | x :: xs, h => by
    rw [cut] at h
    split at h
    · cases h
    · rename_i hp
      intro a rest he
      cases a with
      | nil => exact hp (List.isPrefixOf_iff_prefix.2 ⟨rest, by rw [he]; simp⟩)
      | cons y a =>
        simp only [List.cons_append, List.cons.injEq] at he
        exact cut_none h a rest he.2

theorem marked_unique {t r r' : Text} (h : Marked t r) (h' : Marked t r') : r = r' := by
  obtain ⟨a, ha, hm⟩ := h
  obtain ⟨b, hb, hn⟩ := h'
  have l1 := hm b r' hb
  have l2 := hn a r ha
  have e : a ++ (txt"//$" ++ r) = b ++ (txt"//$" ++ r') := by
    rw [← List.append_assoc, ← List.append_assoc, ← ha, ← hb]
  have := (List.append_inj e (by omega)).2
  exact (List.append_inj this rfl).2

theorem marked_iff {t r : Text} : Marked t r ↔ cut t = some r := by
  refine ⟨fun h => ?_, cut_sound⟩
  cases hc : cut t with
  | none =>
    obtain ⟨a, ha, _⟩ := h
    exact absurd ha (cut_none hc a r)
  | some r' => rw [marked_unique h (cut_sound hc)]

theorem unmarked_iff {t : Text} : Unmarked t ↔ cut t = none := by
  refine ⟨fun h => ?_, cut_none⟩
  cases hc : cut t with
  | none => rfl
  | some r =>
    obtain ⟨a, ha, _⟩ := cut_sound hc
    exact absurd ha (h a r)

/-- the marks of lines -/
def marks (n : Nat) : List Text → List (Nat × Text)
  | [] => []
  | l :: ls =>
    match cut l with
    | none => marks (n + 1) ls
    | some r => (n, strip r) :: marks (n + 1) ls

theorem expects_iff {n : Nat} {ls : List Text} {es : List (Nat × Text)} : Expects n ls es ↔ es = marks n ls := by
  constructor
  · intro h
    induction h with
    | nil => rfl
    | skip hu _ ih => rw [marks, unmarked_iff.1 hu]; exact ih
    | take hm ht _ ih => rw [marks, marked_iff.1 hm, trims_iff.1 ht, ih]
  · rintro rfl
    induction ls generalizing n with
    | nil => exact .nil
    | cons l ls ih =>
      rw [marks]
      cases hc : cut l with
      | none => exact .skip (unmarked_iff.2 hc) ih
      | some r => exact .take (marked_iff.2 hc) (strip_trims r) ih

theorem prints_iff {ls rs : List Text} : Prints ls rs ↔ rs = ls.map strip := by
  constructor
  · intro h
    induction h with
    | nil => rfl
    | cons ht _ ih => rw [trims_iff.1 ht, ih]; rfl
  · rintro rfl
    induction ls with
    | nil => exact .nil
    | cons l ls ih => exact .cons (strip_trims l) ih

/-! ## Lines -/

theorem readlines_line {t : Text} : ∀ {l : Text}, '\n' ∉ l → readlines (l ++ '\n' :: t) = (l ++ ['\n']) :: readlines t
  | [], _ => by simp [readlines]
  | x :: xs, h => by
    have hx : (x == '\n') = false := by
      rw [beq_eq_false_iff_ne]
      rintro rfl
      exact h (by simp)
    have ih := readlines_line (t := t) (l := xs) fun h' => h (List.mem_cons_of_mem _ h')
    simp only [List.cons_append, readlines, hx, Bool.false_eq_true, if_false, ih]

theorem readlines_tail : ∀ {l : Text}, '\n' ∉ l → readlines l = if l = [] then [] else [l]
  | [], _ => rfl
  | x :: xs, h => by
    have hx : (x == '\n') = false := by
      rw [beq_eq_false_iff_ne]
      rintro rfl
      exact h (by simp)
    have ih := readlines_tail (l := xs) fun h' => h (List.mem_cons_of_mem _ h')
    simp only [readlines, hx, Bool.false_eq_true, if_false, ih]
    cases xs <;> simp

theorem readlines_text {p : Page} (h1 : ∀ l ∈ p.lines, '\n' ∉ l) (h2 : '\n' ∉ p.tail) :
    readlines p.text = p.lines.map (· ++ ['\n']) ++ if p.tail = [] then [] else [p.tail] := by
  obtain ⟨ls, tl⟩ := p
  simp only [Page.text] at *
  induction ls with
  | nil => simpa [unlines] using readlines_tail h2
  | cons l ls ih =>
    have ih := ih fun l hl => h1 l (List.mem_cons_of_mem _ hl)
    have e : unlines (l :: ls) ++ tl = l ++ '\n' :: (unlines ls ++ tl) := by simp [unlines]
    rw [e, readlines_line (h1 l (by simp)), ih]
    simp

theorem newline_break : isBreak '\n' = true := by decide

theorem splitlines_line {t : Text} : ∀ {l : Text}, (∀ c ∈ l, isBreak c = false) → splitlines (l ++ '\n' :: t) = l :: splitlines t
  | [], _ => by simp [splitlines, newline_break]
  | x :: xs, h => by
    have ih := splitlines_line (t := t) (l := xs) fun c h' => h c (List.mem_cons_of_mem _ h')
    simp only [List.cons_append, splitlines, h x (by simp), Bool.false_eq_true, if_false, ih]

theorem splitlines_tail : ∀ {l : Text}, (∀ c ∈ l, isBreak c = false) → splitlines l = if l = [] then [] else [l]
  | [], _ => rfl
  | x :: xs, h => by
    have ih := splitlines_tail (l := xs) fun c h' => h c (List.mem_cons_of_mem _ h')
    simp only [splitlines, h x (by simp), Bool.false_eq_true, if_false, ih]
    cases xs <;> simp

theorem splitlines_text {p : Page} (h : p.Output) : splitlines p.text = p.all := by
  obtain ⟨h1, h2⟩ := h
  obtain ⟨ls, tl⟩ := p
  simp only [Page.text, Page.all] at *
  induction ls with
  | nil => simpa [unlines] using splitlines_tail h2
  | cons l ls ih =>
    have ih := ih fun l hl => h1 l (List.mem_cons_of_mem _ hl)
    have e : unlines (l :: ls) ++ tl = l ++ '\n' :: (unlines ls ++ tl) := by simp [unlines]
    rw [e, splitlines_line (h1 l (by simp)), ih]
    simp

theorem expectations_lines {n : Nat} {ls ms : List Text} (h : expectations (n + ls.length) ms = marks (n + ls.length) ms) :
    expectations n (ls.map (· ++ ['\n']) ++ ms) = marks n (ls ++ ms) := by
  induction ls generalizing n with
  | nil => simpa using h
  | cons l ls ih =>
    have ih := ih (n := n + 1) (by rw [show n + 1 + ls.length = n + (l :: ls).length by simp; omega]; exact h)
    simp only [List.map_cons, List.cons_append, expectations, after_cut, cut_newline, marks]
    cases hc : cut l with
    | none => simpa using ih
    | some r => simp [strip_append_newline, ih]

theorem expectations_tail {n : Nat} {t : Text} (h : ¬ Marked t []) : expectations n [t] = marks n [t] := by
  rw [marked_iff] at h
  simp only [expectations, after_cut, marks]
  cases hc : cut t with
  | none => rfl
  | some r =>
    cases r with
    | nil => exact absurd hc h
    | cons x xs => rfl

theorem expectations_text {p : Page} (h : p.Source) : expectations 1 (readlines p.text) = marks 1 p.all := by
  rw [readlines_text h.lines h.tail, Page.all]
  refine expectations_lines ?_
  by_cases ht : p.tail = []
  · rw [if_pos ht]; rfl
  · rw [if_neg ht]; exact expectations_tail h.bare

/-! ## Numbers -/

theorem intRest_digit {n : Nat} {c : Char} {t : Text} (h : isDigit c = true) : intRest n (c :: t) = intRest (n * 10 + digit c) t := by
  cases t with
  | nil => simp [intRest, h]
  | cons d t => simp [intRest, h]

theorem intRest_under {n : Nat} {c : Char} {t : Text} (h : isDigit c = true) : intRest n ('_' :: c :: t) = intRest (n * 10 + digit c) t := by
  have hu : isDigit '_' = false := by decide
  simp [intRest, h, hu]

theorem intRest_digits {d t : Text} (h : ∀ c ∈ d, isDigit c = true) :
    ∀ {n : Nat}, intRest n (d ++ t) = intRest (d.foldl (fun n c => n * 10 + digit c) n) t := by
  induction d with
  | nil => intro n; rfl
  | cons c d ih =>
    intro n
    rw [List.cons_append, intRest_digit (h c (by simp)), ih fun c hc => h c (List.mem_cons_of_mem _ hc)]
    rfl

theorem join_cons (c x : Char) (d : Text) (ds : List Text) : join c ((x :: d) :: ds) = x :: join c (d :: ds) := by
  cases ds <;> rfl

theorem intRest_join : ∀ {ds : List Text} {d : Text} {n : Nat}, (∀ c ∈ d, isDigit c = true) → (∀ x ∈ ds, Digits x) →
    intRest n (join '_' (d :: ds)) = some ((d ++ ds.flatten).foldl (fun n c => n * 10 + digit c) n)
  | [], d, n, hd, _ => by
    have := intRest_digits (t := []) (n := n) hd
    rw [List.append_nil] at this
    simp [join, this, intRest]
  | x :: xs, d, n, hd, hx => by
    obtain ⟨hne, hdig⟩ := hx x (by simp)
    match x, hne, hdig with
    | c :: x, _, hdig =>
      rw [join, intRest_digits hd, join_cons, intRest_under (hdig c (by simp)),
        intRest_join (fun c hc => hdig c (List.mem_cons_of_mem _ hc)) fun y hy => hx y (List.mem_cons_of_mem _ hy)]
      simp

theorem intRest_some {n : Nat} {t : Text} {m : Nat} (h : intRest n t = some m) :
    ∃ d ds, (∀ c ∈ d, isDigit c = true) ∧ (∀ x ∈ ds, Digits x) ∧ t = join '_' (d :: ds) := by
  fun_induction intRest n t with
  | case1 => exact ⟨[], [], by simp, by simp, rfl⟩
  | case2 n c hc => exact ⟨[c], [], by simpa using hc, by simp, rfl⟩
  | case3 => cases h
  | case4 n c d t hc ih =>
    obtain ⟨d0, ds, h1, h2, h3⟩ := ih h
    refine ⟨c :: d0, ds, ?_, h2, by rw [join_cons, h3]⟩
    intro x hx
    rcases List.mem_cons.1 hx with rfl | hx
    · exact hc
    · exact h1 x hx
  | case5 n c d t hc hu ih =>
    obtain ⟨d0, ds, h1, h2, h3⟩ := ih h
    simp only [Bool.and_eq_true, beq_iff_eq] at hu
    obtain ⟨rfl, hd⟩ := hu
    refine ⟨[], (d :: d0) :: ds, by simp, ?_, ?_⟩
    · intro x hx
      rcases List.mem_cons.1 hx with rfl | hx
      · refine ⟨by simp, fun y hy => ?_⟩
        rcases List.mem_cons.1 hy with rfl | hy
        · exact hd
        · exact h1 y hy
      · exact h2 x hx
    · rw [join, join_cons, h3]; rfl
  | case6 => cases h

theorem intStart_iff {t : Text} {n : Nat} :
    intStart t = some n ↔ ∃ ds : List Text, ds ≠ [] ∧ (∀ d ∈ ds, Digits d) ∧ t = join '_' ds ∧ n = value ds.flatten := by
  constructor
  · intro h
    cases t with
    | nil => cases h
    | cons c t =>
      rw [intStart] at h
      split at h
      · rename_i hc
        obtain ⟨d, ds, h1, h2, h3⟩ := intRest_some h
        refine ⟨(c :: d) :: ds, by simp, ?_, by rw [join_cons, h3], ?_⟩
        · intro x hx
          rcases List.mem_cons.1 hx with rfl | hx
          · refine ⟨by simp, fun y hy => ?_⟩
            rcases List.mem_cons.1 hy with rfl | hy
            · exact hc
            · exact h1 y hy
          · exact h2 x hx
        · rw [h3, intRest_join h1 h2] at h
          cases h
          rw [← Opt.Run.value_foldl]
          simp [digit]
      · cases h
  · rintro ⟨ds, hne, hd, rfl, rfl⟩
    match ds, hne with
    | d :: ds, _ =>
      obtain ⟨h1, h2⟩ := hd d (by simp)
      match d, h1, h2 with
      | c :: d, _, h2 =>
        rw [join_cons, intStart, if_pos (h2 c (by simp)),
          intRest_join (fun c hc => h2 c (List.mem_cons_of_mem _ hc)) fun y hy => hd y (List.mem_cons_of_mem _ hy), ← Opt.Run.value_foldl]
        simp [digit]

theorem head_digits {ds : List Text} (hne : ds ≠ []) (hd : ∀ d ∈ ds, Digits d) : ∃ c t, join '_' ds = c :: t ∧ isDigit c = true := by
  match ds, hne with
  | d :: ds, _ =>
    obtain ⟨h1, h2⟩ := hd d (by simp)
    match d, h1, h2 with
    | c :: d, _, h2 => exact ⟨c, _, join_cons .., h2 c (by simp)⟩

theorem tryInt_iff {t : Text} {x : Int} (ht : strip t = t) : tryInt t = some x ↔ Numeral t x := by
  rw [tryInt, ht]
  have hp : isDigit '+' = false := by decide
  have hm : isDigit '-' = false := by decide
  constructor
  · intro h
    cases t with
    | nil => cases h
    | cons c t =>
      simp only at h
      split at h
      · rename_i hc
        rw [beq_iff_eq] at hc
        subst hc
        obtain ⟨n, hn, rfl⟩ := Option.map_eq_some_iff.1 h
        obtain ⟨ds, h1, h2, rfl, rfl⟩ := intStart_iff.1 hn
        exact ⟨ds, h1, h2, .inr (.inl ⟨rfl, rfl⟩)⟩
      · split at h
        · rename_i hc
          rw [beq_iff_eq] at hc
          subst hc
          obtain ⟨n, hn, rfl⟩ := Option.map_eq_some_iff.1 h
          obtain ⟨ds, h1, h2, rfl, rfl⟩ := intStart_iff.1 hn
          exact ⟨ds, h1, h2, .inr (.inr ⟨rfl, rfl⟩)⟩
        · obtain ⟨n, hn, rfl⟩ := Option.map_eq_some_iff.1 h
          obtain ⟨ds, h1, h2, h3, rfl⟩ := intStart_iff.1 hn
          exact ⟨ds, h1, h2, .inl ⟨h3, rfl⟩⟩
  · rintro ⟨ds, h1, h2, ⟨rfl, rfl⟩ | ⟨rfl, rfl⟩ | ⟨rfl, rfl⟩⟩
    · obtain ⟨c, t, he, hc⟩ := head_digits h1 h2
      have hs : intStart (join '_' ds) = some (value ds.flatten) := intStart_iff.2 ⟨ds, h1, h2, rfl, rfl⟩
      rw [he] at hs ⊢
      have c1 : (c == '+') = false := by rw [beq_eq_false_iff_ne]; rintro rfl; rw [hp] at hc; cases hc
      have c2 : (c == '-') = false := by rw [beq_eq_false_iff_ne]; rintro rfl; rw [hm] at hc; cases hc
      simp only [c1, c2, hs, Bool.false_eq_true, if_false, Option.map_some]
    · have hs : intStart (join '_' ds) = some (value ds.flatten) := intStart_iff.2 ⟨ds, h1, h2, rfl, rfl⟩
      simp [hs]
    · have hs : intStart (join '_' ds) = some (value ds.flatten) := intStart_iff.2 ⟨ds, h1, h2, rfl, rfl⟩
      simp [hs]

theorem same_iff {e r : Text} (hr : strip r = r) : same e r = true ↔ Shows e r := by
  have h0 : ∀ x, tryInt r = some x ↔ Numeral r x := fun x => tryInt_iff hr
  have hs : (tryInt r).isSome = true ↔ ∃ x, Numeral r x := by
    rw [Option.isSome_iff_exists]
    exact ⟨fun ⟨x, hx⟩ => ⟨x, (h0 x).1 hx⟩, fun ⟨x, hx⟩ => ⟨x, (h0 x).2 hx⟩⟩
  unfold same Shows
  rw [← hs, ← h0 0]
  by_cases e1 : e = txt"[number]"
  · subst e1
    by_cases hb : (tryInt r).isSome = true
    · simp [hb]
    · simp [hb]
  · by_cases e2 : e = txt"[nullptr]"
    · subst e2
      by_cases hb : tryInt r = some 0 ∨ r = txt"(nil)"
      · simp [hb]
      · simp [hb]
    · simp [e1, e2]

/-! ## Comparing -/

theorem diffs_mem {n : Nat} {e r : Text} : ∀ {es : List (Nat × Text)} {rs : List Text},
    .differs n e r ∈ diffs es rs ↔ ∃ k : Nat, es[k]? = some (n, e) ∧ rs[k]? = some r ∧ same e r = false
  | [], rs => by cases rs <;> simp [diffs]
  | (n', e') :: es, [] => by simp [diffs]
  | (n', e') :: es, r' :: rs => by
    have ih := diffs_mem (n := n) (e := e) (r := r) (es := es) (rs := rs)
    rw [diffs]
    have key : (∃ k : Nat, ((n', e') :: es)[k]? = some (n, e) ∧ (r' :: rs)[k]? = some r ∧ same e r = false) ↔
        (((n', e') = (n, e) ∧ r' = r ∧ same e r = false) ∨ ∃ k : Nat, es[k]? = some (n, e) ∧ rs[k]? = some r ∧ same e r = false) := by
      constructor
      · rintro ⟨k, h⟩
        cases k with
        | zero => exact .inl (by simpa using h)
        | succ k => exact .inr ⟨k, by simpa using h⟩
      · rintro (h | ⟨k, h⟩)
        · exact ⟨0, by simpa using h⟩
        · exact ⟨k + 1, by simpa using h⟩
    rw [key, ← ih]
    split
    · rename_i hs
      constructor
      · exact .inr
      · rintro (⟨h1, rfl, h3⟩ | h)
        · cases h1; rw [hs] at h3; cases h3
        · exact h
    · rename_i hs
      rw [List.mem_cons]
      constructor
      · rintro (h | h)
        · cases h; exact .inl ⟨rfl, rfl, by simpa using hs⟩
        · exact .inr h
      · rintro (⟨h1, rfl, h3⟩ | h)
        · cases h1; exact .inl rfl
        · exact .inr h

theorem diffs_only : ∀ {es : List (Nat × Text)} {rs : List Text}, ∀ x ∈ diffs es rs, ∃ n e r, x = .differs n e r
  | [], rs, x, h => by cases rs <;> simp [diffs] at h
  | (n', e') :: es, [], x, h => by simp [diffs] at h
  | (n', e') :: es, r' :: rs, x, h => by
    rw [diffs] at h
    split at h
    · exact diffs_only x h
    · rcases List.mem_cons.1 h with rfl | h
      · exact ⟨_, _, _, rfl⟩
      · exact diffs_only x h

theorem agree_iff : ∀ {es : List (Nat × Text)} {rs : List Text}, (∀ r ∈ rs, strip r = r) →
    (Agree es rs ↔ es.length = rs.length ∧ diffs es rs = [])
  | [], [], _ => ⟨fun _ => ⟨rfl, rfl⟩, fun _ => .nil⟩
  | [], r :: rs, _ => ⟨fun h => (by cases h), fun h => (by simp at h)⟩
  | x :: es, [], _ => ⟨fun h => (by cases h), fun h => (by simp at h)⟩
  | (n, e) :: es, r :: rs, hr => by
    have ih := agree_iff (es := es) (rs := rs) fun r h => hr r (List.mem_cons_of_mem _ h)
    have hs := same_iff (e := e) (hr r (by simp))
    rw [diffs]
    constructor
    · intro h
      cases h with
      | cons h1 h2 =>
        rw [if_pos (hs.2 h1)]
        exact ⟨by simp [(ih.1 h2).1], (ih.1 h2).2⟩
    · rintro ⟨h1, h2⟩
      split at h2
      · rename_i hb
        exact .cons (hs.1 hb) (ih.2 ⟨by simpa using h1, h2⟩)
      · cases h2

/-! ## One example -/

variable {S : Shell} {f t : Text} {x : Example}

/-- the marks and the printed lines -/
theorem one_eq (hx : x.Ok) (hS : Holds S f t x) (h0 : x.rc = 0) :
    one S f t =
      let es := marks 1 x.src.all
      let rs := x.out.all.map strip
      if es.length > rs.length then
        match es.getLast? with
        | some l => (diffs es rs ++ [.abundance (es.length - rs.length) l.1], false)
        | none => (diffs es rs, true)
      else if es.length < rs.length then
        match es.getLast? with
        | some l => (diffs es rs ++ [.lack (rs.length - es.length) l.1], false)
        | none => (diffs es rs, true)
      else (diffs es rs, false) := by
  obtain ⟨hf, ht⟩ := hS
  simp only [one, ht, hf, h0, ne_eq, not_true_eq_false, if_false, expectations_text hx.src, splitlines_text hx.out]
  rfl

theorem one_failed (hS : Holds S f t x) (h0 : x.rc ≠ 0) : one S f t = ([.failed t], false) := by
  simp only [one, hS.2, ne_eq, h0, not_false_eq_true, if_true]

theorem strips (ls : List Text) : ∀ r ∈ ls.map strip, strip r = r := by
  intro r hr
  obtain ⟨l, _, rfl⟩ := List.mem_map.1 hr
  exact strip_strip l

theorem one_good (hx : x.Ok) (hS : Holds S f t x) : one S f t = ([], false) ↔ x.Good := by
  by_cases h0 : x.rc = 0
  · rw [one_eq hx hS h0]
    have hg : x.Good ↔ (marks 1 x.src.all).length = (x.out.all.map strip).length ∧ diffs (marks 1 x.src.all) (x.out.all.map strip) = [] := by
      rw [← agree_iff (strips _)]
      constructor
      · rintro ⟨_, es, rs, h1, h2, h3⟩
        rw [expects_iff.1 h1, prints_iff.1 h2] at h3
        exact h3
      · intro h
        exact ⟨h0, _, _, expects_iff.2 rfl, prints_iff.2 rfl, h⟩
    rw [hg]
    simp only
    generalize marks 1 x.src.all = es
    generalize x.out.all.map strip = rs
    split
    · rename_i hl
      constructor
      · intro h
        split at h
        · simp at h
        · simp at h
      · rintro ⟨h, _⟩; omega
    · split
      · rename_i hl
        constructor
        · intro h
          split at h
          · simp at h
          · simp at h
        · rintro ⟨h, _⟩; omega
      · simp
        intro _
        omega
  · rw [one_failed hS h0]
    constructor
    · intro h; simp at h
    · rintro ⟨h, _⟩; exact absurd h h0

/-! ## All examples -/

theorem loop_success : ∀ {ps : List (Text × Text)} {acc : List Report},
    loop S acc ps = .success ↔ acc = [] ∧ ∀ p ∈ ps, one S p.1 p.2 = ([], false)
  | [], acc => by
    rw [loop]
    cases acc <;> simp
  | (f, t) :: ps, acc => by
    rw [loop]
    have ih := fun rs => loop_success (ps := ps) (acc := acc ++ rs)
    rcases ho : one S f t with ⟨rs, b⟩
    cases b with
    | true => simp [ho]
    | false =>
      simp only [ih, List.append_eq_nil_iff, List.mem_cons, forall_eq_or_imp, ho, Prod.mk.injEq, and_true]
      constructor
      · rintro ⟨⟨a, b⟩, c⟩; exact ⟨a, b, c⟩
      · rintro ⟨a, b, c⟩; exact ⟨⟨a, b⟩, c⟩

theorem loop_append : ∀ {ps qs : List (Text × Text)} {acc : List Report}, (∀ p ∈ ps, (one S p.1 p.2).2 = false) →
    loop S acc (ps ++ qs) = loop S (acc ++ ps.flatMap fun p => (one S p.1 p.2).1) qs
  | [], qs, acc, _ => by simp
  | (f, t) :: ps, qs, acc, h => by
    have h1 := h (f, t) (by simp)
    rw [List.cons_append, loop]
    rcases ho : one S f t with ⟨rs, b⟩
    simp only [ho] at h1
    subst h1
    show loop S (acc ++ rs) (ps ++ qs) = _
    rw [loop_append fun p hp => h p (List.mem_cons_of_mem _ hp)]
    simp [ho]

end Opt.Examples
