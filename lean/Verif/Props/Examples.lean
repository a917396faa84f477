import Verif.Lemmas.Examples

/-!
# C90: what the check of the examples finds
-/

namespace Opt.Examples

open Opt.Run (Text join splitOn splitOn_join)

/-- an example with the names of its source and its program -/
structure Entry where
  file : Text
  target : Text
  ex : Example

/-- the names have no semicolons, and this is what is there -/
structure Entry.Ok (S : Shell) (e : Entry) : Prop where
  file : ';' ∉ e.file
  target : ';' ∉ e.target
  holds : Holds S e.file e.target e.ex
  ex : e.ex.Ok

theorem main_entries {S : Shell} {es : List Entry} (hne : es ≠ []) (h : ∀ e ∈ es, e.Ok S) :
    main S (join ';' (es.map (·.file))) (join ';' (es.map (·.target))) = loop S [] (es.map fun e => (e.file, e.target)) := by
  rw [main, splitOn_join (by simpa using hne) (by simpa using fun e he => (h e he).file),
    splitOn_join (by simpa using hne) (by simpa using fun e he => (h e he).target), List.zip_map']

/-- **C90**: the script succeeds exactly if every program ends with 0 and prints one line for each mark of its source, in order, each as the mark
says.  Missing for all texts: a mark at the very end of a file without a line end is not seen (`C90_bare_violated`), and other line ends than
`\n` in the output cut lines in pieces (`C90_break_violated`). -/
theorem C90_success_partial {S : Shell} {es : List Entry} (hne : es ≠ []) (h : ∀ e ∈ es, e.Ok S) :
    main S (join ';' (es.map (·.file))) (join ';' (es.map (·.target))) = .success ↔ ∀ e ∈ es, e.ex.Good := by
  rw [main_entries hne h, loop_success]
  constructor
  · rintro ⟨_, h1⟩ e he
    exact (one_good (h e he).ex (h e he).holds).1 (h1 _ (List.mem_map_of_mem he))
  · intro h1
    refine ⟨rfl, fun p hp => ?_⟩
    obtain ⟨e, he, rfl⟩ := List.mem_map.1 hp
    exact (one_good (h e he).ex (h e he).holds).2 (h1 e he)

/-- what there is in the demonstrations: one file, one program -/
def demo (src : Text) (rc : Int) (out : Text) : Shell := ⟨fun _ => some src, fun _ => some (rc, out)⟩

/-- two lines with marks, one without; the last line lacks its end -/
def demoExample : Example :=
  ⟨⟨[txt"int main() {", txt"  print(f()); //$ true", txt"  print(hash()); //$  [number] "], txt"} //$ x"⟩, 0, ⟨[txt"true", txt" -1_234"], txt"x"⟩⟩

theorem demo_ok : Entry.Ok (demo demoExample.src.text 0 demoExample.out.text) ⟨txt"a.cpp", txt"a.out", demoExample⟩ where
  file := by decide
  target := by decide
  holds := ⟨rfl, rfl⟩
  ex := ⟨⟨by decide, by decide, by rw [marked_iff]; decide⟩, ⟨by decide, by decide⟩⟩

example : demoExample.Good := (C90_success_partial (es := [⟨txt"a.cpp", txt"a.out", demoExample⟩]) (by simp) fun _ h => by rw [List.mem_singleton.1 h]; exact demo_ok).1
    (by decide +kernel) ⟨txt"a.cpp", txt"a.out", demoExample⟩ List.mem_cons_self

/-- programs without a source and sources without a program are left out, silently -/
theorem C90_ignored {S : Shell} {fs ts gs us : List Text} (hl : fs.length = ts.length) (hne : fs ≠ []) (hs : gs = [] ∨ us = [])
    (hf : ∀ x ∈ fs ++ gs, ';' ∉ x) (ht : ∀ x ∈ ts ++ us, ';' ∉ x) :
    main S (join ';' (fs ++ gs)) (join ';' (ts ++ us)) = main S (join ';' fs) (join ';' ts) := by
  have hne' : ts ≠ [] := by
    rintro rfl
    exact hne (List.length_eq_zero_iff.1 hl)
  rw [main, main, splitOn_join (by simp [hne]) hf, splitOn_join (by simp [hne']) ht, splitOn_join hne fun x hx => hf x (by simp [hx]),
    splitOn_join hne' fun x hx => ht x (by simp [hx]), List.zip_append hl]
  rcases hs with rfl | rfl <;> simp

/-- the second source is never opened -/
example : main ⟨fun f => if f = txt"a" then some (txt"//$ 1") else none, fun _ => some (0, txt"1")⟩ (txt"a;b") (txt"p") = .success := by decide +kernel

/-- **C90**: the messages about lines are right and complete: each names the line of a mark, what it says and what was printed in its place.  The
numbers of lines are compared after that. -/
theorem C90_reports_partial {S : Shell} {f t : Text} {x : Example} (hx : x.Ok) (hS : Holds S f t x) (h0 : x.rc = 0) {es : List (Nat × Text)}
    {rs : List Text} (he : Expects 1 x.src.all es) (hr : Prints x.out.all rs) :
    (∀ n e r, .differs n e r ∈ (one S f t).1 ↔ ∃ k : Nat, es[k]? = some (n, e) ∧ rs[k]? = some r ∧ ¬ Shows e r) ∧
    (∀ k n, .abundance k n ∈ (one S f t).1 ↔ es.length = rs.length + k ∧ 0 < k ∧ ∃ e, es.getLast? = some (n, e)) ∧
    (∀ k n, .lack k n ∈ (one S f t).1 ↔ rs.length = es.length + k ∧ 0 < k ∧ ∃ e, es.getLast? = some (n, e)) ∧
    (∀ u, .failed u ∉ (one S f t).1) ∧
    ((one S f t).2 = true ↔ es = [] ∧ rs ≠ []) := by
  rw [one_eq hx hS h0]
  rw [expects_iff] at he
  have hst : ∀ r ∈ rs, strip r = r := by rw [prints_iff.1 hr]; exact strips _
  rw [prints_iff] at hr
  rw [← he, ← hr]
  have hd : ∀ n e r, .differs n e r ∈ diffs es rs ↔ ∃ k : Nat, es[k]? = some (n, e) ∧ rs[k]? = some r ∧ ¬ Shows e r := by
    intro n e r
    rw [diffs_mem]
    constructor
    · rintro ⟨k, h1, h2, h3⟩
      refine ⟨k, h1, h2, fun h => ?_⟩
      rw [(same_iff (hst r (List.mem_of_getElem? h2))).2 h] at h3
      cases h3
    · rintro ⟨k, h1, h2, h3⟩
      refine ⟨k, h1, h2, ?_⟩
      cases hs : same e r with
      | false => rfl
      | true => exact absurd ((same_iff (hst r (List.mem_of_getElem? h2))).1 hs) h3
  have ha : ∀ k n, .abundance k n ∉ diffs es rs := fun k n h => by obtain ⟨_, _, _, h⟩ := diffs_only _ h; cases h
  have hl : ∀ k n, .lack k n ∉ diffs es rs := fun k n h => by obtain ⟨_, _, _, h⟩ := diffs_only _ h; cases h
  have hf : ∀ u, .failed u ∉ diffs es rs := fun u h => by obtain ⟨_, _, _, h⟩ := diffs_only _ h; cases h
  simp only
  split
  · rename_i hgt
    cases hg : es.getLast? with
    | none =>
      rw [List.getLast?_eq_none_iff] at hg
      subst hg
      exact absurd hgt (by simp)
    | some l =>
      obtain ⟨ln, le⟩ := l
      have hes : es ≠ [] := by rintro rfl; cases hg
      refine ⟨fun n e r => by simp [hd], fun k n => ?_, fun k n => ?_, fun u => by simp [hf], by simp [hes]⟩
      · simp only [List.mem_append, ha, List.mem_singleton, Report.abundance.injEq, false_or, Option.some.injEq, Prod.mk.injEq]
        constructor
        · rintro ⟨rfl, rfl⟩; exact ⟨by omega, by omega, le, rfl, rfl⟩
        · rintro ⟨h1, h2, _, rfl, _⟩; exact ⟨by omega, rfl⟩
      · simp only [List.mem_append, hl, List.mem_singleton, reduceCtorEq, false_or, false_iff]
        rintro ⟨h1, _⟩; omega
  · split
    · rename_i hlt
      cases hg : es.getLast? with
      | none =>
        have he0 := List.getLast?_eq_none_iff.1 hg
        have hrs : rs ≠ [] := by rintro rfl; simp at hlt
        refine ⟨hd, fun k n => ?_, fun k n => ?_, hf, by simp [he0, hrs]⟩
        · simp [ha]
        · simp [hl]
      | some l =>
        obtain ⟨ln, le⟩ := l
        have hes : es ≠ [] := by rintro rfl; cases hg
        refine ⟨fun n e r => by simp [hd], fun k n => ?_, fun k n => ?_, fun u => by simp [hf], by simp [hes]⟩
        · simp only [List.mem_append, ha, List.mem_singleton, reduceCtorEq, false_or, false_iff]
          rintro ⟨h1, _⟩; omega
        · simp only [List.mem_append, hl, List.mem_singleton, Report.lack.injEq, false_or, Option.some.injEq, Prod.mk.injEq]
          constructor
          · rintro ⟨rfl, rfl⟩; exact ⟨by omega, by omega, le, rfl, rfl⟩
          · rintro ⟨h1, h2, _, rfl, _⟩; exact ⟨by omega, rfl⟩
    · rename_i hlt
      refine ⟨hd, fun k n => ?_, fun k n => ?_, hf, ?_⟩
      · simp only [ha, false_iff]; rintro ⟨h1, h2, _⟩; omega
      · simp only [hl, false_iff]; rintro ⟨h1, h2, _⟩; omega
      · simp only [Bool.false_eq_true, false_iff]
        rintro ⟨rfl, h⟩
        exact hlt (List.length_pos_iff.2 h)

/-- a wrong line and one too many -/
example : one (demo (txt"f(); //$ 1\ng(); //$ 2\n//$ 3\n") 0 (txt"1\n5\n")) (txt"a.cpp") (txt"a.out") =
    ([.differs 2 (txt"2") (txt"5"), .abundance 1 3], false) := by decide +kernel

/-- **C90**: a program that prints although its source has no marks ends the script: the examples after it are not looked at.  The same for a
program or a source that is not there. -/
theorem C90_stop {S : Shell} {ps qs : List Entry} {e : Entry} (h : ∀ x ∈ ps ++ e :: qs, x.Ok S) (hp : ∀ x ∈ ps, (one S x.file x.target).2 = false)
    (h0 : e.ex.rc = 0) (hm : ∀ l ∈ e.ex.src.all, Unmarked l) (ho : e.ex.out.all ≠ []) :
    main S (join ';' ((ps ++ e :: qs).map (·.file))) (join ';' ((ps ++ e :: qs).map (·.target))) =
      .crash (ps.flatMap fun x => (one S x.file x.target).1) := by
  rw [main_entries (by simp) h, List.map_append, loop_append (by
    intro p hp'
    obtain ⟨x, hx, rfl⟩ := List.mem_map.1 hp'
    exact hp x hx)]
  have he := h e (by simp)
  have hes : ∀ n (ls : List Text), (∀ l ∈ ls, Unmarked l) → Expects n ls [] := by
    intro n ls
    induction ls generalizing n with
    | nil => intro _; exact .nil
    | cons l ls ih => intro hl; exact .skip (hl l (by simp)) (ih _ fun x hx => hl x (List.mem_cons_of_mem _ hx))
  have hr := C90_reports_partial he.ex he.holds h0 (hes 1 _ hm) (prints_iff.2 rfl)
  have hb : (one S e.file e.target).2 = true := hr.2.2.2.2.2 ⟨rfl, by simpa using ho⟩
  have hn : (one S e.file e.target).1 = [] := by
    refine List.eq_nil_iff_forall_not_mem.2 fun r hr' => ?_
    cases r with
    | failed u => exact hr.2.2.2.1 u hr'
    | differs n x y => obtain ⟨k, hk, _⟩ := (hr.1 n x y).1 hr'; simp at hk
    | abundance k n => obtain ⟨_, _, _, hk⟩ := (hr.2.1 k n).1 hr'; simp at hk
    | lack k n => obtain ⟨_, _, _, hk⟩ := (hr.2.2.1 k n).1 hr'; simp at hk
  rw [List.map_cons, loop]
  rcases hone : one S e.file e.target with ⟨rs, b⟩
  rw [hone] at hb hn
  simp only at hb hn
  subst hb hn
  simp [List.flatMap_map]

example : main ⟨fun _ => some (txt"f();"), fun t => if t = txt"p" then some (0, txt"1\n") else none⟩ (txt"a;b") (txt"p;q") = .crash [] := by
  decide +kernel

/-- **C90** for all texts is false: a mark at the very end of a file is not seen -/
theorem C90_bare_violated : ∃ (S : Shell) (f t : Text) (x : Example), Holds S f t x ∧ (∀ l ∈ x.src.lines, '\n' ∉ l) ∧ '\n' ∉ x.src.tail ∧ x.out.Output ∧
    ';' ∉ f ∧ ';' ∉ t ∧ x.Good ∧ main S f t ≠ .success := by
  refine ⟨demo (txt"f(); //$") 0 (txt"\n"), txt"a.cpp", txt"a.out", ⟨⟨[], txt"f(); //$"⟩, 0, ⟨[[]], []⟩⟩, ⟨rfl, rfl⟩, by simp, by decide, ⟨by simp, by simp⟩,
    by decide, by decide, ⟨rfl, [(1, [])], [[]], ?_, ?_, ?_⟩, by decide +kernel⟩
  · rw [expects_iff]; decide
  · rw [prints_iff]; decide
  · exact .cons (.inl rfl) .nil

/-- **C90** for all texts is false: a line with a form feed is cut in two -/
theorem C90_break_violated : ∃ (S : Shell) (f t : Text) (x : Example), Holds S f t x ∧ x.src.Source ∧ (∀ l ∈ x.out.lines, '\n' ∉ l) ∧ '\n' ∉ x.out.tail ∧
    ';' ∉ f ∧ ';' ∉ t ∧ x.Good ∧ main S f t ≠ .success := by
  refine ⟨demo (txt"f(); //$ a\x0cb\n") 0 (txt"a\x0cb\n"), txt"a.cpp", txt"a.out", ⟨⟨[txt"f(); //$ a\x0cb"], []⟩, 0, ⟨[txt"a\x0cb"], []⟩⟩, ⟨rfl, rfl⟩,
    ⟨by decide, by decide, by rw [marked_iff]; decide⟩, by decide, by decide, by decide, by decide,
    ⟨rfl, [(1, txt"a\x0cb")], [txt"a\x0cb"], ?_, ?_, ?_⟩, by decide +kernel⟩
  · rw [expects_iff]; decide
  · rw [prints_iff]; decide
  · exact .cons (.inl rfl) .nil

#print axioms C90_success_partial
#print axioms C90_ignored
#print axioms C90_reports_partial
#print axioms C90_stop
#print axioms C90_bare_violated
#print axioms C90_break_violated

end Opt.Examples
