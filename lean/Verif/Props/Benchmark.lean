import Verif.Spec.Benchmark

/-!
# C94: the sources of the benchmark
-/

namespace Opt.Benchmark

open Opt.Run (Text)
open Opt.Examples (strip tryInt)

theorem str_inj {i j : Nat} (h : str i = str j) : i = j := by
  have := congrArg (fun t => Nat.ofDigitChars 10 t 0) h
  simpa [str, Nat.ofDigitChars_ten_toDigits] using this

theorem ident (c : Char) (hc : c.isAlpha = true) (i : Nat) : Ident (c :: str i) :=
  ⟨c, _, rfl, hc, fun d hd => by
    have := Nat.isDigit_of_mem_toDigits (by decide) (by decide) hd
    rw [Char.isAlphanum, this, Bool.or_true]⟩

/-- the declarations for the numbers below `n` -/
def decls (cls : Text) : Nat → List Decl
  | 0 => []
  | n + 1 => decls cls n ++ [.struct ('S' :: str n), .var cls ('S' :: str n) ('b' :: str n)]

theorem body_text (cls : Text) (n : Nat) : body cls n = (decls cls n).flatMap Decl.text := by
  induction n with
  | zero => rfl
  | succ n ih =>
    rw [body, decls, List.flatMap_append, ← ih]
    simp [lines, Decl.text]

/-- names known after some declarations -/
def after (t : List Text × List Text) : List Decl → List Text × List Text
  | [] => t
  | .struct n :: ds => after (n :: t.1, n :: t.2) ds
  | .var _ _ n :: ds => after (t.1, n :: t.2) ds

theorem compiles_append (ds es : List Decl) (t : List Text × List Text) :
    Compiles t.1 t.2 (ds ++ es) ↔ Compiles t.1 t.2 ds ∧ Compiles (after t ds).1 (after t ds).2 es := by
  induction ds generalizing t with
  | nil => simp [Compiles, after]
  | cons d ds ih =>
    cases d with
    | struct n =>
      have := ih (n :: t.1, n :: t.2)
      simp only [List.cons_append, Compiles, after, this, and_assoc]
    | var c a n =>
      have := ih (t.1, n :: t.2)
      simp only [List.cons_append, Compiles, after, this, and_assoc]

theorem after_append (t : List Text × List Text) (ds es : List Decl) : after t (ds ++ es) = after (after t ds) es := by
  induction ds generalizing t with
  | nil => rfl
  | cons d ds ih => cases d <;> exact ih _

theorem after_decls (cls : Text) (n : Nat) : ∀ m ∈ (after ([], []) (decls cls n)).2, ∃ i, i < n ∧ (m = 'S' :: str i ∨ m = 'b' :: str i) := by
  induction n with
  | zero => intro m hm; cases hm
  | succ n ih =>
    intro m hm
    rw [decls, after_append] at hm
    simp only [after, List.mem_cons] at hm
    rcases hm with rfl | rfl | hm
    · exact ⟨n, by omega, .inr rfl⟩
    · exact ⟨n, by omega, .inl rfl⟩
    · obtain ⟨i, h1, h2⟩ := ih m hm
      exact ⟨i, by omega, h2⟩

theorem compiles_decls (cls : Text) (n : Nat) : Compiles [] [] (decls cls n) := by
  induction n with
  | zero => trivial
  | succ n ih =>
    rw [decls, compiles_append (t := ([], []))]
    have ha := after_decls cls n
    refine ⟨ih, ident _ (by decide) _, fun h => ?_, ident _ (by decide) _, List.mem_cons_self, fun h => ?_, trivial⟩
    · obtain ⟨i, h1, h2⟩ := ha _ h
      rcases h2 with h2 | h2
      · have := str_inj (List.cons.inj h2).2
        omega
      · exact absurd (List.cons.inj h2).1 (by decide)
    · rcases List.mem_cons.1 h with h | h
      · exact absurd (List.cons.inj h).1 (by decide)
      · obtain ⟨i, h1, h2⟩ := ha _ h
        rcases h2 with h2 | h2
        · exact absurd (List.cons.inj h2).1 (by decide)
        · have := str_inj (List.cons.inj h2).2
          omega

theorem instances_append (ds es : List Decl) : instances (ds ++ es) = instances ds ++ instances es := by
  induction ds with
  | nil => rfl
  | cons d ds ih => cases d <;> simp [instances, ih]

theorem instances_decls (cls : Text) (n : Nat) :
    (instances (decls cls n)).length = n ∧ (instances (decls cls n)).Nodup ∧ ∀ p ∈ instances (decls cls n), p.1 = cls ∧ ∃ i, i < n ∧ p.2 = 'S' :: str i := by
  induction n with
  | zero => exact ⟨rfl, List.nodup_nil, fun _ h => nomatch h⟩
  | succ n ih =>
    have e : instances (decls cls (n + 1)) = instances (decls cls n) ++ [(cls, 'S' :: str n)] := by
      rw [decls, instances_append]; rfl
    rw [e]
    refine ⟨by simp [ih.1], ?_, ?_⟩
    · rw [List.nodup_append]
      refine ⟨ih.2.1, by simp, ?_⟩
      intro a ha b hb hab
      obtain ⟨_, i, h1, h2⟩ := ih.2.2 a ha
      rw [hab, List.mem_singleton.1 hb] at h2
      have := str_inj (List.cons.inj h2).2
      omega
    · intro p hp
      rcases List.mem_append.1 hp with hp | hp
      · obtain ⟨h, i, h1, h2⟩ := ih.2.2 p hp
        exact ⟨h, i, by omega, h2⟩
      · rw [List.mem_singleton.1 hp]
        exact ⟨rfl, n, by omega, rfl⟩

theorem using_decls (c d : Text) (n : Nat) : (decls c n).map (Decl.using d) = decls d n := by
  induction n with
  | zero => rfl
  | succ n ih => rw [decls, decls, List.map_append, ih]; rfl

/-- **C94**: for every number of iterations the two files are written in the same way and compare like with like: after the header of its class
each has the same declarations up to the class, which compile (every name is declared once, and before it is used) and instantiate the class
exactly that many times, each time with another type. -/
theorem C94_alike (n : Int) (number : Text) (hn : tryInt number = some n) : ∃ ds : List Decl,
    Compiles [] [] ds ∧ (instances ds).length = n.toNat ∧ ((instances ds).map Prod.snd).Nodup ∧
    ∀ p rest mode header, (mode, header) ∈ [(txt"opt::option", txt"#include <opt/option.hpp>\n"), (txt"std::optional", txt"#include <optional>\n")] →
      main (mode :: p :: number :: rest) = .wrote (strip p) (header ++ (ds.map (Decl.using mode)).flatMap Decl.text) := by
  have hi := instances_decls [] n.toNat
  refine ⟨decls [] n.toNat, compiles_decls _ _, hi.1, ?_, ?_⟩
  · rw [List.nodup_iff_pairwise_ne, List.pairwise_map]
    refine List.Pairwise.imp_of_mem ?_ (List.nodup_iff_pairwise_ne.1 hi.2.1)
    intro a b ha hb hab h
    exact hab (Prod.ext ((hi.2.2 a ha).1.trans (hi.2.2 b hb).1.symm) h)
  · intro p rest mode header hm
    rw [using_decls, ← body_text]
    simp only [List.mem_cons, Prod.mk.injEq, List.not_mem_nil, or_false] at hm
    rcases hm with ⟨rfl, rfl⟩ | ⟨rfl, rfl⟩
    · rw [main, hn]; rfl
    · rw [main, hn]; rfl

/-- `2000`, as in CMakeLists.txt -/
example : tryInt (txt"2000") = some 2000 := by decide

/-- **C94**: the script fails and writes nothing exactly if there are fewer than three arguments, the third is no number or the first is no class; a
number that is none is noticed first. -/
theorem C94_fails (argv : List Text) : (∃ p t, main argv = .wrote p t) ↔ ∃ mode path number rest, argv = mode :: path :: number :: rest ∧
    (tryInt number).isSome = true ∧ (strip mode = txt"opt::option" ∨ strip mode = txt"std::optional") := by
  constructor
  · rintro ⟨p, t, h⟩
    match argv, h with
    | mode :: path :: number :: rest, h =>
      refine ⟨mode, path, number, rest, rfl, ?_⟩
      rw [main] at h
      split at h
      · cases h
      · rename_i n hn
        refine ⟨by rw [hn]; rfl, ?_⟩
        split at h
        · cases h
        · rename_i i hi
          unfold table at hi
          split at hi
          · rename_i he; exact .inl (eq_of_beq he)
          · split at hi
            · rename_i he; exact .inr (eq_of_beq he)
            · cases hi
  · rintro ⟨mode, path, number, rest, rfl, hn, hm⟩
    obtain ⟨n, hn⟩ := Option.isSome_iff_exists.1 hn
    rcases hm with hm | hm
    · exact ⟨strip path, _, by rw [main, hn, hm]; rfl⟩
    · exact ⟨strip path, _, by rw [main, hn, hm]; rfl⟩

/-- without a number, and with a class it does not know -/
example : main [txt"opt::option", txt"f"] = .crash ∧ main [txt"boost::optional", txt"f", txt"x"] = .crash ∧
    main [txt"boost::optional", txt"f", txt"3"] = .invalid ∧
    main [txt" std::optional ", txt"f", txt"1"] = .wrote (txt"f") (txt"#include <optional>\nstruct S0 { int x; };\nstd::optional<S0> b0;\n") := by decide

#print axioms C94_alike
#print axioms C94_fails

end Opt.Benchmark
