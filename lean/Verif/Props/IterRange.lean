import Verif.Lemmas.IterRange
import Verif.Props.RefOption

/-!
# C64: the iterators of an option are those of a random access range

A client program is any sequence of steps over any number of iterator variables.  `IterSpec.run k` says which programs the
standard allows on a range of `k` elements and what they see.
-/

namespace Opt

variable {Val : Type} {P : Prog Val} {w : World} {i : Nat}

/-- **C64**: on an engaged option, every client program that is allowed on a random access range of one element runs
without a failed check and without undefined behaviour, sees what the standard says and changes nothing. -/
theorem C64_engaged (hw : P.Inv w) {v : Val} (hx : P.view w i = some (some v)) (ts : List IterStep) {os : List IterObs}
    (h : IterSpec.run 1 ts (fun _ => none) = some os) : P.iterate i ts w = .ok os w := by
  have hb := C31_engaged hw hx
  have he := Iter.exec_elem (len := Prog.single) (a := i) (n := 0) (k := 1) (Nat.le_refl 1) ts
    (s := fun _ => none) (t := fun _ => .null) (fun _ _ => nofun) h
  simp only [Prog.iterate, bind_run, hb.1, hb.2.1, obind_ok, he]
  rfl

/-- the element is found between `begin()` and `end()`, backwards and forwards -/
def Demo.walk : List IterStep :=
  [.begin_ 0, .end_ 1, .lt 0 1, .diff 1 0, .deref 0, .arrow 1, .minus 2 1 1, .eq 2 0, .index 1 (-1), .postInc 3 0, .ge 0 1]

example : Demo.calm.iterate 1 Demo.walk Demo.world =
    .ok [.bool true, .int 1, .elem 0, .addr 1, .bool true, .elem 0, .bool true] Demo.world :=
  C64_engaged Demo.inv Demo.view1 _ (by decide)

/-- **C64**, the part that holds: on an empty option, every client program that is allowed on a random access range of no
elements sees what the standard says, provided that it does not seek by an offset (not even by 0), order iterators with `<` or
`>`, or take the address of an iterator.  It says exactly what happens otherwise: the library's check fails.
Missing: the programs with such steps. -/
theorem C64_empty_partial (hw : P.Inv w) (hx : P.view w i = some none) (ts : List IterStep) {os : List IterObs}
    (h : IterSpec.run 0 ts (fun _ => none) = some os) :
    P.iterate i ts w = if ts.any IterStep.demanding then .verify else .ok os w := by
  have hb := C31_empty hw hx
  have he := Iter.exec_null (len := Prog.single) ts (s := fun _ => none) (t := fun _ => .null) (fun _ _ => nofun) h
  simp only [Prog.iterate, bind_run, hb.1, hb.2.1, obind_ok, he]
  split <;> rfl

example : Demo.calm.iterate 5 [.begin_ 0, .end_ 1, .ne 0 1, .diff 1 0, .le 1 0] Demo.world =
    .ok [.bool false, .int 0, .bool true] Demo.world :=
  C64_empty_partial Demo.inv Demo.view5 _ (by decide)

/-- **C64** is violated: `std::ranges::data(o)`, `o.begin() + 0` and the loop condition `o.begin() < o.end()` are allowed on
every random access range, also on one without elements, and fail the library's check on every empty option. -/
theorem C64_violated_empty (hw : P.Inv w) (hx : P.view w i = some none) :
    ∀ ts ∈ [[IterStep.begin_ 0, .arrow 0], [.begin_ 0, .plus 0 0 0], [.begin_ 0, .end_ 1, .lt 0 1]],
      (∀ k, (IterSpec.run k ts (fun _ => none)).isSome = true) ∧ P.iterate i ts w = .verify := by
  intro ts hts
  have hall : ∀ k, (IterSpec.run k ts (fun _ => none)).isSome = true := by
    intro k
    simp only [List.mem_cons, List.not_mem_nil, or_false] at hts
    rcases hts with rfl | rfl | rfl <;> simp [IterSpec.run, IterSpec.step, IterSpec.set, IterSpec.seek]
  obtain ⟨os, ho⟩ := Option.isSome_iff_exists.mp (hall 0)
  refine ⟨hall, ?_⟩
  rw [C64_empty_partial hw hx ts ho]
  simp only [List.mem_cons, List.not_mem_nil, or_false] at hts
  rcases hts with rfl | rfl | rfl <;> rfl

example : Demo.calm.iterate 5 [.begin_ 0, .arrow 0] Demo.world = .verify :=
  (C64_violated_empty Demo.inv Demo.view5 _ (List.mem_cons_self ..)).2

/-- **C64**, options of references: an engaged one is a range of one element wherever the object is, an empty one is as
above. -/
theorem C64_reference_partial (len : Nat → Nat) (w : RWorld Val) (i : Nat) (ts : List IterStep) {os : List IterObs} :
    (∀ a n, (RState.of w).ref i = some (a, n) → n < len a → IterSpec.run 1 ts (fun _ => none) = some os →
      RefOpt.iterate len i ts w = .ok os w) ∧
    ((RState.of w).ref i = none → IterSpec.run 0 ts (fun _ => none) = some os →
      RefOpt.iterate len i ts w = if ts.any IterStep.demanding then .verify else .ok os w) := by
  have hb := C31_reference len w i
  constructor
  · intro a n hr hl h
    have hb := hb.1 a n hr hl
    have he := Iter.exec_elem (len := len) (a := a) (n := n) (k := 1) hl ts (s := fun _ => none) (t := fun _ => .null) (fun _ _ => nofun) h
    simp only [RefOpt.iterate, bind_run, hb.1, hb.2.1, obind_ok, he]
    rfl
  · intro hr h
    have hb := hb.2 hr
    have he := Iter.exec_null (len := len) ts (s := fun _ => none) (t := fun _ => .null) (fun _ _ => nofun) h
    simp only [RefOpt.iterate, bind_run, hb.1, hb.2, obind_ok, he]
    split <;> rfl

example : RefOpt.iterate (fun _ => 8) 0 Demo.walk Demo.refs =
    .ok [.bool true, .int 1, .elem 0, .addr 1, .bool true, .elem 0, .bool true] Demo.refs :=
  (C64_reference_partial (fun _ => 8) Demo.refs 0 _).1 7 2 rfl (by decide) (by decide)

/-- **C64**: the specification is not more generous than the code allows: on an engaged option, dereferencing or moving
past the end, or before the beginning, is not allowed by it, and is undefined behaviour in the code. -/
theorem C64_outside (hw : P.Inv w) {v : Val} (hx : P.view w i = some (some v)) (n : Int) (hn : n < 0 ∨ 1 < n) :
    (IterSpec.run 1 [.begin_ 0, .plus 0 0 n] (fun _ => none) = none ∧
      P.iterate i [.begin_ 0, .plus 0 0 n] w = .ub) ∧
    (IterSpec.run 1 [.end_ 0, .deref 0] (fun _ => none) = none ∧ P.iterate i [.end_ 0, .deref 0] w = .ub) := by
  have hb := C31_engaged hw hx
  have hc : ¬(0 ≤ n ∧ n ≤ 1) := by omega
  refine ⟨⟨?_, ?_⟩, rfl, ?_⟩
  · simp [IterSpec.run, IterSpec.step, IterSpec.set, IterSpec.seek, hc]
  · simp only [Prog.iterate, bind_run, hb.1, hb.2.1, obind_ok]
    simp [Iter.exec, Iter.step, Iter.setVar, Iter.add, Iter.ptrAdd, Prog.single, hc, liftRes, M.bad]
  · simp only [Prog.iterate, bind_run, hb.1, hb.2.1, obind_ok]
    rfl

example : Demo.calm.iterate 1 [.begin_ 0, .plus 0 0 2] Demo.world = .ub :=
  (C64_outside Demo.inv Demo.view1 2 (by decide)).1.2

end Opt
