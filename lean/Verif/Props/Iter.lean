import Verif.Model.Iter
import Verif.Props.Compare

/-!
# C31: an option is a range of zero or one element
-/

namespace Opt

variable {Val : Type} {P : Prog Val} {w : World} {i : Nat}

/-- **C31**: on an engaged option `begin()` points to the contained object, `end()` one past it, and their difference
is 1; neither runs user code nor changes anything. -/
theorem C31_engaged (hw : P.Inv w) {v : Val} (hx : P.view w i = some (some v)) :
    P.begin_ i w = .ok (.elem i 0) w ∧ P.end_ i w = .ok (.elem i 1) w ∧
      Iter.diff (.elem i 1) (.elem i 0) = .ok 1 ∧ Iter.deref Prog.single (.elem i 0) = .ok (i, 0) := by
  have h := Prog.hasValue_eq hw hx
  have hg : P.getCheck i w = .ok () w := by
    simp only [Prog.getCheck, bind_run, h, obind_ok, Option.isSome]; rfl
  refine ⟨?_, ?_, ?_, rfl⟩
  · simp only [Prog.begin_, bind_run, h, obind_ok, Option.isSome, if_true, hg]; rfl
  · simp only [Prog.end_, bind_run, h, obind_ok, Option.isSome, if_true, hg]; rfl
  · simp only [Iter.diff, if_true]; rfl

example : Demo.calm.begin_ 1 Demo.world = .ok (.elem 1 0) Demo.world := (C31_engaged Demo.inv Demo.view1).1

/-- **C31**: on an empty option `begin()` and `end()` are equal, their difference is 0, and dereferencing stops in the
library's check. -/
theorem C31_empty (hw : P.Inv w) (hx : P.view w i = some none) :
    P.begin_ i w = .ok .null w ∧ P.end_ i w = .ok .null w ∧ Iter.eq .null .null = true ∧
      Iter.diff .null .null = .ok 0 ∧ Iter.deref Prog.single .null = .verify := by
  have h := Prog.hasValue_eq hw hx
  refine ⟨?_, ?_, rfl, rfl, rfl⟩
  · simp only [Prog.begin_, bind_run, h, obind_ok, Option.isSome]; rfl
  · simp only [Prog.end_, bind_run, h, obind_ok, Option.isSome]; rfl

example : Demo.calm.end_ 5 Demo.world = .ok .null Demo.world := (C31_empty Demo.inv Demo.view5).2.1

/-- **C31**: a loop over the option calls its body exactly once with the contained object if the option is engaged and
never if it is empty, in result and effect just as `inspect` does; it needs at most two tests of its condition. -/
theorem C31_loop (hw : P.Inv w) (f : Prog.Fn Val Unit) (n : Nat) (hi : P.view w i ≠ none) :
    P.forEach (n + 2) i f w = P.inspect i f w := by
  obtain ⟨x, hx⟩ := Option.ne_none_iff_exists'.mp hi
  have h := Prog.hasValue_eq hw hx
  cases x with
  | none =>
    have he := C31_empty hw hx
    simp only [Prog.forEach, Prog.inspect, bind_run, he.1, he.2.1, h, obind_ok, Option.isSome]
    rfl
  | some v =>
    have he := C31_engaged hw hx
    have hg : P.getCheck i w = .ok () w := by
      simp only [Prog.getCheck, bind_run, h, obind_ok, Option.isSome]; rfl
    have hne : Iter.ne (.elem i 0) (.elem i 1) = true := by simp [Iter.ne]
    have hne' : Iter.ne (.elem i 1) (.elem i 1) = false := by simp [Iter.ne]
    have hd : Iter.deref Prog.single (.elem i 0) = .ok (i, 0) := rfl
    have hi : Iter.inc Prog.single (.elem i 0) = .ok (.elem i 1) := rfl
    have hrd : P.readT i w = .ok v w := (C24_engaged hw hx).2.1
    simp only [Prog.forEach, Prog.inspect, Prog.callT, Prog.forLoop, bind_run, he.1, he.2.1, h, obind_ok, Option.isSome,
      if_true, hne, hd, hi, liftRes, pure_run, Prog.applyRef, hg, hrd, Prog.userOp]
    cases P.throwsAt w.env.tick
    · simp only [Bool.false_eq_true, if_false]
      refine congrArg (Out.bind _) (funext fun u => funext fun s => ?_)
      simp only [obind_ok, bind_run, pure_run, hne', Bool.false_eq_true, if_false]
    · simp only [if_true, bind_run]
      cases P.writeT i w.env.tick (f.afterThrow v) _ <;> rfl

example : Demo.calm.forEach 2 1 (Prog.Fn.pure fun _ => ()) Demo.world =
    Demo.calm.inspect 1 (Prog.Fn.pure fun _ => ()) Demo.world :=
  C31_loop (P := Demo.calm) Demo.inv _ 0 Demo.there1

/-- **C31**: the random-access laws for iterators that are not value-initialised, at any position of an array of any
size, for all offsets that stay in range: adding is undone by subtracting, the difference is the offset, offsets add up,
`[]` is `*` after `+`, `++` and `--` are `+ 1` and `- 1`, the order is that of the offsets. -/
theorem C31_random_access (len : Nat → Nat) (a p : Nat) (n m : Int)
    (hn : 0 ≤ p + n ∧ p + n ≤ len a) (hp : p ≤ len a) :
    ∃ q, Iter.add len n (.elem a p) = .ok q ∧ Iter.sub len n q = .ok (.elem a p) ∧ Iter.diff q (.elem a p) = .ok n ∧
      Iter.add len m q = Iter.add len (n + m) (.elem a p) ∧ Iter.sub len (-m) q = Iter.add len m q ∧
      Iter.index len n (.elem a p) = Iter.deref len q ∧
      Iter.inc len q = Iter.add len 1 q ∧ Iter.dec len q = Iter.sub len 1 q ∧
      Iter.postInc len q = (Iter.inc len q).map (fun r => (q, r)) ∧
      Iter.postDec len q = (Iter.dec len q).map (fun r => (q, r)) ∧
      (Iter.lt (.elem a p) q = .ok (decide (0 < n))) ∧ (Iter.gt q (.elem a p) = .ok (decide (0 < n))) ∧
      (Iter.le (.elem a p) q = .ok (decide (0 ≤ n))) ∧ (Iter.ge q (.elem a p) = .ok (decide (0 ≤ n))) ∧
      (Iter.eq (.elem a p) q = decide (n = 0)) ∧ (Iter.ne (.elem a p) q = !decide (n = 0)) := by
  have hq : Iter.add len n (.elem a p) = .ok (.elem a (p + n).toNat) := by
    simp only [Iter.add, Iter.ptrAdd, hn, and_self, if_true]
  have hnat : (((p : Int) + n).toNat : Int) = p + n := Int.toNat_of_nonneg hn.1
  refine ⟨_, hq, ?_, ?_, ?_, ?_, ?_, rfl, rfl, rfl, rfl, ?_, ?_, ?_, ?_, ?_, ?_⟩
  · have e : ((p : Int) + n).toNat + -n = (p : Int) := by omega
    simp only [Iter.sub, Iter.ptrAdd, e]
    rw [if_pos ⟨by omega, by omega⟩, Int.toNat_natCast]
  · simp only [Iter.diff, if_true, hnat]; congr 1; omega
  · have e1 : (((p : Int) + n).toNat : Int) + m = p + n + m := by omega
    have e2 : (p : Int) + (n + m) = p + n + m := by omega
    simp only [Iter.add, Iter.ptrAdd, e1, e2]
  · simp only [Iter.sub, Iter.add, Int.neg_neg]
  · simp only [Iter.index, Iter.ptrAdd, hn, and_self, if_true, Res.bind, Iter.deref]
  · have : (p < (p + n).toNat) ↔ 0 < n := by omega
    simp only [Iter.lt, Iter.ptrLt, bne, verifyThen, if_true, this]; rfl
  · have : (p < (p + n).toNat) ↔ 0 < n := by omega
    simp only [Iter.gt, Iter.ptrLt, bne, verifyThen, if_true, this]; rfl
  · have : (p ≤ (p + n).toNat) ↔ 0 ≤ n := by omega
    simp only [Iter.le, Iter.ptrLe, if_true, this]
  · have : (p ≤ (p + n).toNat) ↔ 0 ≤ n := by omega
    simp only [Iter.ge, Iter.ptrLe, if_true, this]
  · have : (p = (p + n).toNat) ↔ n = 0 := by omega
    simp only [Iter.eq, Ptr.elem.injEq, true_and, this]
  · have : (p = (p + n).toNat) ↔ n = 0 := by omega
    simp only [Iter.ne, Ptr.elem.injEq, true_and, this]

example : ∃ q, Iter.add (fun _ => 4) 3 (.elem 0 1) = .ok q ∧ Iter.sub (fun _ => 4) 3 q = .ok (.elem 0 1) := by
  obtain ⟨q, h1, h2, _⟩ := C31_random_access (fun _ => 4) 0 1 3 (-2) (by decide) (by decide)
  exact ⟨q, h1, h2⟩

/-- **C31**: a value-initialised iterator is stopped by the library's check in every operation that would use the
pointer, on either side of `<` and `>`; it equals value-initialised iterators only; comparing two of them with `<=`, `>=` and
subtracting them is allowed. -/
theorem C31_value_initialised (len : Nat → Nat) (n : Int) (q : Ptr) :
    Iter.deref len .null = .verify ∧ Iter.inc len .null = .verify ∧ Iter.postInc len .null = .verify ∧
      Iter.dec len .null = .verify ∧ Iter.postDec len .null = .verify ∧ Iter.add len n .null = .verify ∧
      Iter.sub len n .null = .verify ∧ Iter.index len n .null = .verify ∧ Iter.lt .null q = .verify ∧
      Iter.gt .null q = .verify ∧ Iter.lt q .null = .verify ∧ Iter.gt q .null = .verify ∧
      Iter.eq .null q = decide (q = .null) ∧ Iter.eq q .null = decide (q = .null) ∧ Iter.ne .null q = decide (q ≠ .null) ∧
      Iter.ne q .null = decide (q ≠ .null) ∧ Iter.le .null .null = .ok true ∧
      Iter.ge .null .null = .ok true ∧ Iter.diff .null .null = .ok 0 := by
  refine ⟨rfl, rfl, rfl, rfl, rfl, rfl, rfl, rfl, rfl, rfl, ?_, ?_, ?_, ?_, ?_, ?_, rfl, rfl, rfl⟩ <;> cases q <;>
    first | rfl | simp [Iter.eq, Iter.ne]

/-- an iterator into an array of four is not below a value-initialised one: the check fails -/
example : Iter.lt (.elem 0 2) .null = .verify := (C31_value_initialised (fun _ => 4) 0 (.elem 0 2)).2.2.2.2.2.2.2.2.2.2.1

/-- The documentation (docs/reference.md 1086) says that `end()` is equivalent to `begin() + has_value()`.  That is so
for an engaged option; for an empty one `begin() + 0` stops in the library's check while `end()` does not. -/
theorem C31_documented_end (hw : P.Inv w) {x : Option Val} (hx : P.view w i = some x) :
    ∃ b e, P.begin_ i w = .ok b w ∧ P.end_ i w = .ok e w ∧
      (x.isSome = true → Iter.add Prog.single 1 b = .ok e) ∧ (x.isSome = false → Iter.add Prog.single 0 b = .verify) := by
  cases x with
  | none => exact ⟨_, _, (C31_empty hw hx).1, (C31_empty hw hx).2.1, nofun, fun _ => rfl⟩
  | some v => exact ⟨_, _, (C31_engaged hw hx).1, (C31_engaged hw hx).2.1, fun _ => rfl, nofun⟩

example : Demo.calm.view Demo.world 5 = some none := Demo.view5

end Opt
