import Verif.Spec.View
import Verif.Lemmas.Demo

/-!
# The demonstration state satisfies the invariant
-/

namespace Opt.Demo

variable {cxx20 : Bool} {thr : Nat → Bool} {clobber : Nat → Bytes → Bytes}

/-- the invariant of one object, for a class of the demonstration program -/
def ObjOK (c : Nat) (o : Obj) : Prop :=
  o.bytes.length = (Ty.option (elemOf c).T).size 64 ∧
  ((elemOf c).sent 64 = false → ld 8 o.bytes ((elemOf c).T.size 64) = 0 ∨ ld 8 o.bytes ((elemOf c).T.size 64) = 1) ∧
  ((elemOf c).T.hasValue 64 o.bytes = true → o.alive = true ∧ (elemOf c).T.Valid 64 ((elemOf c).T.payload 64 o.bytes)) ∧
  ((elemOf c).T.hasValue 64 o.bytes = false → (elemOf c).trivDtor = false → o.alive = false)

theorem poly_ok (v : Byte) : ObjOK 1 ⟨polyBytes v, true⟩ := by
  have hp : (elemOf 1).T.payload 64 (polyBytes v) = polyBytes v := rfl
  have hv : (elemOf 1).T.hasValue 64 (polyBytes v) = true := by
    revert v; decide +kernel
  refine ⟨rfl, fun h => absurd h (by decide), fun _ => ⟨rfl, ?_⟩, fun h => ?_⟩
  · rw [hp]; exact poly_valid v
  · rw [hv] at h; cases h

theorem ok0 : ObjOK 0 ⟨[7, 1], true⟩ :=
  ⟨by decide, fun _ => .inr (by decide), fun _ => ⟨rfl, rfl⟩, fun h => absurd h (by decide +kernel)⟩

theorem ok2 : ObjOK 2 ⟨[9, 1], true⟩ :=
  ⟨by decide, fun _ => .inr (by decide), fun _ => ⟨rfl, rfl⟩, fun h => absurd h (by decide +kernel)⟩

theorem ok3 : ObjOK 3 ⟨[2], false⟩ :=
  ⟨by decide, fun h => absurd h (by decide), fun h => absurd h (by decide +kernel), fun _ _ => rfl⟩

theorem ok4 : ObjOK 0 ⟨[0xAA, 0], false⟩ :=
  ⟨by decide, fun _ => .inl (by decide), fun h => absurd h (by decide +kernel), fun _ _ => rfl⟩

theorem ok5 : ObjOK 1 ⟨leBytes 8 0xFFFFFFFFFFFEA3C0 ++ List.replicate 8 0, false⟩ :=
  ⟨by decide, fun h => absurd h (by decide), fun h => absurd h (by decide +kernel), fun _ _ => rfl⟩

theorem inv : (prog cxx20 thr clobber).Inv world := by
  intro i o ho
  match i, ho with
  | 0, ho => cases ho; exact ok0
  | 1, ho => cases ho; exact poly_ok 5
  | 2, ho => cases ho; exact ok2
  | 3, ho => cases ho; exact ok3
  | 4, ho => cases ho; exact ok4
  | 5, ho => cases ho; exact ok5
  | 9, ho => cases ho; exact poly_ok 6

/-- what the client sees of an object of a class -/
def look (c : Nat) (bs : Bytes) : Option Byte :=
  if (elemOf c).T.hasValue 64 bs then some ((elemOf c).decode ((elemOf c).T.payload 64 bs)) else none

theorem look_poly (v : Byte) : look 1 (polyBytes v) = some v := by revert v; decide +kernel
theorem look0 : look 0 [7, 1] = some 7 := by decide +kernel
theorem look2 : look 2 [9, 1] = some 9 := by decide +kernel
theorem look3 : look 3 [2] = none := by decide +kernel
theorem look4 : look 0 [0xAA, 0] = none := by decide +kernel
theorem look5 : look 1 (leBytes 8 0xFFFFFFFFFFFEA3C0 ++ List.replicate 8 0) = none := by decide +kernel

theorem view0 : (prog cxx20 thr clobber).view world 0 = some (some 7) := congrArg some look0
theorem view1 : (prog cxx20 thr clobber).view world 1 = some (some 5) := congrArg some (look_poly 5)
theorem view2 : (prog cxx20 thr clobber).view world 2 = some (some 9) := congrArg some look2
theorem view3 : (prog cxx20 thr clobber).view world 3 = some none := congrArg some look3
theorem view4 : (prog cxx20 thr clobber).view world 4 = some none := congrArg some look4
theorem view5 : (prog cxx20 thr clobber).view world 5 = some none := congrArg some look5
theorem view9 : (prog cxx20 thr clobber).view world 9 = some (some 6) := congrArg some (look_poly 6)
/-- class 1 has all values -/
theorem fn_legal {β : Type} (f : Prog.Fn Byte β) : f.Legal (prog cxx20 thr clobber) 1 :=
  fun _ _ => ⟨dom_mk 1 (.inr (.inl rfl)), dom_mk 1 (.inr (.inl rfl))⟩

theorem fn_legal5 {β : Type} (f : Prog.Fn Byte β) : f.Legal (prog cxx20 thr clobber) 5 :=
  fun _ _ => ⟨dom_mk 1 (.inr (.inl rfl)), dom_mk 1 (.inr (.inl rfl))⟩

theorem view13 : (prog cxx20 thr clobber).view world 13 = none := rfl

end Opt.Demo
