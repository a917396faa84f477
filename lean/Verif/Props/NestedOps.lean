import Verif.Lemmas.NestedOps
import Verif.Props.Machine

/-!
# C33 and C45 for options nested to any depth
-/

namespace Opt

/-! ## C45: destructors -/

/-- **C45**: destroying an option nested `n` times destroys the innermost object exactly once if all layers are engaged and
its destructor is not trivial, and otherwise calls nothing. -/
theorem C45_nested_destructor {pw : Nat} {L : Leaf} {T : Ty} (hT : T.isOption = false) (n : Nat) (bs : Bytes) :
    (destroyTy pw L (nest n T) bs).1 =
      if engagedDepth pw n T bs = n ∧ L.trivDtor = false then [innermost pw n T bs] else [] :=
  destroyTy_nest hT n bs

/-- **C45**: `reset` of the layer `k` of an option nested `n` times, reached through engaged layers, destroys the innermost
object exactly once if everything was engaged (and its destructor is not trivial), and otherwise calls nothing; it leaves
exactly `k` layers engaged, whatever bytes the destructor leaves behind. -/
theorem C45_nested_reset {pw : Nat} (hpw : pw = 32 ∨ pw = 64) {L : Leaf} {T : Ty} (hT : T.isOption = false)
    (hd : ∀ b : Bytes, b.length = T.size pw → (L.dead b).length = T.size pw) (n k : Nat) (hk : k < n) (bs : Bytes)
    (hwf : (nest n T).WF pw) (hv : (nest n T).Valid pw bs) (he : k ≤ engagedDepth pw n T bs) :
    ∃ bs', resetTyAt pw L k (nest n T) bs =
        .ok (if engagedDepth pw n T bs = n ∧ L.trivDtor = false then [innermost pw n T bs] else [], bs') ∧
      (nest n T).Valid pw bs' ∧ engagedDepth pw n T bs' = k :=
  resetTyAt_nest hpw hT hd n k bs hk hwf hv he

/-- **C45**: asking an unengaged layer for its value trips the check and destroys nothing. -/
theorem C45_nested_reset_checked {pw : Nat} {L : Leaf} {T : Ty} :
    ∀ (n k : Nat) (bs : Bytes), k < n → engagedDepth pw n T bs < k → resetTyAt pw L k (nest n T) bs = .verify
  | 0, _, _, hk, _ => by omega
  | n + 1, 0, _, _, he => by omega
  | n + 1, k + 1, bs, hk, he => by
    rw [engagedDepth] at he
    show resetTyAt pw L (k + 1) (.option (nest n T)) bs = _
    rw [resetTyAt]
    by_cases h : (nest n T).hasValue pw bs = true
    · rw [if_pos h] at he
      rw [h, verifyThen_true, C45_nested_reset_checked n k _ (by omega) (by omega)]
      rfl
    · rw [if_neg h] at he
      simp only [Bool.not_eq_true] at h
      rw [h, verifyThen_false]

/-- a `std::unique_ptr` (which clears its pointer when destroyed) in three options -/
def nestLeaf : Leaf := ⟨false, fun _ => List.replicate 8 0⟩

/-- the pointer 0x4010 inside three engaged options -/
def nestBytes : Bytes := leBytes 8 0x4010

example : (nest 3 Ty.uniquePtr).WF 64 ∧ engagedDepth 64 3 .uniquePtr nestBytes = 3 ∧
    (destroyTy 64 nestLeaf (nest 3 .uniquePtr) nestBytes).1 = [nestBytes] ∧
    ∃ bs, resetTyAt 64 nestLeaf 1 (nest 3 .uniquePtr) nestBytes = .ok ([nestBytes], bs) ∧
      engagedDepth 64 3 .uniquePtr bs = 1 ∧ (destroyTy 64 nestLeaf (nest 3 .uniquePtr) bs).1 = [] :=
  ⟨by simp [nest, Ty.WF]; decide, by decide, by decide, _, rfl, by decide, by decide⟩

/-! ## C33: flatten -/

/-- **C33**: `flatten` of an lvalue nested `n + 1` times gives a reference to the innermost object (which is at the address
of the outermost option) iff every layer is engaged, else nothing; the nested option is only read. -/
theorem C33_flatten_lvalue {pw p : Nat} {T : Ty} (hT : T.isOption = false) (n : Nat) (bs : Bytes) :
    flattenRef pw p (nest (n + 1) T) bs = .ok (if engagedDepth pw (n + 1) T bs = n + 1 then some p else none) :=
  flattenRef_nest hT n bs

example : flattenRef 64 0x100 (nest 3 .uniquePtr) nestBytes = .ok (some 0x100) ∧
    ∃ bs, resetTyAt 64 nestLeaf 2 (nest 3 .uniquePtr) nestBytes = .ok ([nestBytes], bs) ∧
      flattenRef 64 0x100 (nest 3 .uniquePtr) bs = .ok none := ⟨by decide, _, rfl, by decide⟩

/-- **C33**: `flatten` of options around an `option<X&>` gives a reference to the object that one refers to (whatever its
address: not the address of an option), iff every layer around is engaged and the innermost pointer is not null. -/
theorem C33_flatten_reference {pw p : Nat} (n : Nat) (bs : Bytes) :
    flattenRef pw p (nest n .optionRef) bs =
      .ok (if engagedDepth pw n .optionRef bs = n ∧ ld pw (innermost pw n .optionRef bs) 0 ≠ 0
        then some (ld pw (innermost pw n .optionRef bs) 0).toNat else none) := flattenRef_nest_ref n bs

/-- an `option<X&>` to 0x4010 in two options; the same with the innermost one empty; with the one in the middle empty -/
example : flattenRef 64 0x100 (nest 2 .optionRef) nestBytes = .ok (some 0x4010) ∧
    engagedDepth 64 2 .optionRef (leBytes 8 0) = 2 ∧ flattenRef 64 0x100 (nest 2 .optionRef) (leBytes 8 0) = .ok none ∧
    engagedDepth 64 2 .optionRef (leBytes 8 1) = 1 ∧ flattenRef 64 0x100 (nest 2 .optionRef) (leBytes 8 1) = .ok none := by
  decide

variable {Val : Type} {P : Prog Val} {w : World} {r : Nat}

/-- **C33**: `flatten` of an rvalue nested `n + 1` times with every layer engaged: one construction (move) makes an engaged
option holding the innermost value.  The nested option stays engaged in every layer; only its innermost object was moved
from. -/
theorem C33_flatten_rvalue_engaged (hP : P.OK) (hw : P.Inv w) (hT : (P.elem r).T.isOption = false)
    {mvd : Bytes → Bytes} (hm : ∀ b, (P.elem r).T.Valid P.pw b → (P.elem r).T.Valid P.pw (mvd b))
    (n : Nat) (bs : Bytes) (hwf : (nest (n + 1) (P.elem r).T).WF P.pw) (hv : (nest (n + 1) (P.elem r).T).Valid P.pw bs)
    (hd : engagedDepth P.pw (n + 1) (P.elem r).T bs = n + 1) (hx : P.view w r = none)
    {v : Val} (he : (P.elem r).decode (innermost P.pw (n + 1) (P.elem r).T bs) = v)
    (ht : P.CtorOK r (.move v) w.env.tick) :
    ∃ bs', P.Ends w (P.flattenMove r mvd (nest (n + 1) (P.elem r).T) bs w) bs' (P.ctorEvs r (.move v))
        (upd (P.view w) r (some (some v))) ∧
      (nest (n + 1) (P.elem r).T).Valid P.pw bs' ∧ engagedDepth P.pw (n + 1) (P.elem r).T bs' = n + 1 ∧
      innermost P.pw (n + 1) (P.elem r).T bs' =
        if (P.elem r).trivMoveCtor then innermost P.pw (n + 1) (P.elem r).T bs
        else mvd (innermost P.pw (n + 1) (P.elem r).T bs) := by
  subst he
  obtain ⟨bs', h1, h2⟩ := flattenMove_engaged (P := P) (r := r) hP.pw hT hm n bs hwf hv hd
  refine ⟨bs', ?_, h2⟩
  rw [h1 w]
  have h := C20_construct_value hP hw (i := r)
    (src := .move ((P.elem r).decode (innermost P.pw (n + 1) (P.elem r).T bs)))
    (innermost_dom hP hwf hv hd) hx rfl ht
  have e : P.ctorLeaves r (.move ((P.elem r).decode (innermost P.pw (n + 1) (P.elem r).T bs))) w.env.tick (P.view w) =
      P.view w := by simp only [Prog.ctorLeaves, Src.leaves]; split <;> rfl
  rw [e] at h
  exact h.pair

/-- three engaged options around a polymorphic object of value 7 -/
theorem nestPoly : (nest 3 (Demo.calm.elem 13).T).WF 64 ∧ (nest 3 (Demo.calm.elem 13).T).Valid 64 (Demo.polyBytes 7) ∧
    engagedDepth 64 3 (Demo.calm.elem 13).T (Demo.polyBytes 7) = 3 ∧
    (Demo.calm.elem 13).decode (innermost 64 3 (Demo.calm.elem 13).T (Demo.polyBytes 7)) = 7 := by
  have hwf : Ty.WF 64 (.polymorphic 16 8) := by simp only [Ty.WF]; decide
  have hex : Ty.Exact (.polymorphic 16 8) := by simp only [Ty.Exact]
  have hv : (Ty.polymorphic 16 8).Valid 64 (Demo.polyBytes 7) := by
    simp only [Ty.Valid, Mapped]; exact ⟨rfl, by decide⟩
  have h := storeAll_spec (.inr rfl) hv 3 (nest_wf hwf (by decide) hex 3) (List.replicate 16 0) rfl
  have e : storeAll 64 3 (.polymorphic 16 8) (List.replicate 16 0) (Demo.polyBytes 7) = Demo.polyBytes 7 := by decide
  rw [e] at h
  exact ⟨nest_wf hwf (by decide) hex 3, h.1, h.2.1, by
    show Demo.poly.decode (innermost 64 3 (.polymorphic 16 8) (Demo.polyBytes 7)) = 7
    rw [h.2.2]; rfl⟩

example : ∃ bs', Demo.calm.Ends Demo.world
    (Demo.calm.flattenMove 13 id (nest 3 (Demo.calm.elem 13).T) (Demo.polyBytes 7) Demo.world) bs' [.ctor 13 .move]
    (upd (Demo.calm.view Demo.world) 13 (some (some 7))) :=
  (C33_flatten_rvalue_engaged (P := Demo.calm) (r := 13) Demo.ok_tidy Demo.inv rfl (fun _ h => h) 2 _ nestPoly.1
    nestPoly.2.1 nestPoly.2.2.1 Demo.view13 nestPoly.2.2.2 (.inr rfl)).imp fun _ h => h.1

/-- **C33**: if some layer is empty, the result is empty, nothing of the element type is called and the nested option is
unchanged. -/
theorem C33_flatten_rvalue_empty (hP : P.OK) (hw : P.Inv w) (hT : (P.elem r).T.isOption = false)
    (mvd : Bytes → Bytes) (n : Nat) (bs : Bytes) (hwf : (nest (n + 1) (P.elem r).T).WF P.pw)
    (hl : bs.length = (nest (n + 1) (P.elem r).T).size P.pw)
    (hd : engagedDepth P.pw (n + 1) (P.elem r).T bs ≠ n + 1) (hx : P.view w r = none) :
    P.Ends w (P.flattenMove r mvd (nest (n + 1) (P.elem r).T) bs w) bs [] (upd (P.view w) r (some none)) := by
  rw [flattenMove_empty hT n bs hl hwf hd w]
  exact (Prog.ends_unit (Prog.ctorDefault_sim hP (Prog.abs_R hw)) (fun _ _ _ _ h => h) (by rw [Env.after_nil]; exact Spec.new_eq hx)).pair

example : ∃ bs, resetTyAt 64 ⟨false, id⟩ 1 (nest 3 (Demo.calm.elem 13).T) (Demo.polyBytes 7) = .ok ([Demo.polyBytes 7], bs) ∧
    Demo.calm.Ends Demo.world (Demo.calm.flattenMove 13 id (nest 3 (Demo.calm.elem 13).T) bs Demo.world) bs []
      (upd (Demo.calm.view Demo.world) 13 (some none)) :=
  ⟨_, rfl, C33_flatten_rvalue_empty (P := Demo.calm) (r := 13) Demo.ok_tidy Demo.inv rfl id 2 _ nestPoly.1 rfl
    (by decide) Demo.view13⟩

/-- **C33**: if the move constructor throws there is no result. -/
theorem C33_flatten_rvalue_throws (hP : P.OK) (hw : P.Inv w) (hT : (P.elem r).T.isOption = false)
    {mvd : Bytes → Bytes} (hm : ∀ b, (P.elem r).T.Valid P.pw b → (P.elem r).T.Valid P.pw (mvd b))
    (n : Nat) (bs : Bytes) (hwf : (nest (n + 1) (P.elem r).T).WF P.pw) (hv : (nest (n + 1) (P.elem r).T).Valid P.pw bs)
    (hd : engagedDepth P.pw (n + 1) (P.elem r).T bs = n + 1) (hx : P.view w r = none)
    {v : Val} (he : (P.elem r).decode (innermost P.pw (n + 1) (P.elem r).T bs) = v)
    (ht : P.CtorThrows r (.move v) w.env.tick) :
    P.Throws w (P.flattenMove r mvd (nest (n + 1) (P.elem r).T) bs w) [.ctorFail r .move] (P.view w) := by
  subst he
  obtain ⟨bs', h1, _⟩ := flattenMove_engaged (P := P) (r := r) hP.pw hT hm n bs hwf hv hd
  rw [h1 w]
  have h := C17_construct_value hP hw (i := r)
    (src := .move ((P.elem r).decode (innermost P.pw (n + 1) (P.elem r).T bs)))
    (innermost_dom hP hwf hv hd) hx rfl ht
  simp only [Src.leaves, upd_self hx] at h
  exact h.pair

example : Demo.angry.Throws Demo.world
    (Demo.angry.flattenMove 13 id (nest 3 (Demo.angry.elem 13).T) (Demo.polyBytes 7) Demo.world) [.ctorFail 13 .move]
    (Demo.angry.view Demo.world) :=
  C33_flatten_rvalue_throws (P := Demo.angry) (r := 13) Demo.ok_tidy Demo.inv rfl (fun _ h => h) 2 _ nestPoly.1
    nestPoly.2.1 nestPoly.2.2.1 Demo.view13 nestPoly.2.2.2 ⟨rfl, rfl⟩

end Opt
