import Verif.Spec.Layout

/-!
# Pointers with tags in bits that the processor ignores

Processors can be told to ignore some of the upper bits of addresses, and programs then keep tags there.
-/

namespace Opt.Tagged

/-- `va`: virtual addresses have this many bits, the upper half is for the system; the bits in `[lo, hi)` are ignored -/
structure Masking where
  va : Nat
  lo : Nat
  hi : Nat

/-- no tags -/
def plain (va : Nat) : Masking := ⟨va, 64, 64⟩
/-- Intel linear address masking, 4-level and 5-level paging: bit 63 is still checked -/
def lam48 : Masking := ⟨48, 48, 63⟩
def lam57 : Masking := ⟨57, 57, 63⟩
/-- AMD upper address ignore, 4-level paging -/
def uai48 : Masking := ⟨48, 57, 64⟩
/-- ARM top byte ignore and memory tagging, with 48 and 52 bits of address -/
def tbi48 : Masking := ⟨49, 56, 64⟩
def tbi52 : Masking := ⟨53, 56, 64⟩
/-- RISC-V pointer masking, 16 and 7 bits, with Sv39, Sv48 and Sv57 -/
def pm16sv39 : Masking := ⟨39, 48, 64⟩
def pm16sv48 : Masking := ⟨48, 48, 64⟩
def pm7sv48 : Masking := ⟨48, 57, 64⟩
def pm7sv57 : Masking := ⟨57, 57, 64⟩

/-- a pointer a program may have: the bits above the user's addresses are zero where they are not ignored; nothing is in the first page -/
def UserPointer (M : Masking) (p : BitVec 64) : Prop :=
  (∀ i, M.va - 1 ≤ i → i < 64 → ¬ (M.lo ≤ i ∧ i < M.hi) → p.getLsbD i = false) ∧ ∃ i, 12 ≤ i ∧ p.getLsbD i = true

/-- one of the bits 47, 55, 63 is zero in all pointers -/
def Checked (M : Masking) : Prop := ∃ i, (i = 47 ∨ i = 55 ∨ i = 63) ∧ M.va - 1 ≤ i ∧ ¬ (M.lo ≤ i ∧ i < M.hi)

/-- types with a pointer in which empty options have their levels, and its place -/
def place : Ty → Option Nat
  | .pointer | .refWrapper | .optionRef | .uniquePtr | .vector => some 0
  | .polymorphic _ _ => some 0
  | .stringView lenFirst => some (if lenFirst then 8 else 0)
  | _ => none

end Opt.Tagged
