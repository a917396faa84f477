import Verif.Model.Traits

/-!
# Specifications about layout and bit patterns
-/

namespace Opt

/-- `s` is the smallest multiple of `a` that is at least `n`. -/
def IsLeastMultiple (a n s : Nat) : Prop := a ∣ s ∧ n ≤ s ∧ ∀ m, a ∣ m → n ≤ m → s ≤ m

/-- `Around T W`: the type `W` is made of `T` by arrays that are not empty, `std::complex`, `opt::enforce` and options, in any order -/
inductive Around (T : Ty) : Ty → Prop where
  | refl : Around T T
  | array {W : Ty} (n : Nat) : Around T W → Around T (.array W (n + 1))
  | complex {W : Ty} : Around T W → Around T (.complex W)
  | enforce {W : Ty} : Around T W → Around T (.enforce W)
  | option {W : Ty} : Around T W → Around T (.option W)

/-- members with their offsets, as a list -/
def Fields.toList : Fields → List (Nat × Ty)
  | .nil => []
  | .cons off t rest => (off, t) :: rest.toList

/-- An IEEE-754 format with `m` mantissa bits and `e` exponent bits: sign. -/
def fSign (m e x : Nat) : Nat := x / 2 ^ (m + e)
/-- exponent field -/
def fExp (m e x : Nat) : Nat := x / 2 ^ m % 2 ^ e
/-- mantissa field -/
def fMant (m x : Nat) : Nat := x % 2 ^ m
/-- the quiet bit: the top bit of the mantissa -/
def fQuiet (m x : Nat) : Nat := x / 2 ^ (m - 1) % 2
/-- not a number -/
def fIsNaN (m e x : Nat) : Prop := fExp m e x = 2 ^ e - 1 ∧ fMant m x ≠ 0

/-- A 64-bit address is canonical for `bits`-bit virtual addresses: all bits from `bits - 1` up are equal. -/
def CanonicalFor (bits : Nat) (a : BitVec 64) : Prop :=
  ∀ i, bits - 1 ≤ i → i < 64 → a.getLsbD i = a.getLsbD (bits - 1)

/-- the bytes of the object differ only inside `[off, off + n)` -/
def SameOutside (off n : Nat) (bs bs' : Bytes) : Prop :=
  bs'.length = bs.length ∧ ∀ i, i < off ∨ off + n ≤ i → bs'[i]? = bs[i]?

end Opt
