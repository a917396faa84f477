import Verif.Model.IntSentinel

/-!
# What a list of integer sentinels has to be

In terms of the values of `T` alone: no conversions.
-/

namespace Opt.IntSentinel

/-- the number of bits two operands are compared with: at least those of `int` -/
def compareBits (t u : IntTy) : Nat := max 32 (max t.bits u.bits)

/-- the value `x` of `T` compares equal to the constant -/
def Same (T : IntTy) (c : Const) (x : Int) : Prop := (2 ^ compareBits T c.ty : Int) ∣ x - c.val

/-- some value of `T` compares equal to the constant -/
def Reachable (T : IntTy) (c : Const) : Prop := ∃ x, T.Has x ∧ Same T c x

/-- no value of `T` compares equal to both constants -/
def Apart (T : IntTy) (c d : Const) : Prop := ∀ x, T.Has x → ¬ (Same T c x ∧ Same T d x)

/-- template arguments that exist -/
def Const.WF (c : Const) : Prop := c.ty.WF ∧ c.ty.Has c.val

/-- every level can be stored and read back -/
def RoundTrips (T : IntTy) (vs : List Const) : Prop :=
  ∀ i, i < vs.length → ∃ x, T.Has x ∧ setLevel T vs (BitVec.ofNat 64 i) = .ok x ∧ getLevel T vs x = BitVec.ofNat 64 i

end Opt.IntSentinel
