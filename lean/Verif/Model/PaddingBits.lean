import Verif.Model.Traits

/-!
# `PADDING` members that do not fill a type (option.hpp 1497-1512)

`decltype(std::declval<T&>().PADDING)` is the declared type also for a bit-field, and `std::is_unsigned_v` holds for `bool`,
so both pass the check in 1501.
-/

namespace Opt

/-- the bits of `u` that hold a bit-field of `k` bits at bit `b` -/
def bfMask (u b k : Nat) : BitVec u := (BitVec.allOnes k).setWidth u <<< b

/-- the value of the bit-field -/
def bfGet {u : Nat} (b k : Nat) (x : BitVec u) : BitVec k := x.extractLsb' b k

/-- assignment to the bit-field: the value is reduced to `k` bits -/
def bfSet {u k : Nat} (b : Nat) (x : BitVec u) (v : BitVec k) : BitVec u :=
  (x &&& ~~~ bfMask u b k) ||| (v.setWidth u <<< b)

/-- `padding_member` (1497-1512) for `unsigned PADDING : k` of a declared type of `w` bits: the bits from `b` of the `u`-bit
unit at byte offset `off`.  `max_level` comes from the declared type. -/
def paddingBitsTraits (w u off b k : Nat) : Traits where
  maxLevel := paddingMax w
  getLevel := fun bs => (bfGet b k (ld u bs off)).setWidth 64 - 1
  setLevel := fun bs l =>
    verifyThen (l.toNat < paddingMax w) (.ok (st u bs off (bfSet b (ld u bs off) (((l + 1).setWidth w).setWidth k))))

/-- `padding_member` (1497-1512) for `bool PADDING`: `~bool(0)` is -1 (`bool` is promoted to `int`), and
`member_type(level + 1)` is `true` unless `level + 1` is 0. -/
def paddingBoolTraits (off : Nat) : Traits where
  maxLevel := (BitVec.signExtend 64 (~~~ (0#32))).toNat
  getLevel := fun bs => (ld 8 bs off).setWidth 64 - 1
  setLevel := fun bs l => verifyThen (l.toNat < (BitVec.signExtend 64 (~~~ (0#32))).toNat)
    (.ok (st 8 bs off (if l + 1 = 0 then 0 else 1)))

end Opt
