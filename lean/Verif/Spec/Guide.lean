import Verif.Model.Traits

/-!
# The examples in docs/custom_traits_guide.md

The specialisations of `option_traits` that the guide shows, as types with user defined traits.  `int` has 32 bits.
-/

namespace Opt

/-- `my_type` and its traits (docs/custom_traits_guide.md 19-22, 47-58): `x` at offset 0, `y` at offset 4.  The level is
`y`, converted from `int` to `std::uintmax_t`, when `x` is -1. -/
def myTypeTraits (max : Nat) : Traits where
  maxLevel := max
  getLevel := fun bs => if ld 32 bs 0 = -1 then (ld 32 bs 4).signExtend 64 else -1
  setLevel := fun bs l => .ok (st 32 (st 32 bs 0 (-1)) 4 (l.setWidth 32))

/-- live values of `my_type` are those with another `x` -/
def MyTypeLive (bs : Bytes) : Prop := ld 32 bs 0 ≠ -1

def myType : Ty := .custom 8 4 (myTypeTraits 100) MyTypeLive

/-- `my_type_4` (220-237) as it is meant: like `my_type`, with a third member `z` at offset 8 and 10000 levels -/
def myType4 : Ty := .custom 12 4 (myTypeTraits 10000) MyTypeLive

/-- `my_type_4` as it is written: `value->x == -1;` (234) is a comparison -/
def myType4Written : Ty := .custom 12 4
  { maxLevel := 10000
    getLevel := fun bs => if ld 32 bs 0 = -1 then (ld 32 bs 4).signExtend 64 else -1
    setLevel := fun bs l => .ok (st 32 bs 4 (l.setWidth 32)) } MyTypeLive

/-- `value->x + 1` converted to `std::uintmax_t` for an integer type of `w` bits: narrow types are promoted to `int`.
(On overflow of a signed sum the behaviour is undefined; the value here is the wrapped one.) -/
def plusOne (w : Nat) (signed : Bool) (x : BitVec w) : U64 :=
  if w < 32 then ((if signed then x.signExtend 32 else x.setWidth 32) + 1).signExtend 64
  else if signed then (x + 1).signExtend 64 else (x + 1).setWidth 64

/-- `my_type_3<T>` (149-164) for an integer type `T` of `w` bits -/
def myType3 (w : Nat) (signed : Bool) : Ty := .custom (w / 8) (w / 8)
  { maxLevel := 1
    getLevel := fun bs => plusOne w signed (ld w bs 0)
    setLevel := fun bs _ => .ok (st w bs 0 (-1)) } (fun bs => ld w bs 0 ≠ -1)

/-- the traits that replace those of `float` (277-289): `*value == 0.f` holds for both zeros -/
def zeroFloat : Ty := .custom 4 4
  { maxLevel := 1
    getLevel := fun bs => if ld 32 bs 0 = 0 ∨ ld 32 bs 0 = 0x80000000 then 0 else -1
    setLevel := fun bs _ => .ok (st 32 bs 0 0) } (fun bs => ld 32 bs 0 ≠ 0 ∧ ld 32 bs 0 ≠ 0x80000000)

/-- a specialisation with `max_level = 0` (200-205); nothing else is looked at -/
def disabled (size align : Nat) (t : Traits) : Ty := .custom size align { t with maxLevel := 0 } (fun _ => True)

end Opt
