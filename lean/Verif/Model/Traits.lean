import Verif.Model.Res
import Verif.Model.Bytes
import Verif.Model.EnumReflect

/-!
# `opt::option_traits` (option.hpp 1140-1786, 3275-3321, 3930-4050)

A traits class is a number of levels with a getter and a setter over the object representation (a list of bytes).
Every built-in specialisation is transcribed with its constants; arithmetic is done on bit vectors of the width the
C++ expression has, so wrap-around is the one of the code.

`pw` is the width of `std::uintptr_t` / `std::size_t` in bits (32 or 64).
-/

namespace Opt

/-- One `option_traits<T>` class.  `maxLevel` is a `std::uintmax_t` constant, kept as its value. -/
structure Traits where
  maxLevel : Nat
  getLevel : Bytes → U64
  setLevel : Bytes → U64 → Res Bytes

/-- `max_level = 0`, no `get_level` / `set_level` (option.hpp 1140-1143, 1766-1768): calling them does not compile,
so the bodies are never reached. -/
def noTraits : Traits where
  maxLevel := 0
  getLevel := fun _ => 0
  setLevel := fun _ _ => .ub

/-- `internal_option_traits<bool>` (option.hpp 1155-1169). `uint_bool(x - 2)`: computed in int, truncated to 8 bits. -/
def boolTraits : Traits where
  maxLevel := 254
  getLevel := fun bs => (ld 8 bs 0 - 2).setWidth 64
  setLevel := fun bs l => verifyThen (l.toNat < 254) (.ok (st 8 bs 0 ((l + 2).setWidth 8)))

/-- `internal_option_traits<std::reference_wrapper<T>>` (option.hpp 1171-1183). -/
def refWrapperTraits (pw : Nat) : Traits where
  maxLevel := 256
  getLevel := fun bs => (ld pw bs 0).setWidth 64
  setLevel := fun bs l => verifyThen (l.toNat < 256) (.ok (st pw bs 0 (l.setWidth pw)))

/-- `pointer_64` (option.hpp 1184-1199). -/
def pointer64Traits : Traits where
  maxLevel := 512
  getLevel := fun bs => ld 64 bs 0 - 0xF8E1B1825D5D6C67#64
  setLevel := fun bs l => verifyThen (l.toNat < 512) (.ok (st 64 bs 0 (0xF8E1B1825D5D6C67#64 + l)))

/-- `pointer_32` (option.hpp 1200-1215): `ptr_offset = 0xFFFFFFFF - 63`. -/
def pointer32Traits : Traits where
  maxLevel := 32
  getLevel := fun bs => (ld 32 bs 0 - (0xFFFFFFFF#32 - 63)).setWidth 64
  setLevel := fun bs l => verifyThen (l.toNat < 32)
    (.ok (st 32 bs 0 (((0xFFFFFFFF#32 - 63).setWidth 64 + l).setWidth 32)))

/-- `float64_sNaN` (option.hpp 1216-1231). -/
def float64SNaNTraits : Traits where
  maxLevel := 256
  getLevel := fun bs =>
    ld 64 bs 0 - 0b1111111111110110110001111001111101010101101100001000100110001111#64
  setLevel := fun bs l => verifyThen (l.toNat < 256)
    (.ok (st 64 bs 0 (0b1111111111110110110001111001111101010101101100001000100110001111#64 + l)))

/-- `float64_qNaN` (option.hpp 1232-1247). -/
def float64QNaNTraits : Traits where
  maxLevel := 256
  getLevel := fun bs =>
    ld 64 bs 0 - 0b1111111111111011111100100110010000110000101110110011010101010111#64
  setLevel := fun bs l => verifyThen (l.toNat < 256)
    (.ok (st 64 bs 0 (0b1111111111111011111100100110010000110000101110110011010101010111#64 + l)))

/-- `float32_sNaN` (option.hpp 1248-1263). -/
def float32SNaNTraits : Traits where
  maxLevel := 256
  getLevel := fun bs => (ld 32 bs 0 - 0b11111111101111110110100110101111#32).setWidth 64
  setLevel := fun bs l => verifyThen (l.toNat < 256)
    (.ok (st 32 bs 0 ((0b11111111101111110110100110101111#64 + l).setWidth 32)))

/-- `float32_qNaN` (option.hpp 1264-1279). -/
def float32QNaNTraits : Traits where
  maxLevel := 256
  getLevel := fun bs => (ld 32 bs 0 - 0b11111111110000111110111110110101#32).setWidth 64
  setLevel := fun bs l => verifyThen (l.toNat < 256)
    (.ok (st 32 bs 0 ((0b11111111110000111110111110110101#64 + l).setWidth 32)))

/-- `std::uintptr_t(-1) - k` in `pw` bits. -/
def topMinus (pw : Nat) (k : Nat) : BitVec pw := BitVec.allOnes pw - BitVec.ofNat pw k

/-- `uint - start` computed in `std::uintptr_t` and returned as `std::uintmax_t`. -/
def ptrGet (pw : Nat) (start : BitVec pw) (off : Nat) (bs : Bytes) : U64 := (ld pw bs off - start).setWidth 64

/-- `std::uintptr_t(start + level)`: the sum is computed in `std::uintmax_t`, then truncated. -/
def ptrSet (pw : Nat) (start : BitVec pw) (l : U64) : BitVec pw := (start.setWidth 64 + l).setWidth pw

/-- `polymorphic` (option.hpp 1363-1378): the vtable pointer is assumed to be the first word, as the code does. -/
def polymorphicTraits (pw : Nat) : Traits where
  maxLevel := 255
  getLevel := ptrGet pw (topMinus pw 89151) 0
  setLevel := fun bs l => verifyThen (l.toNat < 255) (.ok (st pw bs 0 (ptrSet pw (topMinus pw 89151) l)))

/-- `string_view` (option.hpp 1380-1396).  `set_level` constructs the view `(ptr, 0)`; `lenFirst` says whether the
library stores the length before the pointer (libstdc++) or after it (libc++, MSVC STL). -/
def stringViewTraits (pw : Nat) (lenFirst : Bool) : Traits where
  maxLevel := 255
  getLevel := ptrGet pw (topMinus pw 32185) (if lenFirst then pw / 8 else 0)
  setLevel := fun bs l => verifyThen (l.toNat < 255)
    (.ok (st pw (st pw bs (if lenFirst then pw / 8 else 0) (ptrSet pw (topMinus pw 32185) l))
      (if lenFirst then 0 else pw / 8) 0))

/-- `unique_ptr` with the default deleter (option.hpp 1397-1412); `get()` is the first word. -/
def uniquePtrTraits (pw : Nat) : Traits where
  maxLevel := 255
  getLevel := ptrGet pw (topMinus pw 46508) 0
  setLevel := fun bs l => verifyThen (l.toNat < 255) (.ok (st pw bs 0 (ptrSet pw (topMinus pw 46508) l)))

/-- `member_pointer_32` (option.hpp 1463-1479). -/
def memberPointer32Traits : Traits where
  maxLevel := 255
  getLevel := fun bs => (ld 32 bs 0 - 0xFFFFFC17#32).setWidth 64
  setLevel := fun bs l => verifyThen (l.toNat < 255) (.ok (st 32 bs 0 ((l + 0xFFFFFC17#64).setWidth 32)))

/-- `member_pointer_64` (option.hpp 1480-1496): reads and writes the first 8 bytes. -/
def memberPointer64Traits : Traits where
  maxLevel := 255
  getLevel := fun bs => ld 64 bs 0 - 0xFFFFFFFFD3B2F9B2#64
  setLevel := fun bs l => verifyThen (l.toNat < 255) (.ok (st 64 bs 0 (l + 0xFFFFFFFFD3B2F9B2#64)))

/-- `std::uintmax_t(~member_type(0))` (option.hpp 1503).  `member_type` narrower than `int` is promoted to (signed) `int`
before `~`, so the result is `int(-1)` converted to `std::uintmax_t`. -/
def paddingMax (w : Nat) : Nat :=
  if w < 32 then (BitVec.signExtend 64 (~~~ (0#32))).toNat
  else (BitVec.setWidth 64 (~~~ (BitVec.ofNat w 0))).toNat

/-- `padding_member` (option.hpp 1497-1512): an unsigned member `PADDING` of `w` bits at byte offset `off`. -/
def paddingTraits (w off : Nat) : Traits where
  maxLevel := paddingMax w
  getLevel := fun bs => (ld w bs off).setWidth 64 - 1
  setLevel := fun bs l => verifyThen (l.toNat < paddingMax w) (.ok (st w bs off ((l + 1).setWidth w)))

/-- `probe_value = sizeof(T) == 1 ? 256 : 1024` (option.hpp 1517). -/
def enumProbe (w : Nat) : Nat := if w / 8 = 1 then 256 else 1024

/-- `max_level = max_enumerator_value == 0 ? 0 : probe_value - max_enumerator_value` in `std::uintmax_t`
(option.hpp 1528-1530). -/
def enumMaxLevel (w : Nat) (m : U64) : Nat :=
  if m = 0 then 0 else (BitVec.ofNat 64 (enumProbe w) - m).toNat

/-- `enumeration` (option.hpp 1513-1541) for an unsigned underlying type of `w` bits; `m` is `max_enumerator_value`. -/
def enumReflectTraits (w : Nat) (m : U64) : Traits where
  maxLevel := enumMaxLevel w m
  getLevel := fun bs => (ld w bs 0).setWidth 64 - m
  setLevel := fun bs l => verifyThen (l.toNat < enumMaxLevel w m) (.ok (st w bs 0 ((l + m).setWidth w)))

/-- `enumeration` (option.hpp 1513-1541) for the unsigned underlying type `bool`: `underlying(level + m)` is a
conversion to `bool`, i.e. 1 for every non-zero sum. -/
def enumBoolTraits (m : U64) : Traits where
  maxLevel := enumMaxLevel 8 m
  getLevel := fun bs => (if ld 8 bs 0 = 0 then 0 else 1) - m
  setLevel := fun bs l => verifyThen (l.toNat < enumMaxLevel 8 m) (.ok (st 8 bs 0 (if l + m = 0 then 0 else 1)))

/-- Width of an integer after integral promotion. -/
def promW (w : Nat) : Nat := if w < 32 then 32 else w

/-- Integral promotion of a `w`-bit value. -/
def prom (signed : Bool) (w : Nat) (a : BitVec w) : BitVec (promW w) :=
  if signed then a.signExtend _ else a.setWidth _

/-- Conversion of a promoted value to `std::uintmax_t`: types narrower than `int` are promoted to signed `int`. -/
def promTo64 (signed : Bool) (w : Nat) (a : BitVec (promW w)) : U64 :=
  if signed || decide (w < 32) then a.signExtend 64 else a.setWidth 64

/-- Conversion of an unpromoted value of the underlying type to `std::uintmax_t`. -/
def to64 (signed : Bool) (w : Nat) (a : BitVec w) : U64 := if signed then a.signExtend 64 else a.setWidth 64

/-- `std::uintmax_t(val - start)` (option.hpp 1549, 1567, 1586), two's complement. When the operands are signed and at
least as wide as `int` an overflow is undefined behaviour, see `diffOverflows`. -/
def enumDiff (signed : Bool) (w : Nat) (val start : BitVec w) : U64 :=
  promTo64 signed w (prom signed w val - prom signed w start)

/-- The subtraction `val - start` overflows (signed operands of width >= 32 only): undefined behaviour. -/
def diffOverflows (signed : Bool) (w : Nat) (val start : BitVec w) : Bool :=
  signed && decide (32 ≤ w) &&
    (decide (val.toInt - start.toInt < -(2 : Int) ^ (w - 1)) || decide ((2 : Int) ^ (w - 1) ≤ val.toInt - start.toInt))

/-- `enumeration_sentinel` (option.hpp 1542-1558), for enumerations whose underlying type is not `bool`. -/
def enumSentinelTraits (w : Nat) (signed : Bool) (s : BitVec w) : Traits where
  maxLevel := 1
  getLevel := fun bs => enumDiff signed w (ld w bs 0) s
  setLevel := fun bs l => verifyThen (l = 0) (.ok (st w bs 0 s))

/-- `(std::numeric_limits<underlying>::max)() - std::uintmax_t(start) + 1` (option.hpp 1564-1565). -/
def enumStartMax (w : Nat) (signed : Bool) (start : BitVec w) : Nat :=
  (BitVec.ofNat 64 (if signed then 2 ^ (w - 1) - 1 else 2 ^ w - 1) - to64 signed w start + 1).toNat

/-- `underlying(start + level)`: the sum is computed in `std::uintmax_t` and truncated (option.hpp 1573, 1592). -/
def enumStartSet (w : Nat) (signed : Bool) (start : BitVec w) (l : U64) : BitVec w :=
  (to64 signed w start + l).setWidth w

/-- `enumeration_sentinel_start` (option.hpp 1559-1576). -/
def enumStartTraits (w : Nat) (signed : Bool) (start : BitVec w) : Traits where
  maxLevel := enumStartMax w signed start
  getLevel := fun bs => enumDiff signed w (ld w bs 0) start
  setLevel := fun bs l => verifyThen (l.toNat < enumStartMax w signed start)
    (.ok (st w bs 0 (enumStartSet w signed start l)))

/-- `end - start + 1` in the promoted type, converted to `std::uintmax_t` (option.hpp 1583). -/
def enumStartEndMax (w : Nat) (signed : Bool) (start end_ : BitVec w) : Nat :=
  (promTo64 signed w (prom signed w end_ - prom signed w start + 1)).toNat

/-- `enumeration_sentinel_start_end` (option.hpp 1577-1595), for underlying types other than `bool`. -/
def enumStartEndTraits (w : Nat) (signed : Bool) (start end_ : BitVec w) : Traits where
  maxLevel := enumStartEndMax w signed start end_
  getLevel := fun bs => enumDiff signed w (ld w bs 0) start
  setLevel := fun bs l => verifyThen (l.toNat < enumStartEndMax w signed start end_)
    (.ok (st w bs 0 (enumStartSet w signed start l)))

/-- Standard libraries known to the string traits (option.hpp 1617-1652). -/
inductive StringLib where
  | stl (debug : Bool)
  | libcpp (alternate : Bool)
  | libstdcpp
deriving DecidableEq, Repr

/-- `sizeof(std::string)` from the static assertions (option.hpp 1621, 1625, 1648, 1652), by pointer width. -/
def stringSize (pw : Nat) : StringLib → Nat
  | .stl false => if pw = 64 then 32 else 24
  | .stl true => if pw = 64 then 40 else 28
  | .libcpp _ => if pw = 64 then 24 else 12
  | .libstdcpp => if pw = 64 then 32 else 24

/-- `size_offset` (option.hpp 1619, 1623, 1629, 1640, 1651). -/
def stringSizeOff (pw : Nat) : StringLib → Nat
  | .stl false => 16
  | .stl true => if pw = 64 then 24 else 20
  | .libcpp _ => if pw = 64 then 8 else 4
  | .libstdcpp => if pw = 64 then 8 else 4

/-- `capacity_offset` / `data_offset`: the word that holds the marker (option.hpp 1620, 1624, 1630, 1641, 1650). -/
def stringMarkOff (pw : Nat) : StringLib → Nat
  | .stl false => if pw = 64 then 24 else 20
  | .stl true => if pw = 64 then 32 else 24
  | .libcpp true => if pw = 64 then 16 else 8
  | .libcpp false => 0
  | .libstdcpp => 0

/-- The marker: capacity 0 (STL), `magic_capacity` (libc++, little endian), null data (libstdc++)
(option.hpp 1634-1647, 1667, 1677, 1688). -/
def stringMark (pw : Nat) : StringLib → BitVec pw
  | .stl _ => 0
  | .libcpp true => BitVec.ofNat pw 1 <<< (pw - 1)
  | .libcpp false => 1
  | .libstdcpp => 0

/-- `string` (option.hpp 1613-1711), little endian. -/
def stringTraits (pw : Nat) (lib : StringLib) : Traits where
  maxLevel := 255
  getLevel := fun bs =>
    if ld pw bs (stringMarkOff pw lib) = stringMark pw lib
    then (ld pw bs (stringSizeOff pw lib)).setWidth 64
    else BitVec.allOnes 64
  setLevel := fun bs l => verifyThen (l.toNat < 255)
    (match lib with
      | .stl _ => -- size first, then capacity (option.hpp 1698-1702)
        .ok (st pw (st pw bs (stringSizeOff pw lib) (l.setWidth pw)) (stringMarkOff pw lib) (stringMark pw lib))
      | _ => -- marker first, then size (option.hpp 1703-1712)
        .ok (st pw (st pw bs (stringMarkOff pw lib) (stringMark pw lib)) (stringSizeOff pw lib) (l.setWidth pw)))

/-- `vector` (option.hpp 1712-1729). -/
def vectorTraits (pw : Nat) : Traits where
  maxLevel := 255
  getLevel := ptrGet pw (topMinus pw 76326) 0
  setLevel := fun bs l => verifyThen (l.toNat < 255) (.ok (st pw bs 0 (ptrSet pw (topMinus pw 76326) l)))

/-- The traits of a sub-object of `n` bytes at offset `off`: `traits::get_level(std::addressof(value->member))`. -/
def atField (off n : Nat) (t : Traits) : Traits where
  maxLevel := t.maxLevel
  getLevel := fun bs => t.getLevel (rd bs off n)
  setLevel := fun bs l => (t.setLevel (rd bs off n) l).map (wr bs off)

/-- `pair` (option.hpp 1281-1310): the first member is used only if it has strictly more levels. -/
def pairTraits (t1 t2 : Traits) : Traits := if t1.maxLevel > t2.maxLevel then t1 else t2

/-- the loop of `index_of_max` (option.hpp 806-812) -/
def indexOfMaxLoop : List Nat → (i maxv idx : Nat) → Nat
  | [], _, _, idx => idx
  | x :: xs, i, maxv, idx => if x > maxv then indexOfMaxLoop xs (i + 1) x i else indexOfMaxLoop xs (i + 1) maxv idx

/-- `index_of_max` (option.hpp 802-814); only instantiated on a non-empty list. -/
def indexOfMax : List Nat → Nat
  | [] => 0
  | x :: xs => indexOfMaxLoop xs 1 x 0

/-- `find_max_level` and the traits that forward to it: tuple 1312-1327, tuple-like 1596-1611, reflectable 1344-1361.
An empty pack has no levels (option.hpp 825-831). -/
def findMaxLevel (ts : List Traits) : Traits :=
  match ts with
  | [] => noTraits
  | _ => (ts[indexOfMax (ts.map (·.maxLevel))]?).getD noTraits

/-- `complex` (option.hpp 1732-1757): real part at offset 0, set through a value-initialised temporary. -/
def complexTraits (n : Nat) (t : Traits) : Traits where
  maxLevel := t.maxLevel
  getLevel := fun bs => t.getLevel (rd bs 0 n)
  setLevel := fun bs l => verifyThen (l.toNat < t.maxLevel)
    ((t.setLevel (List.replicate n 0) l).map (wr bs 0))

/-- `sentinel_get_level_impl` (option.hpp 3934-3943); `eq` is `value == Value`, whose operands need not have the same type. -/
def sentinelGet {A V : Type} (eq : A → V → Bool) : List V → U64 → A → U64
  | [], _, _ => 0 -- does not compile
  | v :: vs, i, x =>
    if eq x v then i
    else match vs with
      | [] => BitVec.allOnes 64
      | _ :: _ => sentinelGet eq vs (i + 1) x

/-- `sentinel_set_level_impl` (option.hpp 3944-3953), for the values converted to `T`. -/
def sentinelSet {A : Type} : List A → U64 → U64 → Res A
  | [], _, _ => .ub -- does not compile
  | v :: vs, i, l =>
    if l = i then .ok v
    else match vs with
      | [] => .verify
      | _ :: _ => sentinelSet vs (i + 1) l

/-- `option_traits<sentinel<T, Values...>>` (option.hpp 3956-3969); `eq` is `T`'s `==`, the assignment
`value = Value` replaces the whole object by the representation of `Value`. -/
def sentinelTraits (eq : Bytes → Bytes → Bool) (vals : List Bytes) : Traits where
  maxLevel := vals.length
  getLevel := sentinelGet eq vals 0
  setLevel := fun _ l => sentinelSet vals 0 l

/-- `option_traits<T>` for a `sentinel_option_traits<T>` specialisation (option.hpp 1775-1786). -/
def sentinelOptionTraits (eq : Bytes → Bytes → Bool) (s : Bytes) : Traits where
  maxLevel := 1
  getLevel := fun x => if eq x s then 0 else 1
  setLevel := fun _ l => verifyThen (l = 0) (.ok s)

/-- `avaliable_option` (option.hpp 3278-3292): the option stores its value at offset 0 in the same bytes. -/
def availableOptionTraits (t : Traits) : Traits where
  maxLevel := t.maxLevel - 1
  getLevel := fun bs => t.getLevel bs - 1
  setLevel := fun bs l => t.setLevel bs (l + 1)

/-- `unavaliable_option` (option.hpp 3293-3306): the levels live in the `has_value_flag` byte that follows the value. -/
def unavailableOptionTraits (n : Nat) : Traits where
  maxLevel := boolTraits.maxLevel
  getLevel := (atField n 1 boolTraits).getLevel
  setLevel := (atField n 1 boolTraits).setLevel

/-- `dispatch_specializations<option<T>>` (option.hpp 999-1004). -/
def optionTraits (n : Nat) (t : Traits) : Traits :=
  if t.maxLevel ≥ 1 then availableOptionTraits t else unavailableOptionTraits n

/-- `reference_option` (option.hpp 3307-3321); `set_level` has no range check. -/
def referenceOptionTraits (pw : Nat) : Traits where
  maxLevel := 256
  getLevel := fun bs => (ld pw bs 0).setWidth 64 - 1
  setLevel := fun bs l => .ok (st pw bs 0 ((l + 1).setWidth pw))

/-- round `n` up to a multiple of `a` -/
def roundTo (n a : Nat) : Nat := (n + a - 1) / a * a

/-! ## A universe of types -/

mutual
/-- Types `option` can hold, with the object layout (sizes, alignments and offsets chosen by the ABI are data).
`plain` is any type without levels. `custom` is a user specialisation of `option_traits`. -/
inductive Ty where
  | plain (size align : Nat)
  | bool
  | refWrapper
  | pointer
  | float64 (signaling : Bool) (align : Nat)
  | float32 (signaling : Bool)
  | polymorphic (size align : Nat)
  | stringView (lenFirst : Bool)
  | uniquePtr
  | string (lib : StringLib)
  | vector
  | memberPtr (size align : Nat)
  | padding (size align off w : Nat)
  | enumReflect (w : Nat) (decl : List Nat)
  | enumBool
  | enumSentinel (w : Nat) (signed : Bool) (s : BitVec w)
  | enumStart (w : Nat) (signed : Bool) (start : BitVec w)
  | enumStartEnd (w : Nat) (signed : Bool) (start end_ : BitVec w)
  | sentinel (size align : Nat) (eq : Bytes → Bytes → Bool) (vals : List Bytes)
  | sentinelOpt (size align : Nat) (eq : Bytes → Bytes → Bool) (s : Bytes)
  | custom (size align : Nat) (t : Traits) (valid : Bytes → Prop)
  | pair (size align : Nat) (o1 : Nat) (a : Ty) (o2 : Nat) (b : Ty)
  | tuple (size align : Nat) (fs : Fields)
  | array (a : Ty) (n : Nat)
  | complex (a : Ty)
  | member (size align off : Nat) (a : Ty)
  | enforce (a : Ty)
  | option (a : Ty)
  | optionRef
/-- members of a tuple, tuple-like or reflectable type with their offsets -/
inductive Fields where
  | nil
  | cons (off : Nat) (t : Ty) (rest : Fields)
end

mutual
/-- `alignof` -/
def Ty.align (pw : Nat) : Ty → Nat
  | .plain _ a => a
  | .bool => 1
  | .refWrapper | .pointer | .uniquePtr | .vector | .optionRef | .stringView _ | .string _ => pw / 8
  | .float64 _ a => a
  | .float32 _ => 4
  | .polymorphic _ a => a
  | .memberPtr _ a => a
  | .padding _ a _ _ => a
  | .enumReflect w _ => w / 8
  | .enumBool => 1
  | .enumSentinel w _ _ => w / 8
  | .enumStart w _ _ => w / 8
  | .enumStartEnd w _ _ _ => w / 8
  | .sentinel _ a _ _ => a
  | .sentinelOpt _ a _ _ => a
  | .custom _ a _ _ => a
  | .pair _ a _ _ _ _ => a
  | .tuple _ a _ => a
  | .array a _ => a.align pw
  | .complex a => a.align pw
  | .member _ a _ _ => a
  | .enforce a => a.align pw
  | .option a => a.align pw

/-- `sizeof`, and the option traits of the type -/
def Ty.sizeTraits (pw : Nat) : Ty → Nat × Traits
  | .plain n _ => (n, noTraits)
  | .bool => (1, boolTraits)
  | .refWrapper => (pw / 8, refWrapperTraits pw)
  | .pointer => -- option.hpp 1066-1074
    (pw / 8, if pw / 8 = 8 then pointer64Traits else if pw / 8 = 4 then pointer32Traits else noTraits)
  | .float64 s _ => (8, if s then float64SNaNTraits else float64QNaNTraits)
  | .float32 s => (4, if s then float32SNaNTraits else float32QNaNTraits)
  | .polymorphic n _ => (n, polymorphicTraits pw)
  | .stringView lf => (2 * (pw / 8), stringViewTraits pw lf)
  | .uniquePtr => (pw / 8, uniquePtrTraits pw)
  | .string lib => (stringSize pw lib, stringTraits pw lib)
  | .vector => (3 * (pw / 8), vectorTraits pw)
  | .memberPtr n _ => -- option.hpp 1075-1083
    (n, if n = 4 then memberPointer32Traits else if n ≥ 8 then memberPointer64Traits else noTraits)
  | .padding n _ off w => (n, paddingTraits w off)
  | .enumReflect w decl =>
    (w / 8, enumReflectTraits w (Enum.maxEnumValue (fun v => decl.contains v) (enumProbe w)))
  | .enumBool => (1, enumBoolTraits (Enum.maxEnumValue (fun v => v == 0) 256))
  | .enumSentinel w sg s => (w / 8, enumSentinelTraits w sg s)
  | .enumStart w sg s => (w / 8, enumStartTraits w sg s)
  | .enumStartEnd w sg s e => (w / 8, enumStartEndTraits w sg s e)
  | .sentinel n _ eq vals => (n, sentinelTraits eq vals)
  | .sentinelOpt n _ eq s => (n, sentinelOptionTraits eq s)
  | .custom n _ t _ => (n, t)
  | .pair n _ o1 a o2 b =>
    let ra := a.sizeTraits pw
    let rb := b.sizeTraits pw
    (n, pairTraits (atField o1 ra.1 ra.2) (atField o2 rb.1 rb.2))
  | .tuple n _ fs => (n, findMaxLevel (fs.traits pw))
  | .array a n => -- option.hpp 1028-1031: no levels for N = 0; 1329-1342 element 0
    let ra := a.sizeTraits pw
    (n * ra.1, if n = 0 then noTraits else atField 0 ra.1 ra.2)
  | .complex a =>
    let ra := a.sizeTraits pw
    (2 * ra.1, complexTraits ra.1 ra.2)
  | .member n _ off a => -- option.hpp 4015-4030
    let ra := a.sizeTraits pw
    (n, atField off ra.1 ra.2)
  | .enforce a => a.sizeTraits pw -- option.hpp 4035-4050
  | .option a => -- option.hpp 1908-2107: without levels a bool flag follows the value
    let ra := a.sizeTraits pw
    (if ra.2.maxLevel ≥ 1 then ra.1 else roundTo (ra.1 + 1) (a.align pw), optionTraits ra.1 ra.2)
  | .optionRef => (pw / 8, referenceOptionTraits pw)

/-- the member traits, in declaration order -/
def Fields.traits (pw : Nat) : Fields → List Traits
  | .nil => []
  | .cons off t rest =>
    let r := t.sizeTraits pw
    atField off r.1 r.2 :: rest.traits pw
end

/-- `sizeof(T)` -/
def Ty.size (pw : Nat) (T : Ty) : Nat := (T.sizeTraits pw).1

/-- `option_traits<T>` -/
def Ty.traits (pw : Nat) (T : Ty) : Traits := (T.sizeTraits pw).2

/-! ## `option<T>` seen as bytes -/

/-- `option<T>::has_value()` (option.hpp 1934, 1982, 2037, 2095): the flag byte, or a non-zero level. -/
def Ty.hasValue (pw : Nat) (T : Ty) (bs : Bytes) : Bool :=
  if (T.traits pw).maxLevel ≥ 1 then (T.traits pw).getLevel bs ≠ 0
  else ld 8 bs (T.size pw) ≠ 0

/-- the bytes of the contained value: the union member is at offset 0 -/
def Ty.payload (pw : Nat) (T : Ty) (bs : Bytes) : Bytes := rd bs 0 (T.size pw)

/-- storing the value `v` in the option's bytes and engaging it (option.hpp 1941-1944, 2044-2048) -/
def Ty.storeValue (pw : Nat) (T : Ty) (bs v : Bytes) : Bytes :=
  if (T.traits pw).maxLevel ≥ 1 then wr bs 0 v
  else st 8 (wr bs 0 v) (T.size pw) 1

/-- emptying the option: `set_level(0)` or clearing the flag (option.hpp 1929, 1973, 2027, 2081) -/
def Ty.storeNone (pw : Nat) (T : Ty) (bs : Bytes) : Res Bytes :=
  if (T.traits pw).maxLevel ≥ 1 then (T.traits pw).setLevel bs 0
  else .ok (st 8 bs (T.size pw) 0)

end Opt
