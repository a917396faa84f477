import Verif.Model.Traits
import Verif.Model.Special

/-!
# The library's tests of sizes, sentinels and special members, replayed on the model

Tests, not proofs (see `Verif/Replay/Lifetime.lean`): test/special_traits.test.cpp, the size checks and enumerations of
test/special.test.cpp and the special members of test/meta.test.cpp, for x86-64 and libstdc++.
-/

namespace Opt.Replay

/-- `sizeof` -/
def size (T : Ty) : Nat := T.size 64

def int_ : Ty := .plain 4 4
def long_ : Ty := .plain 8 8
def float_ : Ty := .float32 true
def double_ : Ty := .float64 true 8
/-- a member of a tuple or pair at an offset -/
def fields : List (Nat × Ty) → Fields
  | [] => .nil
  | (o, t) :: r => .cons o t (fields r)
def tuple (n a : Nat) (fs : List (Nat × Ty)) : Ty := .tuple n a (fields fs)
def bytesEq (a b : Bytes) : Bool := a == b
/-- `opt::sentinel<unsigned, vs...>` -/
def sent (vs : List Nat) : Ty := .sentinel 4 4 bytesEq (vs.map (leBytes 4))

/-! ## Sizes (special.test.cpp 268-412, 414-458, 909-934; special_traits.test.cpp) -/

example : size (.option (tuple 8 4 [(4, int_), (0, float_)])) = 8 := by decide +kernel
example : size (.option (tuple 16 8 [(8, int_), (0, long_)])) > 16 := by decide +kernel
example : size (.option (tuple 16 8 [(8, float_), (0, double_)])) = 16 := by decide +kernel
example : size (.option (tuple 16 8 [(8, tuple 8 4 [(4, float_), (0, int_)]), (0, long_)])) = 16 := by decide +kernel
example : size (.option (.pair 16 8 0 int_ 8 long_)) > 16 := by decide +kernel
example : size (.option (.pair 8 4 0 int_ 4 float_)) = 8 := by decide +kernel
example : size (.option (.pair 12 4 0 (.pair 8 4 0 float_ 4 int_) 8 int_)) = 12 := by decide +kernel
example : size (.option (.array int_ 2)) > 8 := by decide +kernel
example : size (.option (.array float_ 2)) = 8 := by decide +kernel
example : size (.option (.array double_ 1)) = 8 := by decide +kernel
example : size (.option .uniquePtr) = 8 := by decide +kernel
example : size (.option (.string .libstdcpp)) = 32 := by decide +kernel
example : size (.option (.padding 1 1 0 8)) = 1 := by decide +kernel
example : size (.option (.padding 8 4 4 8)) = 8 := by decide +kernel
example : size (.option (.enforce float_)) = 4 ∧ size (.option (.enforce double_)) = 8 := by decide +kernel
example : size (.option (.member 4 4 0 float_)) = 4 := by decide +kernel
example : size (.option (sent [])) > 4 ∧ size (.option (sent [0])) = 4 ∧ size (.option (.option (sent [0]))) > 4 ∧
    size (.option (.option (sent [1, 2]))) = 4 ∧ size (.option (.option (.option (sent [10, 20])))) > 4 := by decide +kernel

/-! ## Sentinels (special_traits.test.cpp 24-128) -/

/-- the option after `reset()` -/
def none (T : Ty) (bs : Bytes) : Bytes :=
  match T.storeNone 64 bs with
  | .ok b => b
  | _ => []
def has (T : Ty) (bs : Bytes) : Bool := T.hasValue 64 bs

/-- `opt::option<opt::sentinel<int, 0>>`: empty; `a = 1`; `a = none`; `a.get_unchecked() = 0` -/
example : let T := sent [0]
    has T (none T [9, 9, 9, 9]) = false ∧ has T (T.storeValue 64 [0, 0, 0, 0] (leBytes 4 1)) = true ∧
    none T (leBytes 4 1) = leBytes 4 0 ∧ has T (leBytes 4 0) = false := by decide +kernel

/-- `opt::option<opt::option<opt::sentinel<unsigned, 1, 2>>>`: `a = 3U; a->reset(); *a = 4U; a.reset();` -/
example : let T := sent [1, 2]
    has (.option T) (leBytes 4 3) = true ∧ has T (leBytes 4 3) = true ∧
    has (.option T) (none T (leBytes 4 3)) = true ∧ has T (none T (leBytes 4 3)) = false ∧
    has (.option T) (leBytes 4 4) = true ∧ has (.option T) (none (.option T) (leBytes 4 4)) = false := by decide +kernel

/-- three options around `opt::sentinel<unsigned, 10, 20>`: the third has a flag -/
example : let T := sent [10, 20]
    let a := (Ty.option (.option T)).storeValue 64 (List.replicate 8 0) (leBytes 4 2)
    has (.option (.option T)) a = true ∧ has (.option T) (rd a 0 4) = true ∧ has T (rd a 0 4) = true ∧
    has (.option (.option T)) (none (.option (.option T)) a) = false := by decide +kernel

/-- `opt::option<int*>` as `opt::sentinel<int*, nullptr>` (132-142) -/
example : let T := Ty.sentinel 8 8 bytesEq [leBytes 8 0]
    size (.option T) = 8 ∧ has T (leBytes 8 0x7FFE0000) = true ∧ has T (none T (leBytes 8 0x7FFE0000)) = false := by decide +kernel

/-- `opt::sentinel_option_traits` (192-208) -/
example : let T := Ty.sentinelOpt 4 4 bytesEq (leBytes 4 1)
    size (.option T) = 4 ∧ none T (leBytes 4 3) = leBytes 4 1 ∧ has T (leBytes 4 0) = true ∧ has T (leBytes 4 1) = false := by decide +kernel

/-! ## Enumerations (special.test.cpp 1326-1507) -/

/-- `SENTINEL = 5` in an `int` enumeration, `SENTINEL = -10` in an `int8_t` one -/
example : size (.option (.enumSentinel 32 true 5)) = 4 ∧ size (.option (.option (.enumSentinel 32 true 5))) > 4 ∧
    has (.enumSentinel 32 true 5) (leBytes 4 4) = true ∧ has (.enumSentinel 32 true 5) (leBytes 4 5) = false ∧
    none (.enumSentinel 8 true (-10)) [1] = [0xF6] ∧ has (.enumSentinel 8 true (-10)) [0xFF] = true := by decide +kernel

/-- `SENTINEL_START = 7` in a `uint8_t` enumeration -/
example : let T := Ty.enumStart 8 false 7
    has T [6] = true ∧ none T [6] = [7] ∧ size (.option (.option T)) = 1 ∧ none (.option T) [3] = [8] ∧
    has (.option T) [7] = true ∧ has T [7] = false := by decide +kernel

/-! ## Special members (meta.test.cpp 88-106, 249-279) -/

/-- `int` -/
example : optionMembers true true true true true true true true true false = some ⟨.default, .default, .default, .default⟩ := by decide
/-- `non_copy_constructible`: a deleted copy constructor, no move constructor -/
example : (optionMembers false true false true true false true false true false).map (fun m => (m.copyCtor, resolveMove m.copyCtor m.moveCtor)) =
    some (.deleted, (.deleted, true)) := by decide
/-- `non_trivially_copy_constructible`: constructible, not trivially -/
example : (optionMembers false true false true true true true true true false).map (·.copyCtor) = some .manual := by decide
/-- `non_trivially_destructible`: assignable, not trivially -/
example : (optionMembers false true false true false true true true true false).map (fun m => (m.copyAssign, m.moveAssign)) =
    some (.manual, .manual) := by decide
/-- `non_move_assignable`: a deleted move assignment, so no copy operations and no move constructor either -/
example : (optionMembers false false false false true false false false false false).map (fun m => (m.moveAssign, (resolveMove m.copyAssign m.moveAssign).1)) =
    some (.deleted, .deleted) := by decide
/-- references: trivial (special.test.cpp 94-97) -/
example : optionMembers true false true false true true true true true true = some implicitMembers := by decide

/-! ## A test file that is not built

test/option_traits.test.cpp is not in test/CMakeLists.txt.  What it expects is not what the code does: levels of values
as `std::uintmax_t(-1)`, 256 levels for 32-bit pointers, `size()` of an emptied `std::string_view` equal to its level, levels
for empty classes.  Its numbers for enumerations (492-642) are still right. -/

example : [[0], [], [0, 1, 2, 3], [255], [1, 2, 4, 8, 16], [1, 2, 4, 8, 16, 32, 64, 128]].map
    (fun d => ((Ty.enumReflect 8 d).traits 64).maxLevel) = [255, 0, 252, 0, 224, 0] := by decide +kernel

example : boolTraits.getLevel [1] ≠ BitVec.allOnes 64 := by decide
example : ((Ty.pointer).traits 32).maxLevel ≠ 256 := by decide
example : ((Ty.stringView true).traits 64).setLevel (List.replicate 16 0) 1 =
    .ok (leBytes 8 0 ++ leBytes 8 (2 ^ 64 - 1 - 32185 + 1)) := by decide +kernel

/-! test/special.test.cpp 460-550 (`#ifdef OPTION_HAS_BOOST_PFR`) is not compiled either: the macro is called `OPTION_HAS_PFR`.
One of its checks fails in the model: `struct s6 {}; struct s7 { s6 x; int y; };`, `sizeof(option<s7>) == sizeof(s7)`. -/
example : size (.option (tuple 8 4 [(0, tuple 1 1 []), (4, int_)])) > 8 := by decide +kernel

end Opt.Replay
