import Verif.Model.X86

/-!
# The machine code expected by test/codegen/sample.cpp

Transcribed by a script, one list per function and compiler, with the line of each listing.  The functions on `std::optional` are left out.
-/

namespace Opt.Codegen

open Opt.X86

/-- a listing: its line in test/codegen/sample.cpp, whether it is for Windows (`msvc`, `clang-cl`) -/
structure Listing where
  line : Nat
  win : Bool
  code : List Instr
deriving DecidableEq, Repr

/-- `void option_int_assign(opt::option<int>* a) { *a = 2; }` (sample.cpp 6-17) -/
def option_int_assign : List Listing :=
  [⟨6, false, [.mov .d (.mem .rdi 0) (.imm 0x2), .mov .b (.mem .rdi 4) (.imm 0x1), .ret]⟩,
   ⟨11, true, [.mov .d (.mem .rcx 0) (.imm 0x2), .mov .b (.mem .rcx 4) (.imm 0x1), .ret]⟩]

/-- `void option_int_assign_option(opt::option<int>* a, opt::option<int>* b) { *a = *b; }` (sample.cpp 19-46) -/
def option_int_assign_option : List Listing :=
  [⟨19, false, [.movzx (.reg .rax) (.mem .rsi 4), .mov .b (.mem .rdi 4) (.reg .rax), .mov .d (.reg .rax) (.mem .rsi 0), .mov .d (.mem .rdi 0) (.reg .rax), .ret]⟩,
   ⟨26, false, [.mov .b (.reg .rax) (.mem .rsi 4), .mov .b (.mem .rdi 4) (.reg .rax), .mov .d (.reg .rax) (.mem .rsi 0), .mov .d (.mem .rdi 0) (.reg .rax), .ret]⟩,
   ⟨33, false, [.mov .d (.reg .rax) (.mem .rsi 0), .mov .d (.mem .rdi 0) (.reg .rax), .movzx (.reg .rax) (.mem .rsi 4), .mov .b (.mem .rdi 4) (.reg .rax), .ret]⟩,
   ⟨40, true, [.mov .q (.reg .rax) (.mem .rdx 0), .mov .q (.mem .rcx 0) (.reg .rax), .ret]⟩]

/-- `opt::option<int> option_int_return() { return 2; }` (sample.cpp 48-73) -/
def option_int_return : List Listing :=
  [⟨48, false, [.mov .q (.reg .rax) (.imm 0x100000002), .ret]⟩,
   ⟨53, false, [.mov .d (.mem .rsp (-8)) (.imm 0x2), .mov .b (.mem .rsp (-4)) (.imm 0x1), .mov .q (.reg .rax) (.mem .rsp (-8)), .ret]⟩,
   ⟨60, true, [.mov .d (.mem .rcx 0) (.imm 0x2), .mov .q (.reg .rax) (.reg .rcx), .mov .b (.mem .rcx 4) (.imm 0x1), .ret]⟩,
   ⟨66, true, [.mov .q (.reg .rax) (.reg .rcx), .mov .d (.mem .rcx 0) (.imm 0x2), .mov .b (.mem .rcx 4) (.imm 0x1), .ret]⟩]

/-- `void option_float_assign(opt::option<float>* a) { *a = 1.f; }` (sample.cpp 75-84) -/
def option_float_assign : List Listing :=
  [⟨75, false, [.mov .d (.mem .rdi 0) (.imm 0x3f800000), .ret]⟩,
   ⟨79, true, [.mov .d (.mem .rcx 0) (.imm 0x3f800000), .ret]⟩]

/-- `opt::option<float> option_float_return() { return 1.f; }` (sample.cpp 119-134) -/
def option_float_return : List Listing :=
  [⟨119, false, [.mov .d (.reg .rax) (.imm 0x3f800000), .ret]⟩,
   ⟨123, true, [.mov .q (.reg .rax) (.reg .rcx), .mov .d (.mem .rcx 0) (.imm 0x3f800000), .ret]⟩,
   ⟨128, true, [.mov .d (.mem .rcx 0) (.imm 0x3f800000), .mov .q (.reg .rax) (.reg .rcx), .ret]⟩]

/-- `opt::option<double> option_double_return() { return 1.; }` (sample.cpp 161-178) -/
def option_double_return : List Listing :=
  [⟨161, false, [.mov .q (.reg .rax) (.imm 0x3ff0000000000000), .ret]⟩,
   ⟨165, true, [.mov .q (.reg .rax) (.imm 0x3ff0000000000000), .mov .q (.mem .rcx 0) (.reg .rax), .mov .q (.reg .rax) (.reg .rcx), .ret]⟩,
   ⟨171, true, [.mov .q (.reg .rax) (.reg .rcx), .mov .q (.reg .rcx) (.imm 0x3ff0000000000000), .mov .q (.mem .rax 0) (.reg .rcx), .ret]⟩]

/-- `opt::option<enum_uint16> option_enum_uint16_return() { return enum_uint16::a; }` (sample.cpp 221-246) -/
def option_enum_uint16_return : List Listing :=
  [⟨221, false, [.mov .w (.reg .rax) (.imm 0x2), .ret]⟩,
   ⟨225, false, [.mov .d (.reg .rax) (.imm 0x2), .ret]⟩,
   ⟨229, true, [.mov .w (.mem .rcx 0) (.imm 0x2), .mov .q (.reg .rax) (.reg .rcx), .ret]⟩,
   ⟨234, true, [.mov .d (.reg .rax) (.imm 0x2), .mov .w (.mem .rcx 0) (.reg .rax), .mov .q (.reg .rax) (.reg .rcx), .ret]⟩,
   ⟨240, true, [.mov .q (.reg .rax) (.reg .rcx), .mov .w (.mem .rcx 0) (.imm 0x2), .ret]⟩]

/-- `void option_float_reset(opt::option<float>* a) { a->reset(); }` (sample.cpp 281-290) -/
def option_float_reset : List Listing :=
  [⟨281, false, [.mov .d (.mem .rdi 0) (.imm 0xffbf69af), .ret]⟩,
   ⟨285, true, [.mov .d (.mem .rcx 0) (.imm 0xffbf69af), .ret]⟩]

/-- `void option_float_emplace(opt::option<float>* a) { a->emplace(1.f); }` (sample.cpp 310-319) -/
def option_float_emplace : List Listing :=
  [⟨310, false, [.mov .d (.mem .rdi 0) (.imm 0x3f800000), .ret]⟩,
   ⟨314, true, [.mov .d (.mem .rcx 0) (.imm 0x3f800000), .ret]⟩]

/-- `void option_bool_reset(opt::option<bool>* a) { a->reset(); }` (sample.cpp 343-352) -/
def option_bool_reset : List Listing :=
  [⟨343, false, [.mov .b (.mem .rdi 0) (.imm 0x2), .ret]⟩,
   ⟨347, true, [.mov .b (.mem .rcx 0) (.imm 0x2), .ret]⟩]

/-- `opt::option<int> option_int_return_default_ctor() { return {}; }` (sample.cpp 372-393) -/
def option_int_return_default_ctor : List Listing :=
  [⟨372, false, [.alu .xor .d (.reg .rax) (.reg .rax), .ret]⟩,
   ⟨377, false, [.mov .b (.mem .rsp (-4)) (.imm 0x0), .mov .q (.reg .rax) (.mem .rsp (-8)), .ret]⟩,
   ⟨382, true, [.mov .b (.mem .rcx 4) (.imm 0x0), .mov .q (.reg .rax) (.reg .rcx), .ret]⟩,
   ⟨387, true, [.mov .q (.reg .rax) (.reg .rcx), .mov .b (.mem .rcx 4) (.imm 0x0), .ret]⟩]

/-- `opt::option<int> option_int_return_none() { return opt::none; }` (sample.cpp 395-416) -/
def option_int_return_none : List Listing :=
  [⟨395, false, [.alu .xor .d (.reg .rax) (.reg .rax), .ret]⟩,
   ⟨400, false, [.mov .b (.mem .rsp (-4)) (.imm 0x0), .mov .q (.reg .rax) (.mem .rsp (-8)), .ret]⟩,
   ⟨405, true, [.mov .b (.mem .rcx 4) (.imm 0x0), .mov .q (.reg .rax) (.reg .rcx), .ret]⟩,
   ⟨410, true, [.mov .q (.reg .rax) (.reg .rcx), .mov .b (.mem .rcx 4) (.imm 0x0), .ret]⟩]

/-- `opt::option<std::int64_t> option_int64_return_none() { return opt::none; }` (sample.cpp 475-497) -/
def option_int64_return_none : List Listing :=
  [⟨475, false, [.alu .xor .d (.reg .rdx) (.reg .rdx), .ret]⟩,
   ⟨480, false, [.mov .b (.mem .rsp (-16)) (.imm 0x0), .mov .q (.reg .rax) (.mem .rsp (-24)), .mov .q (.reg .rdx) (.mem .rsp (-16)), .ret]⟩,
   ⟨486, true, [.mov .b (.mem .rcx 8) (.imm 0x0), .mov .q (.reg .rax) (.reg .rcx), .ret]⟩,
   ⟨491, true, [.mov .q (.reg .rax) (.reg .rcx), .mov .b (.mem .rcx 8) (.imm 0x0), .ret]⟩]

/-- `opt::option<std::array<int, 1024>> option_int_1024_return_none() { return opt::none; }` (sample.cpp 499-520) -/
def option_int_1024_return_none : List Listing :=
  [⟨499, false, [.mov .q (.reg .rax) (.reg .rdi), .mov .b (.mem .rdi 4096) (.imm 0x0), .ret]⟩,
   ⟨504, false, [.mov .b (.mem .rdi 4096) (.imm 0x0), .mov .q (.reg .rax) (.reg .rdi), .ret]⟩,
   ⟨509, true, [.mov .b (.mem .rcx 4096) (.imm 0x0), .mov .q (.reg .rax) (.reg .rcx), .ret]⟩,
   ⟨514, true, [.mov .q (.reg .rax) (.reg .rcx), .mov .b (.mem .rcx 4096) (.imm 0x0), .ret]⟩]

/-- `opt::option<std::array<float, 1024>> option_float_1024_return_none() { return opt::none; }` (sample.cpp 551-572) -/
def option_float_1024_return_none : List Listing :=
  [⟨551, false, [.mov .q (.reg .rax) (.reg .rdi), .mov .d (.mem .rdi 0) (.imm 0xffbf69af), .ret]⟩,
   ⟨556, false, [.mov .d (.mem .rdi 0) (.imm 0xffbf69af), .mov .q (.reg .rax) (.reg .rdi), .ret]⟩,
   ⟨561, true, [.mov .d (.mem .rcx 0) (.imm 0xffbf69af), .mov .q (.reg .rax) (.reg .rcx), .ret]⟩,
   ⟨566, true, [.mov .q (.reg .rax) (.reg .rcx), .mov .d (.mem .rcx 0) (.imm 0xffbf69af), .ret]⟩]

/-- `opt::option<bool> option_bool_return_none() { return opt::none; }` (sample.cpp 574-593) -/
def option_bool_return_none : List Listing :=
  [⟨574, false, [.mov .b (.reg .rax) (.imm 0x2), .ret]⟩,
   ⟨578, false, [.mov .d (.reg .rax) (.imm 0x2), .ret]⟩,
   ⟨582, true, [.mov .b (.mem .rcx 0) (.imm 0x2), .mov .q (.reg .rax) (.reg .rcx), .ret]⟩,
   ⟨587, true, [.mov .q (.reg .rax) (.reg .rcx), .mov .b (.mem .rcx 0) (.imm 0x2), .ret]⟩]

/-- `opt::option<float> option_float_return_none() { return opt::none; }` (sample.cpp 617-632) -/
def option_float_return_none : List Listing :=
  [⟨617, false, [.mov .d (.reg .rax) (.imm 0xffbf69af), .ret]⟩,
   ⟨621, true, [.mov .d (.mem .rcx 0) (.imm 0xffbf69af), .mov .q (.reg .rax) (.reg .rcx), .ret]⟩,
   ⟨626, true, [.mov .q (.reg .rax) (.reg .rcx), .mov .d (.mem .rcx 0) (.imm 0xffbf69af), .ret]⟩]

/-- `opt::option<double> option_double_return_none() { return opt::none; }` (sample.cpp 656-673) -/
def option_double_return_none : List Listing :=
  [⟨656, false, [.mov .q (.reg .rax) (.imm (-0x93860aa4f7671)), .ret]⟩,
   ⟨660, true, [.mov .q (.reg .rax) (.imm (-0x93860aa4f7671)), .mov .q (.mem .rcx 0) (.reg .rax), .mov .q (.reg .rax) (.reg .rcx), .ret]⟩,
   ⟨666, true, [.mov .q (.reg .rax) (.reg .rcx), .mov .q (.reg .rcx) (.imm (-0x93860aa4f7671)), .mov .q (.mem .rax 0) (.reg .rcx), .ret]⟩]

/-- `bool option_bool_has_value(opt::option<bool>* a) { return a->has_value(); }` (sample.cpp 703-714) -/
def option_bool_has_value : List Listing :=
  [⟨703, false, [.alu .cmp .b (.mem .rdi 0) (.imm 0x2), .set .ne .rax, .ret]⟩,
   ⟨708, true, [.alu .cmp .b (.mem .rcx 0) (.imm 0x2), .set .ne .rax, .ret]⟩]

/-- `bool option_float_has_value(opt::option<float>* a) { return a->has_value(); }` (sample.cpp 731-748) -/
def option_float_has_value : List Listing :=
  [⟨731, false, [.alu .cmp .d (.mem .rdi 0) (.imm 0xffbf69af), .set .ne .rax, .ret]⟩,
   ⟨736, true, [.mov .d (.reg .rax) (.mem .rcx 0), .alu .add .d (.reg .rax) (.imm 0x409651), .set .ne .rax, .ret]⟩,
   ⟨742, true, [.alu .cmp .d (.mem .rcx 0) (.imm 0xffbf69af), .set .ne .rax, .ret]⟩]

/-- `bool option_double_has_value(opt::option<double>* a) { return a->has_value(); }` (sample.cpp 765-785) -/
def option_double_has_value : List Listing :=
  [⟨765, false, [.mov .q (.reg .rax) (.imm (-0x93860aa4f7671)), .alu .cmp .q (.mem .rdi 0) (.reg .rax), .set .ne .rax, .ret]⟩,
   ⟨771, true, [.mov .q (.reg .rax) (.mem .rcx 0), .mov .q (.reg .rcx) (.imm 0x93860aa4f7671), .alu .add .q (.reg .rax) (.reg .rcx), .set .ne .rax, .ret]⟩,
   ⟨778, true, [.mov .q (.reg .rax) (.imm (-0x93860aa4f7671)), .alu .cmp .q (.mem .rcx 0) (.reg .rax), .set .ne .rax, .ret]⟩]

/-- `bool option_option_bool_has_value(opt::option<opt::option<bool>>* a) { return a->has_value(); }` (sample.cpp 802-821) -/
def option_option_bool_has_value : List Listing :=
  [⟨802, false, [.alu .cmp .b (.mem .rdi 0) (.imm 0x3), .set .ne .rax, .ret]⟩,
   ⟨808, true, [.movzx (.reg .rax) (.mem .rcx 0), .alu .sub .b (.reg .rax) (.imm 0x2), .alu .cmp .b (.reg .rax) (.imm 0x1), .set .ne .rax, .ret]⟩,
   ⟨815, true, [.alu .cmp .b (.mem .rcx 0) (.imm 0x3), .set .ne .rax, .ret]⟩]

/-- `bool option_option_bool_nested_has_value(opt::option<opt::option<bool>>* a) { return a->has_value() && (*a)->has_value(); }` (sample.cpp 823-883) -/
def option_option_bool_nested_has_value : List Listing :=
  [⟨823, false, [.movzx (.reg .rax) (.mem .rdi 0), .alu .add .b (.reg .rax) (.imm (-0x4)), .alu .cmp .b (.reg .rax) (.imm (-0x2)), .set .b .rax, .ret]⟩,
   ⟨830, false, [.mov .b (.reg .rax) (.mem .rdi 0), .alu .and_ .b (.reg .rax) (.imm (-0x2)), .alu .cmp .b (.reg .rax) (.imm 0x2), .set .ne .rax, .ret]⟩,
   ⟨837, false, [.mov .b (.reg .rax) (.mem .rdi 0), .alu .or_ .b (.reg .rax) (.imm 0x1), .alu .cmp .b (.reg .rax) (.imm 0x3), .set .ne .rax, .ret]⟩,
   ⟨845, false, [.movzx (.reg .rdx) (.mem .rdi 0), .alu .xor .d (.reg .rax) (.reg .rax), .alu .cmp .b (.reg .rdx) (.imm 0x3), .je 0, .alu .cmp .b (.reg .rdx) (.imm 0x2), .set .ne .rax, .label 0, .ret]⟩,
   ⟨855, false, [.movzx (.reg .rax) (.mem .rdi 0), .alu .sub .d (.reg .rax) (.imm 0x2), .alu .cmp .b (.reg .rax) (.imm 0x1), .set .a .rax, .ret]⟩,
   ⟨862, true, [.movzx (.reg .rax) (.mem .rcx 0), .alu .sub .b (.reg .rax) (.imm 0x2), .alu .cmp .b (.reg .rax) (.imm 0x1), .je 0, .alu .test .b (.reg .rax) (.reg .rax), .je 0, .mov .b (.reg .rax) (.imm 0x1), .ret, .label 0, .alu .xor .b (.reg .rax) (.reg .rax), .ret]⟩,
   ⟨875, true, [.movzx (.reg .rax) (.mem .rcx 0), .alu .add .b (.reg .rax) (.imm (-0x4)), .alu .cmp .b (.reg .rax) (.imm (-0x2)), .set .b .rax, .ret]⟩]

end Opt.Codegen
